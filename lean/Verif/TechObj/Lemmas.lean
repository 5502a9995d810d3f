import Verif.TechObj.Spec

/-!
# Helper lemmas about technological objects
-/
namespace Ptusa.TechObj
open Ptusa.Operation

/-! ### Bits -/

/-- Bit `j` of the mask. -/
def isOn (w : List (BitVec 32)) (j : Nat) : Bool := (w.getD (j / 32) 0).getLsbD (j % 32)

theorem getBit_toNat (w : List (BitVec 32)) (j : Nat) :
    (getBit w j).toNat = (isOn w j).toNat := by
  unfold getBit isOn
  have hj : j % 32 < 32 := Nat.mod_lt _ (by omega)
  generalize w.getD (j / 32) 0 = x
  have h1 : (x >>> (j % 32)) &&& 1#32 = if x.getLsbD (j % 32) then 1#32 else 0#32 := by
    ext i hi
    simp only [BitVec.getElem_and, BitVec.getElem_one, BitVec.getElem_ushiftRight]
    by_cases h0 : i = 0
    · subst h0
      cases h : x.getLsbD (j % 32) <;> simp_all
    · cases x.getLsbD (j % 32) <;> simp [h0]
  rw [h1]
  cases x.getLsbD (j % 32) <;> rfl

theorem div_mod_ne {i j : Nat} (h : i ≠ j) (hd : i / 32 = j / 32) : i % 32 ≠ j % 32 := by
  omega

theorem isOn_setBit (w : List (BitVec 32)) (i j : Nat) (hi : i / 32 < w.length) :
    isOn (setBit w i) j = (decide (j = i) || isOn w j) := by
  unfold isOn setBit
  simp only [List.getD_eq_getElem?_getD, List.getElem?_set]
  by_cases hd : i / 32 = j / 32
  · have hj : j % 32 < 32 := Nat.mod_lt _ (by omega)
    have hi' : i % 32 < 32 := Nat.mod_lt _ (by omega)
    rw [if_pos hd, if_pos hi, hd]
    simp only [Option.getD_some, BitVec.getLsbD_or, BitVec.getLsbD_shiftLeft, BitVec.getLsbD_one, hj]
    by_cases hij : j = i
    · subst hij; simp
    · have := div_mod_ne (Ne.symm hij) hd
      have h2 : (decide (j % 32 < i % 32) = true) ∨ j % 32 - i % 32 ≠ 0 := by
        simp only [decide_eq_true_eq]; omega
      rcases h2 with h2 | h2 <;> simp [h2, hij]
  · rw [if_neg hd]
    have hij : j ≠ i := fun h => hd (by rw [h])
    simp [hij]

theorem isOn_clearBit (w : List (BitVec 32)) (i j : Nat) (hi : i / 32 < w.length) :
    isOn (clearBit w i) j = (decide (j ≠ i) && isOn w j) := by
  unfold isOn clearBit
  simp only [List.getD_eq_getElem?_getD, List.getElem?_set]
  by_cases hd : i / 32 = j / 32
  · have hj : j % 32 < 32 := Nat.mod_lt _ (by omega)
    have hi' : i % 32 < 32 := Nat.mod_lt _ (by omega)
    rw [if_pos hd, if_pos hi, hd]
    simp only [Option.getD_some, BitVec.getLsbD_and, BitVec.getLsbD_not, BitVec.getLsbD_shiftLeft,
      BitVec.getLsbD_one, hj]
    by_cases hij : j = i
    · subst hij; simp
    · have := div_mod_ne (Ne.symm hij) hd
      have h2 : (decide (j % 32 < i % 32) = true) ∨ j % 32 - i % 32 ≠ 0 := by
        simp only [decide_eq_true_eq]; omega
      rcases h2 with h2 | h2 <;> simp [h2, hij]
  · rw [if_neg hd]
    have hij : j ≠ i := fun h => hd (by rw [h])
    simp [hij]

theorem idx_lt {n i : Nat} (h : i < n) : i / 32 < wordsFor n := by
  unfold wordsFor
  split <;> omega

theorem getMode_eq (c : Cfg) (o : Obj) (m : Nat) (h1 : 1 ≤ m) (h2 : m ≤ c.n) :
    o.getMode c m = (isOn o.words (m - 1)).toNat := by
  unfold Obj.getMode
  rw [if_neg (by omega), getBit_toNat]

theorem getMode_one (c : Cfg) (o : Obj) (m : Nat) :
    o.getMode c m = 1 ↔ 1 ≤ m ∧ m ≤ c.n ∧ isOn o.words (m - 1) = true := by
  by_cases h : 1 ≤ m ∧ m ≤ c.n
  · rw [getMode_eq c o m h.1 h.2]
    cases isOn o.words (m - 1) <;> simp [h]
  · unfold Obj.getMode
    rw [if_pos (by omega)]
    constructor
    · intro h'; cases h'
    · rintro ⟨a, b, _⟩; exact absurd ⟨a, b⟩ h

theorem getMode_le (c : Cfg) (o : Obj) (m : Nat) : o.getMode c m = 0 ∨ o.getMode c m = 1 := by
  unfold Obj.getMode
  split
  · exact .inl rfl
  · rw [getBit_toNat]
    cases isOn o.words (m - 1) <;> simp

/-! ### Invariant of an object -/

/-- The invariant that holds in any history. -/
structure Ok (c : Cfg) (o : Obj) : Prop where
  words : o.words.length = wordsFor c.n
  ops : o.ops.length = c.n
  avail : o.avail.length = c.n
  high : ∀ j, c.n ≤ j → isOn o.words j = false
  run : ∀ i, i < c.n → o.ops.getD i .idle ≠ .idle → isOn o.words i = true

/-- The invariant that holds in proper histories. -/
def Con (c : Cfg) (o : Obj) : Prop :=
  ∀ i, i < c.n → isOn o.words i = true → o.ops.getD i .idle ≠ .idle

theorem ok_fresh (c : Cfg) : Ok c (Obj.fresh c) := by
  refine ⟨by simp [Obj.fresh], by simp [Obj.fresh], by simp [Obj.fresh], ?_, ?_⟩
  · intro j _
    simp only [isOn, Obj.fresh, List.getD_eq_getElem?_getD, List.getElem?_replicate]
    split <;> simp
  · intro i hi h
    exfalso
    apply h
    simp [Obj.fresh, List.getD_eq_getElem?_getD, hi]

theorem con_fresh (c : Cfg) : Con c (Obj.fresh c) := by
  intro i _ h
  exfalso
  simp only [isOn, Obj.fresh, List.getD_eq_getElem?_getD, List.getElem?_replicate] at h
  split at h <;> simp at h

theorem getD_set (l : List St) (i j : Nat) (s d : St) (hi : i < l.length) :
    (l.set i s).getD j d = if i = j then s else l.getD j d := by
  simp only [List.getD_eq_getElem?_getD, List.getElem?_set]
  split
  · simp_all
  · rfl

/-- Setting the bit of an operation. -/
theorem Ok.on {c : Cfg} {o : Obj} (h : Ok c o) {m : Nat} (h1 : 1 ≤ m) (h2 : m ≤ c.n) :
    Ok c { o with words := setBit o.words (m - 1) } := by
  have hlt : (m - 1) / 32 < o.words.length := by rw [h.words]; exact idx_lt (by omega)
  refine ⟨by simp [setBit, h.words], h.ops, h.avail, ?_, ?_⟩
  · intro j hj
    rw [isOn_setBit _ _ _ hlt, h.high j hj]
    simp; omega
  · intro i hi hne
    rw [isOn_setBit _ _ _ hlt, h.run i hi hne]
    simp

/-- Moving an operation whose bit is set. -/
theorem Ok.move {c : Cfg} {o : Obj} (h : Ok c o) (k : Cmd) {m : Nat} (h1 : 1 ≤ m) (h2 : m ≤ c.n)
    (hon : isOn o.words (m - 1) = true) : Ok c (o.move c k m) := by
  refine ⟨h.words, by simp [Obj.move, h.ops], h.avail, h.high, ?_⟩
  intro i hi hne
  simp only [Obj.move] at hne ⊢
  rw [getD_set _ _ _ _ _ (by rw [h.ops]; omega)] at hne
  by_cases hmi : m - 1 = i
  · rw [← hmi]; exact hon
  · rw [if_neg hmi] at hne
    exact h.run i hi hne

theorem Ok.switchOff {c : Cfg} {o : Obj} (h : Ok c o) {m : Nat} (h1 : 1 ≤ m) (h2 : m ≤ c.n) :
    Ok c (o.switchOff c m) := by
  have hlt : (m - 1) / 32 < o.words.length := by rw [h.words]; exact idx_lt (by omega)
  refine ⟨by simp [Obj.switchOff, Obj.finalMode, Obj.move, clearBit, h.words],
    by simp [Obj.switchOff, Obj.finalMode, Obj.move, h.ops],
    by simp [Obj.switchOff, Obj.finalMode, Obj.move, h.avail], ?_, ?_⟩
  · intro j hj
    simp only [Obj.switchOff, Obj.finalMode, Obj.move]
    rw [isOn_clearBit _ _ _ hlt, h.high j hj]
    simp
  · intro i hi hne
    simp only [Obj.switchOff, Obj.finalMode, Obj.move] at hne ⊢
    rw [getD_set _ _ _ _ _ (by rw [h.ops]; omega)] at hne
    rw [isOn_clearBit _ _ _ hlt]
    by_cases hmi : m - 1 = i
    · rw [if_pos hmi] at hne
      exfalso
      apply hne
      cases hs : o.ops.getD (m - 1) .idle <;> rfl
    · rw [if_neg hmi] at hne
      rw [h.run i hi hne]
      simp; omega

theorem Ok.nested {c : Cfg} {b o : Obj} (h : Ok c o) (a : Ans) {m : Nat} (h1 : 1 ≤ m)
    (h2 : m ≤ c.n) : Ok c (Obj.nested c a m b o) := by
  unfold Obj.nested
  split
  · exact h.switchOff h1 h2
  · exact h

theorem foldAvail_length (c : Cfg) (o : Obj) (l : List Nat) : ∀ a : List (BitVec 32),
    (l.foldl (fun a i => if o.getMode c i = 1 then Obj.checkAvail c i a else a) a).length =
      a.length := by
  induction l with
  | nil => intro a; rfl
  | cons x l ih =>
    intro a
    rw [List.foldl_cons, ih]
    split <;> simp [Obj.checkAvail]

theorem initMode_words (c : Cfg) (m : Nat) (o : Obj) : (o.initMode c m).words = o.words := rfl

theorem initMode_ops (c : Cfg) (m : Nat) (o : Obj) : (o.initMode c m).ops = o.ops := rfl

theorem initMode_avail_length (c : Cfg) (m : Nat) (o : Obj) :
    (o.initMode c m).avail.length = o.avail.length := by
  unfold Obj.initMode
  simp only [Obj.checkAvail, List.length_mapIdx]
  have := foldAvail_length c o ((List.range c.n).map (· + 1)) (o.avail.map (fun _ => 0#32))
  simp only [Obj.checkAvail] at this
  rw [this, List.length_map]

theorem Ok.switchOn {c : Cfg} {o : Obj} (h : Ok c o) {m : Nat} (h1 : 1 ≤ m) (h2 : m ≤ c.n) :
    Ok c { (o.move c .start m).initMode c m with
      words := setBit ((o.move c .start m).initMode c m).words (m - 1) } := by
  have hlt : (m - 1) / 32 < o.words.length := by rw [h.words]; exact idx_lt (by omega)
  refine ⟨by simp [initMode_words, Obj.move, setBit, h.words],
    by rw [initMode_ops]; simp [Obj.move, h.ops], ?_, ?_, ?_⟩
  · rw [initMode_avail_length]; exact h.avail
  · intro j hj
    simp only [initMode_words]
    show isOn (setBit o.words (m - 1)) j = false
    rw [isOn_setBit _ _ _ hlt, h.high j hj]
    simp; omega
  · intro i hi hne
    show isOn (setBit o.words (m - 1)) i = true
    rw [isOn_setBit _ _ _ hlt]
    by_cases hmi : i = m - 1
    · simp [hmi]
    · rw [initMode_ops] at hne
      simp only [Obj.move] at hne
      rw [getD_set _ _ _ _ _ (by rw [h.ops]; omega), if_neg (Ne.symm hmi)] at hne
      simp [h.run i hi hne]

/-! ### The possible outcomes of `set_mode` -/

/-- The object after `set_mode`: unchanged, or one of five changes under its conditions. -/
theorem setMode_cases (c : Cfg) (a : Ans) (ext : Option Nat) (m : Nat) (newm : Int) (o : Obj) :
    (o.setMode c a ext m newm).1 = o ∨
    (1 ≤ m ∧ m ≤ c.n ∧
      ((newm = 2 ∧ (o.setMode c a ext m newm).1 =
          Obj.nested c a m { o with words := setBit o.words (m - 1) }
            (({ o with words := setBit o.words (m - 1) } : Obj).move c .pause m)) ∨
       (newm = 3 ∧ (o.setMode c a ext m newm).1 =
          Obj.nested c a m { o with words := setBit o.words (m - 1) }
            (({ o with words := setBit o.words (m - 1) } : Obj).move c .stop m)) ∨
       (newm ≠ 2 ∧ newm ≠ 3 ∧ isOn o.words (m - 1) = true ∧ (o.setMode c a ext m newm).1 =
          Obj.nested c a m o (o.move c .start m)) ∨
       (newm = 0 ∧ isOn o.words (m - 1) = true ∧
          (o.setMode c a ext m newm).1 = o.switchOff c m) ∨
       (newm ≠ 2 ∧ newm ≠ 3 ∧ newm ≠ 0 ∧ isOn o.words (m - 1) = false ∧
          o.checkOn c a ext m = 0 ∧ (o.setMode c a ext m newm).1 =
          { (o.move c .start m).initMode c m with
            words := setBit ((o.move c .start m).initMode c m).words (m - 1) }))) := by
  unfold Obj.setMode
  by_cases h0 : m = 0
  · simp [h0]
  rw [if_neg h0]
  by_cases hn : m > c.n
  · simp [hn]
  rw [if_neg hn]
  have hv : 1 ≤ m ∧ m ≤ c.n := by omega
  by_cases h2 : newm = 2
  · rw [if_pos h2]
    by_cases hc : a.pauseChk = 0
    · rw [if_pos hc]; exact .inr ⟨hv.1, hv.2, .inl ⟨h2, rfl⟩⟩
    · rw [if_neg hc]; exact .inl rfl
  rw [if_neg h2]
  by_cases h3 : newm = 3
  · rw [if_pos h3]
    by_cases hc : a.stopChk = 0
    · rw [if_pos hc]; exact .inr ⟨hv.1, hv.2, .inr (.inl ⟨h3, rfl⟩)⟩
    · rw [if_neg hc]; exact .inl rfl
  rw [if_neg h3]
  have hg := getMode_eq c o m hv.1 hv.2
  by_cases hz : newm = 0
  · subst hz
    simp only [if_true]
    by_cases hw : o.getMode c m = 0
    · rw [if_pos hw, if_neg (by simp)]; exact .inl rfl
    · rw [if_neg hw]
      by_cases hc : a.offChk ≤ 0
      · rw [if_pos hc]
        refine .inr ⟨hv.1, hv.2, .inr (.inr (.inr (.inl ⟨trivial, ?_, rfl⟩)))⟩
        cases h : isOn o.words (m - 1)
        · rw [hg, h] at hw; exact absurd rfl hw
        · rfl
      · rw [if_neg hc]; exact .inl rfl
  · simp only [if_neg hz]
    by_cases hw : o.getMode c m = 1
    · rw [if_pos hw]
      by_cases hr : o.opState c m = .run
      · rw [if_neg (by simp [hr])]; exact .inl rfl
      · rw [if_pos ⟨trivial, hr⟩]
        by_cases hc : a.startChk = 0
        · rw [if_pos hc]
          refine .inr ⟨hv.1, hv.2, .inr (.inr (.inl ⟨h2, h3, ?_, rfl⟩))⟩
          cases h : isOn o.words (m - 1)
          · rw [hg, h] at hw; cases hw
          · rfl
        · rw [if_neg hc]; exact .inl rfl
    · rw [if_neg hw, if_neg (by simp)]
      by_cases hd : a.devErr = true ∧ a.checkMode = 1
      · rw [if_pos hd]; exact .inl rfl
      · rw [if_neg hd]
        by_cases hck : o.checkOn c a ext m = 0
        · rw [if_pos hck]
          refine .inr ⟨hv.1, hv.2, .inr (.inr (.inr (.inr ⟨h2, h3, hz, ?_, hck, rfl⟩)))⟩
          cases h : isOn o.words (m - 1)
          · rfl
          · rw [hg, h] at hw; exact absurd rfl hw
        · rw [if_neg hck]; exact .inl rfl

theorem Ok.setMode {c : Cfg} {o : Obj} (h : Ok c o) (a : Ans) (ext : Option Nat) (m : Nat)
    (newm : Int) : Ok c (o.setMode c a ext m newm).1 := by
  rcases setMode_cases c a ext m newm o with e | ⟨h1, h2, ⟨_, e⟩ | ⟨_, e⟩ | ⟨_, _, hon, e⟩ |
    ⟨_, hon, e⟩ | ⟨_, _, _, _, _, e⟩⟩
  · rw [e]; exact h
  · rw [e]
    have hlt : (m - 1) / 32 < o.words.length := by rw [h.words]; exact idx_lt (by omega)
    refine ((h.on h1 h2).move .pause h1 h2 ?_).nested a h1 h2
    rw [isOn_setBit _ _ _ hlt]; simp
  · rw [e]
    have hlt : (m - 1) / 32 < o.words.length := by rw [h.words]; exact idx_lt (by omega)
    refine ((h.on h1 h2).move .stop h1 h2 ?_).nested a h1 h2
    rw [isOn_setBit _ _ _ hlt]; simp
  · rw [e]; exact (h.move .start h1 h2 hon).nested a h1 h2
  · rw [e]; exact h.switchOff h1 h2
  · rw [e]; exact h.switchOn h1 h2

theorem Ok.failPause {c : Cfg} {o : Obj} (h : Ok c o) (a : Ans) (m : Nat) :
    Ok c (o.failPause c a m) := by
  unfold Obj.failPause
  split
  · exact h
  · rename_i hn
    have h1 : 1 ≤ m ∧ m ≤ c.n := by
      constructor <;> (apply Classical.byContradiction; intro hc; apply hn; omega)
    have hr : o.opState c m = .run := by
      apply Classical.byContradiction; intro hc; apply hn; exact .inr (.inr hc)
    refine (h.move .pause h1.1 h1.2 ?_).nested a h1.1 h1.2
    refine h.run (m - 1) (by omega) ?_
    unfold Obj.opState at hr
    rw [if_neg (by omega)] at hr
    rw [hr]; simp

theorem Ok.step {c : Cfg} {o : Obj} (h : Ok c o) (e : OEv) : Ok c (o.step c e) := by
  cases e with
  | mode m newm a ext => exact h.setMode a ext m newm
  | fail m a => exact h.failPause a m

theorem Ok.runEv {c : Cfg} (es : List OEv) : ∀ {o : Obj}, Ok c o → Ok c (o.run c es) := by
  induction es with
  | nil => intro o h; exact h
  | cons e es ih => intro o h; exact ih (h.step e)

/-! ### Consistency in proper histories -/

theorem diagram_not_idle {has : St → Bool} {k : Cmd} (hk : k ≠ .off) {s : St} (hs : s ≠ .idle) :
    (diagram has k s).getD s ≠ .idle := by
  cases k <;> cases s <;> simp [diagram] at hk hs ⊢ <;> split <;> simp

theorem Con.move {c : Cfg} {o : Obj} (hok : Ok c o) (h : Con c o) {k : Cmd} (hk : k ≠ .off) {m : Nat}
    (h1 : 1 ≤ m) (h2 : m ≤ c.n) (hon : isOn o.words (m - 1) = true) : Con c (o.move c k m) := by
  intro i hi hb
  simp only [Obj.move] at hb ⊢
  rw [getD_set _ _ _ _ _ (by rw [hok.ops]; omega)]
  by_cases hmi : m - 1 = i
  · rw [if_pos hmi]
    exact diagram_not_idle hk (h (m - 1) (by omega) hon)
  · rw [if_neg hmi]; exact h i hi hb

theorem Con.switchOff {c : Cfg} {o : Obj} (hok : Ok c o) (h : Con c o) {m : Nat} (h1 : 1 ≤ m)
    (h2 : m ≤ c.n) : Con c (o.switchOff c m) := by
  have hlt : (m - 1) / 32 < o.words.length := by rw [hok.words]; exact idx_lt (by omega)
  intro i hi hb
  simp only [Obj.switchOff, Obj.finalMode, Obj.move] at hb ⊢
  rw [isOn_clearBit _ _ _ hlt] at hb
  simp only [ne_eq, Bool.and_eq_true, decide_eq_true_eq] at hb
  rw [getD_set _ _ _ _ _ (by rw [hok.ops]; omega), if_neg (by omega)]
  exact h i hi hb.2

theorem Con.nested {c : Cfg} {b o : Obj} (hok : Ok c o) (h : Con c o) (a : Ans) {m : Nat}
    (h1 : 1 ≤ m) (h2 : m ≤ c.n) : Con c (Obj.nested c a m b o) := by
  unfold Obj.nested
  split
  · exact h.switchOff hok h1 h2
  · exact h

theorem setBit_same {c : Cfg} {o : Obj} (hok : Ok c o) {m : Nat} (h1 : 1 ≤ m) (h2 : m ≤ c.n)
    (hon : isOn o.words (m - 1) = true) : setBit o.words (m - 1) = o.words := by
  have hlt : (m - 1) / 32 < o.words.length := by rw [hok.words]; exact idx_lt (by omega)
  unfold setBit
  unfold isOn at hon
  have hj : (m - 1) % 32 < 32 := Nat.mod_lt _ (by omega)
  have : o.words.getD ((m - 1) / 32) 0 ||| (1#32 <<< ((m - 1) % 32)) =
      o.words.getD ((m - 1) / 32) 0 := by
    ext i hi
    simp only [BitVec.getElem_or, BitVec.getElem_shiftLeft]
    by_cases hii : i = (m - 1) % 32
    · subst hii
      rw [← BitVec.getLsbD_eq_getElem, hon]
      simp
    · have h2 : (decide (i < (m - 1) % 32) = true) ∨ i - (m - 1) % 32 ≠ 0 := by
        simp only [decide_eq_true_eq]; omega
      rcases h2 with h2 | h2 <;> simp [h2]
  rw [this]
  rw [List.getD_eq_getElem?_getD, List.getElem?_eq_getElem hlt]
  simp

theorem Con.step {c : Cfg} {o : Obj} (hok : Ok c o) (h : Con c o) (e : OEv)
    (hp : ∀ m newm a ext, e = .mode m newm a ext → (newm = 2 ∨ newm = 3) → o.getMode c m = 1) :
    Con c (o.step c e) := by
  cases e with
  | mode m newm a ext =>
    simp only [Obj.step]
    rcases setMode_cases c a ext m newm o with e | ⟨h1, h2, ⟨hn, e⟩ | ⟨hn, e⟩ | ⟨_, _, hon, e⟩ |
      ⟨_, hon, e⟩ | ⟨_, _, _, hoff, _, e⟩⟩
    · rw [e]; exact h
    · have hon := ((getMode_one c o m).mp (hp m newm a ext rfl (.inl hn))).2.2
      rw [e]
      simp only [setBit_same hok h1 h2 hon]
      exact (h.move hok (by simp) h1 h2 hon).nested (hok.move .pause h1 h2 hon) a h1 h2
    · have hon := ((getMode_one c o m).mp (hp m newm a ext rfl (.inr hn))).2.2
      rw [e]
      simp only [setBit_same hok h1 h2 hon]
      exact (h.move hok (by simp) h1 h2 hon).nested (hok.move .stop h1 h2 hon) a h1 h2
    · rw [e]
      exact (h.move hok (by simp) h1 h2 hon).nested (hok.move .start h1 h2 hon) a h1 h2
    · rw [e]; exact h.switchOff hok h1 h2
    · rw [e]
      have hlt : (m - 1) / 32 < o.words.length := by rw [hok.words]; exact idx_lt (by omega)
      intro i hi hb
      replace hb : isOn (setBit o.words (m - 1)) i = true := hb
      rw [initMode_ops]
      simp only [Obj.move]
      rw [getD_set _ _ _ _ _ (by rw [hok.ops]; omega)]
      by_cases hmi : m - 1 = i
      · rw [if_pos hmi]
        have hidle : o.ops.getD (m - 1) .idle = .idle := by
          apply Classical.byContradiction
          intro hc
          have := hok.run (m - 1) (by omega) hc
          rw [this] at hoff; cases hoff
        rw [hidle]
        simp only [diagram, Option.getD_some]
        split <;> simp
      · rw [if_neg hmi]
        rw [isOn_setBit _ _ _ hlt] at hb
        have : decide (i = m - 1) = false := by simpa using fun e => hmi e.symm
        rw [this, Bool.false_or] at hb
        exact h i hi hb
  | fail m a =>
    simp only [Obj.step]
    unfold Obj.failPause
    split
    · exact h
    · rename_i hn
      have h1 : 1 ≤ m ∧ m ≤ c.n := by
        constructor <;> (apply Classical.byContradiction; intro hc; apply hn; omega)
      have hr : o.opState c m = .run := by
        apply Classical.byContradiction; intro hc; apply hn; exact .inr (.inr hc)
      have hon : isOn o.words (m - 1) = true := by
        refine hok.run (m - 1) (by omega) ?_
        unfold Obj.opState at hr
        rw [if_neg (by omega)] at hr
        rw [hr]; simp
      exact (h.move hok (by simp) h1.1 h1.2 hon).nested (hok.move .pause h1.1 h1.2 hon) a h1.1 h1.2

theorem Con.runEv {c : Cfg} (es : List OEv) : ∀ {o : Obj}, Ok c o → Con c o → Proper c o es →
    Con c (o.run c es) := by
  induction es with
  | nil => intro o _ h _; exact h
  | cons e es ih =>
    intro o hok h hp
    refine ih (hok.step e) (h.step hok e ?_) hp.2
    intro m newm a ext he hn
    subst he
    exact hp.1 hn

end Ptusa.TechObj
