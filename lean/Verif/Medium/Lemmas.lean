import Verif.Medium.Spec

/-! # Lemmas about the recipes of the media -/
namespace Ptusa.Medium

open Spec
open CipRec (trunc nonzero)

def OrdOk (w : Word) : Prop := w = 0xFFFFFFFF ∨ trunc w ≠ none

theorem place_eq {r k : Nat} (hr : r ≤ 9) (hk : k < 24) : place r (k : Int) = some (32 * r + 8 + k) := by
  unfold place
  simp only
  rw [if_pos (by omega)]
  congr 1

theorem set_eq (m : Mgr) {r k : Nat} (hr : r ≤ 9) (hk : k < 24) (v : Word) :
    m.set r (k : Int) v = some { m with mem := fun i => if i = 32 * r + 8 + k then v else m.mem i } := by
  rw [Mgr.set, place_eq hr hk]; rfl

theorem get_eq (m : Mgr) {r k : Nat} (hr : r ≤ 9) (hk : k < 24) : m.get r (k : Int) = some (shown (m.mem (32 * r + 8 + k))) := by
  rw [Mgr.get, place_eq hr hk]; rfl

/-- What an order makes of the current recipe. -/
def ordered (copy : Option (Nat → Word)) (b : Nat → Word) : Nat → Word :=
  if nonzero (shown (b 9)) = false then b
  else
    let n := (trunc (shown (b 9))).getD 0
    fun i =>
      if i = 9 then 0
      else if n = 1 then (if i = 8 then 0 else b i)
      else if n = 3 then (match copy with | some c => c i | none => b i)
      else if n = 4 then 0
      else b i

/-- What it makes of the copy buffer. -/
def copied (copy : Option (Nat → Word)) (b : Nat → Word) : Option (Nat → Word) :=
  if nonzero (shown (b 9)) = true ∧ (trunc (shown (b 9))).getD 0 = 2 then some b else copy

theorem trunc_shown {w : Word} (h : OrdOk w) : ∃ n, trunc (shown w) = some n := by
  unfold shown
  by_cases e : w = 0xFFFFFFFF
  · rw [if_pos e]; exact ⟨-1000, by decide +kernel⟩
  · rw [if_neg e]
    rcases h with h | h
    · exact absurd h e
    · exact Option.ne_none_iff_exists'.mp h

theorem mgr_ext {a b : Mgr} (h1 : a.cur = b.cur) (h2 : ∀ i, a.mem i = b.mem i) : a = b := by
  obtain ⟨am, ac⟩ := a
  obtain ⟨bm, bc⟩ := b
  simp only at h1 h2
  rw [h1, funext h2]

theorem some_pair {a b : Mgr} {c d : Option (Nat → Word)} (h : a = b) (h' : c = d) : some (a, c) = some (b, d) := by
  rw [h, h']

theorem order_eq (m : Mgr) (copy : Option (Nat → Word)) (hc : m.cur ≤ 9) (ho : OrdOk (m.mem (32 * m.cur + 9))) :
    m.order copy = some (m.putBlock m.cur (ordered copy (m.block m.cur)), copied copy (m.block m.cur)) := by
  obtain ⟨n, hn⟩ := trunc_shown ho
  have hb : m.block m.cur 9 = m.mem (32 * m.cur + 9) := rfl
  have h1 : ((1 : Nat) : Int) = 1 := rfl
  have h0 : ((0 : Nat) : Int) = 0 := rfl
  have hg : m.get m.cur 1 = some (shown (m.mem (32 * m.cur + 9))) := by
    have := get_eq m hc (show 1 < 24 by omega)
    rw [h1] at this
    rw [this]
  have hs : ∀ g : Mgr, g.cur = m.cur → g.set g.cur 1 0 = some { g with mem := fun i => if i = 32 * m.cur + 9 then 0 else g.mem i } := by
    intro g hgc
    have := set_eq g (show g.cur ≤ 9 by omega) (show 1 < 24 by omega) 0
    rw [h1] at this
    rw [this, hgc]
  unfold Mgr.order
  rw [hg, Option.bind_some]
  by_cases hz : nonzero (shown (m.mem (32 * m.cur + 9))) = false
  · rw [if_pos hz]
    unfold ordered copied
    rw [hb, if_pos hz, if_neg (by rw [hz]; simp)]
    refine some_pair (mgr_ext rfl fun i => ?_) rfl
    simp only [Mgr.putBlock, Mgr.block]
    split
    · rw [show 32 * m.cur + (i - 32 * m.cur) = i by omega]
    · rfl
  · rw [if_neg hz, hn, Option.bind_some]
    have hz' : nonzero (shown (m.mem (32 * m.cur + 9))) = true := by simpa using hz
    unfold ordered copied
    rw [hb, if_neg hz, hz', hn]
    simp only [Option.getD_some, true_and]
    have blk : ∀ i, ¬ (32 * m.cur ≤ i ∧ i < 32 * m.cur + 32) → i ≠ 32 * m.cur + 9 ∧ i ≠ 32 * m.cur + 8 := by omega
    by_cases n1 : n = 1
    · subst n1
      have e0 := set_eq m hc (show 0 < 24 by omega) 0
      rw [h0] at e0
      rw [if_pos rfl, e0, Option.bind_some]
      simp only
      have e1 := hs { m with mem := fun i => if i = 32 * m.cur + 8 + 0 then 0 else m.mem i } rfl
      simp only at e1
      rw [e1, Option.map_some, Option.bind_some]
      simp only
      have e2 := hs { m with mem := fun i => if i = 32 * m.cur + 9 then 0 else (if i = 32 * m.cur + 8 + 0 then 0 else m.mem i) } rfl
      simp only at e2
      rw [e2, Option.map_some, if_neg (by decide)]
      refine some_pair (mgr_ext rfl fun i => ?_) rfl
      simp only [Mgr.putBlock, Mgr.block, if_true, Nat.add_zero]
      by_cases hi : 32 * m.cur ≤ i ∧ i < 32 * m.cur + 32
      · rw [if_pos hi]
        by_cases c9 : i = 32 * m.cur + 9
        · rw [if_pos c9, if_pos (by omega)]
        · rw [if_neg c9, if_neg c9, if_neg (show ¬ i - 32 * m.cur = 9 by omega)]
          by_cases c8 : i = 32 * m.cur + 8
          · rw [if_pos c8, if_pos (by omega)]
          · rw [if_neg c8, if_neg (show ¬ i - 32 * m.cur = 8 by omega)]
            rw [show 32 * m.cur + (i - 32 * m.cur) = i by omega]
      · obtain ⟨a, b⟩ := blk i hi
        rw [if_neg hi, if_neg a, if_neg a, if_neg b]
    · rw [if_neg n1]
      by_cases n2 : n = 2
      · subst n2
        rw [if_pos rfl, Option.bind_some]
        simp only
        rw [hs m rfl, Option.map_some]
        simp only [if_true]
        refine some_pair (mgr_ext rfl fun i => ?_) rfl
        simp only [Mgr.putBlock, Mgr.block]
        by_cases hi : 32 * m.cur ≤ i ∧ i < 32 * m.cur + 32
        · rw [if_pos hi]
          by_cases c9 : i = 32 * m.cur + 9
          · rw [if_pos c9, if_pos (by omega)]
          · rw [if_neg c9, if_neg (show ¬ i - 32 * m.cur = 9 by omega), if_neg (by decide), if_neg (by decide), if_neg (by decide)]
            rw [show 32 * m.cur + (i - 32 * m.cur) = i by omega]
        · rw [if_neg hi, if_neg (blk i hi).1]
      · rw [if_neg n2, if_neg n2]
        by_cases n3 : n = 3
        · subst n3
          rw [if_pos rfl, Option.bind_some]
          simp only
          rw [hs _ (by cases copy <;> rfl), Option.map_some]
          refine some_pair (mgr_ext (by cases copy <;> rfl) fun i => ?_) rfl
          simp only [Mgr.putBlock, Mgr.block]
          by_cases hi : 32 * m.cur ≤ i ∧ i < 32 * m.cur + 32
          · rw [if_pos hi]
            by_cases c9 : i = 32 * m.cur + 9
            · rw [if_pos c9, if_pos (by omega)]
            · rw [if_neg c9, if_neg (show ¬ i - 32 * m.cur = 9 by omega), if_neg (by decide), if_pos (by trivial)]
              cases copy with
              | none => simp only; rw [show 32 * m.cur + (i - 32 * m.cur) = i by omega]
              | some c => simp only; rw [if_pos hi]
          · rw [if_neg hi, if_neg (blk i hi).1]
            cases copy with
            | none => rfl
            | some c => simp only; rw [if_neg hi]
        · rw [if_neg n3]
          by_cases n4 : n = 4
          · subst n4
            rw [if_pos rfl, Option.bind_some]
            simp only
            rw [hs (m.putBlock m.cur fun _ => 0) rfl, Option.map_some]
            refine some_pair (mgr_ext rfl fun i => ?_) rfl
            simp only [Mgr.putBlock]
            by_cases hi : 32 * m.cur ≤ i ∧ i < 32 * m.cur + 32
            · rw [if_pos hi, if_pos hi]
              by_cases c9 : i = 32 * m.cur + 9
              · rw [if_pos c9, if_pos (by omega)]
              · rw [if_neg c9, if_neg (show ¬ i - 32 * m.cur = 9 by omega), if_neg (by decide), if_neg (by decide), if_pos (by trivial)]
            · rw [if_neg hi, if_neg hi, if_neg (blk i hi).1]
          · rw [if_neg n4, Option.bind_some]
            simp only
            rw [hs m rfl, Option.map_some]
            refine some_pair (mgr_ext rfl fun i => ?_) rfl
            simp only [Mgr.putBlock, Mgr.block]
            by_cases hi : 32 * m.cur ≤ i ∧ i < 32 * m.cur + 32
            · rw [if_pos hi]
              by_cases c9 : i = 32 * m.cur + 9
              · rw [if_pos c9, if_pos (by omega)]
              · rw [if_neg c9, if_neg (show ¬ i - 32 * m.cur = 9 by omega), if_neg n1, if_neg n3, if_neg n4]
                rw [show 32 * m.cur + (i - 32 * m.cur) = i by omega]
            · rw [if_neg hi, if_neg (blk i hi).1]

/-! ### Cycles -/

def named (g : Mgr) (nm : Option (Nat → Word)) : Mgr := match nm with | some w => g.putName w | none => g

def evald (g : Mgr) (copy nm : Option (Nat → Word)) : Mgr :=
  (named g nm).putBlock g.cur (ordered copy ((named g nm).block g.cur))

theorem named_cur (g : Mgr) (nm : Option (Nat → Word)) : (named g nm).cur = g.cur := by cases nm <;> rfl

theorem named_mem (g : Mgr) (nm : Option (Nat → Word)) (r k : Nat) (hk : 8 ≤ k) (hk' : k < 32) :
    (named g nm).mem (32 * r + k) = g.mem (32 * r + k) := by
  cases nm with
  | none => rfl
  | some w =>
    show (if _ then _ else _) = _
    rw [if_neg (by omega)]

structure Good (s : Sys) : Prop where
  cur : ∀ m, (s.mgr m).cur ≤ 9
  ord : ∀ m r, r ≤ 9 → OrdOk ((s.mgr m).mem (32 * r + 9))
  cp : ∀ b, s.copy = some b → OrdOk (b 9)
  sel : ∀ m, ∃ n, trunc (s.par (selected m)) = some n
  ld : ∀ m, -1 ≤ s.loaded m ∧ s.loaded m ≤ 9

def Settled (s : Sys) : Prop := ∀ m, trunc (s.par (selected m)) = some (s.loaded m)

/-- The state after `EvalRecipe` of one medium. -/
def Sys.one (s : Sys) (m : Med) (nm : Option (Nat → Word)) : Sys :=
  { s with
    mgr := fun x => if x = m then evald (s.mgr m) s.copy nm else s.mgr x
    copy := copied s.copy ((named (s.mgr m) nm).block (s.mgr m).cur) }

theorem evalOne_eq {s : Sys} (h : Good s) (m : Med) (nm : Option (Nat → Word)) : s.evalOne m nm = some (s.one m nm) := by
  have h1 := order_eq (named (s.mgr m) nm) s.copy (by rw [named_cur]; exact h.cur m)
    (by rw [named_cur, named_mem _ _ _ _ (by omega) (by omega)]; exact h.ord m _ (h.cur m))
  rw [named_cur] at h1
  have h2 : (s.mgr m).eval s.copy nm = (named (s.mgr m) nm).order s.copy := by cases nm <;> rfl
  rw [Sys.evalOne, h2, h1]
  rfl

theorem ordOk_zero : OrdOk 0 := Or.inr (by decide +kernel)

theorem ordered_nine {copy : Option (Nat → Word)} {b : Nat → Word} (hb : OrdOk (b 9)) : OrdOk (ordered copy b 9) := by
  unfold ordered
  split
  · exact hb
  · simp only [if_true]; exact ordOk_zero

theorem one_good {s : Sys} (h : Good s) (m : Med) (nm : Option (Nat → Word)) : Good (s.one m nm) := by
  have hb : OrdOk ((named (s.mgr m) nm).block (s.mgr m).cur 9) := by
    show OrdOk ((named (s.mgr m) nm).mem _)
    rw [named_mem _ _ _ _ (by omega) (by omega)]; exact h.ord m _ (h.cur m)
  refine ⟨?_, ?_, ?_, h.sel, h.ld⟩
  · intro x
    simp only [Sys.one]
    split
    · show (named (s.mgr m) nm).cur ≤ 9
      rw [named_cur]; exact h.cur m
    · exact h.cur x
  · intro x r hr
    simp only [Sys.one]
    split
    · show OrdOk (if _ then _ else _)
      split
      · rename_i hx
        have : r = (s.mgr m).cur := by omega
        rw [this, show 32 * (s.mgr m).cur + 9 - 32 * (s.mgr m).cur = 9 by omega]
        exact ordered_nine hb
      · rw [named_mem _ _ _ _ (by omega) (by omega)]; exact h.ord m r hr
    · exact h.ord x r hr
  · intro b hb'
    simp only [Sys.one, copied] at hb'
    split at hb'
    · rw [← Option.some.inj hb']; exact hb
    · exact h.cp b hb'

/-- The parameters after `LoadRecipeToParams`. -/
def loadPar (g : Mgr) (r : Nat) (l : List (Nat × Nat)) (p : Nat → Word) : Nat → Word :=
  l.foldl (fun p x => setPar p x.1 (shown (g.mem (32 * r + 8 + x.2)))) p

theorem load_eq (g : Mgr) {r : Nat} (hr : r ≤ 9) (l : List (Nat × Nat)) (hl : ∀ x ∈ l, x.2 < 24) (p : Nat → Word) :
    load g r l p = some (loadPar g r l p) := by
  induction l generalizing p with
  | nil => rfl
  | cons x l ih =>
    obtain ⟨i, k⟩ := x
    show ((g.get r (k : Int)).bind _) = _
    rw [get_eq g hr (hl (i, k) (by simp)), Option.bind_some, ih fun x hx => hl x (by simp [hx])]
    rfl

theorem pairs_lt (m : Med) : ∀ x ∈ pairs m, x.2 < 24 := by cases m <;> decide

theorem loaded_other (g : Mgr) (r : Nat) (m : Med) (p : Nat → Word) (j : Nat) (hj : j ∉ numbers m) :
    loadPar g r (pairs m) p j = p j := by
  cases m <;> simp [numbers] at hj <;> simp [loadPar, pairs, setPar, hj]

theorem loaded_numbers (g : Mgr) (r : Nat) (m : Med) (p : Nat → Word) :
    (numbers m).map (loadPar g r (pairs m) p) = (List.range 9).map fun j => shown (g.mem (r * 32 + 8 + (j + 2))) := by
  have e : r * 32 = 32 * r := Nat.mul_comm _ _
  rw [e]
  cases m <;> rfl

theorem selected_ne (m x : Med) : selected x ∉ numbers m := by cases m <;> cases x <;> decide

theorem selected_inj {m x : Med} (h : selected m = selected x) : m = x := by
  cases m <;> cases x <;> first | rfl | exact absurd h (by decide)

/-- The state after the choice. -/
def Sys.chosen (s : Sys) (m : Med) (n : Int) : Sys :=
  if n = s.loaded m then s
  else if 0 ≤ n ∧ n < 10 then
    { s with
      par := loadPar (s.mgr m) n.toNat (pairs m) s.par
      loaded := fun x => if x = m then n else s.loaded x
      name := fun x => if x = m then (fun i => (s.mgr m).mem (32 * n.toNat + i)) else s.name x }
  else { s with par := setPar s.par (selected m) (floatOf (s.loaded m)) }

theorem choose_eq {s : Sys} (m : Med) {n : Int} (hn : trunc (s.par (selected m)) = some n) :
    s.choose m = some (s.chosen m n) := by
  unfold Sys.choose Sys.chosen
  rw [hn, Option.bind_some]
  by_cases h1 : n = s.loaded m
  · rw [if_pos h1, if_pos h1]
  · rw [if_neg h1, if_neg h1]
    by_cases h2 : 0 ≤ n ∧ n < 10
    · rw [if_pos h2, if_pos h2, load_eq _ (by omega) _ (pairs_lt m)]; rfl
    · rw [if_neg h2, if_neg h2]

theorem trunc_floatOf {n : Int} (h : -1 ≤ n ∧ n ≤ 9) : trunc (floatOf n) = some n := by
  have : n = -1 ∨ n = 0 ∨ n = 1 ∨ n = 2 ∨ n = 3 ∨ n = 4 ∨ n = 5 ∨ n = 6 ∨ n = 7 ∨ n = 8 ∨ n = 9 := by omega
  rcases this with h | h | h | h | h | h | h | h | h | h | h <;> subst h <;> decide +kernel

theorem chosen_mgr (s : Sys) (m : Med) (n : Int) : (s.chosen m n).mgr = s.mgr ∧ (s.chosen m n).copy = s.copy := by
  unfold Sys.chosen
  split
  · exact ⟨rfl, rfl⟩
  · split <;> exact ⟨rfl, rfl⟩

/-- Nothing of the other medium and none of the other parameters changes. -/
theorem chosen_other (s : Sys) (m : Med) (n : Int) :
    (∀ j, j ∉ numbers m → j ≠ selected m → (s.chosen m n).par j = s.par j) ∧
    ∀ x, x ≠ m → (s.chosen m n).loaded x = s.loaded x ∧ (s.chosen m n).name x = s.name x := by
  unfold Sys.chosen
  split
  · exact ⟨fun _ _ _ => rfl, fun _ _ => ⟨rfl, rfl⟩⟩
  · split
    · refine ⟨fun j h1 _ => loaded_other _ _ _ _ _ h1, fun x hx => ?_⟩
      exact ⟨if_neg hx, if_neg hx⟩
    · refine ⟨fun j _ h2 => ?_, fun _ _ => ⟨rfl, rfl⟩⟩
      simp only [setPar, if_neg h2]

theorem chosen_settled {s : Sys} (h : Good s) (m : Med) {n : Int} (hn : trunc (s.par (selected m)) = some n) :
    trunc ((s.chosen m n).par (selected m)) = some ((s.chosen m n).loaded m) := by
  unfold Sys.chosen
  split
  · rename_i h1; rw [hn, h1]
  · split
    · simp only [if_true]
      rw [loaded_other _ _ _ _ _ (selected_ne m m), hn]
    · simp only [setPar, if_true]
      exact trunc_floatOf (h.ld m)

theorem chosen_good {s : Sys} (h : Good s) (m : Med) {n : Int} (hn : trunc (s.par (selected m)) = some n) : Good (s.chosen m n) := by
  obtain ⟨e1, e2⟩ := chosen_mgr s m n
  refine ⟨by rw [e1]; exact h.cur, by rw [e1]; exact h.ord, by rw [e2]; exact h.cp, ?_, ?_⟩
  · intro x
    by_cases hx : x = m
    · rw [hx]; exact ⟨_, chosen_settled h m hn⟩
    · rw [(chosen_other s m n).1 _ (selected_ne m x) fun hh => hx (selected_inj hh)]; exact h.sel x
  · intro x
    by_cases hx : x = m
    · rw [hx]
      unfold Sys.chosen
      split
      · exact h.ld m
      · split
        · simp only [if_true]; omega
        · exact h.ld m
    · rw [((chosen_other s m n).2 x hx).1]; exact h.ld x

/-- A whole cycle. -/
theorem eval_eq {s : Sys} (h : Good s) (na nc : Option (Nat → Word)) :
    ∃ n k, trunc (s.par 36) = some n ∧ trunc (s.par 37) = some k ∧
      s.eval na nc = some ((((s.one .acid na).one .caustic nc).chosen .caustic n).chosen .acid k) ∧
      Good ((((s.one .acid na).one .caustic nc).chosen .caustic n).chosen .acid k) ∧
      Settled ((((s.one .acid na).one .caustic nc).chosen .caustic n).chosen .acid k) := by
  have g1 := one_good h .acid na
  have g2 := one_good g1 .caustic nc
  obtain ⟨n, hn⟩ := h.sel .caustic
  obtain ⟨k, hk⟩ := h.sel .acid
  have hn2 : trunc (((s.one .acid na).one .caustic nc).par (selected .caustic)) = some n := hn
  have g3 := chosen_good g2 .caustic hn2
  have hk2 : trunc ((((s.one .acid na).one .caustic nc).chosen .caustic n).par (selected .acid)) = some k := by
    rw [(chosen_other _ .caustic n).1 _ (selected_ne _ _) (by decide)]; exact hk
  refine ⟨n, k, hn, hk, ?_, chosen_good g3 .acid hk2, ?_⟩
  · rw [Sys.eval, evalOne_eq h, Option.bind_some, evalOne_eq g1, Option.bind_some, choose_eq .caustic hn2, Option.bind_some,
      choose_eq .acid hk2]
  · intro m
    cases m with
    | caustic =>
      rw [(chosen_other _ .acid k).1 _ (selected_ne _ _) (by decide), ((chosen_other _ .acid k).2 .caustic (by decide)).1]
      exact chosen_settled g2 .caustic hn2
    | acid => exact chosen_settled g3 .acid hk2

/-- A cycle when nothing new is chosen changes neither parameters nor names. -/
theorem eval_settled {s : Sys} (h : Good s) (hs : Settled s) (na nc : Option (Nat → Word)) :
    s.eval na nc = some ((s.one .acid na).one .caustic nc) := by
  obtain ⟨n, k, hn, hk, he, _, _⟩ := eval_eq h na nc
  rw [he]
  have e1 : n = s.loaded .caustic := Option.some.inj (hn.symm.trans (hs .caustic))
  have e2 : k = s.loaded .acid := Option.some.inj (hk.symm.trans (hs .acid))
  have c1 : ((s.one .acid na).one .caustic nc).chosen .caustic n = (s.one .acid na).one .caustic nc := by
    exact if_pos e1
  rw [c1]
  exact congrArg some (if_pos e2)

/-! ### Events -/

theorem idx_int {idx : BitVec 32} (h1 : 1 ≤ idx.toNat) (h2 : idx.toNat ≤ 24) : (idx - 1).toInt = ((idx.toNat - 1 : Nat) : Int) := by
  have : (idx - 1).toNat = idx.toNat - 1 := by
    rw [BitVec.toNat_sub]; simp; omega
  rw [BitVec.toInt_eq_toNat_of_lt (by omega), this]

/-- The state after a value is set. -/
def Sys.put (s : Sys) (m : Med) (idx : BitVec 32) (v : Word) : Sys :=
  { s with mgr := fun x => if x = m then
      { s.mgr m with mem := fun i => if i = 32 * (s.mgr m).cur + 8 + (idx.toNat - 1) then v else (s.mgr m).mem i } else s.mgr x }

theorem set_step {s : Sys} (h : Good s) (m : Med) (idx : BitVec 32) (v : Word) (h1 : 1 ≤ idx.toNat) (h2 : idx.toNat ≤ 24) :
    s.step (.set m idx v) = some (s.put m idx v) := by
  show Option.map _ ((s.mgr m).set (s.mgr m).cur (idx - 1).toInt v) = _
  rw [idx_int h1 h2, set_eq _ (h.cur m) (by omega)]
  rfl

theorem put_good {s : Sys} (h : Good s) (m : Med) (idx : BitVec 32) (v : Word) (h1 : 1 ≤ idx.toNat) (h2 : idx.toNat ≤ 24)
    (h3 : idx = 2 → trunc v ≠ none) : Good (s.put m idx v) := by
  refine ⟨?_, ?_, h.cp, h.sel, h.ld⟩
  · intro x
    simp only [Sys.put]
    split
    · exact h.cur m
    · exact h.cur x
  · intro x r hr
    simp only [Sys.put]
    split
    · show OrdOk (if _ then _ else _)
      split
      · rename_i hx
        have hi : idx = 2 := by
          apply BitVec.eq_of_toNat_eq
          show idx.toNat = 2
          omega
        exact Or.inr (h3 hi)
      · exact h.ord m r hr
    · exact h.ord x r hr

theorem move_good {s : Sys} (h : Good s) (m : Med) (g : Mgr) (h1 : g.cur ≤ 9) (h2 : ∀ r, g.mem (32 * r + 9) = (s.mgr m).mem (32 * r + 9)) :
    Good { s with mgr := fun x => if x = m then g else s.mgr x } := by
  refine ⟨?_, ?_, h.cp, h.sel, h.ld⟩
  · intro x
    show (if x = m then g else s.mgr x).cur ≤ 9
    split
    · exact h1
    · exact h.cur x
  · intro x r hr
    show OrdOk ((if x = m then g else s.mgr x).mem _)
    split
    · rw [h2]; exact h.ord m r hr
    · exact h.ord x r hr

theorem move_mem (g : Mgr) (nm : Nat → Word) (r k : Nat) (hk : 8 ≤ k) (hk' : k < 32) :
    (g.next nm).mem (32 * r + k) = g.mem (32 * r + k) ∧ (g.prev nm).mem (32 * r + k) = g.mem (32 * r + k) := by
  have := named_mem g (some nm) r k hk hk'
  constructor
  · unfold Mgr.next; split
    · exact this
    · rfl
  · unfold Mgr.prev; split
    · exact this
    · rfl

theorem move_cur (g : Mgr) (nm : Nat → Word) (h : g.cur ≤ 9) : (g.next nm).cur ≤ 9 ∧ (g.prev nm).cur ≤ 9 := by
  constructor
  · unfold Mgr.next; split
    · show g.cur + 1 ≤ 9; omega
    · exact h
  · unfold Mgr.prev; split
    · show g.cur - 1 ≤ 9; omega
    · exact h

theorem par_good {s : Sys} (h : Good s) (idx : Nat) (v : Word) (hv : idx = 36 ∨ idx = 37 → trunc v ≠ none) :
    ∃ s', s.step (.par idx v) = some s' ∧ Good s' := by
  refine ⟨_, rfl, h.cur, h.ord, h.cp, ?_, ?_⟩
  · intro m
    show ∃ n, trunc ((if 1 ≤ idx ∧ idx ≤ 50 then setPar s.par idx v else s.par) (selected m)) = some n
    split
    · unfold setPar
      split
      · rename_i hx
        refine Option.ne_none_iff_exists'.mp (hv ?_)
        rw [← hx]; cases m <;> simp [selected]
      · exact h.sel m
    · exact h.sel m
  · intro m
    show -1 ≤ (if idx = selected m then (-1 : Int) else s.loaded m) ∧ (if idx = selected m then (-1 : Int) else s.loaded m) ≤ 9
    split
    · omega
    · exact h.ld m

theorem step_good {s : Sys} (h : Good s) (e : Ev) (he : Fair e) : ∃ s', s.step e = some s' ∧ Good s' := by
  cases e with
  | set m idx v => exact ⟨_, set_step h m idx v he.1 he.2.1, put_good h m idx v he.1 he.2.1 he.2.2⟩
  | par idx v => exact par_good h idx v he
  | next m nm => exact ⟨_, rfl, move_good h m _ (move_cur _ nm (h.cur m)).1 fun r => (move_mem _ nm r 9 (by omega) (by omega)).1⟩
  | prev m nm => exact ⟨_, rfl, move_good h m _ (move_cur _ nm (h.cur m)).2 fun r => (move_mem _ nm r 9 (by omega) (by omega)).2⟩
  | eval na nc =>
    obtain ⟨n, k, _, _, he, hg, _⟩ := eval_eq h na nc
    exact ⟨_, he, hg⟩

theorem run_good {s : Sys} (h : Good s) (es : List Ev) (he : ∀ e ∈ es, Fair e) : ∃ s', s.run es = some s' ∧ Good s' := by
  induction es generalizing s with
  | nil => exact ⟨s, rfl, h⟩
  | cons e es ih =>
    obtain ⟨s1, h1, g1⟩ := step_good h e (he e (by simp))
    obtain ⟨s2, h2, g2⟩ := ih g1 fun e h => he e (by simp [h])
    exact ⟨s2, by show (s.step e).bind _ = _; rw [h1, Option.bind_some, h2], g2⟩

theorem run_append (s : Sys) (a b : List Ev) : s.run (a ++ b) = (s.run a).bind (·.run b) := by
  induction a generalizing s with
  | nil => rfl
  | cons e es ih =>
    show (s.step e).bind _ = ((s.step e).bind _).bind _
    rw [Option.bind_assoc]
    congr 1
    funext t
    exact ih t

theorem start_good {mem : Med → Nat → Word} {par : Nat → Word} (h : FairStart mem par) : ∃ s, start mem par = some s ∧ Good s := by
  obtain ⟨h1, h2, h3⟩ := h
  obtain ⟨n, hn⟩ := Option.ne_none_iff_exists'.mp h2
  obtain ⟨k, hk⟩ := Option.ne_none_iff_exists'.mp h3
  have one : ∀ (s : Sys) (m : Med) (n : Int), Good s → trunc (s.par (selected m)) = some n →
      ∃ s', s.initOne m = some s' ∧ Good s' ∧ ∀ x, x ≠ m → s'.par (selected x) = s.par (selected x) := by
    intro s m n hg hn
    unfold Sys.initOne
    rw [hn, Option.map_some]
    by_cases c : 0 ≤ n ∧ n < 10
    · rw [if_pos c]
      refine ⟨_, rfl, ⟨hg.cur, hg.ord, hg.cp, hg.sel, fun x => ?_⟩, fun _ _ => rfl⟩
      show -1 ≤ (if x = m then n else s.loaded x) ∧ (if x = m then n else s.loaded x) ≤ 9
      split
      · omega
      · exact hg.ld x
    · rw [if_neg c]
      refine ⟨_, rfl, ⟨hg.cur, hg.ord, hg.cp, fun x => ?_, fun x => ?_⟩, fun x hx => ?_⟩
      · show ∃ n, trunc (setPar s.par (selected m) (floatOf (-1)) (selected x)) = some n
        unfold setPar
        split
        · exact ⟨-1, by decide +kernel⟩
        · exact hg.sel x
      · show -1 ≤ (if x = m then (-1 : Int) else s.loaded x) ∧ (if x = m then (-1 : Int) else s.loaded x) ≤ 9
        split
        · omega
        · exact hg.ld x
      · show setPar s.par (selected m) (floatOf (-1)) (selected x) = _
        unfold setPar
        rw [if_neg fun hh => hx (selected_inj hh)]
  have g0 : Good ⟨fun m => ⟨mem m, 0⟩, none, par, fun _ => -1, fun _ _ => 0⟩ := by
    refine ⟨fun _ => by show 0 ≤ 9; omega, fun m r hr => ?_, (fun b hb => by cases hb), fun m => ?_, fun _ => by show (-1 : Int) ≤ -1 ∧ (-1 : Int) ≤ 9; omega⟩
    · have := h1 m r (by omega)
      rw [Nat.mul_comm] at this
      exact this
    · cases m
      · exact ⟨n, hn⟩
      · exact ⟨k, hk⟩
  obtain ⟨s1, a1, a2, a3⟩ := one _ .caustic n g0 hn
  obtain ⟨s2, b1, b2, _⟩ := one s1 .acid k a2 (by rw [a3 .acid (by decide)]; exact hk)
  exact ⟨s2, by rw [start, a1, Option.bind_some, b1], b2⟩

theorem after_good {s : Sys} (h : After s) : Good s ∧ Settled s := by
  obtain ⟨mem, par, es, na, nc, s0, h1, h2, h3, h4⟩ := h
  obtain ⟨s0', e0, g0⟩ := start_good h1
  rw [e0] at h3
  cases Option.some.inj h3
  obtain ⟨s1, e1, g1⟩ := run_good g0 es h2
  rw [run_append, e1, Option.bind_some] at h4
  obtain ⟨n, k, _, _, he, hg, hset⟩ := eval_eq g1 na nc
  have : s1.run [.eval na nc] = some ((((s1.one .acid na).one .caustic nc).chosen .caustic n).chosen .acid k) := by
    show (s1.eval na nc).bind _ = _
    rw [he]; rfl
  rw [this] at h4
  rw [← Option.some.inj h4]
  exact ⟨hg, hset⟩

/-- The state after `PAR_MAIN`. -/
def Sys.told (s : Sys) (idx : Nat) (v : Word) : Sys :=
  { s with
    loaded := fun x => if idx = selected x then -1 else s.loaded x
    par := if 1 ≤ idx ∧ idx ≤ 50 then setPar s.par idx v else s.par }

theorem told_selected (s : Sys) (m : Med) (v : Word) :
    (s.told (selected m) v).par = setPar s.par (selected m) v ∧ (s.told (selected m) v).loaded m = -1 ∧
    ∀ x, x ≠ m → (s.told (selected m) v).loaded x = s.loaded x := by
  refine ⟨if_pos (by cases m <;> decide), if_pos rfl, fun x hx => if_neg fun h => hx (selected_inj h).symm⟩

/-- The cycle after a choice. -/
theorem told_eval {s : Sys} (h : Good s) (hs : Settled s) (m : Med) (v : Word) (n : Int) (hv : trunc v = some n)
    (na nc : Option (Nat → Word)) :
    s.run [.par (selected m) v, .eval na nc] = some ((((s.told (selected m) v).one .acid na).one .caustic nc).chosen m n) := by
  obtain ⟨t1, t2, t3⟩ := told_selected s m v
  have hg : Good (s.told (selected m) v) := by
    obtain ⟨s', e, g⟩ := par_good h (selected m) v (fun _ => by rw [hv]; simp)
    have : s.step (.par (selected m) v) = some (s.told (selected m) v) := rfl
    rw [this] at e
    rw [Option.some.inj e]; exact g
  obtain ⟨a, b, ha, hb, he, _, _⟩ := eval_eq hg na nc
  have hrun : s.run [.par (selected m) v, .eval na nc] = (s.told (selected m) v).eval na nc := by
    have e1 : s.step (.par (selected m) v) = some (s.told (selected m) v) := rfl
    have e2 : (s.told (selected m) v).step (.eval na nc) = (s.told (selected m) v).eval na nc := rfl
    rw [Sys.run, e1, Option.bind_some, Sys.run, e2]
    cases (s.told (selected m) v).eval na nc <;> rfl
  rw [hrun, he]
  rw [t1] at ha hb
  cases m with
  | caustic =>
    have ea : a = n := by
      have : trunc v = some a := ha
      exact Option.some.inj (this.symm.trans hv)
    have eb : b = s.loaded .acid := by
      have : trunc (s.par 37) = some b := hb
      exact Option.some.inj (this.symm.trans (hs .acid))
    subst ea
    have hl := ((chosen_other (((s.told (selected .caustic) v).one .acid na).one .caustic nc) .caustic a).2 .acid (by decide)).1
    have hl2 : (((s.told (selected .caustic) v).one .acid na).one .caustic nc).loaded .acid = s.loaded .acid := t3 .acid (by decide)
    refine congrArg some ?_
    generalize (((s.told (selected .caustic) v).one .acid na).one .caustic nc) = E at hl hl2
    generalize E.chosen .caustic a = F at hl
    exact if_pos (by rw [eb, hl, hl2])
  | acid =>
    have eb : b = n := by
      have : trunc v = some b := hb
      exact Option.some.inj (this.symm.trans hv)
    have ea : a = s.loaded .caustic := by
      have : trunc (s.par 36) = some a := ha
      exact Option.some.inj (this.symm.trans (hs .caustic))
    subst eb
    have : ((((s.told (selected .acid) v).one .acid na).one .caustic nc).chosen .caustic a) =
        ((s.told (selected .acid) v).one .acid na).one .caustic nc := if_pos (by rw [ea]; rfl)
    rw [this]

theorem noPar_step {s s' : Sys} (h : Good s) (hs : Settled s) (e : Ev) (he : NoPar e) (hr : s.step e = some s') (hf : Fair e) :
    Good s' ∧ Settled s' ∧ s'.par = s.par ∧ s'.name = s.name := by
  cases e with
  | set m idx v =>
    have h1 := set_step h m idx v hf.1 hf.2.1
    rw [h1] at hr
    rw [← Option.some.inj hr]
    exact ⟨put_good h m idx v hf.1 hf.2.1 hf.2.2, hs, rfl, rfl⟩
  | par idx v => exact he.elim
  | next m nm =>
    obtain ⟨s1, h1, g1⟩ := step_good h (.next m nm) hf
    rw [h1] at hr
    rw [← Option.some.inj hr]
    refine ⟨g1, ?_⟩
    rw [← Option.some.inj h1]
    exact ⟨hs, rfl, rfl⟩
  | prev m nm =>
    obtain ⟨s1, h1, g1⟩ := step_good h (.prev m nm) hf
    rw [h1] at hr
    rw [← Option.some.inj hr]
    refine ⟨g1, ?_⟩
    rw [← Option.some.inj h1]
    exact ⟨hs, rfl, rfl⟩
  | eval na nc =>
    have h1 := eval_settled h hs na nc
    have h2 : s.eval na nc = some s' := hr
    rw [h1] at h2
    rw [← Option.some.inj h2]
    exact ⟨one_good (one_good h _ _) _ _, hs, rfl, rfl⟩

theorem noPar_run {s : Sys} (h : Good s) (hs : Settled s) (es : List Ev) (he : ∀ e ∈ es, NoPar e ∧ Fair e) :
    ∃ s', s.run es = some s' ∧ Good s' ∧ Settled s' ∧ s'.par = s.par ∧ s'.name = s.name := by
  induction es generalizing s with
  | nil => exact ⟨s, rfl, h, hs, rfl, rfl⟩
  | cons e es ih =>
    obtain ⟨h1, h2⟩ := he e (by simp)
    obtain ⟨s1, e1, _⟩ := step_good h e h2
    obtain ⟨g1, g2, g3, g4⟩ := noPar_step h hs e h1 e1 h2
    obtain ⟨s2, a1, a2, a3, a4, a5⟩ := ih g1 g2 fun e h => he e (by simp [h])
    exact ⟨s2, by show (s.step e).bind _ = _; rw [e1, Option.bind_some, a1], a2, a3, a4.trans g3, a5.trans g4⟩

theorem hist_good {s : Sys} (h : Hist s) : Good s := by
  obtain ⟨mem, par, es, s0, h1, h2, h3, h4⟩ := h
  obtain ⟨s0', e0, g0⟩ := start_good h1
  rw [e0] at h3
  cases Option.some.inj h3
  obtain ⟨s1, e1, g1⟩ := run_good g0 es h2
  rw [e1] at h4
  cases Option.some.inj h4
  exact g1

/-- Nothing is ordered for the current recipes. -/
def Quiet (s : Sys) : Prop := ∀ m, nonzero (shown ((s.mgr m).mem (32 * (s.mgr m).cur + 9))) = false

theorem ordered_quiet (copy : Option (Nat → Word)) (b : Nat → Word) : nonzero (shown (ordered copy b 9)) = false := by
  unfold ordered
  by_cases e : nonzero (shown (b 9)) = false
  · rw [if_pos e]; exact e
  · rw [if_neg e]; simp only [if_true]; decide +kernel

theorem evald_at (g : Mgr) (copy nm : Option (Nat → Word)) (i : Nat) (hi : i < 32) :
    (evald g copy nm).mem (32 * g.cur + i) = ordered copy ((named g nm).block g.cur) i := by
  show (if _ then _ else _) = _
  rw [if_pos (by omega), show 32 * g.cur + i - 32 * g.cur = i by omega]

theorem evald_cur (g : Mgr) (copy nm : Option (Nat → Word)) : (evald g copy nm).cur = g.cur := named_cur g nm

theorem evald_off (g : Mgr) (copy : Option (Nat → Word)) (j : Nat) (hj : ¬ (32 * g.cur ≤ j ∧ j < 32 * g.cur + 32)) :
    (evald g copy none).mem j = g.mem j := if_neg hj

theorem one_quiet (s : Sys) (na nc : Option (Nat → Word)) : Quiet ((s.one .acid na).one .caustic nc) := by
  intro m
  cases m with
  | caustic =>
    have e : ((s.one .acid na).one .caustic nc).mgr .caustic = evald (s.mgr .caustic) (s.one .acid na).copy nc := rfl
    rw [e, evald_cur, evald_at _ _ _ _ (by omega)]
    exact ordered_quiet _ _
  | acid =>
    have e : ((s.one .acid na).one .caustic nc).mgr .acid = evald (s.mgr .acid) s.copy na := rfl
    rw [e, evald_cur, evald_at _ _ _ _ (by omega)]
    exact ordered_quiet _ _

theorem eval_quiet {s s' : Sys} (h : Good s) (na nc : Option (Nat → Word)) (he : s.eval na nc = some s') : Quiet s' := by
  obtain ⟨n, k, _, _, h1, _, _⟩ := eval_eq h na nc
  rw [h1] at he
  rw [← Option.some.inj he]
  intro m
  rw [(chosen_mgr _ _ _).1, (chosen_mgr _ _ _).1]
  exact one_quiet s na nc m

theorem run_one (s : Sys) (e : Ev) : s.run [e] = s.step e := by
  rw [Sys.run]; cases s.step e <;> rfl

theorem run_two (s : Sys) (e f : Ev) : s.run [e, f] = (s.step e).bind (·.step f) := by
  rw [Sys.run]
  cases s.step e with
  | none => rfl
  | some t => exact run_one t f

theorem after_quiet {s : Sys} (h : After s) : Quiet s := by
  obtain ⟨mem, par, es, na, nc, s0, h1, h2, h3, h4⟩ := h
  obtain ⟨s0', e0, g0⟩ := start_good h1
  rw [e0] at h3
  cases Option.some.inj h3
  obtain ⟨s1, e1, g1⟩ := run_good g0 es h2
  rw [run_append, e1, Option.bind_some, run_one] at h4
  exact eval_quiet g1 na nc h4

theorem shown_ne {v : Word} {n : Int} (hv : trunc v = some n) : shown v = v := by
  unfold shown
  refine if_neg fun h => ?_
  rw [h] at hv
  have : trunc 0xFFFFFFFF = none := by decide +kernel
  rw [this] at hv
  cases hv

/-- Nothing happens to a medium for which nothing is ordered. -/
theorem evald_quiet {g : Mgr} (copy : Option (Nat → Word)) (h : nonzero (shown (g.mem (32 * g.cur + 9))) = false) :
    evald g copy none = g ∧ copied copy (g.block g.cur) = copy := by
  have hb : shown (g.block g.cur 9) = shown (g.mem (32 * g.cur + 9)) := rfl
  constructor
  · refine mgr_ext (evald_cur _ _ _) fun i => ?_
    show (if _ then _ else _) = _
    by_cases hi : 32 * g.cur ≤ i ∧ i < 32 * g.cur + 32
    · rw [if_pos hi]
      show ordered copy (g.block g.cur) _ = _
      unfold ordered
      rw [hb, if_pos h]
      show g.mem _ = _
      rw [show 32 * g.cur + (i - 32 * g.cur) = i by omega]
    · rw [if_neg hi]; rfl
  · unfold copied
    rw [hb, if_neg (by rw [h]; simp)]

/-- What an order does to the words of the current recipe. -/
def orderWord (copy : Option (Nat → Word)) (b : Nat → Word) (n : Int) (i : Nat) : Word :=
  if i = 9 then 0
  else if n = 1 then (if i = 8 then 0 else b i)
  else if n = 3 then (match copy with | some c => c i | none => b i)
  else if n = 4 then 0
  else b i

theorem mgr_if {s : Sys} {m : Med} {g : Mgr} {f : Med → Mgr} (h : f = fun x => if x = m then g else s.mgr x) :
    f m = g ∧ ∀ x, x ≠ m → f x = s.mgr x := by
  rw [h]; exact ⟨if_pos rfl, fun x hx => if_neg hx⟩

/-- An order and the cycle after it. -/
theorem order_run_other {s : Sys} (h : Good s) (hs : Settled s) (m : Med)
    (hq : ∀ x, x ≠ m → nonzero (shown ((s.mgr x).mem (32 * (s.mgr x).cur + 9))) = false) (v : Word) (n : Int) (hv : trunc v = some n)
    (hz : nonzero v = true) :
    ∃ s', s.run [.set m 2 v, .eval none none] = some s' ∧ Good s' ∧ Settled s' ∧ Quiet s' ∧ s'.par = s.par ∧ s'.name = s.name ∧
      (∀ x, (s'.mgr x).cur = (s.mgr x).cur) ∧ (∀ x, x ≠ m → s'.mgr x = s.mgr x) ∧
      (∀ i, i < 32 → (s'.mgr m).mem (32 * (s.mgr m).cur + i) = orderWord s.copy ((s.mgr m).block (s.mgr m).cur) n i) ∧
      (∀ j, ¬ (32 * (s.mgr m).cur ≤ j ∧ j < 32 * (s.mgr m).cur + 32) → (s'.mgr m).mem j = (s.mgr m).mem j) ∧
      s'.copy = if n = 2 then some (fun i => if i = 9 then v else (s.mgr m).block (s.mgr m).cur i) else s.copy := by
  have i2 : (2 : BitVec 32).toNat = 2 := rfl
  have g1 := put_good h m 2 v (by decide) (by decide) fun _ => by rw [hv]; simp
  have e1 := set_step h m 2 v (by decide) (by decide)
  generalize hp : s.put m 2 v = p at g1 e1
  have pm : p.mgr m = { s.mgr m with mem := fun i => if i = 32 * (s.mgr m).cur + 9 then v else (s.mgr m).mem i } := by
    rw [← hp]; exact if_pos rfl
  have px : ∀ x, x ≠ m → p.mgr x = s.mgr x := by
    intro x hx; rw [← hp]; exact if_neg hx
  have pc : p.copy = s.copy := by rw [← hp]; rfl
  have pp : p.par = s.par := by rw [← hp]; rfl
  have pl : p.loaded = s.loaded := by rw [← hp]; rfl
  have pn : p.name = s.name := by rw [← hp]; rfl
  have ps : Settled p := by intro x; rw [pp, pl]; exact hs x
  have e2 : s.run [.set m 2 v, .eval none none] = some ((p.one .acid none).one .caustic none) := by
    rw [run_two, e1, Option.bind_some]; exact eval_settled g1 ps none none
  have pcur : (p.mgr m).cur = (s.mgr m).cur := by rw [pm]
  -- the block of the medium
  have pb : (p.mgr m).block (p.mgr m).cur = fun i => if i = 9 then v else (s.mgr m).block (s.mgr m).cur i := by
    funext i
    show (p.mgr m).mem (32 * (p.mgr m).cur + i) = _
    rw [pcur, pm]
    show (if 32 * (s.mgr m).cur + i = 32 * (s.mgr m).cur + 9 then v else _) = _
    by_cases hi : i = 9
    · rw [if_pos hi, if_pos (by rw [hi])]
    · rw [if_neg hi, if_neg (by omega)]; rfl
  have hsv : shown v = v := shown_ne hv
  have hord : ∀ i, ordered s.copy ((p.mgr m).block (p.mgr m).cur) i = orderWord s.copy ((s.mgr m).block (s.mgr m).cur) n i := by
    intro i
    rw [pb]
    unfold ordered orderWord
    simp only [if_true]
    rw [hsv, if_neg (by rw [hz]; simp), hv]
    simp only [Option.getD_some]
    by_cases hi : i = 9
    · rw [if_pos hi, if_pos hi]
    · rw [if_neg hi, if_neg hi, if_neg hi]
  have hcp : copied s.copy ((p.mgr m).block (p.mgr m).cur) =
      if n = 2 then some (fun i => if i = 9 then v else (s.mgr m).block (s.mgr m).cur i) else s.copy := by
    rw [pb]
    unfold copied
    simp only [if_true]
    rw [hsv, hv, hz]
    simp only [Option.getD_some, true_and]
  -- both media
  have key : ((p.one .acid none).one .caustic none).mgr m = evald (p.mgr m) s.copy none ∧
      (∀ x, x ≠ m → ((p.one .acid none).one .caustic none).mgr x = s.mgr x) ∧
      ((p.one .acid none).one .caustic none).copy = copied s.copy ((p.mgr m).block (p.mgr m).cur) := by
    cases m with
    | acid =>
      have hqx := evald_quiet (copied p.copy ((p.mgr .acid).block (p.mgr .acid).cur)) (g := p.mgr .caustic)
        (by rw [px .caustic (by decide)]; exact hq .caustic (by decide))
      refine ⟨by rw [← pc]; rfl, fun x hx => ?_, ?_⟩
      · cases x with
        | acid => exact absurd rfl hx
        | caustic => rw [← px .caustic (by decide)]; exact hqx.1
      · rw [← pc]; exact hqx.2
    | caustic =>
      have hqx := evald_quiet p.copy (g := p.mgr .acid) (by rw [px .acid (by decide)]; exact hq .acid (by decide))
      have hc : (p.one .acid none).copy = s.copy := by rw [← pc]; exact hqx.2
      refine ⟨?_, fun x hx => ?_, ?_⟩
      · rw [← hc]; rfl
      · cases x with
        | caustic => exact absurd rfl hx
        | acid => rw [← px .acid (by decide)]; exact hqx.1
      · rw [← hc]; rfl
  obtain ⟨k1, k2, k3⟩ := key
  refine ⟨_, e2, one_good (one_good g1 _ _) _ _, ps, one_quiet p none none, pp, pn, ?_, k2, ?_, ?_, ?_⟩
  · intro x
    by_cases hx : x = m
    · rw [hx, k1, evald_cur, pcur]
    · rw [k2 x hx]
  · intro i hi
    have hat := evald_at (p.mgr m) s.copy none i hi
    rw [pcur] at hat
    rw [k1, hat, ← hord i, pcur]
    rfl
  · intro j hj
    rw [k1, evald_off _ _ _ (by rw [pcur]; exact hj), pm]
    exact if_neg (by omega)
  · rw [k3, hcp]

theorem order_run {s : Sys} (h : Good s) (hs : Settled s) (hq : Quiet s) (m : Med) (v : Word) (n : Int) (hv : trunc v = some n)
    (hz : nonzero v = true) :
    ∃ s', s.run [.set m 2 v, .eval none none] = some s' ∧ Good s' ∧ Settled s' ∧ Quiet s' ∧ s'.par = s.par ∧ s'.name = s.name ∧
      (∀ x, (s'.mgr x).cur = (s.mgr x).cur) ∧ (∀ x, x ≠ m → s'.mgr x = s.mgr x) ∧
      (∀ i, i < 32 → (s'.mgr m).mem (32 * (s.mgr m).cur + i) = orderWord s.copy ((s.mgr m).block (s.mgr m).cur) n i) ∧
      (∀ j, ¬ (32 * (s.mgr m).cur ≤ j ∧ j < 32 * (s.mgr m).cur + 32) → (s'.mgr m).mem j = (s.mgr m).mem j) ∧
      s'.copy = if n = 2 then some (fun i => if i = 9 then v else (s.mgr m).block (s.mgr m).cur i) else s.copy :=
  order_run_other h hs m (fun x _ => hq x) v n hv hz

/-- Going through the recipes of a medium. -/
theorem moves_run {s : Sys} (h : Good s) (m : Med) (es : List Ev) (he : ∀ e ∈ es, Moves m e) :
    ∃ s', s.run es = some s' ∧ Good s' ∧ s'.par = s.par ∧ s'.loaded = s.loaded ∧ s'.name = s.name ∧ s'.copy = s.copy ∧
      (∀ x, x ≠ m → s'.mgr x = s.mgr x) ∧ ∀ r k, 8 ≤ k → k < 32 → (s'.mgr m).mem (32 * r + k) = (s.mgr m).mem (32 * r + k) := by
  induction es generalizing s with
  | nil => exact ⟨s, rfl, h, rfl, rfl, rfl, rfl, fun _ _ => rfl, fun _ _ _ _ => rfl⟩
  | cons e es ih =>
    have hm := he e (by simp)
    have key : ∃ g : Mgr, s.step e = some { s with mgr := fun x => if x = m then g else s.mgr x } ∧ g.cur ≤ 9 ∧
        ∀ r k, 8 ≤ k → k < 32 → g.mem (32 * r + k) = (s.mgr m).mem (32 * r + k) := by
      cases e with
      | next x nm =>
        have : x = m := hm
        subst this
        exact ⟨_, rfl, (move_cur _ nm (h.cur x)).1, fun r k a b => (move_mem _ nm r k a b).1⟩
      | prev x nm =>
        have : x = m := hm
        subst this
        exact ⟨_, rfl, (move_cur _ nm (h.cur x)).2, fun r k a b => (move_mem _ nm r k a b).2⟩
      | set _ _ _ => exact hm.elim
      | par _ _ => exact hm.elim
      | eval _ _ => exact hm.elim
    obtain ⟨g, e1, e2, e3⟩ := key
    have gg := move_good h m g e2 fun r => e3 r 9 (by omega) (by omega)
    obtain ⟨s2, a1, a2, a3, a4, a5, a6, a7, a8⟩ := ih gg fun e h => he e (by simp [h])
    refine ⟨s2, ?_, a2, a3, a4, a5, a6, fun x hx => (a7 x hx).trans (if_neg hx), fun r k h1 h2 => ?_⟩
    · rw [Sys.run, e1, Option.bind_some, a1]
    · rw [a8 r k h1 h2]
      show (if m = m then g else s.mgr m).mem _ = _
      rw [if_pos rfl]
      exact e3 r k h1 h2

end Ptusa.Medium
