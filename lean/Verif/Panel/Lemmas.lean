import Verif.Panel.Spec
import Verif.Modbus.Lemmas
import Verif.CipRec.Lemmas

namespace Ptusa.Panel

open Tcp (Byte Buf put get)
open Modbus (packFloat unpackFloat forceBit pair coilBytes head writeMsg)
open Ptusa.Valve (Tm)

theorem half (addr j : Nat) : (addr + 2 * j) / 2 = addr / 2 + j := by omega

theorem regBytes_pack (v : BitVec 32) : packFloat v = regBytes v := by
  unfold packFloat regBytes
  simp only [List.cons.injEq, and_true]
  refine ⟨?_, ?_, ?_, ?_⟩ <;>
  · apply BitVec.eq_of_toNat_eq
    simp [Nat.shiftRight_eq_div_pow]

theorem unpack_pack (v : BitVec 32) : unpackFloat (packFloat v) = v := by
  apply BitVec.eq_of_getLsbD_eq
  intro i hi
  have h8 : i < 8 ∨ (8 ≤ i ∧ i < 16) ∨ (16 ≤ i ∧ i < 24) ∨ (24 ≤ i ∧ i < 32) := by omega
  simp only [unpackFloat, packFloat, BitVec.getLsbD_append, BitVec.getLsbD_extractLsb']
  rcases h8 with h | ⟨h1, h2⟩ | ⟨h1, h2⟩ | ⟨h1, h2⟩
  · simp [h]
  · simp [show ¬i < 8 by omega, show i - 8 < 8 by omega, show 8 + (i - 8) = i by omega]
  · simp [show ¬i < 8 by omega, show ¬i - 8 < 8 by omega, show i - 8 - 8 < 8 by omega, show 16 + (i - 8 - 8) = i by omega]
  · simp [show ¬i < 8 by omega, show ¬i - 8 < 8 by omega, show ¬i - 8 - 8 < 8 by omega,
      show i - 8 - 8 - 8 < 8 by omega, show 24 + (i - 8 - 8 - 8) = i by omega]

theorem regBytes_length (v : BitVec 32) : (regBytes v).length = 4 := rfl

theorem flatMap_length (vs : List (BitVec 32)) : (vs.flatMap regBytes).length = 4 * vs.length := by
  induction vs with
  | nil => rfl
  | cons v vs ih => simp [ih, regBytes_length]; omega

theorem flatMap_get (vs : List (BitVec 32)) (j i : Nat) (hi : i < 4) :
    (vs.flatMap regBytes)[4 * j + i]? = (vs[j]?).bind fun v => (regBytes v)[i]? := by
  induction vs generalizing j with
  | nil => rfl
  | cons v vs ih =>
    rw [List.flatMap_cons]
    cases j with
    | zero => rw [List.getElem?_append_left (by rw [regBytes_length]; omega)]; simp
    | succ j =>
      rw [List.getElem?_append_right (by rw [regBytes_length]; omega), regBytes_length,
        show 4 * (j + 1) + i - 4 = 4 * j + i by omega, ih]
      simp

/-- The bytes of value `j` in the message. -/
theorem msg_get (unit : Byte) (addr n : BitVec 16) (vs : List (BitVec 32)) (j : Nat) (v : BitVec 32) (h : vs[j]? = some v) :
    get (Tcp.zeros (writeMsg unit addr n (vs.flatMap regBytes))) (7 + 2 * (2 * j)) 4 = regBytes v := by
  have hq : ∀ i < 4, Tcp.zeros (writeMsg unit addr n (vs.flatMap regBytes)) (7 + 2 * (2 * j) + i) = (regBytes v).getD i 0 := by
    intro i hi
    unfold Tcp.zeros writeMsg
    rw [List.getD_eq_getElem?_getD, List.getElem?_append_right (by simp [head]; omega)]
    have : 7 + 2 * (2 * j) + i - (head unit 16 addr n ++ [BitVec.ofNat 8 (vs.flatMap regBytes).length]).length = 4 * j + i := by
      simp [head]; omega
    rw [this, flatMap_get vs j i hi, h]
    simp
  unfold Tcp.get
  have e : List.range 4 = [0, 1, 2, 3] := rfl
  rw [e]
  simp only [List.map_cons, List.map_nil]
  rw [hq 0 (by omega), hq 1 (by omega), hq 2 (by omega), hq 3 (by omega)]
  rfl

/-- The parameters of the line after the first `m` floats of the memory. -/
theorem writeRegs_go (ls : List Par) (k addr : Nat) (b : Buf) (p : Par) (hk : ls[k]? = some p) (m : Nat) :
    ∃ q, (List.range m).foldl (writeOne k addr b) ls = ls.set k q ∧ q.vals.length = p.vals.length ∧
      (∀ (i : Nat), i < p.vals.length → q.vals[i]? = if addr / 2 ≤ i + 1 ∧ i + 1 < addr / 2 + m
        then some (unpackFloat (get b (7 + 4 * (i + 1 - addr / 2)) 4)) else p.vals[i]?) ∧
      q.stub = if addr / 2 = 0 ∧ 0 < m then unpackFloat (get b 7 4) else p.stub := by
  have hkl : k < ls.length := by
    have := List.getElem?_eq_some_iff.mp hk
    exact this.1
  induction m with
  | zero =>
    refine ⟨p, ?_, rfl, ?_, ?_⟩
    · simp only [List.range_zero, List.foldl_nil]
      apply List.ext_getElem?
      intro i
      rw [List.getElem?_set]
      split
      · rename_i h; subst h; rw [hk]
      · rfl
    · intro i hi; rw [if_neg (by omega)]
    · rw [if_neg (by omega)]
  | succ m ih =>
    obtain ⟨q, h1, h2, h3, h4⟩ := ih
    rw [List.range_succ, List.foldl_append, h1, List.foldl_cons, List.foldl_nil, writeOne, List.getElem?_set_self hkl, half]
    dsimp only
    by_cases hle : addr / 2 + m ≤ q.vals.length
    · rw [if_pos hle, List.set_set]
      refine ⟨_, rfl, ?_⟩
      unfold Par.set
      by_cases h0 : 0 < addr / 2 + m
      · rw [if_pos ⟨hle, h0⟩]
        refine ⟨by simp [h2], ?_, ?_⟩
        · intro i hi
          rw [List.getElem?_set]
          by_cases he : addr / 2 + m - 1 = i
          · rw [if_pos he, if_pos (by omega), if_pos (by omega)]
            rw [show 2 * (2 * m) = 4 * (i + 1 - addr / 2) by omega]
          · rw [if_neg he, h3 i hi]
            by_cases hc : addr / 2 ≤ i + 1 ∧ i + 1 < addr / 2 + m
            · rw [if_pos hc, if_pos (by omega)]
            · rw [if_neg hc, if_neg (by omega)]
        · rw [h4]
          by_cases hc : addr / 2 = 0
          · rw [if_pos (by omega), if_pos (by omega)]
          · rw [if_neg (by omega), if_neg (by omega)]
      · rw [if_neg (by omega)]
        have hm : m = 0 := by omega
        subst hm
        refine ⟨h2, ?_, ?_⟩
        · intro i hi
          rw [h3 i hi, if_neg (by omega), if_neg (by omega)]
        · rw [if_pos (by omega)]
    · rw [if_neg hle]
      refine ⟨q, rfl, h2, ?_, ?_⟩
      · intro i hi
        rw [h3 i hi]
        by_cases hc : addr / 2 ≤ i + 1 ∧ i + 1 < addr / 2 + m
        · rw [if_pos hc, if_pos (by omega)]
        · rw [if_neg hc, if_neg (by omega)]
      · rw [h4]
        by_cases hc : addr / 2 = 0 ∧ 0 < m
        · rw [if_pos hc, if_pos (by omega)]
        · rw [if_neg hc, if_neg]
          intro hx
          have : m = 0 := by omega
          omega

theorem assigned_length (old : List (BitVec 32)) (a : Nat) (vs : List (BitVec 32)) : (assigned old a vs).length = old.length := by
  simp [assigned]

theorem assigned_get (old : List (BitVec 32)) (a : Nat) (vs : List (BitVec 32)) (i : Nat) (hi : i < old.length) :
    (assigned old a vs)[i]? = if a ≤ i + 1 ∧ i + 1 < a + vs.length then vs[i + 1 - a]? else old[i]? := by
  unfold assigned
  rw [List.getElem?_mapIdx]
  have ho := List.getElem?_eq_getElem hi
  rw [ho, Option.map_some]
  by_cases h1 : a ≤ i + 1
  · rw [if_pos h1]
    by_cases h2 : i + 1 < a + vs.length
    · rw [if_pos ⟨h1, h2⟩]
      have : i + 1 - a < vs.length := by omega
      simp [List.getD_eq_getElem?_getD, this]
    · rw [if_neg (by omega), List.getD_eq_getElem?_getD, List.getElem?_eq_none (by omega)]; rfl
  · rw [if_neg h1, if_neg (by omega)]

theorem unpack_reg (v : BitVec 32) : unpackFloat (regBytes v) = v := by rw [← regBytes_pack, unpack_pack]

theorem unit_toNat (k : Nat) (hk : k < 9) : (BitVec.ofNat 8 (103 + k)).toNat = 103 + k := by
  simp; omega

theorem write_assigned (ls : List Par) (k : Nat) (p : Par) (hk : ls[k]? = some p) (addr n : BitVec 16) (unit : Byte)
    (vs : List (BitVec 32)) (hn : n.toNat = 2 * vs.length) :
    writeRegs ls k addr.toNat n.toNat (Tcp.zeros (writeMsg unit addr n (vs.flatMap regBytes))) =
      ls.set k { vals := assigned p.vals (addr.toNat / 2) vs,
                 stub := if addr.toNat / 2 = 0 then vs.headD p.stub else p.stub } := by
  unfold writeRegs
  rw [show (n.toNat + 1) / 2 = vs.length by omega]
  obtain ⟨q, h1, h2, h3, h4⟩ := writeRegs_go ls k addr.toNat (Tcp.zeros (writeMsg unit addr n (vs.flatMap regBytes))) p hk vs.length
  rw [h1]
  congr 1
  have hv : q.vals = assigned p.vals (addr.toNat / 2) vs := by
    apply List.ext_getElem?
    intro i
    by_cases hi : i < p.vals.length
    · rw [h3 i hi, assigned_get _ _ _ _ hi]
      by_cases hc : addr.toNat / 2 ≤ i + 1 ∧ i + 1 < addr.toNat / 2 + vs.length
      · rw [if_pos hc, if_pos hc]
        have hx := List.getElem?_eq_getElem (l := vs) (i := i + 1 - addr.toNat / 2) (by omega)
        rw [hx, show 4 * (i + 1 - addr.toNat / 2) = 2 * (2 * (i + 1 - addr.toNat / 2)) by omega, msg_get _ _ _ _ _ _ hx,
          unpack_reg]
      · rw [if_neg hc, if_neg hc]
    · rw [List.getElem?_eq_none (by omega), List.getElem?_eq_none (by rw [assigned_length]; omega)]
  have hs : q.stub = if addr.toNat / 2 = 0 then vs.headD p.stub else p.stub := by
    rw [h4]
    cases vs with
    | nil => simp
    | cons v vs =>
      by_cases hc : addr.toNat / 2 = 0
      · rw [if_pos ⟨hc, by simp⟩, if_pos hc]
        have := msg_get unit addr n (v :: vs) 0 v rfl
        rw [show 7 + 2 * (2 * 0) = 7 by omega] at this
        rw [this, unpack_reg]
        rfl
      · rw [if_neg (by omega), if_neg hc]
  cases q
  simp only at hv hs
  rw [hv, hs]

/-- The bytes of the answer with registers. -/
theorem readRegs_go (ls : List Par) (k addr : Nat) (p : Par) (hk : ls[k]? = some p) (b : Buf) (m : Nat) :
    let r := (List.range m).foldl (readOne ls k addr) b
    (∀ i < 3, r i = b i) ∧ ∀ j < m, ∀ i < 4, r (3 + 4 * j + i) = (regBytes (p.get (addr / 2 + j))).getD i 0 := by
  induction m with
  | zero => exact ⟨fun i _ => rfl, fun j hj => absurd hj (by omega)⟩
  | succ m ih =>
    dsimp only at ih ⊢
    rw [List.range_succ, List.foldl_append, List.foldl_cons, List.foldl_nil, readOne, hk]
    dsimp only
    rw [half, regBytes_pack]
    refine ⟨?_, ?_⟩
    · intro i hi
      rw [Tcp.put_out _ _ _ _ (by omega), ih.1 i hi]
    · intro j hj i hi
      by_cases he : j = m
      · subst he
        rw [Tcp.put_in _ _ _ _ (by omega) (by rw [regBytes_length]; omega), show 3 + 4 * j + i - (3 + 2 * (2 * j)) = i by omega]
      · rw [Tcp.put_out _ _ _ _ (by omega), ih.2 j (by omega) i hi]

theorem readCoils_go (ls : List Par) (k addr : Nat) (p : Par) (hk : ls[k]? = some p) (b : Buf) (n : Nat) :
    let r := (List.range n).foldl (coilOne ls k addr) b
    (∀ i < 3, r i = b i) ∧ ∀ i, (r (3 + i / 8)).getLsbD (i % 8) =
      if i < n then nonzero (p.get (pred32 (addr + i))) else (b (3 + i / 8)).getLsbD (i % 8) := by
  induction n with
  | zero => exact ⟨fun i _ => rfl, fun i => by simp⟩
  | succ m ih =>
    dsimp only at ih ⊢
    rw [List.range_succ, List.foldl_append, List.foldl_cons, List.foldl_nil, coilOne, hk]
    dsimp only
    refine ⟨?_, ?_⟩
    · intro i hi
      rw [Modbus.forceBit_low _ _ _ _ _ hi, ih.1 i hi]
    · intro i
      rw [Modbus.forceBit_bit, ih.2 i]
      by_cases he : i = m
      · subst he; rw [if_pos rfl, if_pos (by omega)]
      · rw [if_neg he]
        by_cases hl : i < m
        · rw [if_pos hl, if_pos (by omega)]
        · rw [if_neg hl, if_neg (by omega)]

/-! ### Recipes -/

theorem used_eq (m : List Byte) (hm : m.length = 12800) (j : Nat) (hj : j < 25) : used m j = some (marked m j) := by
  unfold used CipRec.getValue
  rw [show CipRec.startAddr (j : Int) + CipRec.parOffset + 4 * (0 : Int) = ((512 * j + 32 + 4 * 0 : Nat) : Int) from by
      simp only [CipRec.startAddr, CipRec.parOffset, CipRec.recLen]; push_cast; omega,
    CipRec.rd_eq _ _ _ (by omega), Option.map_some, Option.map_some]
  congr 1
  have hs : CipRec.seg m (512 * j + 32 + 4 * 0) 4 = (List.range 4).map fun i => m.getD (512 * j + 32 + i) 0 := by
    apply List.ext_getElem?
    intro i
    rw [CipRec.seg_get]
    by_cases hi : i < 4
    · rw [if_pos hi, List.getElem?_map, List.getElem?_range hi, Option.map_some, List.getD_eq_getElem?_getD,
        List.getElem?_eq_getElem (by omega)]
      rfl
    · rw [if_neg hi, List.getElem?_eq_none (by simp; omega)]
  rw [hs, marked]
  generalize hw : (List.range 4).map (fun i => m.getD (512 * j + 32 + i) 0) = l
  have hl : l.length = 4 := by rw [← hw]; simp
  match l, hl with
  | [a, b, c, d], _ =>
    generalize hX : CipRec.word4 [a, b, c, d] = X
    have hX' : X = d ++ c ++ b ++ a := by rw [← hX]; rfl
    have inj : ∀ (x y : BitVec 32), CipRec.bytes4 x = CipRec.bytes4 y → x = y := by
      intro x y h
      have h1 := congrArg CipRec.word4 h
      rwa [CipRec.word_bytes, CipRec.word_bytes] at h1
    have hbw : CipRec.bytes4 X = [a, b, c, d] := by
      rw [hX']
      unfold CipRec.bytes4
      simp only [List.cons.injEq, and_true]
      refine ⟨?_, ?_, ?_, ?_⟩ <;>
      · apply BitVec.eq_of_getLsbD_eq
        intro i hi
        simp only [BitVec.getLsbD_extractLsb', BitVec.getLsbD_append]
        simp [hi, show ¬ 8 + i < 8 by omega, show ¬ 16 + i < 8 by omega, show ¬ 24 + i < 8 by omega,
          show ¬ 16 + i - 8 < 8 by omega, show ¬ 24 + i - 8 < 8 by omega, show ¬ 24 + i - 8 - 8 < 8 by omega,
          show 16 + i - 8 - 8 = i by omega, show 24 + i - 8 - 8 - 8 = i by omega]
    clear hX hX'
    by_cases hff : X = (0xFFFFFFFF : BitVec 32)
    · rw [if_pos hff]
      have := hbw
      rw [hff] at this
      have e : CipRec.bytes4 0xFFFFFFFF = [0xFF, 0xFF, 0xFF, 0xFF] := by decide
      rw [e] at this
      simp only [List.cons.injEq, and_true] at this
      obtain ⟨r1, r2, r3, r4⟩ := this
      rw [← r1, ← r2, ← r3, ← r4]
      decide
    · rw [if_neg hff]
      by_cases h1 : X = (0x3F800000 : BitVec 32)
      · have := hbw
        rw [h1] at this
        rw [h1, ← this]
        decide
      · have hb1 : (X == 0x3F800000) = false := by simpa using h1
        rw [hb1]
        symm
        have hne : ([a, b, c, d] : List Byte) ≠ [0, 0, 0x80, 0x3F] := by
          intro hx
          apply h1
          apply inj
          rw [hbw, hx]
          decide
        simpa using hne

/-- The recipes in use from `j` on, `f` of them. -/
def inUseFrom (m : List Byte) (j f : Nat) : List Nat := (List.range' j f).filter (marked m)

theorem inUse_eq (m : List Byte) : inUse m = inUseFrom m 0 25 := by
  unfold inUse inUseFrom
  rw [List.range_eq_range']

theorem inUseFrom_succ (m : List Byte) (j f : Nat) :
    inUseFrom m j (f + 1) = if marked m j then j :: inUseFrom m (j + 1) f else inUseFrom m (j + 1) f := by
  unfold inUseFrom
  rw [List.range'_succ, List.filter_cons]

theorem selLoop_idle (m : List Byte) (hm : m.length = 12800) (want : Int) (f j : Nat) (k : Int) (hf : j + f ≤ 25) (hk : k < want) :
    selLoop m want true f j k = some (((inUseFrom m j f)[(want - k - 1).toNat]?).map (· + 1)) := by
  induction f generalizing j k with
  | zero => simp [selLoop, inUseFrom]
  | succ f ih =>
    rw [selLoop, used_eq m hm j (by omega), Option.bind_some, inUseFrom_succ]
    dsimp only
    cases hmk : marked m j
    · simp only [Bool.false_eq_true, if_false]
      rw [if_neg (by omega), ih (j + 1) k (by omega) hk]
    · simp only [if_true]
      by_cases he : k + 1 = want
      · rw [if_pos ⟨he, trivial⟩, show (want - k - 1).toNat = 0 by omega]
        rfl
      · rw [if_neg (by omega), ih (j + 1) (k + 1) (by omega) (by omega),
          show (want - k - 1).toNat = (want - (k + 1) - 1).toNat + 1 by omega]
        simp

theorem selLoop_busy (m : List Byte) (hm : m.length = 12800) (want : Int) (f j : Nat) (k : Int) (hf : j + f ≤ 25) :
    selLoop m want false f j k = some none := by
  induction f generalizing j k with
  | zero => rfl
  | succ f ih =>
    rw [selLoop, used_eq m hm j (by omega), Option.bind_some]
    dsimp only
    rw [if_neg (by simp), ih _ _ (by omega)]

theorem selLoop_past (m : List Byte) (hm : m.length = 12800) (want : Int) (b : Bool) (f j : Nat) (k : Int) (hf : j + f ≤ 25)
    (hk : want < k) : selLoop m want b f j k = some none := by
  induction f generalizing j k with
  | zero => rfl
  | succ f ih =>
    rw [selLoop, used_eq m hm j (by omega), Option.bind_some]
    dsimp only
    have : want < if marked m j = true then k + 1 else k := by split <;> omega
    rw [if_neg (by omega), ih _ _ (by omega) this]

theorem rowLoop_eq (m : List Byte) (hm : m.length = 12800) (row : Int) (f j : Nat) (k : Int) (hf : j + f ≤ 25) (hk : k < row) :
    rowLoop m row f j k = match (inUseFrom m j f)[(row - k - 1).toNat]? with
      | none => some none
      | some r => (CipRec.readName m r).map some := by
  induction f generalizing j k with
  | zero => simp [rowLoop, inUseFrom]
  | succ f ih =>
    rw [rowLoop, used_eq m hm j (by omega), Option.bind_some, inUseFrom_succ]
    dsimp only
    cases hmk : marked m j
    · simp only [Bool.false_eq_true, if_false]
      rw [if_neg (by omega), ih (j + 1) k (by omega) hk]
    · simp only [if_true]
      by_cases he : k + 1 = row
      · rw [if_pos he, show (row - k - 1).toNat = 0 by omega]
        rfl
      · rw [if_neg he, ih (j + 1) (k + 1) (by omega) (by omega),
          show (row - k - 1).toNat = (row - (k + 1) - 1).toNat + 1 by omega]
        simp

theorem listLength_go (m : List Byte) (hm : m.length = 12800) (f : Nat) (hf : f ≤ 25) :
    (List.range f).foldl (fun c j => c.bind fun c => (used m j).map fun u => if u then c + 1 else c) (some 0) =
      some ((List.range f).filter (marked m)).length := by
  induction f with
  | zero => rfl
  | succ f ih =>
    rw [List.range_succ, List.foldl_append, ih (by omega), List.foldl_cons, List.foldl_nil, Option.bind_some,
      used_eq m hm f (by omega), Option.map_some, List.filter_append, List.length_append]
    cases hmf : marked m f <;> simp [hmf]

/-! ### Flags -/

theorem flags_inv (lines : Nat) (hl : lines ≤ 10) (h : List Ev) (hs : ∀ e ∈ h, Sane lines e) (l : Nat) (h1 : 1 ≤ l) (h2 : l ≤ lines) :
    let s := h.foldl step {}
    s.flag l = decide (confirmed l h.reverse < 10) ∧ s.ctr l = confirmed l h.reverse % 10 := by
  have key : ∀ g : List Ev, (∀ e ∈ g, Sane lines e) →
      (g.foldr (fun e s => step s e) {}).flag l = decide (confirmed l g < 10) ∧
      (g.foldr (fun e s => step s e) {}).ctr l = confirmed l g % 10 := by
    intro g
    induction g with
    | nil => intro _; exact ⟨rfl, rfl⟩
    | cons e g ih =>
      intro hg
      obtain ⟨i1, i2⟩ := ih fun e he => hg e (by simp [he])
      rw [List.foldr_cons]
      generalize hS : g.foldr (fun e s => step s e) {} = s at i1 i2
      have up : raises l e = true → confirmed l (e :: g) = 0 := by
        intro hr
        simp [confirmed, List.takeWhile_cons, hr]
      have down : raises l e = false → confirmed l (e :: g) = confirmed l g + (if confirms l e then 1 else 0) := by
        intro hr
        unfold confirmed
        rw [List.takeWhile_cons, hr]
        simp [List.countP_cons]
      cases e with
      | panel k v =>
        by_cases hkl : k = l
        · subst hkl
          by_cases hv : v = 0
          · have hd := down (by simp [raises, hv])
            simp only [confirms, hv] at hd
            simp only [step, hv]
            rw [if_neg (by simp)]
            rw [hd]
            simp only [BEq.rfl, Bool.and_self, if_true]
            split
            · rename_i hc
              simp only [upd, if_true]
              rw [i2] at hc
              constructor
              · rw [eq_comm, decide_eq_false_iff_not]; omega
              · omega
            · rename_i hc
              simp only [upd, if_true]
              rw [i2] at hc ⊢
              rw [i1]
              constructor
              · rw [decide_eq_decide]; omega
              · omega
          · have hu := up (by simp only [raises, BEq.rfl, Bool.true_and, bne_iff_ne]; exact hv)
            rw [hu]
            simp only [step, if_pos (show v ≠ 0 from hv), upd, if_true]
            simp
        · have hr : raises l (.panel k v) = false := by simp [raises, hkl]
          have hd := down hr
          have hc : confirms l (.panel k v) = false := by simp [confirms, hkl]
          rw [hc] at hd
          simp only [Bool.false_eq_true, if_false, Nat.add_zero] at hd
          rw [hd]
          have hne : ¬ l = k := fun h => hkl h.symm
          simp only [step]
          split
          · simp only [upd, if_neg hne]; exact ⟨i1, i2⟩
          · split
            · simp only [upd, if_neg hne]; exact ⟨i1, i2⟩
            · simp only [upd, if_neg hne]; exact ⟨i1, i2⟩
      | all =>
        rw [up rfl]
        simp only [step]
        rw [if_pos (by omega), if_pos (by omega)]
        simp
      | line k =>
        by_cases hkl : k = (l : Int)
        · rw [up (by simp [raises, hkl])]
          simp only [step]
          rw [if_pos (by omega)]
          simp only [upd]
          rw [if_pos (by omega), if_pos (by omega)]
          simp
        · have hd := down (by simp [raises, hkl])
          simp only [confirms, Bool.false_eq_true, if_false, Nat.add_zero] at hd
          rw [hd]
          simp only [step]
          split
          · simp only [upd]
            rw [if_neg (by omega), if_neg (by omega)]
            exact ⟨i1, i2⟩
          · exact ⟨i1, i2⟩
  have := key h.reverse (fun e he => hs e (by simpa using he))
  rw [List.foldr_reverse] at this
  exact this

end Ptusa.Panel
