import Verif.PanCtl.Spec

namespace Ptusa.PanCtl
open Tcp (Byte Buf put)
open Modbus (packInt16 packFloat)

theorem put_below (b : Buf) (off : Nat) (l : List Byte) (j : Nat) (h : j < off) : put b off l j = b j := by
  unfold put
  exact if_neg (fun x => by omega)

theorem readOne_below (ls : List Line) (msa : Int) (start : Nat) (b : Buf) (i j : Nat) (h : j < 3 + i * 2) :
    (readOne ls msa start b i).1 j = b j ∧ 1 ≤ (readOne ls msa start b i).2 := by
  unfold readOne
  simp only
  split
  · exact ⟨rfl, Nat.le_refl _⟩
  · split
    · exact ⟨put_below _ _ _ _ h, Nat.le_refl _⟩
    · exact ⟨put_below _ _ _ _ h, Nat.le_refl _⟩
    · exact ⟨put_below _ _ _ _ h, by show 1 ≤ 2; omega⟩
    · exact ⟨put_below _ _ _ _ h, Nat.le_refl _⟩
    · exact ⟨rfl, Nat.le_refl _⟩

theorem readLoop_below (ls : List Line) (msa : Int) (start n f : Nat) (i : Nat) (b : Buf) (j : Nat) (h : j < 3 + i * 2) :
    readLoop ls msa start n f i b j = b j := by
  induction f generalizing i b with
  | zero => rfl
  | succ f ih =>
    unfold readLoop
    by_cases c : i < n
    · rw [if_pos c]
      obtain ⟨e1, e2⟩ := readOne_below ls msa start b i j h
      show readLoop ls msa start n f (i + (readOne ls msa start b i).2) (readOne ls msa start b i).1 j = _
      rw [ih _ _ (by omega), e1]
    · rw [if_neg c]

/-- How far one pass goes. -/
theorem readOne_step (ls : List Line) (msa : Int) (start : Nat) (b : Buf) (i : Nat) :
    (readOne ls msa start b i).2 = 1 ∨ (readOne ls msa start b i).2 = 2 ∧ (i + start) % 100 = 3 := by
  unfold readOne
  simp only
  split
  · exact Or.inl rfl
  · split
    · exact Or.inl rfl
    · exact Or.inl rfl
    · next h => exact Or.inr ⟨rfl, h⟩
    · exact Or.inl rfl
    · exact Or.inl rfl

/-- The loop comes to each register that is not behind a temperature. -/
theorem readLoop_at (ls : List Line) (msa : Int) (start n t : Nat) (ht : t < n) (hs : (t + start) % 100 ≠ 4) (f : Nat) (i : Nat) (b : Buf)
    (hi : i ≤ t) (hf : n ≤ f + i) :
    ∃ c : Buf, ∃ g, readLoop ls msa start n f i b = readLoop ls msa start n g (t + (readOne ls msa start c t).2) (readOne ls msa start c t).1 := by
  induction f generalizing i b with
  | zero => omega
  | succ f ih =>
    have e : readLoop ls msa start n (f + 1) i b = readLoop ls msa start n f (i + (readOne ls msa start b i).2) (readOne ls msa start b i).1 := by
      rw [readLoop]
      exact if_pos (by omega)
    by_cases c : i = t
    · subst c
      exact ⟨b, f, e⟩
    · rw [e]
      have := readOne_step ls msa start b i
      refine ih _ _ ?_ ?_
      · rcases this with h | ⟨h, hm⟩
        · omega
        · by_cases q : i + 1 = t
          · omega
          · omega
      · rcases this with h | ⟨h, hm⟩ <;> omega

/-- The bytes of the register are those of its own pass. -/
theorem read_at (ls : List Line) (msa : Int) (start n t : Nat) (ht : t < n) (hs : (t + start) % 100 ≠ 4) (b : Buf) :
    ∃ c : Buf, ∀ j, j < 3 + (t + (readOne ls msa start c t).2) * 2 → read ls msa start n b j = (readOne ls msa start c t).1 j := by
  obtain ⟨c, g, e⟩ := readLoop_at ls msa start n t ht hs n 0 b (by omega) (by omega)
  refine ⟨c, fun j hj => ?_⟩
  unfold read
  rw [e]
  exact readLoop_below _ _ _ _ _ _ _ _ hj

theorem put_at (b : Buf) (off : Nat) (l : List Byte) (k : Nat) (h : k < l.length) : put b off l (off + k) = l.getD k 0 := by
  unfold put
  rw [if_pos ⟨by omega, by omega⟩, Nat.add_sub_cancel_left]

theorem pack_append (v : BitVec 16) : (v.extractLsb' 8 8 ++ v.extractLsb' 0 8 : BitVec 16) = v := by
  apply BitVec.eq_of_toNat_eq
  rw [BitVec.toNat_append, BitVec.extractLsb'_toNat, BitVec.extractLsb'_toNat]
  have h := v.isLt
  rw [← Nat.shiftLeft_add_eq_or_of_lt (Nat.mod_lt _ (by omega)), Nat.shiftLeft_eq, Nat.shiftRight_eq_div_pow]
  omega

theorem pack_word (b : Buf) (t : Nat) (v : BitVec 16) : register (put b (3 + t * 2) (packInt16 v)) t = v.toInt := by
  unfold register
  have e1 : put b (3 + t * 2) (packInt16 v) (3 + 2 * t) = v.extractLsb' 8 8 := by
    have := put_at b (3 + t * 2) (packInt16 v) 0 (by simp [packInt16])
    rw [show 3 + 2 * t = 3 + t * 2 + 0 by omega, this]; rfl
  have e2 : put b (3 + t * 2) (packInt16 v) (4 + 2 * t) = v.extractLsb' 0 8 := by
    have := put_at b (3 + t * 2) (packInt16 v) 1 (by simp [packInt16])
    rw [show 4 + 2 * t = 3 + t * 2 + 1 by omega, this]; rfl
  rw [e1, e2, pack_append]

theorem pack_append4 (v : BitVec 32) :
    (v.extractLsb' 24 8 ++ v.extractLsb' 16 8 ++ v.extractLsb' 8 8 ++ v.extractLsb' 0 8 : BitVec 32) = v := by
  apply BitVec.eq_of_toNat_eq
  rw [BitVec.toNat_append, BitVec.toNat_append, BitVec.toNat_append]
  simp only [BitVec.extractLsb'_toNat]
  have h := v.isLt
  rw [← Nat.shiftLeft_add_eq_or_of_lt (Nat.mod_lt _ (by omega)), ← Nat.shiftLeft_add_eq_or_of_lt (Nat.mod_lt _ (by omega)),
    ← Nat.shiftLeft_add_eq_or_of_lt (Nat.mod_lt _ (by omega))]
  simp only [Nat.shiftLeft_eq, Nat.shiftRight_eq_div_pow]
  omega

theorem pack_float (b : Buf) (t : Nat) (v : BitVec 32) : registers (put b (3 + t * 2) (packFloat v)) t = v := by
  unfold registers
  have g : ∀ k, k < 4 → put b (3 + t * 2) (packFloat v) (3 + t * 2 + k) = (packFloat v).getD k 0 :=
    fun k hk => put_at b (3 + t * 2) (packFloat v) k (by simpa [packFloat] using hk)
  rw [show 5 + 2 * t = 3 + t * 2 + 2 by omega, show 6 + 2 * t = 3 + t * 2 + 3 by omega, show 3 + 2 * t = 3 + t * 2 + 0 by omega,
    show 4 + 2 * t = 3 + t * 2 + 1 by omega, g 0 (by omega), g 1 (by omega), g 2 (by omega), g 3 (by omega)]
  exact pack_append4 v

theorem register_congr {a b : Buf} {t : Nat} (h : ∀ j, j < 3 + (t + 1) * 2 → a j = b j) : register a t = register b t := by
  unfold register
  rw [h _ (by omega), h _ (by omega)]

theorem registers_congr {a b : Buf} {t : Nat} (h : ∀ j, j < 3 + (t + 2) * 2 → a j = b j) : registers a t = registers b t := by
  unfold registers
  rw [h _ (by omega), h _ (by omega), h _ (by omega), h _ (by omega)]

/-- A register of a line: where it is in the answer. -/
theorem idx {start t l k : Nat} (hk : k < 100) (h : start + t = 100 * l + k) : (t + start) / 100 = l ∧ (t + start) % 100 = k := by
  omega

theorem ofInt_toInt {v : Int} (h1 : -32768 ≤ v) (h2 : v < 32768) : (BitVec.ofInt 16 v).toInt = v := by
  rw [BitVec.toInt_ofInt]
  exact Int.bmod_eq_of_le (by omega) (by omega)

theorem setCommand_fst (l : Line) (c : Int) : (l.setCommand c).1 = { l with cmd := c } := by
  unfold Line.setCommand
  by_cases h : l.cmd = 0
  · rw [if_pos h]
  · rw [if_neg h]

/-- The value that one request writes to the register `r`. -/
def here (r start : Nat) (vs : List (BitVec 16)) : Option (BitVec 16) := if start ≤ r then vs[r - start]? else none

def given (L : Line) : Option (BitVec 16) → Line
  | some v => { L with cmd := v.toInt }
  | none => L

theorem writeOne_some {ls : List Line} {obj : Nat} (h : obj % 100 = 0 → obj / 100 < ls.length) (v : BitVec 16) :
    ∃ ls', writeOne ls obj v = some ls' ∧ ls'.length = ls.length ∧
      ∀ l, ls'[l]? = ls[l]?.map fun L => if obj = 100 * l then { L with cmd := v.toInt } else L := by
  unfold writeOne
  by_cases c : obj % 100 = 0
  · rw [if_pos c]
    have hl := h c
    rw [List.getElem?_eq_getElem hl]
    refine ⟨_, rfl, by simp, fun l => ?_⟩
    rw [List.getElem?_set, setCommand_fst]
    by_cases e : obj / 100 = l
    · rw [if_pos e, if_pos hl]
      subst e
      rw [List.getElem?_eq_getElem hl]
      simp only [Option.map_some]
      rw [if_pos (by omega)]
    · rw [if_neg e]
      cases ls[l]? with
      | none => rfl
      | some L => simp only [Option.map_some]; rw [if_neg (by omega)]
  · rw [if_neg c]
    refine ⟨_, rfl, rfl, fun l => ?_⟩
    cases ls[l]? with
    | none => rfl
    | some L => simp only [Option.map_some]; rw [if_neg (by omega)]

theorem write_some (vs : List (BitVec 16)) (ls : List Line) (start : Nat)
    (h : ∀ k, k < vs.length → (start + k) % 100 = 0 → (start + k) / 100 < ls.length) :
    ∃ ls', write ls start vs = some ls' ∧ ls'.length = ls.length ∧
      ∀ l, ls'[l]? = ls[l]?.map fun L => given L (here (100 * l) start vs) := by
  induction vs generalizing ls start with
  | nil =>
    refine ⟨ls, rfl, rfl, fun l => ?_⟩
    have : here (100 * l) start [] = none := by unfold here; split <;> rfl
    rw [this]
    cases ls[l]? <;> rfl
  | cons v vs ih =>
    obtain ⟨l1, e1, n1, g1⟩ := writeOne_some (ls := ls) (obj := start) (fun c => by simpa using h 0 (by simp) c) v
    obtain ⟨l2, e2, n2, g2⟩ := ih l1 (start + 1) (fun k hk c => by
      rw [n1]
      have := h (k + 1) (by simpa using hk)
      rw [show start + (k + 1) = start + 1 + k by omega] at this
      exact this c)
    refine ⟨l2, ?_, by rw [n2, n1], fun l => ?_⟩
    · show (writeOne ls start v).bind _ = _
      rw [e1]; exact e2
    · rw [g2 l, g1 l, Option.map_map]
      congr 1
      funext L
      show given (if start = 100 * l then { L with cmd := v.toInt } else L) (here (100 * l) (start + 1) vs) = _
      unfold here
      by_cases a : start = 100 * l
      · rw [if_pos a, if_neg (by omega), if_pos (by omega), show 100 * l - start = 0 by omega]
        rfl
      · rw [if_neg a]
        by_cases q : start + 1 ≤ 100 * l
        · rw [if_pos q, if_pos (by omega), show 100 * l - start = (100 * l - (start + 1)) + 1 by omega, List.getElem?_cons_succ]
        · rw [if_neg q, if_neg (by omega)]

end Ptusa.PanCtl
