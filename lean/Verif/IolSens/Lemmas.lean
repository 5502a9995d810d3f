import Verif.IolSens.Spec
import Mathlib.Tactic.NormNum
import Mathlib.Tactic.FieldSimp
import Mathlib.Tactic.Ring

namespace Ptusa.IolSens

theorem append_toNat {n k : Nat} (a : BitVec n) (b : BitVec k) : (a ++ b).toNat = a.toNat * 2 ^ k + b.toNat := by
  rw [BitVec.toNat_append, ← Nat.shiftLeft_add_eq_or_of_lt b.isLt, Nat.shiftLeft_eq]

theorem word_toNat (lo hi : Byte) : (word lo hi).toNat = be16 hi lo := by
  unfold word be16
  rw [append_toNat]
  omega

theorem dword_toNat (a b c d : Byte) : (dword d c b a).toNat = be32 a b c d := by
  unfold dword be32
  rw [append_toNat, append_toNat, append_toNat]
  omega

theorem toInt_signed {n : Nat} (x : BitVec n) : x.toInt = signed n x.toNat := by
  unfold signed
  rw [BitVec.toInt_eq_toNat_cond]
  push_cast
  rfl

theorem field_toNat (w : BitVec 16) (s k : Nat) : (w.extractLsb' s k).toNat = w.toNat / 2 ^ s % 2 ^ k := by
  rw [BitVec.extractLsb'_toNat, Nat.shiftRight_eq_div_pow]

theorem run_append {σ : Type} (f : Img → Img × σ) (s : Img × σ) (h k : List Ev) :
    run f s (h ++ k) = run f (run f s h) k := by
  induction h generalizing s with
  | nil => rfl
  | cons e h ih => cases e <;> exact ih _

theorem run_recv {σ : Type} (f : Img → Img × σ) (s : Img × σ) (h : List Ev) (d : Img) (n : Nat) :
    run f s (h ++ .recv d :: List.replicate (n + 1) .eval) =
      run f (f d) (List.replicate n .eval) := by
  rw [run_append]
  rfl

/-- A device that leaves the image alone. -/
theorem run_pure {σ : Type} (f : Img → Img × σ) (hf : ∀ m, (f m).1 = m) (n : Nat) (d : Img) :
    run f (f d) (List.replicate n .eval) = f d := by
  induction n with
  | zero => rfl
  | succ n ih =>
    rw [List.replicate_succ]
    show run f (f (f d).1) _ = _
    rw [hf d]
    exact ih

/-- The image with the bytes of two words exchanged. -/
def flip (d : Img) : Img := (d.swap 0 1).swap 2 3

theorem flip_flip (d : Img) : flip (flip d) = d := by
  funext k
  unfold flip Img.swap
  by_cases h0 : k = 0
  · subst h0; simp
  · by_cases h1 : k = 1
    · subst h1; simp
    · by_cases h2 : k = 2
      · subst h2; simp
      · by_cases h3 : k = 3
        · subst h3; simp
        · simp [h0, h1, h2, h3]

theorem be16_lt (a b : Byte) : be16 a b < 65536 := by
  unfold be16; omega

theorem short_eq (a : PArticle) (ha : a.short = true) (d : Img) :
    pressureEval a d = (d, ⟨.num (a.measured d), a.status d⟩) := by
  have key : ∀ q : Rat, a.alfa = q → a.bar = q → (⟨Fl.num (a.alfa *
      ((word (d 1) (d 0)).extractLsb' 2 14).toInt), 0⟩ : Reading) = ⟨.num (a.measured d), a.status d⟩ := by
    intro q h1 h2
    have hs : a.status d = 0 := by cases a <;> first | rfl | simp [PArticle.short] at ha
    rw [hs, PArticle.measured, if_pos ha, h1, h2, toInt_signed, field_toNat, word_toNat]
    have := be16_lt (d 0) (d 1)
    rw [Nat.mod_eq_of_lt (by omega)]
    rfl
  cases a with
  | pi2715 => exact Prod.ext rfl (key (1 / 1000) rfl (by norm_num [PArticle.bar]))
  | pi2794 => exact Prod.ext rfl (key (1 / 100) rfl (by norm_num [PArticle.bar]))
  | pi2797 => exact Prod.ext rfl (key (1 / 1000) rfl (by norm_num [PArticle.bar]))
  | fes8001446 => exact Prod.ext rfl (key (610388818 / 1000000000000) rfl (by norm_num [PArticle.bar]))
  | _ => simp [PArticle.short] at ha

theorem long_eq (a : PArticle) (ha : a.long = true) (d : Img) :
    pressureEval a d = (flip d, ⟨.num (a.measured d), a.status d⟩) := by
  have key : ∀ q : Rat, a.alfa = q → a.bar = q → (⟨Fl.num (a.alfa *
      (word (flip d 0) (flip d 1)).toInt), ((word (flip d 2) (flip d 3)).extractLsb' 4 4).toNat⟩ : Reading) =
        ⟨.num (a.measured d), a.status d⟩ := by
    intro q h1 h2
    have hns : a.short = false := by cases a <;> first | rfl | simp [PArticle.long] at ha
    have f0 : flip d 0 = d 1 := rfl
    have f1 : flip d 1 = d 0 := rfl
    have f2 : flip d 2 = d 3 := rfl
    have f3 : flip d 3 = d 2 := rfl
    rw [f0, f1, f2, f3, PArticle.measured, PArticle.status, if_pos ha, if_neg (by rw [hns]; simp),
      if_pos ha, h1, h2, toInt_signed, word_toNat, field_toNat, word_toNat]
    congr 1
    have h3 : (be16 (d 2) (d 3)) / 2 ^ 4 % 2 ^ 4 = (d 3).toNat / 16 := by
      unfold be16
      have := (d 3).isLt
      omega
    rw [h3]
  cases a with
  | pm1704 => exact Prod.ext rfl (key (1 / 1000) rfl (by norm_num [PArticle.bar]))
  | pm1705 => exact Prod.ext rfl (key (1 / 1000) rfl (by norm_num [PArticle.bar]))
  | pm1706 => exact Prod.ext rfl (key (1 / 10000) rfl (by norm_num [PArticle.bar]))
  | pm1707 => exact Prod.ext rfl (key (1 / 10000) rfl (by norm_num [PArticle.bar]))
  | pm1708 => exact Prod.ext rfl (key (1 / 100000) rfl (by norm_num [PArticle.bar]))
  | pm1709 => exact Prod.ext rfl (key (1 / 10000) rfl (by norm_num [PArticle.bar]))
  | pm1715 => exact Prod.ext rfl (key (1 / 1000) rfl (by norm_num [PArticle.bar]))
  | _ => simp [PArticle.long] at ha

/-- Evaluating a long sensor several times. -/
theorem long_run (a : PArticle) (ha : a.long = true) (n : Nat) (d : Img) :
    run (pressureEval a) (pressureEval a d) (List.replicate n .eval) =
      if n % 2 = 0 then pressureEval a d else pressureEval a (flip d) := by
  induction n generalizing d with
  | zero => rfl
  | succ n ih =>
    rw [List.replicate_succ]
    show run _ (pressureEval a (pressureEval a d).1) _ = _
    rw [long_eq a ha d]
    show run _ (pressureEval a (flip d)) _ = _
    rw [ih, flip_flip, long_eq a ha d]
    by_cases h : n % 2 = 0
    · rw [if_pos h, if_neg (by omega)]
    · rw [if_neg h, if_pos (by omega)]

end Ptusa.IolSens
