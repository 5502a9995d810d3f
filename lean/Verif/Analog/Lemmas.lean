import Verif.Analog.Spec
import Mathlib.Tactic.Ring
import Mathlib.Tactic.FieldSimp
import Mathlib.Algebra.Order.Field.Basic

/-!
# Lemmas about analog channels
-/
namespace Ptusa.Analog

theorem factor_pos (m : OutModule) : 0 < m.factor := by cases m <;> norm_num [OutModule.factor]

theorem factor_full (m : OutModule) : m.factor * 16 = m.full := by
  cases m <;> norm_num [OutModule.factor, OutModule.full]

theorem limitMa_range (v : Rat) : 4 ≤ limitMa v ∧ limitMa v ≤ 20 := by
  unfold limitMa
  dsimp only
  split <;> split <;> constructor <;> linarith

theorem limitMa_mono (v w : Rat) (h : v ≤ w) : limitMa v ≤ limitMa w := by
  unfold limitMa
  dsimp only
  by_cases h1 : v < 4 <;> by_cases h2 : w < 4 <;> by_cases h3 : v > 20 <;> by_cases h4 : w > 20 <;>
    simp only [h1, h2, h3, h4, if_true, if_false] <;> norm_num <;> linarith

theorem limitMa_id (v : Rat) (h1 : 4 ≤ v) (h2 : v ≤ 20) : limitMa v = v := by
  unfold limitMa
  dsimp only
  rw [if_neg (show ¬ v < 4 by linarith), if_neg (by linarith)]

theorem setAO_eq (m : OutModule) (v min max ma : Rat) (h : toMa v min max = some ma) :
    setAO m (some v) min max = some ⌊m.factor * (limitMa ma - 4)⌋ := by
  simp [setAO, h]

/-- The request lies in the scale, which may be reversed. -/
theorem ratio_range (v min max : Rat) (hne : min ≠ max) (h : (min ≤ v ∧ v ≤ max) ∨ (max ≤ v ∧ v ≤ min)) :
    0 ≤ (v - min) / (max - min) ∧ (v - min) / (max - min) ≤ 1 := by
  rcases lt_or_gt_of_ne hne with hlt | hlt
  · have hpos : 0 < max - min := by linarith
    constructor
    · apply div_nonneg _ hpos.le
      rcases h with h | h <;> linarith
    · rw [div_le_one hpos]
      rcases h with h | h <;> linarith
  · have hneg : max - min < 0 := by linarith
    constructor
    · apply div_nonneg_of_nonpos _ hneg.le
      rcases h with h | h <;> linarith
    · rw [div_le_one_of_neg hneg]
      rcases h with h | h <;> linarith

theorem set_get (m : OutModule) (v min max : Rat) (hne : min ≠ max)
    (h : (min ≤ v ∧ v ≤ max) ∨ (max ≤ v ∧ v ≤ min)) :
    ∃ r : Int, setAO m (some v) min max = some r ∧ 0 ≤ r ∧
      (r : Rat) ≤ m.full * ((v - min) / (max - min)) ∧
      m.full * ((v - min) / (max - min)) < r + 1 := by
  have hne0 : min ≠ 0 ∨ max ≠ 0 := by
    by_contra hc
    rw [not_or, not_not, not_not] at hc
    exact hne (hc.1.trans hc.2.symm)
  have hd : max - min ≠ 0 := fun hc => hne (by linarith)
  obtain ⟨hq0, hq1⟩ := ratio_range v min max hne h
  have hma : toMa v min max = some (4 + 16 * ((v - min) / (max - min))) := by
    unfold toMa
    rw [if_pos hne0, if_neg hd, mul_div_assoc]
  have e : m.factor * (limitMa (4 + 16 * ((v - min) / (max - min))) - 4) =
      m.full * ((v - min) / (max - min)) := by
    rw [limitMa_id _ (by linarith) (by linarith), ← factor_full]
    ring
  refine ⟨_, setAO_eq m v min max _ hma, ?_, ?_, ?_⟩
  · rw [e]
    apply Int.floor_nonneg.mpr
    apply mul_nonneg _ hq0
    rw [← factor_full]
    have := factor_pos m
    linarith
  · rw [e]
    exact Int.floor_le _
  · rw [e]
    exact Int.lt_floor_add_one _

theorem unit_bound (f v min max : Rat) (hf : 0 < f) (hne : min ≠ max) (r : Rat)
    (h1 : r ≤ f * ((v - min) / (max - min))) (h2 : f * ((v - min) / (max - min)) < r + 1) :
    |v - (min + r / f * (max - min))| < |max - min| / f := by
  have hd : max - min ≠ 0 := fun hc => hne (by linarith)
  have e : v - (min + r / f * (max - min)) = (f * ((v - min) / (max - min)) - r) * ((max - min) / f) := by
    field_simp
    ring
  rw [e, abs_mul, abs_of_nonneg (by linarith), abs_div, abs_of_pos hf]
  have hp : 0 < |max - min| / f := div_pos (abs_pos.mpr hd) hf
  calc (f * ((v - min) / (max - min)) - r) * (|max - min| / f) < 1 * (|max - min| / f) :=
        mul_lt_mul_of_pos_right (by linarith) hp
    _ = |max - min| / f := one_mul _

end Ptusa.Analog
