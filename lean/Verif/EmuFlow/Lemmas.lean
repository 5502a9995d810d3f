import Verif.EmuFlow.Spec
import Mathlib.Data.Rat.Floor
import Mathlib.Data.List.Induction
import Mathlib.Tactic.Linarith

/-! # Lemmas on simulated flow -/
namespace Ptusa.EmuFlow

theorem run_snoc (k : Kind) (h : List Ev) (e : Ev) : run k (h ++ [e]) = (run k h).bind (step k · e) := by
  simp [run, List.foldlM_append]

theorem trunc_near (v : Rat) : (trunc v : Rat) - 1 < v ∧ v < trunc v + 1 := by
  unfold trunc
  split
  · have h1 : (v.floor : Rat) ≤ v := Rat.floor_le v
    have h2 : v < v.floor + 1 := by exact_mod_cast Rat.lt_floor_add_one v
    constructor <;> linarith
  · have h1 : v ≤ (v.ceil : Rat) := Rat.le_ceil
    have h2 : (v.ceil : Rat) < v + 1 := Rat.ceil_lt
    constructor <;> linarith

theorem trunc_lt (v : Rat) (b : Int) (h0 : 0 ≤ v) (h : v < b) : trunc v < b := by
  unfold trunc; rw [if_pos h0]
  have h1 : (v.floor : Rat) ≤ v := Rat.floor_le v
  exact_mod_cast lt_of_le_of_lt h1 h

theorem trunc_nonneg (v : Rat) (h0 : 0 ≤ v) : 0 ≤ trunc v := by
  unfold trunc; rw [if_pos h0]
  exact (Rat.le_floor_iff).2 (by exact_mod_cast h0)

theorem trunc_ge (v : Rat) (b : Int) (h0 : ¬ 0 ≤ v) (h : (b : Rat) ≤ v) : b ≤ trunc v := by
  unfold trunc; rw [if_neg h0]
  have h1 : v ≤ (v.ceil : Rat) := Rat.le_ceil
  exact_mod_cast le_trans h h1

theorem trunc_neg (v : Rat) (h0 : ¬ 0 ≤ v) : trunc v ≤ 0 := by
  have h := (trunc_near v).1
  have h2 : (trunc v : Rat) < 1 := by linarith
  have : trunc v < 1 := by exact_mod_cast h2
  omega

theorem toI16_ok (v : Rat) (h1 : -32768 ≤ v) (h2 : v < 32768) : toI16 v = some (trunc v) := by
  unfold toI16
  rw [if_pos]
  by_cases h0 : 0 ≤ v
  · have a := trunc_lt v 32768 h0 (by exact_mod_cast h2)
    have b := trunc_nonneg v h0
    omega
  · have a := trunc_ge v (-32768) h0 (by exact_mod_cast h1)
    have b := trunc_neg v h0
    omega

theorem bits14_ok (v : Rat) (h1 : -8192 ≤ v) (h2 : v < 8192) : bits14 (trunc v) = trunc v := by
  have : -8192 ≤ trunc v ∧ trunc v < 8192 := by
    by_cases h0 : 0 ≤ v
    · have a := trunc_lt v 8192 h0 (by exact_mod_cast h2)
      have b := trunc_nonneg v h0
      omega
    · have a := trunc_ge v (-8192) h0 (by exact_mod_cast h1)
      have b := trunc_neg v h0
      omega
  unfold bits14; omega

theorem toI16_none (v : Rat) (h : 32768 ≤ v) : toI16 v = none := by
  unfold toI16
  rw [if_neg]
  have h0 : (0 : Rat) ≤ v := by linarith
  have : (32768 : Int) ≤ trunc v := by
    unfold trunc; rw [if_pos h0]; exact (Rat.le_floor_iff).2 (by exact_mod_cast h)
  omega

/-- What holds after a history of a pulse counter. -/
theorem pulse (h : List Ev) : ∃ s, run .pulse h = some s ∧ s.fval = flowOf h.reverse ∧ s.cz = zeroOf h.reverse := by
  induction h using List.reverseRecOn with
  | nil => exact ⟨{}, rfl, rfl, rfl⟩
  | append_singleton h e ih =>
    obtain ⟨s, hs, hf, hz⟩ := ih
    rw [run_snoc, hs]
    cases e <;> exact ⟨_, rfl, by simp [flowOf, hf], by simp [zeroOf, hz]⟩

/-- What holds after a history within the ranges. -/
theorem iol (h : List Ev) (hr : ∀ e ∈ h, Fits e) : ∃ s, run .iolink h = some s ∧
    s.flow = trunc (flowOf h.reverse * 100) ∧ s.temp = trunc (tempOf h.reverse * 10) ∧ s.cz = zeroOf h.reverse := by
  induction h using List.reverseRecOn with
  | nil => exact ⟨{}, rfl, by decide +kernel, by decide +kernel, rfl⟩
  | append_singleton h e ih =>
    obtain ⟨s, hs, hf, ht, hz⟩ := ih (fun e he => hr e (by simp [he]))
    have he := hr e (by simp)
    rw [run_snoc, hs]
    cases e with
    | flow v =>
      obtain ⟨a, b⟩ : -32768 / 100 ≤ v ∧ v < 32768 / 100 := he
      have hk := toI16_ok (v * 100) (by linarith) (by linarith)
      exact ⟨_, by simp only [step, Option.bind_some, hk, Option.map_some]; rfl,
        by simp [flowOf], by simp [tempOf, ht], by simp [zeroOf, hz]⟩
    | temp v =>
      obtain ⟨a, b⟩ : -8192 / 10 ≤ v ∧ v < 8192 / 10 := he
      have hk := toI16_ok (v * 10) (by linarith) (by linarith)
      exact ⟨_, by simp only [step, Option.bind_some, hk, Option.map_some]; rfl,
        by simp [flowOf, hf], by simp [tempOf, bits14_ok (v * 10) (by linarith) (by linarith)], by simp [zeroOf, hz]⟩
    | zero c => exact ⟨_, rfl, by simp [flowOf, hf], by simp [tempOf, ht], by simp [zeroOf]⟩
    | other => exact ⟨_, rfl, by simp [flowOf, hf], by simp [tempOf, ht], by simp [zeroOf, hz]⟩

end Ptusa.EmuFlow
