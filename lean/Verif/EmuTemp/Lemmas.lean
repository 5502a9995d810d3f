import Verif.EmuTemp.Spec
import Mathlib.Data.List.Induction

/-! # Lemmas on simulated temperature sensors -/
namespace Ptusa.EmuTemp

theorem run_snoc (h : List Ev) (e : Ev) : run (h ++ [e]) = step (run h) e := by simp [run]

theorem manual_eq (h : List Ev) : (run h).manual = inManual h.reverse := by
  induction h using List.reverseRecOn with
  | nil => rfl
  | append_singleton h e ih =>
    rw [run_snoc]
    cases e <;> simp only [step, List.reverse_append, List.reverse_singleton, List.singleton_append, inManual] <;>
      (try split) <;> simp [directOff, ih]

theorem value_eq (h : List Ev) : (run h).value = tempOf h.reverse := by
  induction h using List.reverseRecOn with
  | nil => rfl
  | append_singleton h e ih =>
    rw [run_snoc]
    have hm := manual_eq h
    cases e <;> simp only [step, List.reverse_append, List.reverse_singleton, List.singleton_append, tempOf, hm] <;>
      (try split) <;> simp [directOff, ih]

theorem state_eq (h : List Ev) : (run h).state = stateOf h.reverse := by
  induction h using List.reverseRecOn with
  | nil => rfl
  | append_singleton h e ih =>
    rw [run_snoc]
    have hm := manual_eq h
    cases e <;> simp only [step, List.reverse_append, List.reverse_singleton, List.singleton_append, stateOf, hm] <;>
      (try split) <;> simp [directOff, ih]

theorem errT_eq (h : List Ev) : (run h).errT = faultTemp h.reverse := by
  induction h using List.reverseRecOn with
  | nil => rfl
  | append_singleton h e ih =>
    rw [run_snoc]
    cases e <;> simp only [step, List.reverse_append, List.reverse_singleton, List.singleton_append, faultTemp] <;>
      (try split) <;> simp [directOff, ih]

end Ptusa.EmuTemp
