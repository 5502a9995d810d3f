import Verif.EmuCam.Spec
import Mathlib.Data.List.Induction

/-! # Lemmas on simulated cameras -/
namespace Ptusa.EmuCam

theorem run_snoc (k : Kind) (h : List Ev) (e : Ev) : run k (h ++ [e]) = step (run k h) e := by
  simp [run]

theorem manual_eq (k : Kind) (h : List Ev) : (run k h).manual = inManual h.reverse := by
  induction h using List.reverseRecOn with
  | nil => cases k <;> rfl
  | append_singleton h e ih =>
    rw [run_snoc]
    cases e <;> simp only [step, List.reverse_append, List.reverse_singleton, List.singleton_append, inManual] <;>
      (try split) <;> simp [directSet, setResult, setReady, evaluate, ih]

theorem state_eq (k : Kind) (h : List Ev) : (run k h).state = stateOf h.reverse := by
  induction h using List.reverseRecOn with
  | nil => cases k <;> rfl
  | append_singleton h e ih =>
    rw [run_snoc]
    have hm := manual_eq k h
    cases e <;> simp only [step, List.reverse_append, List.reverse_singleton, List.singleton_append, stateOf, hm] <;>
      (try split) <;> simp [directSet, setResult, setReady, evaluate, ih]

theorem ready_eq (k : Kind) (h : List Ev) : (run k h).ready = readyOf (decide (k = .one)) h.reverse := by
  induction h using List.reverseRecOn with
  | nil => cases k <;> rfl
  | append_singleton h e ih =>
    rw [run_snoc]
    cases e <;> simp only [step, List.reverse_append, List.reverse_singleton, List.singleton_append, readyOf] <;>
      (try split) <;> simp [directSet, setResult, setReady, evaluate, ih]

theorem result2_eq (k : Kind) (h : List Ev) : (run k h).result2 = 0 := by
  induction h using List.reverseRecOn with
  | nil => cases k <;> rfl
  | append_singleton h e ih =>
    rw [run_snoc]
    cases e <;> simp only [step] <;>
      (try split) <;> simp [directSet, setResult, setReady, evaluate, ih]

theorem result_eq (k : Kind) (h : List Ev) (hf : ∀ e ∈ h, First e) : (run k h).result = resultOf 1 h.reverse := by
  induction h using List.reverseRecOn with
  | nil => cases k <;> rfl
  | append_singleton h e ih =>
    have ih := ih (fun e he => hf e (by simp [he]))
    have hfe := hf e (by simp)
    rw [run_snoc]
    cases e with
    | result j n =>
      have hj : j = 1 := hfe
      simp [step, setResult, resultOf, hj]
    | _ =>
      simp only [step, List.reverse_append, List.reverse_singleton, List.singleton_append, resultOf] <;>
      (try split) <;> simp [directSet, setReady, evaluate, ih]

end Ptusa.EmuCam
