import Verif.VirtDev.Lemmas

/-!
# C234: virtual devices
-/
namespace Ptusa.VirtDev
open Ptusa.Valve (Tm)
open Ptusa.EmuDev (stateOf valueOf)

/-- **C234** A virtual device shows the state and the value that the last counting commands have set; the reverse of a motor is 2. -/
theorem C234_shown (k : Kind) (hk : k ≠ .stub) (h : List (Tm × Ev)) :
    getState k (run k h) = stateOf 0 (commands k h.reverse) ∧ getValue k (run k h) = valueOf (commands k h.reverse) := by
  have q := run_spec k hk h
  cases k <;> first | exact absurd rfl hk | exact ⟨q.2.1, q.2.2⟩

/-- **C234** It is active when its state is not 0; the parameter 1 at run time inverts this, not for motors and scales. -/
theorem C234_active (k : Kind) (hk : k ≠ .stub) (h : List (Tm × Ev)) :
    (isActive k (run k h) = true ↔
      (stateOf 0 (commands k h.reverse) ≠ 0 ↔ ¬ (k = .other ∧ inverted h.reverse = true))) := by
  have q := (run_spec k hk h).2.1
  cases k with
  | stub => exact absurd rfl hk
  | other =>
    rw [← q, ← run_invert h]
    simp only [isActive]
    cases (run .other h).invert <;> by_cases c : (run .other h).state = 0 <;> simp [c]
  | motor =>
    rw [← q]
    by_cases c : (run .motor h).state = 0 <;> simp [isActive, getState, c]
  | scales =>
    rw [← q]
    by_cases c : (run .scales h).state = 0 <;> simp [isActive, getState, c]

/-- **C234** What stands for an unknown device shows nothing, whatever it is told. -/
theorem C234_stub (h : List (Tm × Ev)) :
    getState .stub (run .stub h) = 0 ∧ getValue .stub (run .stub h) = 0 ∧ isActive .stub (run .stub h) = false ∧
      (run .stub h).state = 0 ∧ (run .stub h).value = 0 := by
  refine ⟨rfl, rfl, rfl, ?_⟩
  have key : ∀ (h : List (Tm × Ev)) (d : Dev), (h.foldl (step .stub) d).state = d.state ∧
      (h.foldl (step .stub) d).value = d.value := by
    intro h
    induction h with
    | nil => intro d; exact ⟨rfl, rfl⟩
    | cons e h ih =>
      intro d
      rw [List.foldl_cons]
      have q : (step .stub d e).state = d.state ∧ (step .stub d e).value = d.value := by
        obtain ⟨t, e⟩ := e
        cases e with
        | dev e => cases e <;> simp [step, directOn, directOff, directSet, setValue]
        | _ => exact ⟨rfl, rfl⟩
      exact ⟨(ih _).1.trans q.1, (ih _).2.trans q.2⟩
  exact key h _

/-- A virtual motor: reversed with 30 per cent, then off. -/
example :
    let h : List (Tm × Ev) := [(1, .dev (.val 30)), (2, .reverse), (3, .dev (.manual true)), (4, .dev .off)]
    (getState .motor (run .motor h), getValue .motor (run .motor h)) = (2, 30) ∧
      getState .motor (run .motor (h ++ [(5, .dev (.manual false)), (6, .dev .off)])) = 0 := by
  decide +kernel

/-- A virtual level switch with inverted logic. -/
example :
    isActive .other (run .other [(1, .rt 1 1)]) = true ∧ isActive .other (run .other [(1, .rt 1 1), (2, .dev .on)]) = false ∧
      isActive .other (run .other [(1, .rt 2 1), (2, .dev .on)]) = true := by
  decide +kernel

end Ptusa.VirtDev
