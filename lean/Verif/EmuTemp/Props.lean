import Verif.EmuTemp.Lemmas

/-!
# C239: simulated temperature sensors

Without modules a temperature sensor shows the temperature simulated last; on a simulated fault it shows the temperature set for faults
and the state -1; otherwise it shows the state commanded last.
-/
namespace Ptusa.EmuTemp

/-- Without a fault: the temperature, for every kind. -/
theorem C239_value_partial (k : Kind) (h : List Ev) (hf : ¬ Fault h.reverse) : getValue k (run h) = tempOf h.reverse := by
  have hv := value_eq h
  unfold Fault at hf
  rw [← hv] at hf ⊢
  cases k <;> simp [getValue, hf]

/-- 25 by the program, 30 by the operator in manual mode, 40 by the program. -/
example : getValue .analog (run [.val 25, .manual true, .operVal 30, .val 40, .zero 3]) = 30 := by decide +kernel

/-- With a fault: the temperature for faults, for resistance thermometers. -/
theorem C239_fault_partial (h : List Ev) (hf : Fault h.reverse) : getValue .resist (run h) = faultTemp h.reverse := by
  have hv := value_eq h
  unfold Fault at hf
  rw [← hv] at hf
  rw [← errT_eq]
  simp [getValue, hf]

example : Fault [Ev.operVal (-1000), .errT 150] ∧ getValue .resist (run [.errT 150, .operVal (-1000)]) = 150 := by
  refine ⟨rfl, by decide +kernel⟩

/-- The state is the one commanded last, for every kind. -/
theorem C239_state_partial (h : List Ev) : getState (run h) = stateOf h.reverse := state_eq h

example : getState (run []) = 1 ∧ getState (run [.off, .manual true, .on]) = 0 := by decide

/-- The code violates the property on faults: after every history the other sensors show -1000 itself, and no sensor shows the state -1
unless it was commanded. -/
theorem C239_fault_violated (h : List Ev) :
    Fault (h ++ [Ev.operVal (-1000)]).reverse ∧
    getValue .analog (run (h ++ [.operVal (-1000)])) = -1000 ∧
    getValue .iolink (run (h ++ [.operVal (-1000)])) = -1000 ∧
    getState (run (h ++ [.operVal (-1000)])) = stateOf h.reverse := by
  refine ⟨by simp [Fault, tempOf], ?_, ?_, ?_⟩
  · simp [getValue, run_snoc, step]
  · simp [getValue, run_snoc, step]
  · rw [run_snoc]; exact state_eq h

example : getState (run ([.errT 150] ++ [.operVal (-1000)])) = 1 := by decide +kernel

end Ptusa.EmuTemp
