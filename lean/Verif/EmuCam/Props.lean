import Verif.EmuCam.Lemmas

/-!
# C238: simulated cameras

A camera without modules shows the state of the last command (of the operator, or of the program outside manual mode), each result as
it was simulated last and whether it is ready as it was simulated last.
-/
namespace Ptusa.EmuCam

/-- The state. -/
theorem C238_state (k : Kind) (h : List Ev) : (run k h).state = stateOf h.reverse := state_eq k h

/-- Set to 2 by the operator in manual mode, switched off by the program, a cycle. -/
example : (run .di2 [.on, .manual true, .operSet 2, .off, .cycle]).state = 2 := by decide

/-- The readiness; a camera without a signal for it is ready from the start. -/
theorem C238_ready (k : Kind) (h : List Ev) : (run k h).ready = readyOf (decide (k = .one)) h.reverse := ready_eq k h

example : (run .one []).ready = true ∧ (run .di3 []).ready = false ∧ (run .di3 [.ready 1, .cycle, .on]).ready = true := by decide

/-- The first result, if no other is simulated. -/
theorem C238_result_partial (k : Kind) (h : List Ev) (hf : ∀ e ∈ h, First e) :
    getResult k 1 (run k h) = resultOf 1 h.reverse := by
  rw [← result_eq k h hf]
  cases k <;> simp [getResult]

example : getResult .di3 1 (run .di3 [.result 1 5, .cycle, .result 1 7, .off]) = 7 := by decide

/-- The code violates the property for the second result: after every history the command for it changes the first one, and the second
one stays 0. -/
theorem C238_second_violated (h : List Ev) (n : Int) :
    getResult .di3 2 (run .di3 (h ++ [.result 2 n])) = 0 ∧
    getResult .di3 1 (run .di3 (h ++ [.result 2 n])) = n ∧
    resultOf 2 (h ++ [Ev.result 2 n]).reverse = n := by
  refine ⟨?_, ?_, by simp [resultOf]⟩
  · simp [getResult, result2_eq]
  · simp [getResult, run_snoc, step, setResult]

example : resultOf 2 [Ev.result 2 1, .result 1 3] = 1 := by decide

end Ptusa.EmuCam
