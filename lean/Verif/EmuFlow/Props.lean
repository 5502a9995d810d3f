import Verif.EmuFlow.Lemmas

/-!
# C240: simulated flow

Without modules a counter shows the flow simulated last plus the correction, and the temperature simulated last, to within the
resolution of the sensor; every value can be simulated.
-/
namespace Ptusa.EmuFlow

/-- The flow of a pulse counter, exactly. -/
theorem C240_pulse (h : List Ev) :
    ∃ s, run .pulse h = some s ∧ getFlow .pulse s = flowOf h.reverse + zeroOf h.reverse := by
  obtain ⟨s, hs, hf, hz⟩ := pulse h
  exact ⟨s, hs, by simp only [getFlow, hf, hz]; exact add_comm _ _⟩

example : (run .pulse [.flow 7, .zero 2, .other, .flow 40000, .temp 3]).map (getFlow .pulse) = some 40002 := by decide +kernel

/-- The flow on IO-Link, to within a hundredth, for flows the sensor can report. -/
theorem C240_flow_partial (h : List Ev) (hr : ∀ e ∈ h, Fits e) :
    ∃ s, run .iolink h = some s ∧
      flowOf h.reverse + zeroOf h.reverse - 1 / 100 < getFlow .iolink s ∧
      getFlow .iolink s < flowOf h.reverse + zeroOf h.reverse + 1 / 100 := by
  obtain ⟨s, hs, hf, -, hz⟩ := iol h hr
  have := trunc_near (flowOf h.reverse * 100)
  refine ⟨s, hs, ?_, ?_⟩ <;> simp only [getFlow, hf, hz] <;> linarith

example : (run .iolink [.flow 7, .zero 2, .other, .flow (25 / 2)]).map (getFlow .iolink) = some (29 / 2) := by decide +kernel

/-- The temperature on IO-Link, to within a tenth, for values the sensor can report. -/
theorem C240_temp_partial (h : List Ev) (hr : ∀ e ∈ h, Fits e) :
    ∃ s, run .iolink h = some s ∧ tempOf h.reverse - 1 / 10 < getTemp s ∧ getTemp s < tempOf h.reverse + 1 / 10 := by
  obtain ⟨s, hs, -, ht, -⟩ := iol h hr
  have := trunc_near (tempOf h.reverse * 10)
  refine ⟨s, hs, ?_, ?_⟩ <;> simp only [getTemp, ht] <;> linarith

example : (run .iolink [.temp 80, .flow 1, .temp (-5), .zero 4]).map getTemp = some (-5) := by decide +kernel

/-- The code violates the property for large values: a flow from 327.68 on, or a temperature from 3276.8 on, is undefined. -/
theorem C240_large_violated (h : List Ev) (v : Rat) :
    (32768 / 100 ≤ v → run .iolink (h ++ [.flow v]) = none) ∧ (32768 / 10 ≤ v → run .iolink (h ++ [.temp v]) = none) := by
  constructor <;> intro hv <;> rw [run_snoc] <;> cases run .iolink h <;> simp only [Option.bind_none, Option.bind_some, step]
  · rw [toI16_none (v * 100) (by linarith)]; rfl
  · rw [toI16_none (v * 10) (by linarith)]; rfl

example : (32768 / 100 : Rat) ≤ 500 := by decide +kernel

/-- A temperature of 1000 is shown as -638.4, after every history that is defined. -/
theorem C240_wrap_violated (h : List Ev) (s : Ctr) (hs : run .iolink h = some s) :
    (∃ t, run .iolink (h ++ [.temp 1000]) = some t ∧ getTemp t = -6384 / 10) ∧
    tempOf (h ++ [Ev.temp 1000]).reverse = 1000 := by
  have e : toI16 (1000 * 10) = some 10000 := by decide +kernel
  refine ⟨⟨_, by rw [run_snoc, hs]; simp only [step, Option.bind_some, e, Option.map_some]; rfl, ?_⟩, by simp [tempOf]⟩
  have b : bits14 10000 = -6384 := by decide
  simp only [getTemp, b]; decide +kernel

example : (run .iolink [.temp 1000, .flow 1]).isSome := by decide +kernel

end Ptusa.EmuFlow
