import Verif.EmuScale.Lemmas

/-!
# C236: scales without input/output modules
-/
namespace Ptusa.EmuScale

/-- **C236** (part: strain gauges) Simulated scales show the weight set last with the correction: that of the operator, or by the
weight at the last taring. -/
theorem C236_strain_partial (h : List Ev) : getValue (run .strain h) = weightOf h.reverse + zeroOf h.reverse := by
  unfold getValue
  rw [(strain_spec h).1, (strain_spec h).2]

/-- **C236** (part: strain gauges) Tared, they show 0, and afterwards the difference to the weight at that time. -/
theorem C236_tared_partial (h : List Ev) (v : Rat) :
    getValue (run .strain (h ++ [.tare])) = 0 ∧
      getValue (run .strain (h ++ [.tare, .operVal v])) = v - weightOf h.reverse := by
  rw [C236_strain_partial, C236_strain_partial]
  simp only [List.reverse_append, List.reverse_cons, List.reverse_nil, List.nil_append, List.cons_append, weightOf, zeroOf]
  exact ⟨by ring, by ring⟩

/-- Set to 50, tared by the state 1, set to 70. -/
example : getValue (run .strain [.operVal 50, .operSet 1, .val 70]) = 20 := by decide +kernel

/-- **C236** (part: scales by RS232) In each cycle they take the weight set last, 0 after they were switched off. -/
theorem C236_rs232_partial (h : List Ev) :
    getValue (run .rs232 h) = weightOff (beforeCycle h.reverse) + setZero h.reverse := by
  unfold getValue
  rw [(rs232_spec h).1, (rs232_spec h).2.2.1]

/-- Before and after a cycle. -/
example : getValue (run .rs232 [.zero 1, .operVal 50]) = 1 ∧ getValue (run .rs232 [.zero 1, .operVal 50, .cycle]) = 51 ∧
    getValue (run .rs232 [.zero 1, .operVal 50, .cycle, .off, .cycle]) = 1 := by
  decide +kernel

/-- **C236** (part: scales on the network, weights not below 0) They show the weight set last with the correction. -/
theorem C236_eth_partial (h : List Ev) (hh : ∀ e ∈ h, NonNeg e) :
    getValue (run .eth h) = weightOf h.reverse + setZero h.reverse := by
  unfold getValue
  rw [(eth_spec h hh).1, (eth_spec h hh).2]

example : getValue (run .eth [.zero 1, .manual true, .operVal 50, .val 60]) = 51 := by decide +kernel

/-- **C236** (part: scales on the network) They show the state that the operator has set. -/
theorem C236_eth_state_partial (h : List Ev) (n : Int) : getState .eth (run .eth (h ++ [.operSet n])) = n := by
  rw [run_snoc]; rfl

/-- **C236 is false of the code**: taring changes nothing of simulated scales by RS232 or on the network. -/
theorem C236_tare_violated (h : List Ev) :
    getValue (run .rs232 (h ++ [.tare])) = getValue (run .rs232 h) ∧ getValue (run .eth (h ++ [.tare])) = getValue (run .eth h) := by
  rw [run_snoc, run_snoc]
  exact ⟨rfl, rfl⟩

/-- **C236 is false of the code**: no command changes the state that simulated scales by RS232 show, 1; strain gauges show 0. -/
theorem C236_state_violated (h : List Ev) : getState .rs232 (run .rs232 h) = 1 ∧ getState .strain (run .strain h) = 0 :=
  ⟨(rs232_spec h).2.2.2, rfl⟩

/-- **C236 is false of the code**: switched on or off, simulated scales on the network do not change at all, strain gauges show the
same weight. -/
theorem C236_off_violated (h : List Ev) :
    run .eth (h ++ [.off]) = run .eth h ∧ run .eth (h ++ [.on]) = run .eth h ∧
      getValue (run .strain (h ++ [.off])) = getValue (run .strain h) := by
  rw [run_snoc, run_snoc, run_snoc]
  refine ⟨?_, ?_, ?_⟩
  · simp [step, directOff]
  · simp [step, directOn]
  · simp only [step]
    split <;> rfl

/-- **C236 is false of the code**: a weight below 0 is not taken by simulated scales on the network. -/
theorem C236_negative_violated (h : List Ev) (v : Rat) (hv : v < 0) : run .eth (h ++ [.operVal v]) = run .eth h := by
  rw [run_snoc]
  simp only [step, setValue]
  rw [if_neg (not_le.mpr hv)]

end Ptusa.EmuScale
