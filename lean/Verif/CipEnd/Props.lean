import Verif.CipEnd.Lemmas

/-!
# When a step of a washing program ends: properties C189 to C193
-/
namespace Ptusa.CipEnd
open CipDose (Tmr)

/-! ## C189: water or solution goes to the object until the volume has passed -/

/-- When pumping to the object ends, after any history: the object with an additional rinse has signalled that it may go on, now or
before, and the volume has passed; the last rinse (step 86) ends also when the return is colder than 5 degrees, except in the
program of rinsing. -/
theorem C189_end_partial {step : Int} {prog : Nat} {t0 : Nat} {evs : List (Ev ToIn)} {f : Bool} (hm : Mono t0 evs)
    (hr : run (toCycle step prog) toAgain false evs = some f) (now : Nat) (i : ToIn) :
    (toCycle step prog f now i).2 = .done ↔
      (step ∈ extra → i.cont ≠ some false ∨ ∃ x ∈ inputs evs, x.2.cont = some true) ∧
      (i.vol ≤ i.q ∨ step = 86 ∧ i.tr < 5 ∧ prog ≠ 1) := by
  have hx : decide (step = 8 ∨ step = 37 ∨ step = 57 ∨ step = 86) = decide (step ∈ extra) := by simp [extra]
  have key : ∀ c : Prop, [Decidable c] → ((if c then Out.done else Out.go) = Out.done ↔ c) := by
    intro c _; split <;> simp_all
  by_cases hs : step ∈ extra
  · have hf := to_inv hm hr hs
    have hf' : f = true ↔ ∃ x ∈ inputs evs, x.2.cont = some true := by rw [hf]; simp
    rw [← hf']
    simp only [toCycle, hx, hs, decide_true, Bool.true_and, forall_const]
    by_cases hw : (!f) = true ∧ i.cont = some false
    · rw [if_pos hw]
      refine iff_of_false (by simp) fun h => ?_
      rcases h.1 with h | h
      · exact h hw.2
      · rw [h] at hw; exact absurd hw.1 (by simp)
    · rw [if_neg hw]
      simp only [key, ge_iff_le]
      constructor
      · intro h
        refine ⟨?_, h⟩
        cases f with
        | true => exact .inr rfl
        | false => exact .inl fun hc => hw ⟨rfl, hc⟩
      · exact fun h => h.2
  · simp only [toCycle, hx, hs, decide_false, Bool.false_and, Bool.false_eq_true, false_and, if_false, key, ge_iff_le,
      false_implies, true_and]

/-- No other step, and this one neither with a return of 5 degrees or more nor in the program of rinsing, ends before its volume has
passed. -/
theorem C189_volume_partial {step : Int} {prog : Nat} {t0 : Nat} {evs : List (Ev ToIn)} {f : Bool} (hm : Mono t0 evs)
    (hr : run (toCycle step prog) toAgain false evs = some f) (now : Nat) (i : ToIn) (h : step ≠ 86 ∨ 5 ≤ i.tr ∨ prog = 1)
    (hd : (toCycle step prog f now i).2 = .done) : i.vol ≤ i.q := by
  rcases ((C189_end_partial hm hr now i).1 hd).2 with h1 | ⟨h1, h2, h3⟩
  · exact h1
  · rcases h with h | h | h
    · exact absurd h1 h
    · exact absurd h2 (Rat.not_lt.2 h)
    · exact absurd h h3

/-- It never ends in an error. -/
theorem C189_no_error_partial (step : Int) (prog : Nat) (f : Bool) (now : Nat) (i : ToIn) :
    (toCycle step prog f now i).2 = .done ∨ (toCycle step prog f now i).2 = .go := by
  unfold toCycle
  dsimp only
  split
  · exact .inr rfl
  · split
    · exact .inl rfl
    · exact .inr rfl

/-- The last rinse of every program but the one of rinsing ends in its first cycle, with nothing rinsed, whatever the volume is, if the
thermometer of the return shows less than 5 degrees: cold water, or a broken sensor. -/
theorem C189_cold_violated (prog : Nat) (hp : prog ≠ 1) (now : Nat) (vol tr : Rat) (ht : tr < 5) :
    (toCycle 86 prog false now ⟨0, vol, tr, none⟩).2 = .done := by
  simp [toCycle, hp, ht]

/-- An object with the signal: the volume passes in the first cycle, the signal comes in the third. -/
example : run (toCycle 8 3) toAgain false [.cycle 10 ⟨100, 90, 20, some false⟩, .again 20 50, .cycle 60 ⟨120, 90, 20, some false⟩] = some false ∧
    (toCycle 8 3 false 70 ⟨130, 90, 20, some true⟩).2 = .done ∧ (toCycle 8 3 false 70 ⟨130, 90, 20, some false⟩).2 = .go := by
  decide +kernel

/-! ## C190: from the object until the volume has passed, the return flows and the concentration is right -/

/-- When pumping from the object ends, after any history. -/
theorem C190_end_partial {ret conc : Nat} {t0 : Nat} {s s' : From} {evs : List (Ev FromIn)} (hm : Mono t0 evs)
    (hr : run From.cycle (From.again ret conc) (From.init ret conc true s) evs = some s') (now : Nat) (i : FromIn) :
    (s'.cycle now i).2 = .done ↔
      i.vol ≤ i.q ∧ (i.fl = true ∨ ∃ x ∈ inputs evs, x.2.vol ≤ x.2.q ∧ x.2.fl = true) ∧ i.fits = true := by
  have h := from_run hm hr
  have hok : s'.retOk = true ↔ ∃ x ∈ inputs evs, x.2.vol ≤ x.2.q ∧ x.2.fl = true := by
    rw [h.ok]; simp [passed]
  rw [← hok]
  exact (from_cycle h now i).2.1

/-- The error "no return" comes exactly when the volume has passed, there was never flow with it, and since the first cycle with it,
after the last resumption, more than the time for it has gone by. -/
theorem C190_no_return_partial {ret conc : Nat} {t0 : Nat} {s s' : From} {evs : List (Ev FromIn)} (hm : Mono t0 evs)
    (hr : run From.cycle (From.again ret conc) (From.init ret conc true s) evs = some s') {now : Nat} (hn : last t0 evs ≤ now)
    (hw : now < t0 + 2 ^ 32) (i : FromIn) :
    (s'.cycle now i).2 = .noReturn ↔
      i.vol ≤ i.q ∧ i.fl = false ∧ (∀ x ∈ inputs evs, x.2.vol ≤ x.2.q → x.2.fl = false) ∧
      ∃ a, firstTime passed (recent evs ++ [(now, i)]) = some a ∧ ret * 1000 < now - a := by
  have h := from_run hm hr
  have hok : s'.retOk = false ↔ ∀ x ∈ inputs evs, x.2.vol ≤ x.2.q → x.2.fl = false := by
    rw [h.ok]; simp [passed]
  rw [(from_cycle h now i).2.2.1, hok, uncut hw fun a ha => first_ge (recent_ge hm hn i) ha]

/-- The error of the concentration comes exactly when the volume has passed, it does not fit, there is no error of the return, and since
the first cycle since the resumption in which it did not fit more than twice the time for it has gone by. -/
theorem C190_conc_partial {ret conc : Nat} {t0 : Nat} {s s' : From} {evs : List (Ev FromIn)} (hm : Mono t0 evs)
    (hr : run From.cycle (From.again ret conc) (From.init ret conc true s) evs = some s') {now : Nat} (hn : last t0 evs ≤ now)
    (hw : now < t0 + 2 ^ 32) (i : FromIn) :
    (s'.cycle now i).2 = .conc ↔
      i.vol ≤ i.q ∧ i.fits = false ∧ (s'.cycle now i).2 ≠ .noReturn ∧
      ∃ a, firstTime (fun i => passed i && !i.fits) (recent evs ++ [(now, i)]) = some a ∧ 2 * conc * 1000 < now - a := by
  have h := from_run hm hr
  have hc := from_cycle h now i
  have h2 : 2 * conc * 1000 = conc * 1000 * 2 := by omega
  have hu := uncut (c := conc * 1000 * 2) hw fun a ha => first_ge (p := fun i => passed i && !i.fits) (recent_ge hm hn i) ha
  rw [h2, ← hu, Ne, hc.2.2.1, hc.2.2.2]
  constructor
  · intro ⟨h1, h2, h3, h4⟩
    exact ⟨h1, h2, fun hx => h3 hx.2, h4⟩
  · intro ⟨h1, h2, h3, h4⟩
    exact ⟨h1, h2, fun hx => h3 ⟨h1, hx⟩, h4⟩

/-- Flow, once the volume has passed, is enough: no later cycle of the step returns the error, also after stops. -/
theorem C190_returned_partial {ret conc : Nat} {t0 : Nat} {s s' : From} {evs : List (Ev FromIn)} (hm : Mono t0 evs)
    (hr : run From.cycle (From.again ret conc) (From.init ret conc true s) evs = some s')
    (hx : ∃ x ∈ inputs evs, x.2.vol ≤ x.2.q ∧ x.2.fl = true) (now : Nat) (i : FromIn) : (s'.cycle now i).2 ≠ .noReturn := by
  have h := from_run hm hr
  rw [Ne, (from_cycle h now i).2.2.1]
  intro hz
  have : s'.retOk = true := by
    obtain ⟨x, h1, h2, h3⟩ := hx
    rw [h.ok, List.any_eq_true]
    exact ⟨x, h1, by simp [passed, h2, h3]⟩
  rw [this] at hz
  exact absurd hz.2.2.1 (by simp)

/-- With a time of 10 s for the concentration: it does not fit at 1 s, fits again from 2 s on (no flow yet), does not fit at 25 s. The
error comes at once, as the timer of the concentration goes on while it fits. -/
theorem C190_conc_violated :
    ∃ s', run From.cycle (From.again 60 10) (From.init 60 10 true {})
      [.cycle 1000 ⟨90, 90, false, false⟩, .cycle 2000 ⟨90, 90, false, true⟩, .cycle 24900 ⟨90, 90, false, true⟩] = some s' ∧
    (s'.cycle 25000 ⟨90, 90, false, false⟩).2 = .conc := ⟨_, rfl, by decide +kernel⟩

/-- The volume passes at 2 s, the flow is seen at 5 s after a stop, the concentration fits at 9 s. -/
example : ∃ s', run From.cycle (From.again 3 10) (From.init 3 10 true {})
    [.cycle 1000 ⟨80, 90, true, true⟩, .cycle 2000 ⟨90, 90, false, true⟩, .again 2500 4500, .cycle 5000 ⟨91, 90, true, false⟩] = some s' ∧
    (s'.cycle 9000 ⟨95, 90, false, true⟩).2 = .done ∧ (s'.cycle 9000 ⟨95, 90, false, false⟩).2 = .go := ⟨_, rfl, by decide +kernel⟩

/-- No flow for more than 3 s. -/
example : ∃ s', run From.cycle (From.again 3 10) (From.init 3 10 true {})
    [.cycle 1000 ⟨80, 90, true, true⟩, .cycle 2000 ⟨90, 90, false, true⟩] = some s' ∧
    (s'.cycle 5001 ⟨95, 90, false, true⟩).2 = .noReturn ∧ (s'.cycle 5000 ⟨95, 90, false, true⟩).2 = .go := ⟨_, rfl, by decide +kernel⟩

/-! ## C191: the object is emptied until nothing comes any more, within a time -/

/-- When emptying an object ends that has no "object empty" device, after any history: the level switch has been dry for the time since
the cycle in which it was covered the last time (or the resumption); there has been no flow for the time after flow; half the limit is
over, for the first emptying, or if nothing has come since the resumption; the limit is over. -/
theorem C191_end_partial {limit ret t0 : Nat} {step : Int} {s s' : Emp} {evs : List (Ev EmptyIn)} (hm : Mono t0 evs)
    (hd : ∀ x ∈ inputs evs, x.2.empty = none)
    (hr : run (fun s => s.cycle step false limit ret) (Emp.again limit ret) (Emp.enter limit ret s t0) evs = some s')
    {now : Nat} (hn : last t0 evs ≤ now) (hw : now < t0 + 2 ^ 32) {i : EmptyIn} (hi : i.empty = none) :
    (s'.cycle step false limit ret now i).2 = .done ↔
      (i.ls = some false ∧ ret * 1000 < now - coveredAt (resumed t0 evs) (recent evs)) ∨
      (∃ a, dryFrom (recent evs ++ [(now, i)]) = some a ∧ ret * 1000 < now - a) ∨
      (limit * 500 < now - t0 - stopped evs ∧ (step = 6 ∨ ∀ x ∈ recent evs ++ [(now, i)], x.2.fl = false)) ∨
      limit * 1000 < now - t0 - stopped evs := by
  have h := emp_run hm hd hr
  rw [(emp_cycle h step hn hi).2.2, uncut hw fun a ha => dry_ge (recent_ge hm hn i) ha,
    Nat.mod_eq_of_lt (show now - t0 - stopped evs < 2 ^ 32 by omega), List.any_eq_false]
  simp only [Bool.not_eq_true]

/-- So it ends within its time, not counting stops. -/
theorem C191_limit_partial {limit ret t0 : Nat} {step : Int} {s s' : Emp} {evs : List (Ev EmptyIn)} (hm : Mono t0 evs)
    (hd : ∀ x ∈ inputs evs, x.2.empty = none)
    (hr : run (fun s => s.cycle step false limit ret) (Emp.again limit ret) (Emp.enter limit ret s t0) evs = some s')
    {now : Nat} (hn : last t0 evs ≤ now) (hw : now < t0 + 2 ^ 32) {i : EmptyIn} (hi : i.empty = none)
    (hl : limit * 1000 < now - t0 - stopped evs) : (s'.cycle step false limit ret now i).2 = .done :=
  (C191_end_partial hm hd hr hn hw hi).2 (.inr (.inr (.inr hl)))

/-- With the device, its signal alone decides. -/
theorem C191_device_partial (limit ret : Nat) (step : Int) (s : Emp) (now : Nat) (i : EmptyIn) (b : Bool) (hi : i.empty = some b) :
    (s.cycle step false limit ret now i).2 = .done ↔ b = true := by
  unfold Emp.cycle
  cases b <;> simp [hi]

/-- The washing of pipes has no emptying. -/
theorem C191_line_partial (limit ret : Nat) (step : Int) (s : Emp) (now : Nat) (i : EmptyIn) :
    (s.cycle step true limit ret now i).2 = .done := rfl

/-- If the device never comes on, the step never ends, however long it takes: there is no limit then. -/
theorem C191_device_violated (limit ret : Nat) (step : Int) (s : Emp) (evs : List (Ev EmptyIn))
    (hi : ∀ x ∈ inputs evs, x.2.empty = some false) :
    (run (fun s => s.cycle step false limit ret) (Emp.again limit ret) s evs).isSome = true := by
  induction evs generalizing s with
  | nil => rfl
  | cons e l ih =>
    cases e with
    | again a b => exact ih _ hi
    | cycle now i =>
      have he : i.empty = some false := hi (now, i) List.mem_cons_self
      have hx : ∃ s1, s.cycle step false limit ret now i = (s1, .go) := by
        unfold Emp.cycle
        simp [he]
      obtain ⟨s1, hx⟩ := hx
      simp only [run, hx]
      exact ih s1 fun x hm => hi x (List.mem_cons_of_mem _ hm)

/-- It flows at 3 s, not any more at 5 s, then a stop; it flows again at 20 s, and is dry for more than 4 s at 26 s. -/
example : ∃ s', run (fun s => s.cycle 30 false 60 4) (Emp.again 60 4) (Emp.enter 60 4 {} 0)
    [.cycle 3000 ⟨none, none, true⟩, .cycle 5000 ⟨none, none, false⟩, .again 6000 19000, .cycle 20000 ⟨none, none, true⟩,
      .cycle 21000 ⟨none, none, false⟩] = some s' ∧
    (s'.cycle 30 false 60 4 26000 ⟨none, none, false⟩).2 = .done ∧ (s'.cycle 30 false 60 4 24000 ⟨none, none, false⟩).2 = .go :=
  ⟨_, rfl, by decide +kernel⟩

/-- The level switch. -/
example : ∃ s', run (fun s => s.cycle 30 false 60 4) (Emp.again 60 4) (Emp.enter 60 4 {} 0)
    [.cycle 3000 ⟨none, some true, true⟩, .cycle 5000 ⟨none, some false, true⟩] = some s' ∧
    (s'.cycle 30 false 60 4 7001 ⟨none, some false, true⟩).2 = .done ∧ (s'.cycle 30 false 60 4 7000 ⟨none, some false, true⟩).2 = .go :=
  ⟨_, rfl, by decide +kernel⟩

/-! ## C192: the small tank is filled and emptied -/

/-- When filling the small tank ends, after any history: the litres since the middle level was reached are the volume for it, or the
upper level is reached. -/
theorem C192_fill_partial {vol : Rat} {limit t0 : Nat} {s s' : Small} {evs : List (Ev SmallIn)} (hm : Mono t0 evs)
    (hr : run (Small.fill vol) (Small.again limit) (s.enter limit t0) evs = some s') (now : Nat) (i : SmallIn) :
    (s'.fill vol now i).2 = .done ↔ vol ≤ counted (·.lm) false (evs ++ [.cycle now i]) ∨ i.lh = true := by
  rw [cnt_now (fill_run hm hr) now i]
  unfold Small.fill
  dsimp only
  split <;> simp_all

/-- When emptying it ends, after any history: the litres since the lower level was lost are the volume for it, or it is lost since the
resumption, and the time without it, not counting stops, is more than the limit. -/
theorem C192_empty_partial {vol : Rat} {limit t0 : Nat} {s s' : Small} {evs : List (Ev SmallIn)} (hm : Mono t0 evs)
    (hr : run (Small.empty vol) (Small.again limit) (s.enter limit t0) evs = some s') {now : Nat} (hn : last t0 evs ≤ now)
    (hw : now < t0 + 2 ^ 32) (i : SmallIn) :
    (s'.empty vol now i).2 = .done ↔ vol ≤ counted (!·.ll) false (evs ++ [.cycle now i]) ∨
      (∃ x ∈ recent (evs ++ [.cycle now i]), x.2.ll = false) ∧ limit * 1000 < lasted (!·.ll) none now (evs ++ [.cycle now i]) := by
  have h := empty_run hm hr
  have hu := time_up (time_cycle h.2 vol now i) now
  have hl : lasted (!·.ll) none now (evs ++ [.cycle now i]) < 2 ^ 32 := by
    have := lasted_le (p := (!·.ll)) (since := none) (mono_snoc hm hn i) (Nat.le_of_eq (last_snoc _ _ _)) (by simp)
    simp only [Option.getD_none] at this
    omega
  rw [Nat.mod_eq_of_lt hl, List.any_eq_true] at hu
  simp only [Bool.not_eq_true'] at hu
  rw [← hu, cnt_now h.1 now i]
  have hq : (s'.empty vol now i).1.q = (s'.count i.litres).q := by
    unfold Small.empty
    dsimp only
    split <;> rfl
  rw [← hq]
  have : (s'.empty vol now i).2 = if vol ≤ (s'.empty vol now i).1.q ∨ (s'.empty vol now i).1.tOp.up now = true then .done else .go := rfl
  rw [this]
  by_cases hz : vol ≤ (s'.empty vol now i).1.q ∨ (s'.empty vol now i).1.tOp.up now = true
  · rw [if_pos hz]; exact iff_of_true rfl hz
  · rw [if_neg hz]; exact iff_of_false (by simp) hz

/-- With a volume of 0 both end in the first cycle, whatever the levels are: nothing is filled, nothing is emptied. -/
theorem C192_zero_violated (limit t0 now : Nat) (s : Small) (i : SmallIn) :
    ((s.enter limit t0).fill 0 now i).2 = .done ∧ ((s.enter limit t0).empty 0 now i).2 = .done := by
  constructor
  · simp [Small.enter, Small.fill, Small.count]
  · cases h : i.ll <;> simp [Small.enter, Small.empty, Small.count, h]

/-- The middle level at the second cycle; a stop, after which the litres count only from the next cycle on. -/
example : ((run (Small.fill 50) (Small.again 10) (Small.enter 10 {} 0)
    [.cycle 1000 ⟨100, false, false, true⟩, .cycle 2000 ⟨30, true, false, true⟩, .cycle 3000 ⟨30, true, false, true⟩, .again 3500 9000,
      .cycle 9100 ⟨19, true, false, true⟩]).map fun s' =>
    ((s'.fill 50 9200 ⟨20, true, false, true⟩).2, (s'.fill 50 9200 ⟨19, true, false, true⟩).2,
      (s'.fill 50 9200 ⟨0, true, true, true⟩).2)) = some (.done, .go, .done) := by decide +kernel

/-- Emptying: the time is over. -/
example : ∃ s', run (Small.empty 50) (Small.again 10) (Small.enter 10 {} 0)
    [.cycle 1000 ⟨100, false, false, true⟩, .cycle 20000 ⟨30, false, false, false⟩, .again 23500 90000,
      .cycle 91000 ⟨1, false, false, false⟩] = some s' ∧
    (s'.empty 50 97501 ⟨0, false, false, false⟩).2 = .done ∧ (s'.empty 50 97500 ⟨0, false, false, false⟩).2 = .go :=
  ⟨_, rfl, by decide +kernel⟩

/-! ## C193: disinfectant is dosed for its time; the rinse after a preparation ends when the concentration stays low -/

/-- Dosing disinfectant ends exactly when its time is over, not counting stops. -/
theorem C193_dose {limit t0 : Nat} {s s' : Tmr} {evs : List (Ev Unit)} (hm : Mono t0 evs)
    (hr : run doseCycle (doseAgain limit) (doseEnter limit s t0) evs = some s') {now : Nat} (hn : last t0 evs ≤ now)
    (hw : now < t0 + 2 ^ 32) : (doseCycle s' now ()).2 = .done ↔ limit * 1000 < now - t0 - stopped evs := by
  rw [dose_cycle (dose_run hm hr) hn, Nat.mod_eq_of_lt (by omega)]

/-- The rinse ends exactly when the concentration is low, and has been for longer than the time, since it was not for the last time, not
counting stops. -/
theorem C193_rinse {conc t0 : Nat} {s s' : Tmr} {evs : List (Ev Bool)} (hm : Mono t0 evs)
    (hr : run rinseCycle (rinseAgain conc) (rinseEnter conc s) evs = some s') {now : Nat} (hn : last t0 evs ≤ now)
    (hw : now < t0 + 2 ^ 32) (low : Bool) :
    (rinseCycle s' now low).2 = .done ↔ low = true ∧ conc * 1000 < lowFor none 0 now (evs ++ [.cycle now low]) := by
  have hl : lowFor none 0 now (evs ++ [.cycle now low]) < 2 ^ 32 := by
    have := low_le (acc := 0) (since := none) (mono_snoc hm hn low) (Nat.le_of_eq (last_snoc _ _ _)) (by simp)
    simp only [Option.getD_none] at this
    omega
  rw [rinse_cycle (rinse_run hm hr), Nat.mod_eq_of_lt hl]

example : ∃ s', run doseCycle (doseAgain 10) (doseEnter 10 {} 0) [.cycle 9000 (), .again 9500 50000, .cycle 50100 ()] = some s' ∧
    (doseCycle s' 50501 ()).2 = .done ∧ (doseCycle s' 50500 ()).2 = .go := ⟨_, rfl, by decide +kernel⟩

/-- Low from 1 s on, high at 4 s, low again from 5 s on; a stop between 8 s and 60 s. -/
example : ∃ s', run rinseCycle (rinseAgain 5) (rinseEnter 5 {})
    [.cycle 1000 true, .cycle 4000 false, .cycle 5000 true, .again 8000 60000, .cycle 61000 true] = some s' ∧
    (rinseCycle s' 63001 true).2 = .done ∧ (rinseCycle s' 63000 true).2 = .go ∧ (rinseCycle s' 70000 false).2 = .go :=
  ⟨_, rfl, by decide +kernel⟩

end Ptusa.CipEnd
