import Verif.CipErr.Flow

/-!
# C92: faults of a wash
-/
namespace Ptusa.CipErr

open Timer (Tm Tmr delta_eq)

/-- Everything is in order: step 28 (circulation of caustic), pump on, flow 10, limit 2, 20 seconds. -/
def healthy : Inp where
  step := 28
  np := 1
  ret := some 1
  os := some true
  objReady := some true
  ll := true
  lm := true
  lh := false
  lsl := true
  lsh := true
  lkl := true
  lkh := false
  lwl := true
  lwh := false
  tpState := 1
  tp := 70
  trState := 1
  tr := 60
  qState := 1
  flow := 10
  flowMin := 2
  flowTime := 20
  block := 0

/-- C92, the number the operator gets: every fault has its own negative number, and these are the published ones
(the texts of the errors on the operator's screen are chosen by them). -/
theorem C92_codes : (∀ e f : Err, e.code = f.code → e = f) ∧ (∀ e : Err, e.code < 0) ∧
    Err.pump.code = -16 ∧ Err.noFlow.code = -17 ∧ Err.os.code = -19 ∧ Err.object.code = -20 ∧ Err.ret.code = -100 ∧
    [Err.levelBachok, .levelTankS, .levelTankK, .levelTankW, .supplyTemp, .returnTemp, .conc].map Err.code =
      [-35, -36, -37, -38, -39, -40, -41] := by
  refine ⟨?_, ?_, rfl, rfl, rfl, rfl, rfl, rfl⟩
  · intro e f h
    cases e <;> cases f <;> first | rfl | exact absurd h (by decide)
  · intro e
    cases e <;> decide

example : ((check (initial 0) 0 { healthy with os := some false }).bind (·.2)).map Err.code = some (-19) := by decide +kernel

/-- C92, nothing is invented: whatever happened before, an error is returned only when the fault it names is there and is
not blocked. -/
theorem C92_sound (s : St) (now : Tm) (i : Inp) (s' : St) (e : Err) (hc : check s now i = some (s', some e)) :
    i.step ≠ 555 ∧ Fault i e :=
  check_sound hc

example : check (initial 0) 0 { healthy with lwl := false, lwh := true } =
    some (initial 0, some .levelTankW) := by decide +kernel

/-- C92, nothing is missed: whatever happened before, a fault that must be noticed at once (of the return pump, the washed
object, the tanks, the sensors) and is not blocked makes the check return an error in the same cycle. -/
theorem C92_at_once_partial (s : St) (now : Tm) (i : Inp) (s' : St) (r : Option Err) (h5 : i.step ≠ 555)
    (hc : check s now i = some (s', r)) (e : Err) (hd : ¬ Delayed e) (hf : Fault i e) : r ≠ none := by
  rintro rfl
  exact check_complete hc h5 e hd hf

example : (check (initial 0) 0 { healthy with qState := -1 }).map (·.2) = some (some .conc) ∧
    Fault { healthy with qState := -1 } .conc ∧ ¬ Delayed .conc := by
  refine ⟨by decide +kernel, ⟨.inl (by decide), by decide, ?_⟩, id⟩
  rintro ⟨q, hq, hb⟩
  have : q = 0 := by
    have h0 : Fl.num 0 = Fl.num q := hq
    cases h0; rfl
  subst this
  revert hb
  decide +kernel

/-- C92, the pump: after any history a check returns the error of the pump exactly when it and all checks of more than the
last 1.5 seconds found the pump in fault. -/
theorem C92_pump {t0 : Tm} {h : List (Tm × Ev)} {s : St} (hr : Reach t0 h s) (now : Tm) (h0 : t0.toNat ≤ now.toNat)
    (hord : ∀ x ∈ h, x.1.toNat ≤ now.toNat) (i : Inp) (h5 : i.step ≠ 555) (s' : St) (r : Option Err)
    (hc : check s now i = some (s', r)) :
    r = some .pump ↔
      ∃ t, Since (fun j => j.np < 0) (h ++ [(now, .check i r)]) t ∧ 1500 < now.toNat - t.toNat := by
  obtain ⟨_, _, hp⟩ := check_pump hc h5
  have hr' := Reach.check now hr h0 hord hc
  have hinv := pump_inv hr'
  obtain ⟨e1, e2, _⟩ := check_pump hc h5
  rw [hp]
  have hmem : ∀ t, Since PumpBad (h ++ [(now, .check i r)]) t → t.toNat ≤ now.toNat := by
    intro t ht
    obtain ⟨x, hx, rfl⟩ := since_mem ht
    simp only [List.mem_append, List.mem_singleton] at hx
    rcases hx with hx | rfl
    · exact hord x hx
    · exact le_refl _
  have key : (pumpCheck s now i).2 = true ↔ s'.pumpFlag = true ∧ 1500 < (Time.deltaMs now s'.pumpT).toNat := by
    rw [e1, e2]
    unfold pumpCheck
    split
    · dsimp only
      rw [decide_eq_true_eq, BitVec.lt_def]
      cases hf : s.pumpFlag <;> simp [hf]
    · simp
  rw [key]
  constructor
  · rintro ⟨hf, hlt⟩
    obtain ⟨hs, _⟩ := hinv.1 hf
    rw [delta_eq (hmem _ hs)] at hlt
    exact ⟨_, hs, hlt⟩
  · rintro ⟨t, ht, hlt⟩
    cases hf : s'.pumpFlag with
    | false => exact absurd ht (hinv.2 hf t)
    | true =>
      obtain ⟨hs, hmin⟩ := hinv.1 hf
      have := hmin t ht
      rw [delta_eq (hmem _ hs)]
      exact ⟨rfl, by omega⟩

example : ∃ s, Reach 0 [(100, .check { healthy with np := -1 } none)] s ∧
    (check s 1601 { healthy with np := -1 }).map (·.2) = some (some .pump) ∧
    (check s 1600 { healthy with np := -1 }).map (·.2) = some none :=
  ⟨_, Reach.check 100 (h := []) Reach.start (by decide) (by simp) (by decide +kernel : check (initial 0) 100
      { healthy with np := -1 } = some (⟨true, 100, 100, { countdown := 20000 }⟩, none)), by decide +kernel,
    by decide +kernel⟩

/-- C92, the levels of the small tank: when all checks of more than the last five seconds found the sensors contradicting
each other and the error is not blocked, the check returns an error. -/
theorem C92_level_partial {t0 : Tm} {h : List (Tm × Ev)} {s : St} (hr : Reach t0 h s) (now : Tm)
    (h0 : t0.toNat ≤ now.toNat) (hord : ∀ x ∈ h, x.1.toNat ≤ now.toNat) (i : Inp) (h5 : i.step ≠ 555) (s' : St)
    (r : Option Err) (hc : check s now i = some (s', r)) (hb : ¬ Blocked i 0) (t : Tm)
    (ht : Since Contradiction (h ++ [(now, .check i r)]) t) (hlong : 5000 < now.toNat - t.toNat) : r ≠ none := by
  rintro rfl
  have ht' := ht
  rw [since_check, if_neg h5] at ht'
  obtain ⟨hi, hs⟩ := ht'
  have hlt : s.levelT.toNat ≤ t.toNat := by
    rcases hs with hs | rfl
    · exact (level_inv hr).1 t hs
    · omega
  obtain ⟨flags, hf, h | ⟨_, h⟩⟩ := check_cases hc
  · exact absurd h.1 h5
  rcases h with ⟨_, _, he⟩ | ⟨_, h⟩
  · cases he
  rcases h with ⟨_, _, _, he⟩ | ⟨_, h⟩
  · cases he
  rcases h with ⟨_, _, he⟩ | ⟨hl, _⟩
  · cases he
  unfold levelCheck at hl
  rw [if_pos ((contradiction_iff i).mpr hi)] at hl
  have hpc : (pumpCheck s now i).1.levelT = s.levelT := by
    unfold pumpCheck; split
    · dsimp only; split <;> rfl
    · rfl
  simp only [hpc, (flag_not hf 0).mpr hb, Bool.not_false, Bool.and_true, decide_eq_false_iff_not] at hl
  rw [BitVec.lt_def, delta_eq (by omega)] at hl
  simp at hl
  omega

example : ∃ s, Reach 0 [(100, .check { healthy with ll := false } none)] s ∧
    (check s 5101 { healthy with ll := false }).map (·.2) = some (some .levelBachok) :=
  ⟨_, Reach.check 100 (h := []) Reach.start (by decide) (by simp) (by decide +kernel : check (initial 0) 100
      { healthy with ll := false } = some (⟨false, 0, 0, { countdown := 20000 }⟩, none)), by decide +kernel⟩

/-- C92, the error of the levels is not returned within five seconds of a check that was without an error and found the
levels in order.  (Missing: it can be returned at the first contradiction, when there was no check for five seconds.) -/
theorem C92_level_early_partial {t0 : Tm} {h : List (Tm × Ev)} {s : St} (hr : Reach t0 h s) (now : Tm)
    (h0 : t0.toNat ≤ now.toNat) (hord : ∀ x ∈ h, x.1.toNat ≤ now.toNat) (i : Inp) (s' : St)
    (hc : check s now i = some (s', some .levelBachok)) (t : Tm) (j : Inp) (hj : (t, Ev.check j none) ∈ h)
    (hj5 : j.step ≠ 555) (hj' : ¬ Contradiction j) : 5000 < now.toNat - t.toNat := by
  have hinv := level_inv hr
  have h1 := hinv.2.1 _ hj j rfl hj5 hj'
  have h2 := hinv.2.2 now h0 hord
  obtain ⟨flags, hf, h | ⟨_, h⟩⟩ := check_cases hc
  · cases h.2.2
  have hpc : (pumpCheck s now i).1.levelT = s.levelT := by
    unfold pumpCheck; split
    · dsimp only; split <;> rfl
    · rfl
  have key : (levelCheck (pumpCheck s now i).1 now i flags).2 = true := by
    rcases h with ⟨_, _, he⟩ | ⟨_, h⟩
    · cases he
    rcases h with ⟨e, he, _, h⟩ | ⟨_, h⟩
    · cases h
      exact absurd trivial (object_fault he).2
    rcases h with ⟨hl, _, _⟩ | ⟨hl, h⟩
    · exact hl
    rcases h with ⟨e, he, _, h⟩ | ⟨_, _, _, _, h⟩
    · cases h
      exact absurd trivial (sensor_fault hf he).2
    · split at h <;> cases h
  unfold levelCheck at key
  split at key
  · simp only [hpc, Bool.and_eq_true, decide_eq_true_eq] at key
    have := key.1
    rw [BitVec.lt_def, delta_eq h2] at this
    simp at this h1
    omega
  · simp at key

/-- C92 is false of the code for the levels: the time since which they contradict each other is counted from the last
check that found them in order, so after more than five seconds without a check (the line stood still) the first
contradiction stops the wash at once. -/
theorem C92_level_violated (t0 now : Tm) (h : 5000 < now.toNat - t0.toNat) :
    ∃ s', check (initial t0) now { healthy with ll := false } = some (s', some .levelBachok) := by
  have hd : (5000#64 < Time.deltaMs now t0) = True := by
    rw [BitVec.lt_def, delta_eq (by omega)]
    simp; omega
  refine ⟨initial t0, ?_⟩
  unfold check
  have hb : toUlong ({ healthy with ll := false } : Inp).block = some 0 := by decide +kernel
  rw [hb]
  simp [healthy, pumpCheck, objectCheck, levelCheck, initial, hd]

/-- C92, no flow: in a step that has lasted less than 49 days, when the pump ran without flow in all checks since `t`,
none of which returned an error, and that is longer than the time set, the check returns an error. -/
theorem C92_flow_partial {t0 : Tm} {h : List (Tm × Ev)} {s : St} (hr : Reach t0 h s) (now : Tm)
    (hord : ∀ x ∈ h, x.1.toNat ≤ now.toNat) (i : Inp) (h5 : i.step ≠ 555) (s' : St)
    (r : Option Err) (hc : check s now i = some (s', r)) (hi : NoFlow i) (T : Rat) (hT : i.flowTime = .num T)
    (hpos : 0 ≤ T) (t : Tm) (ht : NoFlowSince h t) (hlong : T * 1000 < ((now.toNat - t.toNat : Nat) : Rat))
    (t1 : Tm) (hinit : (t1, Ev.init) ∈ h) (h49 : now.toNat - t1.toNat < 2 ^ 32) : r ≠ none := by
  rintro rfl
  obtain ⟨i1, _, _, i4, i5, i6⟩ := flow_inv hr
  obtain ⟨hw, hlast⟩ := i6 t ht
  have hge := i4 _ hinit rfl hw
  have hle := i5 hw now hord
  rcases check_flow hc with ⟨_, hn, _⟩ | ⟨_, t', ht', _, hres⟩
  · exact h5 (hn rfl)
  obtain ⟨s1, s2, s3, T', hT', hcd, _⟩ := setTime_spec ht'
  rw [hT] at hT'
  cases hT'
  have hcd := hcd hpos
  have hstart : t'.start now = t' := by simp [Tmr.start, s1, hw]
  unfold flowCheck at hres
  rw [if_pos hi.1, if_pos hi.2, hstart] at hres
  have hup : t'.isTimeUp now = true := by
    rw [timeUp_iff t' now (by rw [s3, i1]) (by rw [s1, hw]) (by rw [s2]; exact hle), s2]
    simp only at hge
    rw [Nat.mod_eq_of_lt (by omega)]
    have h1 : ((now.toNat - t.toNat : Nat) : Rat) ≤ ((now.toNat - s.flow.last.toNat : Nat) : Rat) := by
      exact_mod_cast (by omega : now.toNat - t.toNat ≤ now.toNat - s.flow.last.toNat)
    have : (t'.countdown.toNat : Rat) < ((now.toNat - s.flow.last.toNat : Nat) : Rat) := by linarith
    exact_mod_cast this
  rw [hup] at hres
  cases hres

example : ∃ s, Reach 0 [(50, .init), (100, .check { healthy with flow := 1 } none)] s ∧
    (check s 20101 { healthy with flow := 1 }).map (·.2) = some (some .noFlow) :=
  ⟨_, Reach.check 100 (h := [(50, .init)]) (Reach.init 50 Reach.start (by decide) (by simp)) (by decide) (by simp)
      (by decide +kernel : check { initial 0 with flow := (initial 0).flow.reset } 100 { healthy with flow := 1 } =
        some (⟨false, 0, 100, ⟨100, 0, .work, 20000⟩⟩, none)), by decide +kernel⟩

/-- C92, the error of the flow is returned only when the pump ran without flow in a check that is longer ago than the whole
seconds of the time set less one, and no check without an error has seen it run with flow since then.  (Missing: the pump need
not have been running all the time.) -/
theorem C92_flow_early_partial {t0 : Tm} {h : List (Tm × Ev)} {s : St} (hr : Reach t0 h s) (now : Tm)
    (hord : ∀ x ∈ h, x.1.toNat ≤ now.toNat) (i : Inp) (s' : St)
    (hc : check s now i = some (s', some .noFlow)) (T : Rat) (hT : i.flowTime = .num T) (hpos : 0 ≤ T)
    (hbig : T < 2 ^ 54) :
    NoFlow i ∧ ∃ t, NoFlowSeen h t ∧ (T - 1) * 1000 < ((now.toNat - t.toNat : Nat) : Rat) := by
  refine ⟨(check_sound hc).2, ?_⟩
  have hi : NoFlow i := (check_sound hc).2
  obtain ⟨i1, i2, i3, i4, i5, i6⟩ := flow_inv hr
  rcases check_flow hc with ⟨_, _, hn⟩ | ⟨_, t', ht', _, hres⟩
  · exact absurd rfl hn
  obtain ⟨s1, s2, s3, T', hT', _, hcd⟩ := setTime_spec ht'
  rw [hT] at hT'
  cases hT'
  have hcd := hcd hpos hbig
  unfold flowCheck at hres
  rw [if_pos hi.1, if_pos hi.2] at hres
  have hup : (t'.start now).isTimeUp now = true := by
    by_contra hx
    simp [hx] at hres
  cases hst : s.flow.state with
  | pause => exact absurd hst i2
  | stop =>
    have hs : t'.start now = { t' with work := 0, state := .work, last := now } := by
      simp [Tmr.start, s1, hst]
    rw [hs, timeUp_iff _ now rfl rfl (le_refl _)] at hup
    simp at hup
  | work =>
    have hs : t'.start now = t' := by simp [Tmr.start, s1, hst]
    have hle := i5 hst now hord
    rw [hs, timeUp_iff t' now (by rw [s3, i1]) (by rw [s1, hst]) (by rw [s2]; exact hle), s2] at hup
    refine ⟨_, i3 hst, ?_⟩
    have h1 : (now.toNat - s.flow.last.toNat) % 2 ^ 32 ≤ now.toNat - s.flow.last.toNat := Nat.mod_le _ _
    have h2 : (t'.countdown.toNat : Rat) < ((now.toNat - s.flow.last.toNat : Nat) : Rat) := by
      exact_mod_cast lt_of_lt_of_le hup h1
    linarith

/-- C92 is false of the code for the flow: the time runs on while the pump stands still.  A check saw the pump start without
flow; 30 seconds later the pump, which stood still meanwhile, starts again, and the first check stops the wash although 20
seconds without flow were allowed. -/
theorem C92_pump_off_violated :
    ∃ s, Reach 0 [(0, .init), (100, .check { healthy with flow := 0 } none),
        (200, .check { healthy with np := 0, flow := 0 } none), (30000, .check { healthy with np := 0, flow := 0 } none)] s ∧
      (check s 30100 { healthy with flow := 0 }).map (·.2) = some (some .noFlow) := by
  have h1 : Reach 0 [(0, .init)] (initial 0) := Reach.init (h := []) 0 Reach.start (by decide) (by simp)
  have h2 : Reach 0 [(0, .init), (100, .check { healthy with flow := 0 } none)]
      ⟨false, 0, 100, ⟨100, 0, .work, 20000⟩⟩ :=
    Reach.check (h := [(0, .init)]) 100 h1 (by decide) (by simp) (by decide +kernel)
  have h3 : Reach 0 [(0, .init), (100, .check { healthy with flow := 0 } none),
      (200, .check { healthy with np := 0, flow := 0 } none)] ⟨false, 0, 200, ⟨100, 0, .work, 20000⟩⟩ :=
    Reach.check (h := [_, _]) 200 h2 (by decide) (by simp) (by decide +kernel)
  exact ⟨_, Reach.check (h := [_, _, _]) (s' := ⟨false, 0, 30000, ⟨100, 0, .work, 20000⟩⟩) 30000 h3 (by decide) (by simp)
    (by decide +kernel), by decide +kernel⟩

/-- C92 is false of the code for a time that is not a number of whole seconds: it is cut, so with any time below one second
the wash is stopped by the second check without flow, a millisecond after the first. -/
theorem C92_fraction_violated :
    ∃ s, Reach 0 [(0, .init), (100, .check { healthy with flow := 0, flowTime := .num (9 / 10) } none)] s ∧
      (check s 101 { healthy with flow := 0, flowTime := .num (9 / 10) }).map (·.2) = some (some .noFlow) := by
  have h1 : Reach 0 [(0, .init)] (initial 0) := Reach.init (h := []) 0 Reach.start (by decide) (by simp)
  exact ⟨_, Reach.check (h := [(0, .init)]) (s' := ⟨false, 0, 100, ⟨100, 0, .work, 0⟩⟩) 100 h1 (by decide) (by simp)
    (by decide +kernel), by decide +kernel⟩

/-- C92 is false of the code for the concentration sensor while a medium is prepared (steps 105 to 121): its fault is not
noticed, whatever happened before, although these steps dose by its value. -/
theorem C92_preparation_violated (s : St) (now : Tm) (i : Inp) (h : 105 ≤ i.step ∧ i.step ≤ 121) :
    check s now i = check s now { i with qState := 0 } ∧
      ∀ s' r, check s now { i with qState := -1 } = some (s', r) → r ≠ some .conc := by
  have hm : ¬ (i.step ∈ stepsCaustic ∨ i.step ∈ stepsAcid) := by
    simp only [stepsCaustic, stepsAcid, List.mem_cons, List.not_mem_nil, or_false]
    omega
  constructor
  · have e2 : ∀ f, sensorCheck i f = sensorCheck { i with qState := 0 } f := by
      intro f
      unfold sensorCheck
      simp only [hm, false_and, if_false]
    unfold check
    simp only [e2]
    rfl
  · intro s' r hc
    rintro rfl
    have := (check_sound hc).2
    obtain ⟨hm', _⟩ := this
    exact hm hm'

example : (check (initial 0) 0 { healthy with step := 108, qState := -1 }).map (·.2) = some none := by decide +kernel

/-- C92 is false of the code for a temperature that is not a number: it is taken for a good one. -/
theorem C92_nan_violated :
    (check (initial 0) 0 { healthy with tp := .nan, tr := .nan }).map (·.2) = some none := by decide +kernel

/-- C92 is false of the code for negative parameters: the conversion to an unsigned number is undefined. -/
theorem C92_negative_violated (s : St) (now : Tm) (i : Inp) (q : Rat) (hq : q ≤ -1) (hb : i.block = .num q) :
    check s now i = none := by
  have : toUlong i.block = none := by
    rw [hb, toUlong, if_neg]
    intro h
    exact absurd h.1 (not_lt.mpr hq)
  simp [check, this]

end Ptusa.CipErr
