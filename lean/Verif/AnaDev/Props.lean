import Verif.AnaDev.Lemmas

/-!
# C157 faults of analog sensors, C158 the control valve with IO-Link
-/
namespace Ptusa.AnaDev
open Analog

/-! ## C157 -/

/-- C157 (part).  A level, pressure or analog input has a negative state exactly when its channel is faulty; the state tells the kind of the
fault. -/
theorem C157_state (c : Channel) : (Faulty c → ai1State c = faultState c ∧ ai1State c < 0) ∧ (¬ Faulty c → ai1State c = 1) := by
  cases c with
  | unbound => simp [Faulty, ai1State, read, faultState]
  | other raw => simp [Faulty, ai1State, read, code]
  | module m raw =>
    cases m <;> simp only [Faulty, ai1State, read, getAI, faultState] <;> (repeat' split) <;> simp_all [code] <;> omega

example : Faulty (.module .cur466 3) ∧ ¬ Faulty (.module .cur466 1000) := by simp [Faulty]

/-- C157 (part).  The value of a healthy level, pressure or analog input with a module for 4 to 20 mA is the scaled current with the
correction. -/
theorem C157_value_partial (m : InModule) (f : Rat) (hm : perMa m = some f) (raw : Int) (hf : ¬ Faulty (.module m raw))
    (zero min max : Rat) : ai1Value (.module m raw) zero min max = zero + scaled (4 + raw / f) min max := by
  cases m <;> simp only [perMa, Option.some.injEq, reduceCtorEq] at hm <;> subst hm <;> simp only [Faulty] at hf
  · simp only [ai1Value, read, getAI]
    rw [if_neg (by omega), if_neg (by omega), scaleIn_eq]
  · simp only [ai1Value, read, getAI]
    rw [if_neg hf, scaleIn_eq]
  · simp only [ai1Value, read, getAI]
    rw [if_neg hf, scaleIn_eq]

example : ai1Value (.module .axlSE 8000) 1 0 10 = 6 := by
  rw [C157_value_partial .axlSE 1000 rfl 8000 (by simp [Faulty])]
  norm_num [scaled]

/-- C157 (part).  A faulty level sensor reports the configured volume. -/
theorem C157_level (c : Channel) (zero err : Rat) : (Faulty c → levelVolume c zero err = trunc err) ∧
    (¬ Faulty c → levelVolume c zero err = trunc (ai1Value c zero 0 100)) := by
  have h := C157_state c
  constructor
  · intro hf
    simp only [levelVolume]
    rw [if_pos (h.1 hf).2]
  · intro hf
    simp only [levelVolume]
    rw [if_neg (by rw [h.2 hf]; omega)]

example : levelVolume .unbound 5 (-7) = -7 := by
  rw [(C157_level .unbound 5 (-7)).1 trivial]
  simp only [trunc]
  norm_num

/-- C157 (part).  A resistance thermometer with a faulty input has a negative state and gives the configured value; otherwise (and the
raw value is above the absolute zero) it gives the temperature in tenths of a degree, with the correction. -/
theorem C157_temperature_partial (m : InModule) (hm : m = .pt450 ∨ m = .rtd4) (raw : Int) (zero err : Rat) :
    (Faulty (.module m raw) → teState (.module m raw) = -1 ∧ teValue (.module m raw) zero err = err) ∧
    (¬ Faulty (.module m raw) → -2731 ≤ raw → teState (.module m raw) = 1 ∧ teValue (.module m raw) zero err = zero + raw / 10) := by
  rcases hm with rfl | rfl
  · constructor
    · intro hf
      simp only [Faulty] at hf
      simp only [teState, teValue, read, getAI]
      by_cases h : raw < -2000
      · simp [h]
      · have h2 : raw > 8500 := by omega
        simp [h, h2]
    · intro hf hr
      simp only [Faulty] at hf
      have h1 : ¬ raw < -2000 := by omega
      have h2 : ¬ raw > 8500 := by omega
      simp only [teState, teValue, read, getAI, h1, h2, if_false, ne_fault raw hr]
      exact ⟨trivial, trivial⟩
  · constructor
    · intro hf
      simp only [Faulty] at hf
      simp [teState, teValue, read, getAI, hf]
    · intro hf hr
      simp only [Faulty] at hf
      simp only [teState, teValue, read, getAI, hf, if_false, ne_fault raw hr]
      exact ⟨trivial, trivial⟩

example : teValue (.module .rtd4 (-32768)) 2 (-99) = -99 ∧ teValue (.module .rtd4 215) 2 (-99) = 47 / 2 := by
  constructor
  · exact ((C157_temperature_partial .rtd4 (Or.inr rfl) (-32768) 2 (-99)).1 (by simp [Faulty])).2
  · rw [((C157_temperature_partial .rtd4 (Or.inr rfl) 215 2 (-99)).2 (by simp [Faulty]) (by omega)).2]
    norm_num

/-- C157 (part).  A thermometer with 4 to 20 mA: if the input is faulty or the current is below zero, the state is negative and the value is the
configured one; otherwise the state is 0 and the value the scaled current, with the correction. -/
theorem C157_temperature_analog_partial (m : InModule) (f : Rat) (hm : perMa m = some f) (raw : Int) (zero err min max : Rat) :
    ((Faulty (.module m raw) ∨ 4 + raw / f < 0) → teaState (.module m raw) = -1 ∧ teaValue (.module m raw) zero err min max = err) ∧
    (¬ Faulty (.module m raw) → 0 ≤ 4 + raw / f → teaState (.module m raw) = 0 ∧
      teaValue (.module m raw) zero err min max = zero + scaled (4 + raw / f) min max) := by
  have hr : (Faulty (.module m raw) → (read (.module m raw) 0 0).1 = -1) ∧
      (¬ Faulty (.module m raw) → ∀ a b, (read (.module m raw) a b).1 = scaled (4 + raw / f) a b) := by
    cases m <;> simp only [perMa, Option.some.injEq, reduceCtorEq] at hm <;> subst hm <;> simp only [Faulty]
    · constructor
      · intro hf
        simp only [read, getAI]
        by_cases h : raw = 3
        · simp [h]
        · have : raw ≥ 32761 := by omega
          simp [h, this]
      · intro hf a b
        simp only [read, getAI]
        rw [if_neg (by omega), if_neg (by omega), scaleIn_eq]
    · constructor
      · intro hf; simp [read, getAI, hf]
      · intro hf a b; simp only [read, getAI]; rw [if_neg hf, scaleIn_eq]
    · constructor
      · intro hf; simp [read, getAI, hf]
      · intro hf a b; simp only [read, getAI]; rw [if_neg hf, scaleIn_eq]
  have h00 : ∀ x : Rat, scaled x 0 0 = x := by intro x; simp [scaled]
  constructor
  · intro h
    have : (read (.module m raw) 0 0).1 < 0 := by
      by_cases hf : Faulty (.module m raw)
      · rw [hr.1 hf]; norm_num
      · rw [hr.2 hf, h00]
        exact h.resolve_left hf
    simp only [teaState, teaValue]
    rw [if_pos this, if_pos this]
    exact ⟨rfl, rfl⟩
  · intro hf h
    have : ¬ (read (.module m raw) 0 0).1 < 0 := by
      rw [hr.2 hf, h00]
      exact not_lt.mpr h
    simp only [teaState, teaValue]
    rw [if_neg this, if_neg this, hr.2 hf]
    exact ⟨rfl, rfl⟩

example : teaValue (.module .cur466 32761) 0 (-55) 0 100 = -55 ∧ teaState (.module .cur466 32761) = -1 := by
  have := (C157_temperature_analog_partial .cur466 (4095 / 2) rfl 32761 0 (-55) 0 100).1 (Or.inl (by simp [Faulty]))
  exact ⟨this.2, this.1⟩

/-- C157 does not hold for pressure and analog inputs: with a faulty current the value is the correction minus one, whatever the range is. -/
theorem C157_value_violated (m : InModule) (f : Rat) (hm : perMa m = some f) (raw : Int) (hf : Faulty (.module m raw)) (zero min max : Rat) :
    ai1Value (.module m raw) zero min max = zero - 1 := by
  cases m <;> simp only [perMa, reduceCtorEq] at hm <;> simp only [Faulty] at hf <;> simp only [ai1Value, read, getAI]
  · by_cases h : raw = 3
    · simp only [h, if_true]; ring
    · rw [if_neg h, if_pos (by omega)]; ring
  · rw [if_pos hf]; ring
  · rw [if_pos hf]; ring

example : ai1Value (.module .axlAI4 (-32768)) 0 (-1) 10 = -1 ∧ ai1Value (.module .axlAI4 0) 0 (-1) 10 = -1 := by
  constructor
  · rw [C157_value_violated .axlAI4 1875 rfl _ (by simp [Faulty])]; norm_num
  · rw [C157_value_partial .axlAI4 1875 rfl _ (by simp [Faulty])]; norm_num [scaled]

/-- C157 does not hold for thermometers without a channel: both classes say they work, and give the correction as the temperature
(or the correction plus zero). -/
theorem C157_unbound_violated (zero err min max : Rat) : Faulty .unbound ∧ teState .unbound = 1 ∧ teValue .unbound zero err = zero ∧
    teaState .unbound = 0 ∧ teaValue .unbound zero err min max = zero := by
  refine ⟨trivial, ?_, ?_, ?_, ?_⟩ <;> simp [teState, teValue, teaState, teaValue, read]

example : teState .unbound = 1 ∧ ai1State .unbound = -100 := by
  refine ⟨(C157_unbound_violated 0 0 0 0).2.1, by simp [ai1State, read]⟩

/-- C157 does not hold for a resistance thermometer class that is wired to a module for 4 to 20 mA: a fault there is a temperature. -/
theorem C157_module_violated (m : InModule) (f : Rat) (hm : perMa m = some f) (raw : Int) (hf : Faulty (.module m raw)) (zero err : Rat) :
    teState (.module m raw) = 1 ∧ teValue (.module m raw) zero err = zero - 1 := by
  have hr : (read (.module m raw) 0 0).1 = -1 := by
    have := C157_value_violated m f hm raw hf 0 0 0
    simp only [ai1Value] at this
    linarith
  simp only [teState, teValue, hr]
  norm_num
  ring

example : teState (.module .cur466 3) = 1 := (C157_module_violated .cur466 (4095 / 2) rfl 3 (by simp [Faulty]) 0 0).1

/-! ## C158 -/

/-- C158 (part).  Once a valve with a channel was evaluated, a set point is in its output data, the highest byte first, and stays there until
the next set point for this valve, whatever else is called for it or for others. -/
theorem C158_setpoint_partial (c : Conf) (ha : Apart c) (i p : Nat) (hb : c.outAt i = some p) (h1 h2 h3 : List Ev)
    (input : Nat → Byte) (e : Ev) (f : BitVec 32) (he : e.setpoint = some (i, f)) (h3s : ∀ e ∈ h3, e.sets ≠ some i) (s : Sys)
    (hr : run c init (h1 ++ .evaluate i input :: (h2 ++ e :: h3)) = some s) : bigEndian s.out p = f := by
  have hstep : ∀ s, step c s e = setValue s i f := by
    intro s
    cases e <;> simp only [Ev.setpoint, Option.some.injEq, Prod.mk.injEq, reduceCtorEq] at he <;> obtain ⟨rfl, rfl⟩ := he <;> rfl
  rw [run_append, Option.bind_eq_some_iff] at hr
  obtain ⟨s1, r1, hr⟩ := hr
  simp only [run, step, Option.bind_some] at hr
  rw [run_append, Option.bind_eq_some_iff] at hr
  obtain ⟨s2, r2, hr⟩ := hr
  simp only [run, hstep, Option.bind_eq_some_iff] at hr
  obtain ⟨s3, r3, hr⟩ := hr
  have i1 := inv_run c h1 _ _ (inv_init c) r1
  have i1' : Inv c (evaluate c s1 i input) := inv_step c s1 _ (.evaluate i input) i1 rfl
  have i2 := inv_run c h2 _ _ i1' r2
  have p2 := ptr_run c i p hb h2 _ _ (eval_ptr_self c s1 i p input hb) r2
  have i3 : Inv c s3 := inv_step c s2 s3 (.set i f) i2 r3
  have e3 : ∀ k, k < 4 → s3.out (p + k) = bytesOf f k := by
    intro k hk
    simp only [setValue, p2, Option.some.injEq] at r3
    rw [← r3]
    exact put_in _ _ _ _ _ hk
  have hk := fun k hk => (keep_run c ha i p hb h3 h3s k hk s3 s i3 hr).trans (e3 k hk)
  have k0 : s.out p = _ := hk 0 (by omega)
  simp only [bigEndian]
  rw [k0, hk 1 (by omega), hk 2 (by omega), hk 3 (by omega)]
  exact bytes_join f

/-- Two valves, at 0 and at 5, their input data at 0 and at 10. -/
def demo : Conf := { outAt := fun i => some (5 * i), inAt := fun i => some (10 * i) }

theorem demo_apart : Apart demo := by
  intro i j p q hij h1 h2
  simp only [demo, Option.some.injEq] at h1 h2
  omega

example : (run demo init [.evaluate 1 (fun _ => 0), .on 1, .evaluate 0 (fun _ => 0), .off 0, .blink 1 true]).map
    (fun s => (bigEndian s.out 5, s.out 9)) = some (0x42C80000#32, 0x80#8) := by decide +kernel

/-- C158 (part).  The bit of the indication is the last one commanded since the valve was evaluated; the other bits of the byte are as
they were. -/
theorem C158_blink_partial (c : Conf) (ha : Apart c) (i p : Nat) (hb : c.outAt i = some p) (h1 h2 h3 : List Ev)
    (input : Nat → Byte) (on : Bool) (h3s : ∀ e ∈ h3, e.blinks ≠ some i) (s0 s : Sys)
    (h0 : run c init (h1 ++ .evaluate i input :: h2) = some s0)
    (hr : run c s0 (.blink i on :: h3) = some s) :
    (s.out (p + 4)).getLsbD 7 = on ∧ ∀ k < 7, (s.out (p + 4)).getLsbD k = (s0.out (p + 4)).getLsbD k := by
  rw [run_append, Option.bind_eq_some_iff] at h0
  obtain ⟨s1, r1, h0⟩ := h0
  simp only [run, step, Option.bind_some] at h0
  simp only [run, step, Option.bind_eq_some_iff] at hr
  obtain ⟨s3, r3, hr⟩ := hr
  have i1 := inv_run c h1 _ _ (inv_init c) r1
  have i1' : Inv c (evaluate c s1 i input) := inv_step c s1 _ (.evaluate i input) i1 rfl
  have i2 := inv_run c h2 _ _ i1' h0
  have p2 := ptr_run c i p hb h2 _ _ (eval_ptr_self c s1 i p input hb) h0
  have i3 : Inv c s3 := inv_step c s0 s3 (.blink i on) i2 r3
  have p3 : (s3.vc i).ptr = .at p := ptr_step c s0 s3 (.blink i on) i p hb p2 r3
  have e3 : s3.out (p + 4) = winkByte (s0.out (p + 4)) on := by
    simp only [setBlink, p2, Option.some.injEq] at r3
    rw [← r3]
    exact put_in s0.out (p + 4) 1 (fun _ => winkByte (s0.out (p + 4)) on) 0 (by omega)
  rw [keepW_run c ha i p hb h3 h3s s3 s i3 p3 hr, e3]
  generalize s0.out (p + 4) = b
  cases on
  · revert b; decide +kernel
  · revert b; decide +kernel

/-- C158 (part).  Position, state and end positions are those in the data of the last evaluation of the valve, whatever was called since. -/
theorem C158_reported (c : Conf) (i q : Nat) (hb : c.inAt i = some q) (h1 h2 : List Ev) (input : Nat → Byte)
    (h2s : ∀ e ∈ h2, ∀ inp, e ≠ .evaluate i inp) (s : Sys) (hr : run c init (h1 ++ .evaluate i input :: h2) = some s) :
    (s.vc i).value = bigEndian input q ∧ floatAt (s.vc i) 4 = bigEndian input (q + 4) ∧ (s.vc i).info 8 = input (q + 8) ∧
    (s.vc i).state = (input (q + 9)).toNat % 64 ∧ (s.vc i).opened = (input (q + 9)).getLsbD 6 ∧
    (s.vc i).closed = (input (q + 9)).getLsbD 7 := by
  rw [run_append, Option.bind_eq_some_iff] at hr
  obtain ⟨s1, r1, hr⟩ := hr
  simp only [run, step, Option.bind_some] at hr
  have hi := info_run c i h2 h2s _ _ hr
  have he : ∀ k, k < 10 → (s.vc i).info k = input (q + swapAt k) := by
    intro k hk
    rw [hi]
    simp [evaluate, hb, hk]
  simp only [Vc.value, Vc.state, Vc.opened, Vc.closed, floatAt, bigEndian]
  rw [he 9 (by omega), he 8 (by omega), he (0 + 3) (by omega), he (0 + 2) (by omega), he (0 + 1) (by omega), he 0 (by omega),
    he (4 + 3) (by omega), he (4 + 2) (by omega), he (4 + 1) (by omega), he 4 (by omega)]
  exact ⟨rfl, rfl, rfl, rfl, rfl, rfl⟩

example : (run demo init [.evaluate 1 (fun k => if k = 10 then 0x42 else if k = 19 then 0x45 else 0), .on 0]).map
    (fun s => ((s.vc 1).value, (s.vc 1).state, (s.vc 1).opened, (s.vc 1).closed)) = some (0x42000000#32, 5, true, false) := by
  decide +kernel

/-- C158 (part).  If all valves have channels, no history is undefined. -/
theorem C158_defined_partial (c : Conf) (hb : ∀ i, c.outAt i ≠ none) (h : List Ev) : run c init h ≠ none := by
  obtain ⟨s, hs⟩ := noNull_run c hb h init (fun i => by simp [init])
  rw [hs]
  simp

example : run demo init [.on 0, .evaluate 0 (fun _ => 1), .off 0] ≠ none := C158_defined_partial demo (fun i => by simp [demo]) _

/-- C158 does not hold for set points before the first evaluation: they are lost, for every valve and value; nothing of the image changes. -/
theorem C158_early_violated (c : Conf) (i : Nat) (f : BitVec 32) (input : Nat → Byte) :
    (run c init [.set i f, .evaluate i input]).map Sys.out = some init.out := rfl

example : (run demo init [.on 0, .evaluate 0 (fun _ => 0)]).map (fun s => bigEndian s.out 0) = some 0 := by decide +kernel

/-- C158 does not hold without a channel: after an evaluation each command is undefined. -/
theorem C158_unbound_violated (c : Conf) (i : Nat) (hb : c.outAt i = none) (h : List Ev) (input : Nat → Byte) (e : Ev)
    (he : e.sets = some i ∨ e.blinks = some i) : run c init (h ++ [.evaluate i input, e]) = none := by
  rw [run_append]
  cases hr : run c init h with
  | none => rfl
  | some s =>
    have hp : ((evaluate c s i input).vc i).ptr = .null := by simp [evaluate, hb]
    simp only [Option.bind_some, run, step]
    cases e with
    | evaluate j inp => simp [Ev.sets, Ev.blinks] at he
    | set j f =>
      simp only [Ev.sets, Ev.blinks, Option.some.injEq, reduceCtorEq, or_false] at he
      subst he
      simp [setValue, hp]
    | on j =>
      simp only [Ev.sets, Ev.blinks, Option.some.injEq, reduceCtorEq, or_false] at he
      subst he
      simp [setValue, hp]
    | off j =>
      simp only [Ev.sets, Ev.blinks, Option.some.injEq, reduceCtorEq, or_false] at he
      subst he
      simp [setValue, hp]
    | blink j b =>
      simp only [Ev.sets, Ev.blinks, Option.some.injEq, reduceCtorEq, false_or] at he
      subst he
      simp [setBlink, hp]

example : run { outAt := fun _ => none, inAt := fun _ => none } init [.evaluate 3 (fun _ => 0), .off 3] = none :=
  C158_unbound_violated _ 3 rfl [] _ _ (Or.inl rfl)

/-- C158 does not hold as to the range of 0 to 100 per cent: a set point of 500 (bits 43FA0000), like every other, is passed on. -/
theorem C158_range_violated : (run demo init [.evaluate 0 (fun _ => 0), .set 0 0x43FA0000#32]).map (fun s => bigEndian s.out 0) =
    some 0x43FA0000#32 := by decide +kernel

end Ptusa.AnaDev
