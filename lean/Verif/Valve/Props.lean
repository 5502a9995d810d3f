import Verif.Valve.Lemmas

/-!
# C48, C49, C51: feedback errors, exclusive outputs, commands of valves
-/
namespace Ptusa.Valve

/-- C48.  After any history of commands, looks, cycles and inputs, a valve with discrete feedback and held outputs
reports a feedback error only if feedback is switched on, disagrees with what the valve was told, and more than
`P_ON_TIME` has passed since the moment `since` (the last change of its outputs; for valves with one input, or the last
time the feedback was seen to agree).  `q` is `P_ON_TIME` in milliseconds. -/
theorem C48_error_only_partial (k : Kind) (hk : Held k) (q : Rat) (h0 : 0 ≤ q) (h1 : q < 2 ^ 24) (pFb : Fl) (t0 : Tm)
    (es : List Ev) (v : Dv) (hv : run k (.num q) pFb { start := t0 } es = some v) (t1 t2 : Tm) (m : Bool)
    (ht : since k (.num q) pFb { start := t0 } t0 es ≤ t2) (r : Int × Dv)
    (h : exState k t1 t2 (.num q) pFb m v = some r) (he : isError r.1 = true) :
    agrees k v = false ∧ pFb.eq (.num 0) = false ∧
      q < ((t2.toNat - (since k (.num q) pFb { start := t0 } t0 es).toNat : Nat) : Rat) := by
  have hs := run_since k hk _ pFb es _ v (fits_init k t0) hv
  obtain ⟨ha, hf, hp⟩ := exState_error k hk q h0 h1 pFb t1 t2 m v r h he
  refine ⟨ha, hf, ?_⟩
  rw [passed_eq _ _ (by rw [hs]; exact ht), hs] at hp
  exact floor_toNat_lt q h0 _ hp

/-- C48.  And if they hold, an error is reported: an error of opening when the valve is on, of closing when it is
off. -/
theorem C48_error_reported_partial (k : Kind) (hk : Held k) (q : Rat) (h0 : 0 ≤ q) (h1 : q < 2 ^ 24) (pFb : Fl) (t0 : Tm)
    (es : List Ev) (v : Dv) (hv : run k (.num q) pFb { start := t0 } es = some v) (t1 t2 : Tm) (m : Bool)
    (ht : since k (.num q) pFb { start := t0 } t0 es ≤ t1) (h12 : t1 ≤ t2)
    (ha : agrees k v = false) (hf : pFb.eq (.num 0) = false)
    (hlate : q < ((t1.toNat - (since k (.num q) pFb { start := t0 } t0 es).toNat : Nat) : Rat)) :
    exState k t1 t2 (.num q) pFb m v =
      some (if valveState k v = 1 then (if m then -12 else -2) else (if m then -13 else -3), v) := by
  have hs := run_since k hk _ pFb es _ v (fits_init k t0) hv
  change v.start = since k (.num q) pFb { start := t0 } t0 es at hs
  rw [← hs] at ht hlate
  have h12' : v.start ≤ t2 := by rw [BitVec.le_def] at *; omega
  have hl : ⌊q⌋.toNat < t1.toNat - v.start.toNat := by
    have h2 : ⌊q⌋ < ((t1.toNat - v.start.toNat : Nat) : Int) := by
      rw [Int.floor_lt]; exact_mod_cast hlate
    have := Int.floor_nonneg.mpr h0
    omega
  refine exState_late k hk q h0 h1 pFb t1 t2 m v hf ha ?_ ?_
  · rw [passed_eq _ _ ht]; exact hl
  · rw [passed_eq _ _ h12']; rw [BitVec.le_def] at h12; omega

-- A valve with both inputs told to open at 1000, `P_ON_TIME` 3000 ms: nothing at 3900, an error at 4100.
example : (run .do1di2 (.num 3000) (.num 1) {} [.inputs false true, .on 1000, .on 2000, .ask 3900 false]).bind
      (fun v => (exState .do1di2 3900 3900 (.num 3000) (.num 1) false v).map Prod.fst) = some 1 ∧
    (run .do1di2 (.num 3000) (.num 1) {} [.inputs false true, .on 1000, .on 2000, .ask 3900 false]).bind
      (fun v => (exState .do1di2 4100 4100 (.num 3000) (.num 1) false v).map Prod.fst) = some (-2) ∧
    since .do1di2 (.num 3000) (.num 1) {} 0 [.inputs false true, .on 1000, .on 2000, .ask 3900 false] = 1000 := by
  decide +kernel

/-- C48.  A stuck valve is reported although the program keeps repeating the command: it is told to open at `t`, the
feedback disagrees, and then only the same command, looks, cycles and inputs that still disagree follow. -/
theorem C48_stuck_open_partial (k : Kind) (hk : Held k) (q : Rat) (h0 : 0 ≤ q) (h1 : q < 2 ^ 24) (pFb : Fl)
    (hf : pFb.eq (.num 0) = false) (t0 t : Tm) (es es' : List Ev) (v : Dv)
    (hv : run k (.num q) pFb { start := t0 } es = some v)
    (ha : agrees k (directOn k t v) = false)
    (hrep : ∀ e ∈ es', Repeats k (outputs (directOn k t v)) (fun e => ∃ t, e = .on t) e)
    (hnew : outputs (directOn k t v) ≠ outputs v)
    (t1 t2 : Tm) (m : Bool) (ht : t ≤ t1) (h12 : t1 ≤ t2) (hlate : q < ((t1.toNat - t.toNat : Nat) : Rat)) :
    ∃ w n, run k (.num q) pFb { start := t0 } (es ++ .on t :: es') = some w ∧
      exState k t1 t2 (.num q) pFb m w = some (n, w) ∧ isError n = true := by
  have hfit := run_fits k _ pFb es _ v (fits_init k t0) hv
  obtain ⟨w, hw, hwo, hwa, hws⟩ := run_still k q h0 h1 pFb _ es' hrep (outputs (directOn k t v))
    (by
      intro e he u w hu huo hua hst
      refine still_step k hk (.num q) pFb _ _ e he u w hu huo ?_ hua hst
      rintro ⟨t', rfl⟩ w' hw'
      simp only [step, Option.some.injEq] at hw'
      subst hw'
      obtain ⟨h2, h3⟩ := on_restarts_none k hk pFb t' t v u hfit huo
      exact ⟨h2, (direct_inputs k hk t' u).1, (direct_inputs k hk t' u).2.1, h3⟩)
    (directOn k t v) (step_fits k (.num q) pFb v _ (.on t) hfit rfl) rfl ha
  have hws' : w.start = t := by rw [hws, directOn_start k hk t v hfit, if_pos hnew]
  have hrun : run k (.num q) pFb { start := t0 } (es ++ .on t :: es') = some w := by
    rw [run_append, hv]
    simpa [run, step] using hw
  refine ⟨w, _, hrun, ?_, error_shown k m w⟩
  have hl : ⌊q⌋.toNat < t1.toNat - t.toNat := by
    have h2 : ⌊q⌋ < ((t1.toNat - t.toNat : Nat) : Int) := by
      rw [Int.floor_lt]; exact_mod_cast hlate
    have := Int.floor_nonneg.mpr h0
    omega
  refine exState_late k hk q h0 h1 pFb t1 t2 m w hf hwa ?_ ?_
  · rw [hws', passed_eq _ _ ht]; exact hl
  · rw [hws', passed_eq _ _ (by rw [BitVec.le_def] at *; omega)]; rw [BitVec.le_def] at h12; omega

/-- C48.  The same for closing. -/
theorem C48_stuck_close_partial (k : Kind) (hk : Held k) (q : Rat) (h0 : 0 ≤ q) (h1 : q < 2 ^ 24) (pFb : Fl)
    (hf : pFb.eq (.num 0) = false) (t0 t : Tm) (es es' : List Ev) (v : Dv)
    (hv : run k (.num q) pFb { start := t0 } es = some v)
    (ha : agrees k (directOff k t v) = false)
    (hrep : ∀ e ∈ es', Repeats k (outputs (directOff k t v)) (fun e => ∃ t, e = .off t) e)
    (hnew : outputs (directOff k t v) ≠ outputs v)
    (t1 t2 : Tm) (m : Bool) (ht : t ≤ t1) (h12 : t1 ≤ t2) (hlate : q < ((t1.toNat - t.toNat : Nat) : Rat)) :
    ∃ w n, run k (.num q) pFb { start := t0 } (es ++ .off t :: es') = some w ∧
      exState k t1 t2 (.num q) pFb m w = some (n, w) ∧ isError n = true := by
  have hfit := run_fits k _ pFb es _ v (fits_init k t0) hv
  obtain ⟨w, hw, hwo, hwa, hws⟩ := run_still k q h0 h1 pFb _ es' hrep (outputs (directOff k t v))
    (by
      intro e he u w hu huo hua hst
      refine still_step k hk (.num q) pFb _ _ e he u w hu huo ?_ hua hst
      rintro ⟨t', rfl⟩ w' hw'
      simp only [step, Option.some.injEq] at hw'
      subst hw'
      obtain ⟨h2, h3⟩ := off_restarts_none k hk pFb t' t v u hfit huo
      exact ⟨h2, (direct_inputs k hk t' u).2.2.1, (direct_inputs k hk t' u).2.2.2, h3⟩)
    (directOff k t v) (step_fits k (.num q) pFb v _ (.off t) hfit rfl) rfl ha
  have hws' : w.start = t := by rw [hws, directOff_start k hk t v hfit, if_pos hnew]
  have hrun : run k (.num q) pFb { start := t0 } (es ++ .off t :: es') = some w := by
    rw [run_append, hv]
    simpa [run, step] using hw
  refine ⟨w, _, hrun, ?_, error_shown k m w⟩
  have hl : ⌊q⌋.toNat < t1.toNat - t.toNat := by
    have h2 : ⌊q⌋ < ((t1.toNat - t.toNat : Nat) : Int) := by
      rw [Int.floor_lt]; exact_mod_cast hlate
    have := Int.floor_nonneg.mpr h0
    omega
  refine exState_late k hk q h0 h1 pFb t1 t2 m w hf hwa ?_ ?_
  · rw [hws', passed_eq _ _ ht]; exact hl
  · rw [hws', passed_eq _ _ (by rw [BitVec.le_def] at *; omega)]; rw [BitVec.le_def] at h12; omega

-- A mix-proof valve that stays open although told to close again and again.
example : Held .mix ∧
    run .mix (.num 500) (.num 1) {} [.on 10, .inputs true false] =
      some { a := true, x := true, start := 10 } ∧
    agrees .mix (directOff .mix 1000 { a := true, x := true, start := 10 }) = false ∧
    (run .mix (.num 500) (.num 1) {} [.on 10, .inputs true false, .off 1000, .off 1200, .ask 1300 false, .off 1600]).bind
      (fun v => (exState .mix 1601 1601 (.num 500) (.num 1) true v).map Prod.fst) = some (-13) := by
  refine ⟨by simp [Held], ?_⟩
  decide +kernel

/-- C48 fails for bistable valves: once stopped half-way by the operator (`ST` 5), a jam is never reported, whatever is
commanded afterwards by the program and whatever the inputs show, until the operator sets another state. -/
theorem C48_bistable_stop_violated (pOn pFb : Fl) (v : Dv) (t : Tm) (hx : v.x = false) (hy : v.y = false)
    (es : List Ev) (hes : ∀ e ∈ es, ∀ t n, e ≠ .set t n) (w : Dv)
    (h : run .bistable pOn pFb v (.set t 5 :: es) = some w) (t1 t2 : Tm) (m : Bool) :
    ∃ n, exState .bistable t1 t2 pOn pFb m w = some (n, w) ∧ isError n = false := by
  simp only [run, step, Option.bind_some] at h
  have hs : w.stopped = true := by
    refine run_stopped pOn pFb es _ w ?_ hes h
    simp [directSet, hx, hy]
  obtain ⟨r, hr, he, h2⟩ := exState_stopped t1 t2 pOn pFb m w hs
  refine ⟨r.1, ?_, he⟩
  rw [hr, ← h2]

-- It is stopped at 1000, told to open at 2000; an hour later it has still not opened and is shown as stopped, not as
-- faulty.
example : (run .bistable (.num 3000) (.num 1) {} [.on 0, .set 1000 5, .on 2000, .tick 6000, .inputs false false]).bind
    (fun v => (exState .bistable 3602000 3602000 (.num 3000) (.num 1) false v).map Prod.fst) = some 5 := by
  decide +kernel

-- Without the stop the error is shown.
example : (run .bistable (.num 3000) (.num 1) {} [.on 0, .on 2000, .tick 6000, .inputs false false]).bind
    (fun v => (exState .bistable 3602000 3602000 (.num 3000) (.num 1) false v).map Prod.fst) = some (-3) := by
  decide +kernel

/-- C48, bistable valves that have not been stopped: an error is reported when neither input is set, or the one
opposite to the last command, and more than `P_ON_TIME` but less than 2^32 ms have passed since the pulse began. -/
theorem C48_bistable_reported_partial (q : Rat) (h0 : 0 ≤ q) (h1 : q < 2 ^ 24) (pFb : Fl)
    (hf : pFb.eq (.num 0) = false) (v : Dv) (hs : v.stopped = false) (t : Tm) (m : Bool) (ht : v.start ≤ t)
    (hlate : q < ((t.toNat - v.start.toNat : Nat) : Rat)) (hwrap : t.toNat - v.start.toNat < 2 ^ 32)
    (hbad : (v.x = false ∧ v.y = false) ∨ (v.x = true ∧ v.y = true) ∨
      (v.opening = true ∧ v.x = false ∧ v.y = true) ∨ (v.closing = true ∧ v.x = true ∧ v.y = false)) :
    ∃ n, exState .bistable t t (.num q) pFb m v = some (n, v) ∧ isError n = true := by
  have hl : ⌊q⌋.toNat < t.toNat - v.start.toNat := by
    have h2 : ⌊q⌋ < ((t.toNat - v.start.toNat : Nat) : Int) := by
      rw [Int.floor_lt]; exact_mod_cast hlate
    have := Int.floor_nonneg.mpr h0
    omega
  have hp : passed t v.start > ⌊q⌋.toNat := by rw [passed_eq _ _ ht]; exact hl
  have hm : passed t v.start % 2 ^ 32 = passed t v.start := Nat.mod_eq_of_lt (by rw [passed_eq _ _ ht]; exact hwrap)
  have hfb : fbState .bistable t (.num q) v = some (false, v) := by
    unfold fbState
    have hnl : ¬ passed t v.start < ⌊q⌋.toNat := by omega
    have hcl : ⌊q⌋.toNat < passed t v.start := hp
    simp only [toUnsigned_floor 32 (by omega) q h0 h1, hs, hm, Bool.false_eq_true, if_false, Option.map_some]
    rcases hbad with ⟨hx, hy⟩ | ⟨hx, hy⟩ | ⟨ho, hx, hy⟩ | ⟨ho, hx, hy⟩
    · simp [hx, hy, hnl]
    · simp [hx, hy]
    · simp [hx, hy, ho, hcl]
    · simp [hx, hy, ho, hcl]
  have hst : valveState .bistable v = 1 ∨ valveState .bistable v = 0 := by
    unfold valveState
    simp only [hs]
    cases v.x <;> cases v.y <;> cases v.a <;> cases v.b <;> simp
  unfold exState
  rw [hfb, toUnsigned_floor 64 (by omega) q h0 h1]
  rcases hst with hst | hst <;> cases m <;> simp [hst, hasFb, hf, isError, show ⌊q⌋.toNat < passed t v.start from hp]

example : ∃ n, exState .bistable 5000 5000 (.num 3000) (.num 1) false
    { y := true, opening := true, start := 1000 } = some (n, { y := true, opening := true, start := 1000 }) ∧
    isError n = true :=
  C48_bistable_reported_partial 3000 (by norm_num) (by norm_num) _ rfl _ rfl _ _ (by decide) (by decide +kernel) (by decide)
    (by simp)

/-- C48 fails for bistable valves also because the time since the pulse is cut to 32 bits: a valve stuck half-way, shown
as faulty after 4 s, is shown as closed, in order, 49.7 days later. -/
theorem C48_bistable_wrap_violated :
    (run .bistable (.num 3000) (.num 1) {} [.on 0, .tick 4000, .off 10000, .tick 14000]).bind
      (fun v => (exState .bistable 14000 14000 (.num 3000) (.num 1) false v).map Prod.fst) = some (-3) ∧
    (run .bistable (.num 3000) (.num 1) {} [.on 0, .tick 4000, .off 10000, .tick 14000]).bind
      (fun v => (exState .bistable 4294978000 4294978000 (.num 3000) (.num 1) false v).map Prod.fst) = some 0 := by
  decide +kernel

/-- C48 fails for IO-Link mix-proof valves: as long as the valve has not reached the open position, every `on()` starts
the time again.  A program that repeats `on()` more often than `P_ON_TIME`, as the operations do, never sees an error,
however long the valve is stuck. -/
theorem C48_iolink_repeated_violated (q : Rat) (h1 : q ≤ 2 ^ 24) (pFb : Fl) (v : Iol) (es : List IEv)
    (hstuck : (v.run es).main = false) (herr : (v.run es).err = false) (hok : (v.run es).ioOk = true)
    (t t1 t2 : Tm) (m : Bool) (ht : t ≤ t1) (hin : ((t1.toNat - t.toNat : Nat) : Rat) < q) :
    ∃ n, (v.run (es ++ [.on t])).exState t1 t2 (.num q) pFb m = some n ∧ isError n = false := by
  have hw : v.run (es ++ [.on t]) = { v.run es with start := t, sv1 := true, sv2 := false, sv3 := false } := by
    rw [Iol.run_append]
    change (v.run es).directOn t = _
    simp [Iol.directOn, hstuck]
  have hfb : (v.run (es ++ [.on t])).fbState t1 (.num q) = true := by
    have : inTime t1 t (.num q) = true := inTime_early t1 t q h1 (by rw [passed_eq _ _ ht]; exact hin)
    rw [hw]
    simp [Iol.fbState, herr, hok, this]
  have hst : (v.run (es ++ [.on t])).valveState = 0 ∨ (v.run (es ++ [.on t])).valveState = 2 ∨
      (v.run (es ++ [.on t])).valveState = 3 := by
    rw [hw]
    simp only [Iol.valveState, hstuck]
    repeat' split
    all_goals simp_all
  unfold Iol.exState
  rw [hfb]
  rcases hst with h | h | h <;> cases hp : pFb.eq (.num 0) <;> cases m <;> simp [h, isError]

-- Told to open every second for 100 seconds, `P_ON_TIME` 3000, the valve stays closed and is shown as closed, in order.
example : ((({} : Iol).run (.inputs true false false false true false true ::
      (List.range 101).map fun i => .on (1000 * BitVec.ofNat 64 i))).exState 100500 100500 (.num 3000) (.num 1) false) =
    some 0 := by
  decide +kernel

/-- C48, IO-Link mix-proof valves: more than `P_ON_TIME` after the last start of the time, with feedback that does not
confirm what the valve was told, an error is reported (in manual mode not for a valve with a seat lifted). -/
theorem C48_iolink_reported_partial (q : Rat) (h0 : 0 ≤ q) (h1 : q < 2 ^ 24) (pFb : Fl)
    (hf : pFb.eq (.num 0) = false) (v : Iol) (hv : v.exclusive) (t : Tm) (m : Bool) (ht : v.start ≤ t)
    (hm : m = true → v.deEn = true ∨ v.main = true ∨ (v.usl = false ∧ v.lsp = false))
    (hlate : q < ((t.toNat - v.start.toNat : Nat) : Rat)) (hbad : v.confirmed = false) :
    ∃ n, v.exState t t (.num q) pFb m = some n ∧ isError n = true := by
  have hl : ⌊q⌋.toNat < t.toNat - v.start.toNat := by
    have h2 : ⌊q⌋ < ((t.toNat - v.start.toNat : Nat) : Int) := by
      rw [Int.floor_lt]; exact_mod_cast hlate
    have := Int.floor_nonneg.mpr h0
    omega
  have hp : passed t v.start > ⌊q⌋.toNat := by rw [passed_eq _ _ ht]; exact hl
  have hfb : v.fbState t (.num q) = false := by
    unfold Iol.fbState
    rw [inTime_late _ _ q h0 h1 hp]
    unfold Iol.exclusive at hv
    unfold Iol.confirmed at hbad
    revert hbad hv
    cases v.ioOk <;> cases v.err <;> cases v.sv1 <;> cases v.sv2 <;> cases v.sv3 <;> cases v.deEn <;> cases v.main <;>
      cases v.usl <;> cases v.lsp <;> cases v.st <;> simp
  unfold Iol.exState
  rw [hfb, toUnsigned_floor 64 (by omega) q h0 h1]
  have hp' : ⌊q⌋.toNat < passed t v.start := hp
  unfold Iol.valveState
  revert hm
  cases v.deEn <;> cases v.main <;> cases v.usl <;> cases v.lsp <;> cases m <;> simp [hf, hp', isError]

-- Told to open once, it is reported after `P_ON_TIME`.
example : ∃ n, Iol.exState 5000 5000 (.num 3000) (.num 1) false
    { sv1 := true, deEn := true, st := true, start := 1000 } = some n ∧ isError n = true :=
  C48_iolink_reported_partial 3000 (by norm_num) (by norm_num) _ rfl _ (by simp [Iol.exclusive]) _ _ (by decide)
    (by simp) (by decide +kernel) rfl

/-- C48 fails: the feedback values shown for an IO-Link mix-proof valve are exchanged.  A valve told to close that is
closed shows no closed feedback, and one told to close that has stayed open shows it; likewise when told to open. -/
theorem C48_iolink_values_violated (v : Iol) (hst : v.st = true) :
    (v.sv1 = false → v.deEn = true → v.main = false → v.offFb = false) ∧
    (v.sv1 = false → v.deEn = false → v.main = true → v.offFb = true) ∧
    (v.sv1 = true → v.main = true → v.deEn = false → v.onFb = false) ∧
    (v.sv1 = true → v.main = false → v.deEn = true → v.onFb = true) := by
  simp only [Iol.offFb, Iol.onFb, hst]
  refine ⟨?_, ?_, ?_, ?_⟩ <;> intro h1 h2 h3 <;> simp_all

example : Iol.offFb { deEn := true, st := true } = false := rfl

/-- C49.  In no history are two outputs of a valve on at once: not opening and closing, not a seat with another seat or
with the valve open. -/
theorem C49_exclusive (k : Kind) (pOn pFb : Fl) (t0 : Tm) (es : List Ev) (v : Dv)
    (h : run k pOn pFb { start := t0 } es = some v) : exclusive v :=
  (run_fits k pOn pFb es _ v (fits_init k t0) h).1

-- A mix-proof valve sent from the upper seat to the lower one, then opened.
example : run .mix (.num 500) (.num 1) {} [.set 1 2] = some { b := true, start := 1 } ∧
    run .mix (.num 500) (.num 1) {} [.set 1 2, .set 2 3] = some { c := true, start := 2 } ∧
    run .mix (.num 500) (.num 1) {} [.set 1 2, .set 2 3, .on 3] = some { a := true, start := 3 } := by
  decide +kernel

/-- C49, IO-Link mix-proof valves. -/
theorem C49_iolink_exclusive (t0 : Tm) (es : List IEv) : (Iol.run { start := t0 } es).exclusive :=
  Iol.run_exclusive es _ (by simp [Iol.exclusive])

example : (Iol.run {} [.set 1 2, .set 2 3]).sv2 = false ∧ (Iol.run {} [.set 1 2, .set 2 3]).sv3 = true := by decide

/-- C49.  The pulse of a bistable valve ends: at the first cycle in which the position is reached or more than
`P_ON_TIME` has passed, the output is taken away; until then it is held. -/
theorem C49_pulse (q : Rat) (h0 : 0 ≤ q) (h1 : q < 2 ^ 24) (v : Dv) (t : Tm) (ht : v.start ≤ t) :
    ∃ w, tick .bistable t (.num q) v = some w ∧
      (w.a = true ↔ v.a = true ∧ v.x = false ∧ ((t.toNat - v.start.toNat : Nat) : Int) ≤ ⌊q⌋) ∧
      (w.b = true ↔ v.b = true ∧ v.y = false ∧ ((t.toNat - v.start.toNat : Nat) : Int) ≤ ⌊q⌋) := by
  have hnn := Int.floor_nonneg.mpr h0
  refine ⟨_, by rw [tick, toUnsigned_floor 32 (by omega) q h0 h1]; rfl, ?_⟩
  rw [passed_eq _ _ ht]
  have e : (((t.toNat - v.start.toNat : Nat) : Int) ≤ ⌊q⌋) ↔ ¬ (t.toNat - v.start.toNat > ⌊q⌋.toNat) := by omega
  rw [e]
  by_cases hl : t.toNat - v.start.toNat > ⌊q⌋.toNat
  · simp only [hl]
    obtain ⟨a, b, c, x, y, start, stopped, opening, closing, state⟩ := v
    cases a <;> cases b <;> simp
  · simp only [hl]
    obtain ⟨a, b, c, x, y, start, stopped, opening, closing, state⟩ := v
    cases a <;> cases b <;> cases x <;> cases y <;> simp

example : tick .bistable 4000 (.num 3000) { a := true, start := 1000 } = some { a := true, start := 1000 } ∧
    tick .bistable 4001 (.num 3000) { a := true, start := 1000 } = some { a := false, start := 1000 } := by
  decide +kernel

/-- C49 fails for a negative `P_ON_TIME`: the conversion to an unsigned number is undefined in every cycle of a bistable
valve. -/
theorem C49_pulse_violated (q : Rat) (hq : q ≤ -1) (v : Dv) (t : Tm) : tick .bistable t (.num q) v = none := by
  have : Int.tdiv q.num q.den < 0 := by
    have hneg : q.num < 0 := by rw [Rat.num_neg]; linarith
    have hle : (q.den : Int) ≤ -q.num := by
      have h3 : (q.num : Rat) ≤ -1 * q.den := by
        have h5 : (q.num : Rat) = q * q.den := (Rat.mul_den_eq_num q).symm
        have h6 : (0 : Rat) < q.den := by exact_mod_cast q.den_pos
        rw [h5]
        exact mul_le_mul_of_nonneg_right hq h6.le
      have h7 : q.num ≤ -1 * (q.den : Int) := by exact_mod_cast h3
      omega
    have h4 : Int.tdiv (-q.num) q.den ≥ 1 := by
      rw [Int.tdiv_eq_ediv_of_nonneg (by omega)]
      exact (Int.le_ediv_iff_mul_le (by exact_mod_cast q.den_pos)).mpr (by omega)
    rw [Int.neg_tdiv] at h4
    omega
  simp only [tick, toUnsigned]
  rw [if_neg (by omega)]
  rfl

example : tick .bistable 0 (.num (-1)) {} = none := by decide +kernel

/-- C51.  What is commanded is carried out and shown: after `on()` a valve is shown on, after `off()` shown off (valves
with one output, with two outputs without feedback, and mix-proof valves). -/
theorem C51_on_off_partial (k : Kind) (hk : k = .do1 ∨ k = .do2 ∨ k = .di1Off ∨ k = .di1On ∨ k = .do1di2 ∨ k = .mix)
    (pOn pFb : Fl) (t0 t : Tm) (es : List Ev) (v : Dv) (h : run k pOn pFb { start := t0 } es = some v) :
    valveState k (directOn k t v) = 1 ∧ valveState k (directOff k t v) = 0 ∧
    (k ≠ .do2 → (directOn k t v).a = true ∧ (directOff k t v).a = false) ∧
    (k = .do2 → (directOn k t v).b = true ∧ (directOn k t v).a = false ∧
      (directOff k t v).b = false ∧ (directOff k t v).a = true) := by
  have hf := run_fits k pOn pFb es _ v (fits_init k t0) h
  obtain ⟨a, b, c, x, y, start, stopped, opening, closing, state⟩ := v
  revert hf
  rcases hk with rfl | rfl | rfl | rfl | rfl | rfl <;> cases a <;> cases b <;> cases c <;>
    simp [Fits, exclusive, directOn, directOff, valveState]

example : (run .mix (.num 500) (.num 1) {} [.set 1 2]).map (fun v => valveState .mix (directOff .mix 9 v)) = some 0 := by
  decide +kernel

/-- C51, bistable valves: a command gives a pulse on its own output unless the position is already reached, and takes
the other output away. -/
theorem C51_bistable_partial (t : Tm) (v : Dv) (h : exclusive v) :
    (v.x = false → (directOn .bistable t v).a = true ∧ (directOn .bistable t v).b = false) ∧
    (v.y = false → (directOff .bistable t v).b = true ∧ (directOff .bistable t v).a = false) ∧
    (v.x = true → directOn .bistable t v = v) ∧ (v.y = true → directOff .bistable t v = v) := by
  obtain ⟨a, b, c, x, y, start, stopped, opening, closing, state⟩ := v
  revert h
  cases a <;> cases b <;> cases x <;> cases y <;> simp [exclusive, directOn, directOff]

example : (directOff .bistable 5 { x := true }).b = true := rfl

/-- C51, bistable valves: the operator's stop (state 5) takes both outputs away when the valve is in neither end position
and is ignored in an end position; it lasts until the operator sets another state. -/
theorem C51_bistable_stop (t : Tm) (v : Dv) :
    (v.x = false → v.y = false → (directSet .bistable t 5 v).stopped = true ∧ (directSet .bistable t 5 v).a = false ∧
      (directSet .bistable t 5 v).b = false) ∧
    (v.x = true ∨ v.y = true → (directSet .bistable t 5 v).stopped = v.stopped ∧
      outputs (directSet .bistable t 5 v) = outputs v) ∧
    (∀ n, n ≠ 5 → (directSet .bistable t n v).stopped = false) := by
  refine ⟨?_, ?_, ?_⟩
  · intro hx hy; simp [directSet, hx, hy]
  · intro h; rcases h with h | h <;> simp [directSet, h, outputs]
  · intro n hn; simp [directSet, hn]

example : (directSet .bistable 5 5 { a := true }).a = false := rfl

/-- C51 fails for bistable valves: a valve that is on its way to close, with the open input still set, cannot be sent
back: `on()` does nothing and the closing output stays. -/
theorem C51_bistable_reverse_violated (t t' : Tm) (v : Dv) (hx : v.x = true) (hy : v.y = false) (hb : v.b = false) :
    (directOn .bistable t' (directOff .bistable t v)).b = true ∧
    (directOn .bistable t' (directOff .bistable t v)).a = false := by
  simp [directOn, directOff, hx, hy, hb]

example : (directOn .bistable 7 (directOff .bistable 5 { x := true })).b = true := rfl

/-- C51 fails for valves with two outputs and two inputs: in every history they are shown off after `on()` and on after
`off()`. -/
theorem C51_inverted_violated (pOn pFb : Fl) (t0 t : Tm) (es : List Ev) (v : Dv)
    (h : run .do2di2 pOn pFb { start := t0 } es = some v) :
    valveState .do2di2 (directOn .do2di2 t v) = 0 ∧ valveState .do2di2 (directOff .do2di2 t v) = 1 := by
  have hf := run_fits .do2di2 pOn pFb es _ v (fits_init .do2di2 t0) h
  obtain ⟨a, b, c, x, y, start, stopped, opening, closing, state⟩ := v
  revert hf
  cases a <;> cases b <;> cases c <;> simp [Fits, exclusive, directOn, directOff, valveState]

-- Opened, confirmed by the input of the opened position: shown as off.
example : (run .do2di2 (.num 500) (.num 1) {} [.on 1, .inputs true false]).bind
    (fun v => (exState .do2di2 2 2 (.num 500) (.num 1) false v).map Prod.fst) = some 0 := by
  decide +kernel

/-- C51, mix-proof valves: a state set by the operator or the program (0 off, 1 on, 2 upper seat, 3 lower seat) is shown
at once, in every history. -/
theorem C51_set_state_partial (pOn pFb : Fl) (t0 t : Tm) (es : List Ev) (v : Dv)
    (h : run .mix pOn pFb { start := t0 } es = some v) (n : Int) (hn : n = 0 ∨ n = 1 ∨ n = 2 ∨ n = 3) :
    valveState .mix (directSet .mix t n v) = n := by
  have hf := run_fits .mix pOn pFb es _ v (fits_init .mix t0) h
  obtain ⟨a, b, c, x, y, start, stopped, opening, closing, state⟩ := v
  revert hf
  rcases hn with rfl | rfl | rfl | rfl <;> cases a <;> cases b <;> cases c <;>
    simp [Fits, exclusive, directSet, directOn, directOff, valveState]

example : (run .mix (.num 500) (.num 1) {} [.on 1]).map (fun v => valveState .mix (directSet .mix 2 3 v)) = some 3 := by
  decide +kernel

/-- C51, IO-Link mix-proof valves: a state set drives exactly the coil that belongs to it, from any state. -/
theorem C51_iolink_set_state (v : Iol) (t : Tm) (n : Int) (hn : n = 0 ∨ n = 1 ∨ n = 2 ∨ n = 3) :
    (v.directSet t n).sv1 = decide (n = 1) ∧ (v.directSet t n).sv2 = decide (n = 2) ∧
    (v.directSet t n).sv3 = decide (n = 3) := by
  rcases hn with rfl | rfl | rfl | rfl <;> simp [Iol.directSet, Iol.directOn, Iol.directOff]

example : (Iol.directSet 5 2 { sv1 := true, main := true }).sv1 = false := by decide

/-- C51 fails for valves of the other classes: a state set by the operator (`ST`) or the program changes no output and
not the state shown, whatever the number (except stopping a bistable valve). -/
theorem C51_set_state_violated (k : Kind) (hk : k ≠ .mix) (t : Tm) (n : Int) (h5 : k = .bistable → n ≠ 5) (v : Dv) :
    outputs (directSet k t n v) = outputs v ∧
    (k ≠ .bistable → valveState k (directSet k t n v) = valveState k v) := by
  cases k
  case mix => exact absurd rfl hk
  case bistable => simp [directSet, outputs, h5 rfl]
  all_goals exact ⟨rfl, fun _ => rfl⟩

-- The operator opens a valve with one output: nothing happens.
example : valveState .do1 (directSet .do1 7 1 {}) = 0 := rfl

end Ptusa.Valve
