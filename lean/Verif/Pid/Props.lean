import Verif.Pid.Lemmas

/-!
# C13, C14: the PID regulator
-/
namespace Ptusa.Regulator
open Ptusa Fl

/-! ### C13 -/

/-- C13 (missing: inputs that are not numbers, and the first evaluation after manual mode; both
cases are false, see below).  After any history, the value returned by the evaluation of a
regulator that is on (or stopping) and not in manual mode lies between the configured minimum and
maximum. -/
theorem C13_within_limits_partial (par : Params) (t0 : Nat) (es : List Ev) (e : Env)
    (hpar : par.Finite) (hes : ∀ ev ∈ es, ev.Finite) (hc : e.cur.IsNum) (hs : e.sign.IsNum) :
    let p := (Pid.init par t0).run es
    p.st ≠ .off → p.par.isManual.eq 1 = false → ¬ Leaving p →
    p.par.outMin.le p.par.outMax = true →
    Between p.par.outMin p.par.outMax (p.eval e).2 := by
  intro p hst hman hleave hle
  have hf : p.Finite := run_finite (init_finite par hpar t0) es hes
  have h2 := enter_finite (before_finite hf hc hs)
  rw [eval_regulated p e hst hman hleave]
  exact limit_between hle h2.uk

/-- C13, the same for what the actuator gets while the program feeds the regulator. -/
theorem C13_actuator_within_limits_partial (par : Params) (t0 : Nat) (es : List Ev) (v : Fl)
    (e : Env) (hpar : par.Finite) (hes : ∀ ev ∈ es, ev.Finite)
    (hev : (Ev.value v e).Finite) :
    let p := (Pid.init par t0).run es
    p.devManual = false → p.st ≠ .off → p.par.isManual.eq 1 = false → ¬ Leaving p →
    p.par.outMin.le p.par.outMax = true →
    ∃ u, (p.step (.value v e)).acts = .set u :: .on :: p.acts ∧
      Between p.par.outMin p.par.outMax u := by
  intro p hdm hst hman hleave hle
  have hf : p.Finite := run_finite (init_finite par hpar t0) es hes
  have hf' : ({ p with set := v } : Pid).Finite :=
    ⟨hf.par, hf.uk1, hf.ek1, hf.ek2, hf.uk, hf.out, hev.1, hf.start⟩
  have h2 := enter_finite (before_finite hf' hev.2.1 hev.2.2)
  have hstep : p.step (.value v e) = p.directSetValue v e := by simp [Pid.step, hdm]
  have hev1 := eval_st { p with set := v } e
  have hreg := eval_regulated { p with set := v } e hst hman hleave
  have hne : ¬ ((Pid.eval { p with set := v } e).1.st = .off) := by rw [hev1.1]; exact hst
  refine ⟨(Pid.eval { p with set := v } e).2, ?_, ?_⟩
  · rw [hstep]
    unfold Pid.directSetValue
    dsimp only
    rw [if_neg hne]
    dsimp only
    rw [hev1.2.1]
  · rw [hreg]
    exact limit_between hle h2.uk

theorem demo_finite : demo.Finite := by
  constructor <;> exact ⟨_, rfl⟩

/-- The regulator is on, measures 20 with the set point 90, and gives exactly its maximum 80
after two evaluations. -/
example : let p := (Pid.init demo 0).run [.on false 5, .value 90 (at_ 2000 20)]
    p.st ≠ .off ∧ p.par.isManual.eq 1 = false ∧ ¬ Leaving p ∧
    p.par.outMin.le p.par.outMax = true ∧ (p.eval (at_ 4000 0)).2 = 80 := by
  refine ⟨by decide +kernel, by decide +kernel, ?_, by decide +kernel, by decide +kernel⟩
  rintro ⟨h, -⟩
  revert h
  decide +kernel

/-- C13, percentage: if the limits are within 0..100 so is the output. -/
theorem C13_percentage {lo hi u : Fl} (h : Between lo hi u) (hlo : Fl.le 0 lo = true)
    (hhi : hi.le 100 = true) : Between 0 100 u := by
  obtain ⟨h1, h2⟩ := h
  cases lo with
  | nan => simp at h1
  | num a =>
    cases hi with
    | nan => simp at h2
    | num b =>
      cases u with
      | nan => simp at h1
      | num x =>
        have e0 : (0 : Fl) = num 0 := rfl
        have e1 : (100 : Fl) = num 100 := rfl
        rw [e0, le_num, decide_eq_true_eq] at hlo
        rw [e1, le_num, decide_eq_true_eq] at hhi
        rw [le_num, decide_eq_true_eq] at h1 h2
        rw [e0, e1]
        exact ⟨by rw [le_num, decide_eq_true_eq]; linarith, by rw [le_num, decide_eq_true_eq]; linarith⟩

example : Between (10 : Fl) 80 55 ∧ Fl.le 0 (10 : Fl) = true ∧ Fl.le (80 : Fl) 100 = true := by
  exact ⟨⟨by decide +kernel, by decide +kernel⟩, by decide +kernel, by decide +kernel⟩

/-- C13, the limits an operator can enter for an old-style regulator: whatever (numeric) values
are entered in whatever order, 0 ≤ minimum ≤ maximum ≤ 100 stays true. -/
theorem C13_old_style_limits_ordered (p : Params) (cmds : List (Bool × Rat))
    (h : Fl.le 0 p.outMin = true ∧ p.outMin.le p.outMax = true ∧ p.outMax.le 100 = true) :
    let q := cmds.foldl (fun q c => q.oldSetLimit c.1 (num c.2)) p
    Fl.le 0 q.outMin = true ∧ q.outMin.le q.outMax = true ∧ q.outMax.le 100 = true := by
  induction cmds generalizing p with
  | nil => exact h
  | cons c cmds ih =>
    apply ih
    obtain ⟨isMax, v⟩ := c
    have e0 : (0 : Fl) = num 0 := rfl
    have e1 : (100 : Fl) = num 100 := rfl
    cases hlo : p.outMin with
    | nan => rw [hlo] at h; simp at h
    | num a =>
      cases hhi : p.outMax with
      | nan => rw [hhi] at h; simp at h
      | num b =>
        rw [hlo, hhi, e0, e1] at h
        simp only [le_num, decide_eq_true_eq] at h
        obtain ⟨ha, hab, hb⟩ := h
        cases isMax with
        | true =>
          simp only [Params.oldSetLimit, if_true, e1, lt_num, decide_eq_true_eq, hlo]
          by_cases hv : 100 < v
          · simp only [hv, if_true, lt_num, decide_eq_true_eq]
            have : ¬ (100 : Rat) < a := by linarith
            simp only [this, if_false, e0, le_num, decide_eq_true_eq]
            exact ⟨ha, by linarith, le_refl _⟩
          · simp only [hv, if_false, lt_num, decide_eq_true_eq]
            by_cases hva : v < a
            · simp only [hva, if_true, hlo, hhi, e0, le_num, decide_eq_true_eq]
              exact ⟨ha, hab, hb⟩
            · simp only [hva, if_false, e0, le_num, decide_eq_true_eq]
              exact ⟨ha, by linarith, by linarith⟩
        | false =>
          simp only [Params.oldSetLimit, Bool.false_eq_true, if_false, e0, lt_num,
            decide_eq_true_eq, hhi]
          by_cases hv : v < 0
          · simp only [hv, if_true, lt_num, decide_eq_true_eq]
            have : ¬ b < (0 : Rat) := by linarith
            simp only [this, if_false, e1, le_num, decide_eq_true_eq]
            exact ⟨le_refl _, by linarith, hb⟩
          · simp only [hv, if_false, lt_num, decide_eq_true_eq]
            by_cases hva : b < v
            · simp only [hva, if_true, hlo, hhi, e1, le_num, decide_eq_true_eq]
              exact ⟨ha, hab, hb⟩
            · simp only [hva, if_false, e1, le_num, decide_eq_true_eq]
              exact ⟨by linarith, by linarith, hb⟩

example : (Fl.le 0 demo.outMin = true ∧ demo.outMin.le demo.outMax = true ∧
    demo.outMax.le 100 = true) ∧
    (demo.oldSetLimit true (num 150)).outMax = 100 ∧ (demo.oldSetLimit false (num 90)).outMin = 10 := by
  decide +kernel

/-- C13 is false of new-style regulators and of `init_param`: the operator's value is stored
unchecked (maximum 150 %), and a program can store a minimum of 120 %. -/
theorem C13_unchecked_limits_violated :
    (∃ v : Rat, ¬ Between 0 100 (demo.newSetLimit true (num v)).outMax) ∧
    (∃ v : Rat, ¬ Between 0 100 (demo.initLimit false (num v)).outMin) := by
  refine ⟨⟨150, ?_⟩, ⟨120, ?_⟩⟩
  · rintro ⟨-, h⟩
    revert h
    decide +kernel
  · rintro ⟨-, h⟩
    revert h
    decide +kernel

/-- C13 is false of the first evaluation after manual mode: with the limits 10..80 the operator
enters 95 in manual mode and then leaves manual mode; the actuator gets 95. -/
theorem C13_leaving_manual_violated :
    ∃ es : List Ev, (∀ ev ∈ es, ev.Finite) ∧
      let p := (Pid.init demo 0).run es
      p.st = .on ∧ p.par.isManual = 0 ∧ p.par.outMax = 80 ∧
      (p.step (.value 50 (at_ 6000 20))).acts.head? = some (.set 95) := by
  refine ⟨[.on false 5, .value 50 (at_ 2000 20), .param fun q => { q with isManual := 1 },
    .value 50 (at_ 3000 20), .param fun q => { q with uManual := 95 },
    .param fun q => { q with isManual := 0 }], ?_, by decide +kernel⟩
  intro ev h
  simp only [List.mem_cons, List.not_mem_nil, or_false] at h
  have n := isNum_ofNat
  rcases h with rfl | rfl | rfl | rfl | rfl | rfl
  · trivial
  · exact ⟨n 50, n 20, n 1⟩
  · exact fun q hq => { hq with man := n 1 }
  · exact ⟨n 50, n 20, n 1⟩
  · exact fun q hq => { hq with uman := n 95 }
  · exact fun q hq => { hq with man := n 0 }

/-- C13 is false of readings that are not a number: the output is not a number either, and it
stays so for every later evaluation with proper readings, as long as the regulator is on. -/
theorem C13_nan_sticks_violated :
    ∃ p : Pid, p.Finite ∧ p.st = .on ∧
      ∀ ts : List (Nat × Rat),
        ((ts.foldl (fun (q : Pid) tc => (q.eval (at_ tc.1 (num tc.2))).1)
          (p.eval (at_ 2000 nan)).1).eval (at_ 9000 (num 20))).2 = nan := by
  refine ⟨(Pid.init demo 0).run [.on false 5], ?_, by decide +kernel, ?_⟩
  · refine run_finite (init_finite demo demo_finite 0) _ ?_
    intro ev h
    simp only [List.mem_cons, List.not_mem_nil, or_false] at h
    subst h
    trivial
  · -- the relevant part of the state after the bad reading
    have key : ∀ (q : Pid) (t : Nat) (c : Fl), q.uk1 = nan → q.uk = nan → q.st = .on →
        q.par = demo → q.prevManual = false →
        ((q.eval (at_ t c)).1.uk1 = nan ∧ (q.eval (at_ t c)).1.uk = nan ∧
          (q.eval (at_ t c)).1.st = .on ∧ (q.eval (at_ t c)).1.par = demo ∧
          (q.eval (at_ t c)).1.prevManual = false) ∧ (q.eval (at_ t c)).2 = nan := by
      intro q t c h1 h2 h3 h4 h5
      have hb : (q.beforeManual (at_ t c)).uk1 = nan ∧ (q.beforeManual (at_ t c)).uk = nan ∧
          (q.beforeManual (at_ t c)).st = .on := by
        unfold Pid.beforeManual
        split
        · have hacc : (at_ t c).toUInt = fun _ => 0 := rfl
          unfold Pid.recalc
          simp only [h1, add_nan_left, hacc]
          exact ⟨rfl, rfl, h3⟩
        · exact ⟨h1, h2, h3⟩
      have hp := before_par q (at_ t c)
      have hen : (q.beforeManual (at_ t c)).enterManual = q.beforeManual (at_ t c) := by
        unfold Pid.enterManual
        have : truthy (q.beforeManual (at_ t c)).par.isManual = false := by
          rw [hp.1, h4]; decide +kernel
        rw [this]
        simp
      rw [eval_eq q _ (by rw [h3]; decide), hen]
      have hm0 : ((q.beforeManual (at_ t c)).par.isManual.eq 0 &&
          (q.beforeManual (at_ t c)).prevManual) = false := by
        rw [hp.2, h5]; simp
      have hm1 : (q.beforeManual (at_ t c)).par.isManual.eq 1 = false := by
        rw [hp.1, h4]; decide +kernel
      have hlim : limit (q.beforeManual (at_ t c)).par.outMin (q.beforeManual (at_ t c)).par.outMax
          (q.beforeManual (at_ t c)).uk = nan := by
        rw [hb.2.1]; simp [limit]
      simp only [hm0, hm1, hlim]
      exact ⟨⟨hb.1, rfl, hb.2.2, hp.1.trans h4, hp.2.trans h5⟩, rfl⟩
    intro ts
    have h0 : ∀ q : Pid, (q.uk1 = nan ∧ q.uk = nan ∧ q.st = .on ∧ q.par = demo ∧
        q.prevManual = false) →
        (let r := ts.foldl (fun (q : Pid) tc => (q.eval (at_ tc.1 (num tc.2))).1) q
        r.uk1 = nan ∧ r.uk = nan ∧ r.st = .on ∧ r.par = demo ∧ r.prevManual = false) := by
      induction ts with
      | nil => exact fun q h => h
      | cons t ts ih =>
        intro q ⟨h1, h2, h3, h4, h5⟩
        exact ih _ (key q t.1 (num t.2) h1 h2 h3 h4 h5).1
    have hstart := h0 (((Pid.init demo 0).run [.on false 5]).eval (at_ 2000 nan)).1 (by
      decide +kernel)
    obtain ⟨g1, g2, g3, g4, g5⟩ := hstart
    exact (key _ 9000 (num 20) g1 g2 g3 g4 g5).2

/-! ### C14 -/

/-- C14, a regulator that is off: evaluation gives the rest value (0 or 100) and changes nothing,
and feeding it a set point only switches the actuator off. -/
theorem C14_off_gives_rest (p : Pid) (v : Fl) (e : Env) (h : p.st = .off) :
    p.eval e = (p, p.par.rest) ∧ (p.par.rest = 0 ∨ p.par.rest = 100) ∧
    (p.directSetValue v e).acts = .off :: p.acts ∧ (p.directSetValue v e).st = .off := by
  have h1 : p.eval e = (p, p.par.rest) := by simp [Pid.eval, h]
  refine ⟨h1, ?_, ?_, ?_⟩
  · unfold Params.rest
    split
    · exact Or.inl rfl
    · exact Or.inr rfl
  · simp [Pid.directSetValue, Pid.eval, h]
  · simp [Pid.directSetValue, Pid.eval, h]

example : (Pid.init demo 0).st = .off := rfl

/-- C14, switching off (missing: the device in manual mode, where it is false).  A regulator
that is on keeps working after `off`, whatever it is fed with, until the next I/O evaluation;
then it is off, its actuator has been switched off exactly once, and further `off` calls and I/O
evaluations do nothing. -/
theorem C14_off_completes_partial (p : Pid) (t t' : Nat) (es fs : List Ev)
    (hm : p.devManual = false) (hon : p.st = .on)
    (hes : ∀ ev ∈ es, ev.Neutral) (hfs : ∀ ev ∈ fs, ev.OffOrIo) :
    (p.run (.off t :: es)).st = .stopping ∧
    (p.run (.off t :: es ++ .io t' :: fs)).st = .off ∧
    (p.run (.off t :: es ++ .io t' :: fs)).acts = .off :: (p.run (.off t :: es)).acts ∧
    (p.run (.off t :: es ++ .io t' :: fs)).acts.count .off = p.acts.count .off + 1 := by
  have h1 : p.run (.off t :: es) = ({ p with st := .stopping } : Pid).run es := by
    show (p.step (.off t)).run es = _
    simp [Pid.step, Pid.progOff, hm, Pid.directOff, hon]
  have h2 := neutral_st { p with st := .stopping } es hes (by simp)
  rw [← h1] at h2
  simp only at h2
  have h3 : p.run (.off t :: es ++ .io t' :: fs) =
      (((p.run (.off t :: es)).step (.io t')).run fs) := by
    simp [Pid.run]
  have h4 : (p.run (.off t :: es)).step (.io t') =
      { (p.run (.off t :: es)).reset t' with
        st := .off, acts := .off :: (p.run (.off t :: es)).acts } := by
    have hd : (p.run (.off t :: es)).devManual = false := h2.2.2.trans hm
    simp [Pid.step, Pid.evaluateIo, Pid.progOff, Pid.directOff, h2.1, hd]
  rw [h3, offOrIo_st _ fs hfs (by rw [h4]), h4]
  refine ⟨h2.1, rfl, rfl, ?_⟩
  simp only [List.count_cons_self]
  rw [h2.2.1]

example : ∃ p : Pid, p.devManual = false ∧ p.st = .on ∧
    (∀ ev ∈ [Ev.value 50 (at_ 3000 20)], ev.Neutral) ∧
    (∀ ev ∈ [Ev.off 1, .io 2, .io 3], ev.OffOrIo) :=
  ⟨(Pid.init demo 0).run [.on false 5], by decide +kernel, by decide +kernel,
    by simp [Ev.Neutral], by simp [Ev.OffOrIo]⟩

/-- C14 is false of a device in manual mode: the operator switches the regulator off once; no
number of I/O evaluations completes it, and it goes on driving the actuator. -/
theorem C14_manual_off_never_completes_violated :
    ∃ p : Pid, p.st = .on ∧ p.devManual = true ∧
      (∀ ts : List Nat, ((p.step (.opState 0 100)).run (ts.map Ev.io)).st = .stopping) ∧
      (((p.step (.opState 0 100)).step (.io 200)).step (.opValue 90 (at_ 4000 20))).acts.head? =
        some (.set 70) := by
  refine ⟨(Pid.init demo 0).run [.on false 5, .opManual true], by decide +kernel, by decide +kernel,
    ?_, by decide +kernel⟩
  intro ts
  have : ∀ q : Pid, q.st = .stopping → q.devManual = true → (q.run (ts.map Ev.io)).st = .stopping := by
    induction ts with
    | nil => exact fun q h _ => h
    | cons t ts ih =>
      intro q h1 h2
      have hs : q.step (.io t) = q := by simp [Pid.step, Pid.evaluateIo, Pid.progOff, h2]
      show ((q.step (.io t)).run (ts.map Ev.io)).st = .stopping
      rw [hs]
      exact ih q h1 h2
  exact this _ (by decide +kernel) (by decide +kernel)

/-- C14, switching on while stopping: everything but the state and the start parameter is kept. -/
theorem C14_resume_keeps_state (p : Pid) (nz : Bool) (now : Nat) (hm : p.devManual = false)
    (hst : p.st = .stopping) :
    p.step (.on nz now) =
      { p with st := .on, par := { p.par with isZeroStart := if nz then 0 else 1 } } := by
  simp [Pid.step, Pid.progOn, hm, Pid.directOn, hst]

example : ∃ p : Pid, p.devManual = false ∧ p.st = .stopping ∧ p.uk1 ≠ 0 :=
  ⟨(Pid.init demo 0).run [.on false 5, .value 90 (at_ 2000 20), .off 2100], by decide +kernel,
    by decide +kernel, by decide +kernel⟩

/-- C14, switching on from off (missing: a regulator whose manual mode was on when it was
switched off, where it is false): it starts exactly as a new regulator with the same parameters;
only the set point, the selected parameter set and the record of past commands remain. -/
theorem C14_clean_start_partial (p : Pid) (nz : Bool) (now t0 : Nat) (hm : p.devManual = false)
    (hst : p.st = .off) (hpm : p.prevManual = false) :
    p.step (.on nz now) =
      { (Pid.init p.par t0).step (.on nz now) with
        set := p.set, usedPar := p.usedPar, acts := p.acts } := by
  simp [Pid.step, Pid.progOn, hm, Pid.directOn, hst, Pid.reset, Pid.init, hpm]

example : ∃ p : Pid, p.devManual = false ∧ p.st = .off ∧ p.prevManual = false ∧ p.acts ≠ [] :=
  ⟨(Pid.init demo 0).run [.on false 5, .value 90 (at_ 2000 20), .off 2100, .io 2200],
    by decide +kernel, by decide +kernel, by decide +kernel, by decide +kernel⟩

/-- C14 is false of a regulator that was switched off in its manual mode: when it is switched on
again, with a zero start, its first output is the old manual value 95 instead of the output of
a clean start. -/
theorem C14_stale_manual_violated :
    ∃ es : List Ev,
      let p := (Pid.init demo 0).run es
      p.st = .off ∧ p.devManual = false ∧ p.par.isManual = 0 ∧
      ((p.step (.on false 9000)).step (.value 50 (at_ 9100 20))).out = 95 ∧
      (((Pid.init p.par 0).step (.on false 9000)).step (.value 50 (at_ 9100 20))).out = 10 := by
  refine ⟨[.on false 5, .value 50 (at_ 2000 20), .param fun q => { q with isManual := 1 },
    .value 50 (at_ 3000 20), .param fun q => { q with uManual := 95 }, .off 4000, .io 4100], ?_⟩
  decide +kernel

end Ptusa.Regulator
