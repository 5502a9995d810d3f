import Verif.CipDose.Lemmas

/-!
# C133 to C136: the quantities of the preparation of a solution

* C133: a dosing gives the concentrate which is missing.
* C134: the concentrate shown as used is what the pump has given.
* C135: a concentrate which has run out is reported.
* C136: the average concentration is weighted by volume.
-/
namespace Ptusa.CipDose

/-- The parameters of a plant: 200 litres in an hour, concentrate of 50 per cent, solution of 2 per cent. -/
def par1 : Par := ⟨200, 50, 2, 1, 1000, 10, 5, 60, 30⟩

theorem par1_ok : par1.Ok := by constructor <;> norm_num [par1]

/-- **C133.** The volume of a dosing: at least one litre, and when one litre does not suffice, exactly what brings the tank from the
concentration found to the one asked for. -/
theorem C133_volume (p : Par) (hp : p.Ok) (conc : Rat) (h0 : 0 ≤ conc) :
    (p.czad / 100 < after p conc 1 → volume p conc = 1) ∧
    (after p conc 1 ≤ p.czad / 100 → 1 ≤ volume p conc ∧ after p conc (volume p conc) = p.czad / 100) := by
  obtain ⟨hpd, hkk, hro, hvt, hz0, hz1⟩ := hp
  have hm : 0 < p.kk / 100 * p.ro := by positivity
  have hd : 0 < (1 - p.czad / 100) * (p.kk / 100) * p.ro := by
    have : 0 < 1 - p.czad / 100 := by linarith
    positivity
  have hden : ∀ v : Rat, 0 ≤ v → 0 < p.vt + v * (p.kk / 100) * p.ro := fun v hv => by positivity
  have key : ∀ v : Rat, 0 ≤ v → (after p conc v ≤ p.czad / 100 ↔
      v ≤ (p.czad / 100 - conc / 100) * p.vt / ((1 - p.czad / 100) * (p.kk / 100) * p.ro)) := by
    intro v hv
    unfold after
    rw [div_le_iff₀ (hden v hv), le_div_iff₀ hd]
    constructor <;> intro h <;> nlinarith
  have key2 : ∀ v : Rat, 0 ≤ v → v = (p.czad / 100 - conc / 100) * p.vt / ((1 - p.czad / 100) * (p.kk / 100) * p.ro) →
      after p conc v = p.czad / 100 := by
    intro v hv h
    unfold after
    rw [div_eq_iff (ne_of_gt (hden v hv))]
    rw [eq_div_iff (ne_of_gt hd)] at h
    linarith
  unfold volume
  simp only [nz_pos hd]
  constructor
  · intro h
    rw [if_pos]
    by_contra hc
    exact absurd ((key 1 (by norm_num)).mpr (not_lt.mp hc)) (not_le.mpr h)
  · intro h
    have h1 := (key 1 (by norm_num)).mp h
    rw [if_neg (not_lt.mpr h1)]
    exact ⟨h1, key2 _ (by linarith) rfl⟩

/-- From one to two per cent of 1000 litres: a little over 20 litres. -/
example : after par1 1 1 ≤ par1.czad / 100 ∧ 20 < volume par1 1 ∧ volume par1 1 < 21 := by
  norm_num [after, par1, volume, nz]

/-- **C133.** A dosing, with any stops and resumes, ends at the first cycle at which the pump has run for longer than the time of this volume, in
whole seconds, or the concentration exceeds the limit; the pump runs exactly while the line works. Missing: the concentration the volume is
computed from (see below). -/
theorem C133_dose_partial (p : Par) (hp : 0 < p.pd) (l0 l l' : Line) (t0 t : Nat) (h : List (Nat × Ev))
    (hi : l0.init p t0 .add false = some l) (hs : volume p l0.conc / p.pd * 3600 < 2 ^ 32) (hh : ∀ e ∈ h, e.2.within)
    (hr : l.run p h = some l') (ho : Ordered t0 h t) (ht : ran p l t0 h t < 2 ^ 32) (c : Rat) (q : Nat) (f : Bool) :
    l'.pump = l'.on ∧ (l'.on = true → ((l'.cycle p t c q f).2 = .done 1 ↔
      ⌊volume p l0.conc / p.pd * 3600⌋.toNat * 1000 < ran p l t0 h t ∨ p.czad * (1 + p.over / 100) < c)) := by
  obtain ⟨h1, h2, h3, h4, h5⟩ := run_time (dosing_init hp hs hi).1 ho hh hr
  refine ⟨h4, fun hon => ?_⟩
  have hup : l'.tmr.up t = decide (⌊volume p l0.conc / p.pd * 3600⌋.toNat * 1000 < ran p l t0 h t) := by
    unfold Tmr.up
    rw [h1, h2, h5, hon, Nat.mod_eq_of_lt ht]
    rfl
  unfold Line.cycle
  rw [h3]
  simp only [doAdd_out, hup]
  by_cases hc : p.czad * (1 + p.over / 100) < c
  · simp [hc]
  · rw [if_neg hc]
    by_cases hlt : ⌊volume p l0.conc / p.pd * 3600⌋.toNat * 1000 < ran p l t0 h t
    · simp [hlt]
    · cases l'.warn <;> simp [hlt, hc]

/-- The line after a check which found one per cent. -/
def found : Line := { on := true, step := .check, conc := 1 }

/-- A dosing with a stop: the countdown is 367 seconds. -/
example : (found.init par1 0 .add false).isSome ∧ volume par1 found.conc / par1.pd * 3600 < 2 ^ 32 ∧
    ⌊volume par1 found.conc / par1.pd * 3600⌋.toNat = 367 ∧
    Ordered 0 [(1000, .cycle 1 5 false), (2000, .stop), (9000, .resume), (10000, .cycle 1 9 false)] 11000 := by
  refine ⟨by decide +kernel, by norm_num [volume, nz, par1, found], by norm_num [volume, nz, par1, found]; rfl, ?_⟩
  simp [Ordered]

/-- **C133, violated.** When the counter does not move during the check, whatever concentrations are measured, the dosing is computed as for
pure water. -/
theorem C133_no_flow_violated (p : Par) (l0 l l' : Line) (t0 : Nat) (h : List (Nat × Ev)) (hi : l0.init p t0 .check false = some l)
    (hh : ∀ e ∈ h, ∃ c f, e.2 = .cycle c 0 f) (hr : l.run p h = some l') : volume p l'.conc = volume p 0 := by
  have h0 : l.conc = 0 ∧ l.step = .check ∧ l.sav.integrator = 0 ∧ l.sav.cn = 0 := by
    unfold Line.init at hi
    simp only [Bool.false_eq_true, if_false] at hi
    obtain ⟨l1, h1, h2⟩ := Option.bind_eq_some_iff.mp hi
    unfold Line.initCirc Line.setTime at h1
    obtain ⟨m1, _, rfl⟩ := Option.map_eq_some_iff.mp h1
    unfold Line.setTime at h2
    obtain ⟨m2, _, rfl⟩ := Option.map_eq_some_iff.mp h2
    exact ⟨rfl, rfl, rfl, rfl⟩
  suffices h : l'.conc = 0 by rw [h]
  clear hi
  induction h generalizing l with
  | nil => simp only [Line.run, Option.some.injEq] at hr; subst hr; exact h0.1
  | cons e h ih =>
    obtain ⟨c, f, he⟩ := hh e (by simp)
    rw [Line.run, he] at hr
    obtain ⟨l1, h1, hr⟩ := Option.bind_eq_some_iff.mp hr
    refine ih l1 (fun e' he' => hh e' (by simp [he'])) hr ?_
    obtain ⟨a1, a2, a3, a4⟩ := h0
    simp only [Line.event] at h1
    split at h1
    · have hs : l.sav.add c 0 = l.sav := by simp [Sav.add, a3]
      have hc : l.cycle p e.1 c 0 f = l.doCheck p e.1 c 0 := by unfold Line.cycle; rw [a2]
      have hd : ∃ o, l.doCheck p e.1 c 0 = ({ l with left := l.secs e.1, sav := l.sav, conc := l.sav.cn }, o) ∧ o ≠ .noMedium := by
        refine ⟨_, by simp only [Line.doCheck, hs]; rfl, ?_⟩
        repeat' split
        all_goals simp
      obtain ⟨o, hd, ho⟩ := hd
      rw [hc, hd] at h1
      cases o with
      | noMedium => exact absurd rfl ho
      | go => simp only [Option.some.injEq] at h1; subst h1; exact ⟨a4, a2, a3, a4⟩
      | done r => simp only [Option.some.injEq] at h1; subst h1; exact ⟨a4, a2, a3, a4⟩
    · simp only [Option.some.injEq] at h1; subst h1; exact ⟨a1, a2, a3, a4⟩

/-- With the solution at 1.8 per cent: 41 litres instead of five. -/
example : 40 < volume par1 0 ∧ volume par1 (9 / 5) < 5 := by norm_num [volume, par1, nz]

/-- **C133, violated.** A litre is added although the average found is not below what is asked for. -/
theorem C133_least_violated (p : Par) (hp : p.Ok) (conc : Rat) (h : p.czad ≤ conc) : volume p conc = 1 := by
  have hd : 0 < (1 - p.czad / 100) * (p.kk / 100) * p.ro := by
    have : 0 < 1 - p.czad / 100 := by linarith [hp.czad.2]
    have := hp.kk
    have := hp.ro
    positivity
  unfold volume
  simp only [nz_pos hd]
  rw [if_pos]
  have : (p.czad / 100 - conc / 100) * p.vt / ((1 - p.czad / 100) * (p.kk / 100) * p.ro) ≤ 0 := by
    apply div_nonpos_of_nonpos_of_nonneg _ (le_of_lt hd)
    exact mul_nonpos_of_nonpos_of_nonneg (by linarith) (le_of_lt hp.vt)
  linarith

/-- Average 3, last value 1: not enough, so a litre is added to a solution of 3 per cent instead of 2. -/
example : ((found.init par1 0 .check false).bind fun l =>
    some (({ (l.doCheck par1 1000 5 10).1 with on := true } : Line).doCheck par1 31000 1 20)).map (fun r => (r.1.conc, r.2)) =
    some (3, .done 2) := by decide +kernel

/-! ## C134 -/

/-- **C134.** During a dosing without stops the amount shown grows by what the pump has given in its whole seconds. Missing: dosings with
stops and the circulation between them (see below). -/
theorem C134_used_partial (p : Par) (hp : 0 < p.pd) (l0 l l' : Line) (t0 t : Nat) (h : List (Nat × Ev))
    (hi : l0.init p t0 .add false = some l) (hs : volume p l0.conc / p.pd * 3600 < 2 ^ 32)
    (hh : ∀ e ∈ h, ∃ c q f, e.2 = .cycle c q f ∧ c ≤ p.czad * (1 + p.over / 100)) (hw : l.warn = false)
    (hr : l.run p h = some l') (ho : Ordered t0 h t) (c : Rat) (q : Nat) (f : Bool) :
    (l'.cycle p t c q f).1.rate = l0.rate + p.pd * ((ran p l t0 h t / 1000 : Nat) : Rat) / 3600 := by
  obtain ⟨hd, hon, hl0, hr0⟩ := dosing_init hp hs hi
  have hwi : ∀ e ∈ h, e.2.within := by
    intro e he
    obtain ⟨c, q, f, h1, _⟩ := hh e he
    rw [h1]
    exact trivial
  obtain ⟨h1, h2, h3, h4, h5⟩ := run_time hd ho hwi hr
  have inv : l'.rate = l0.rate + p.pd * l'.left / 3600 := by
    have base : l.rate = l0.rate + p.pd * l.left / 3600 ∧ l.on = true ∧ l.step = .add ∧ l.warn = false := by
      rw [hl0, hr0]
      exact ⟨by ring, hon, hd.step, hw⟩
    clear h1 h2 h3 h4 h5 hl0 hr0 hd hon hi ho hw hwi
    induction h generalizing l with
    | nil => simp only [Line.run, Option.some.injEq] at hr; subst hr; exact base.1
    | cons e h ih =>
      obtain ⟨c, q, f, he, hc⟩ := hh e (by simp)
      rw [Line.run, he] at hr
      obtain ⟨l1, e1, hr⟩ := Option.bind_eq_some_iff.mp hr
      refine ih l1 (fun e' he' => hh e' (by simp [he'])) hr ?_
      obtain ⟨b1, b2, b3, b4⟩ := base
      simp only [Line.event, b2, if_true, Line.cycle, b3, Line.doAdd, if_neg (not_lt.mpr hc), Line.count, b4] at e1
      have key : l.rate + p.pd * ((l.secs e.1 : Rat) - l.left) / 3600 = l0.rate + p.pd * (l.secs e.1 : Rat) / 3600 := by
        rw [b1]; ring
      by_cases hu : l.tmr.up e.1 = true
      · simp only [hu, if_true, Option.some.injEq] at e1
        subst e1
        exact ⟨key, rfl, rfl, rfl⟩
      · simp only [hu, Bool.false_eq_true, if_false, Option.some.injEq] at e1
        subst e1
        exact ⟨key, rfl, rfl, rfl⟩
  have hrate : (l'.cycle p t c q f).1.rate = (l'.count p t).rate := by
    unfold Line.cycle
    rw [h3]
    simp only [Line.doAdd]
    repeat' split
    all_goals rfl
  rw [hrate]
  simp only [Line.count, Line.secs, h1, inv]
  ring

/-- A dosing of ten seconds with two cycles: half a litre and a bit. -/
example : ∃ l, found.init par1 0 .add false = some l ∧ l.warn = false ∧
    (l.run par1 [(4000, .cycle 1 5 false)]).map (fun l => (l.cycle par1 10500 1 6 false).1.rate) = some (200 * 10 / 3600) := by
  refine ⟨(found.init par1 0 .add false).getD {}, ?_, ?_, ?_⟩
  · have : (found.init par1 0 .add false).isSome := by decide +kernel
    obtain ⟨l, hl⟩ := Option.isSome_iff_exists.mp this
    rw [hl]; rfl
  · decide +kernel
  · decide +kernel

/-- **C134, violated.** The circulation after the filling counts as dosing: after `n` seconds of it the amount of `n` seconds is shown as used,
although the pump has never run. -/
theorem C134_circulation_violated (p : Par) (l0 l : Line) (t0 n : Nat) (c : Rat) (q : Nat) (f : Bool)
    (hi : l0.init p t0 .circ false = some l) :
    ran p l t0 [(t0 + n * 1000, .cycle c q f)] (t0 + n * 1000) = 0 ∧
    (l.cycle p (t0 + n * 1000) c q f).1.rate = l0.rate + p.pd * n / 3600 := by
  unfold Line.init at hi
  simp only [Bool.false_eq_true, if_false] at hi
  unfold Line.initCirc Line.setTime at hi
  obtain ⟨m, _, rfl⟩ := Option.map_eq_some_iff.mp hi
  constructor
  · simp only [ran, Bool.false_eq_true, if_false, Line.event, if_true, Line.cycle, Line.doCirc]
    split <;> rename_i h <;> split at h <;> simp_all [ran, Line.count, Line.stop]
  · simp [Line.cycle, Line.doCirc, Line.count, Line.secs, Tmr.time, Tmr.start, Tmr.reset]

example : ∃ l, ({ on := true, step := .fill } : Line).init par1 0 .circ false = some l ∧
    (l.cycle par1 60000 0 5 false).1.rate = 200 * 60 / 3600 := by
  refine ⟨(({ on := true, step := .fill } : Line).init par1 0 .circ false).getD {}, ?_, by decide +kernel⟩
  have : (({ on := true, step := .fill } : Line).init par1 0 .circ false).isSome := by decide +kernel
  obtain ⟨l, hl⟩ := Option.isSome_iff_exists.mp this
  rw [hl]; rfl

/-- **C134, violated.** After a stop the seconds before it are counted again: `n` seconds of dosing, a stop of any length and a resume show
twice the amount. -/
theorem C134_resume_violated (p : Par) (hp : 0 < p.pd) (l0 l : Line) (t0 n k : Nat)
    (hi : l0.init p t0 .add false = some l) (hs : volume p l0.conc / p.pd * 3600 < 2 ^ 32) (hw : l.warn = false) (c : Rat)
    (hc : c ≤ p.czad * (1 + p.over / 100)) :
    let h : List (Nat × Ev) := [(t0 + n * 1000, .cycle c 0 false), (t0 + n * 1000, .stop), (t0 + n * 1000 + k, .resume),
      (t0 + n * 1000 + k, .cycle c 0 false)]
    ∃ l', l.run p h = some l' ∧ ran p l t0 h (t0 + n * 1000 + k) = n * 1000 ∧ l'.rate = l0.rate + 2 * (p.pd * n / 3600) := by
  intro h
  obtain ⟨hd, hon, hl0, hr0⟩ := dosing_init hp hs hi
  have hpu : l.pump = true := by rw [hd.pump, hon]
  have hst := hd.st
  rw [hon] at hst
  simp only [if_true] at hst
  have hwk : ∀ t, l.tmr.time (t0 + t) = t := by
    intro t
    rw [dosing_time hd (by omega), hpu]
    simp
  have hsec : l.secs (t0 + n * 1000) = n := by rw [Line.secs, hwk]; omega
  let l1 : Line := { l with rate := l0.rate + p.pd * n / 3600, left := n, conc := c }
  have e1 : l.event p (t0 + n * 1000) (.cycle c 0 false) = some l1 := by
    rw [cycle_add hon hd.step hw hc, hsec, hl0, hr0, sub_zero]
  have e2 : l1.event p (t0 + n * 1000) .stop = some (l1.stop (t0 + n * 1000)) := if_pos hon
  let l3 : Line := { l1.stop (t0 + n * 1000) with on := true, step := .add, pump := true, conc := 0, left := 0,
                                                  tmr := (l.tmr.pause (t0 + n * 1000)).start (t0 + n * 1000 + k) }
  have e3 : (l1.stop (t0 + n * 1000)).event p (t0 + n * 1000 + k) .resume = some l3 := by
    show (l1.stop (t0 + n * 1000)).init p (t0 + n * 1000 + k) l1.step true = some l3
    have : l1.step = .add := hd.step
    rw [this]
    rfl
  have hsec3 : l3.secs (t0 + n * 1000 + k) = n := by
    have hw0 := hwk (n * 1000)
    simp only [Line.secs, l3, Tmr.start, Tmr.pause, Tmr.time, if_true, hst] at hw0 ⊢
    omega
  let l4 : Line := { l3 with rate := l0.rate + 2 * (p.pd * n / 3600), left := n, conc := c }
  have e4 : l3.event p (t0 + n * 1000 + k) (.cycle c 0 false) = some l4 := by
    rw [cycle_add (l := l3) rfl rfl hw hc, hsec3]
    simp only [l4, l3, l1, Line.stop]
    congr 2
    ring
  have hps : (l1.stop (t0 + n * 1000)).pump = false := by
    simp [Line.stop, l1, hd.step]
  refine ⟨l4, ?_, ?_, rfl⟩
  · simp only [h, Line.run, e1, e2, e3, e4, Option.bind_some]
  · simp only [h, ran, e1, e2, e3, e4, hpu, hps, if_true]
    have h1 : l1.pump = true := hpu
    simp [h1]

/-- Ten seconds, a stop of a minute, a cycle: twenty seconds are shown. -/
example : ((found.init par1 0 .add false).bind fun l => l.run par1 [(10000, .cycle 1 0 false), (10000, .stop), (70000, .resume),
    (70000, .cycle 1 0 false)]).map (fun l => l.rate) = some (200 * 20 / 3600) := by
  decide +kernel

/-! ## C135 -/

/-- **C135.** From the start, over any history in which nothing is left unreported when a dosing begins: a cycle of a dosing which does not end
it reports a possible lack of concentrate exactly when the volume of this dosing is, by a tenth, that of the last one and this has not been
reported yet. Missing: see below. -/
theorem C135_reported_partial (p : Par) (hp : 0 < p.pd) (h : List (Nat × Ev)) (l : Line) (hr : ({} : Line).run p h = some l)
    (hrep : Reported p {} {} h) (hs : l.step = .add) (t : Nat) (c : Rat) (q : Nat) (f : Bool)
    (hn : (l.cycle p t c q f).2 ≠ .done 1) :
    (l.cycle p t c q f).2 = .noMedium ↔ (Mem.run p {} {} h).pend = true := by
  have hi := run_warned hp h (l := {}) (m := {}) ⟨rfl, rfl, fun u hu => by simp at hu⟩ hrep hr
  rw [← hi.warn]
  unfold Line.cycle at hn ⊢
  rw [hs] at hn ⊢
  simp only [doAdd_out] at hn ⊢
  by_cases hc : p.czad * (1 + p.over / 100) < c
  · simp [hc] at hn
  · by_cases hu : l.tmr.up t = true
    · simp [hu] at hn
    · cases l.warn <;> simp [hc, hu]

/-- Two dosings of the same volume: the second one is reported at its first cycle. -/
def twice : List (Nat × Ev) := [(0, .next .check), (100, .cycle 1 5 false), (200, .next .add), (300, .cycle 1 5 false), (400, .next .check),
  (500, .cycle (21/20) 5 false), (600, .next .add)]

example : Reported par1 {} {} twice ∧ (({} : Line).run par1 twice).map (fun l => (l.step, (l.cycle par1 700 1 5 false).2)) = some (.add, .noMedium) ∧
    (Mem.run par1 {} {} twice).pend = true := by
  decide +kernel

/-- **C135, violated.** A warning which was not reported, as its dosing ended at the first cycle, is reported in the next dosing, whatever its
volume. -/
theorem C135_carried_violated (p : Par) (hp : 0 < p.pd) (l l' : Line) (t t' : Nat) (hph : l.phase = true) (hw : l.warn = true)
    (hi : l.event p t (.next .add) = some l') (c : Rat) (q : Nat) (f : Bool) (hn : (l'.cycle p t' c q f).2 ≠ .done 1) :
    (l'.cycle p t' c q f).2 = .noMedium := by
  simp only [Line.event, Line.init, Line.initAdd, Line.setTime, Bool.false_eq_true, if_false, nz_pos hp, hph, if_true, hw,
    Bool.true_or] at hi
  obtain ⟨ms, _, rfl⟩ := Option.map_eq_some_iff.mp hi
  unfold Line.cycle at hn ⊢
  simp only [doAdd_out] at hn ⊢
  by_cases hc : p.czad * (1 + p.over / 100) < c
  · simp [hc] at hn
  · rw [if_neg hc] at hn ⊢
    split at hn
    · exact absurd rfl hn
    · rename_i hu
      rw [if_neg hu]
      rfl

/-- From the start: two dosings from one per cent, the second one ends at once, then a dosing from 1.9 per cent, a tenth of them, is reported. -/
example : let h := twice ++ [(700, .cycle 3 5 false), (800, .next .check), (900, .cycle (19/10) 5 false), (1000, .next .add)]
    (({} : Line).run par1 h).map (fun l => (l.phase, l.warn, (l.cycle par1 1100 1 5 false).2)) = some (true, true, .noMedium) ∧
    (Mem.run par1 {} {} h).pend = false ∧ volume par1 (19/10) < volume par1 1 / 9 := by
  decide +kernel

/-! ## C136 -/

/-- **C136.** After any readings the average concentration, times the highest reading of the counter, is the sum of the concentrations, each
times the litres which it stood for. -/
theorem C136_average (h : List (Rat × Nat)) :
    (h.foldl (fun s e => s.add e.1 e.2) ({} : Sav)).cn * (highest 0 h : Nat) = weighted 0 h := by
  have := adds h ({} : Sav) rfl
  simpa using this

/-- Three litres of 1.2 per cent and one of 2 per cent: 1.4 per cent. -/
example : (([(6/5, 3), (9, 2), (2, 4)] : List (Rat × Nat)).foldl (fun s e => s.add e.1 e.2) ({} : Sav)).cn = 7 / 5 ∧
    weighted 0 [(6/5, 3), (9, 2), (2, 4)] = 28 / 5 ∧ highest 0 [(6/5, 3), (9, 2), (2, 4)] = 4 := by
  decide +kernel

end Ptusa.CipDose
