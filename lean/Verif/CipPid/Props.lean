import Verif.CipPid.Lemmas

/-!
# C140 to C143: the regulators of a washing line

* C140: the output keeps its limits.
* C141: the output rises slowly after a start.
* C142: a lasting deviation is driven out with full power.
* C143: off is off, manual is manual, and leaving the manual mode makes no jump.
-/
namespace Ptusa.CipPid

/-- The heating with a quick integral part. -/
def heat : Par := { z := 95, k := 2, ti := 1 / 2, td := 0, dt := 500, max := 130, min := 0, acc := 30, uman := 30, maxOut := 80 }

def r0 : Reg := .init 0 heat

/-! ## C140 -/

/-- **C140.** In any history in which the manual mode is not used, every calculation sets an output from zero to the largest one. Missing: the
time after the manual mode, see below. -/
theorem C140_limits_partial (t0 : Nat) (p : Par) (hm : p.manual = 0) (h : List (Nat × Ev)) (ha : ∀ e ∈ h, e.2.auto) (now : Nat)
    (cur task : Rat) :
    let r := (Reg.init t0 p).run h
    r.on = true → 0 ≤ (r.eval now cur task).out ∧ (r.eval now cur task).out ≤ r.par.cap := by
  intro r ho
  have hi := (Auto.init t0 hm).run h ha
  have h1 := eval_out (now := now) (cur := cur) (task := task) ho hi
  have h2 := scaled_bounds (hi.eval now cur task)
  rw [h1.1]
  refine ⟨h2.1, h2.2.trans (le_of_eq ?_)⟩
  unfold Par.cap
  rw [show ((((Reg.init t0 p).run h).eval now cur task).par.maxOut) = _ from h1.2.1]

/-- The same for the calculation with a task from outside. -/
theorem C140_follow_partial (t0 : Nat) (p : Par) (hm : p.manual = 0) (h : List (Nat × Ev)) (ha : ∀ e ∈ h, e.2.auto) (now : Nat)
    (cur task : Rat) :
    let r := (Reg.init t0 p).run h
    r.on = true → (task = 0 → (r.follow now cur task).out = 0) ∧
      (task ≠ 0 → 0 ≤ (r.follow now cur task).out ∧ (r.follow now cur task).out ≤ r.par.cap) := by
  intro r ho
  refine ⟨fun ht => ?_, fun ht => ?_⟩
  · unfold Reg.follow
    rw [if_pos ho, if_pos ht]
  · rw [follow_eq r now cur ht]
    exact C140_limits_partial t0 p hm h ha now cur task ho

/-- A cold solution: the largest output is reached, and kept to. -/
def cold : List (Nat × Ev) := [(0, .on false), (20000, .eval 20 95), (40000, .eval 20 95)]

example : (∀ e ∈ cold, e.2.auto) ∧ ((r0.run cold).eval 41000 20 95).out = 80 ∧ ((r0.run cold).eval 41000 400 95).out = 0 ∧
    heat.cap = 80 := by
  refine ⟨by simp [cold, Ev.auto], ?_, ?_, ?_⟩ <;> decide +kernel

/-- A cold solution, then the operator takes over with 90 per cent, and gives the regulator back. -/
def takeover : List (Nat × Ev) := [(0, .on false), (20000, .eval 20 95), (40000, .eval 20 95), (40100, .set fun p => { p with manual := 1 }),
  (40200, .eval 20 95), (40300, .set fun p => { p with uman := 90 }), (40400, .eval 20 95), (40500, .set fun p => { p with manual := 0 }),
  (40600, .eval 20 95)]

/-- **C140, violated.** Half the time of a start after the manual mode the output is the value of the ramp and the manual value together, far
over the largest output. -/
theorem C140_manual_violated : ((r0.run takeover).eval 55600 20 95).out = 112 ∧ (r0.run takeover).par.cap = 80 := by
  decide +kernel

/-! ## C141 -/

/-- **C141.** When the regulator was reset and is switched on, every later calculation sets an output of at most the time since then by the time
of the start, in per cent. Missing: a start without a reset, and after the manual mode, see below. -/
theorem C141_ramp_partial (t0 : Nat) (p : Par) (hm : p.manual = 0) (h : List (Nat × Ev)) (ha : ∀ e ∈ h, e.2.auto) (t1 t2 t3 now : Nat)
    (h2 : List (Nat × Ev)) (hcalc : ∀ e ∈ h2, e.2.calc) (ho : Ordered t2 h2 t3) (hn : t3 ≤ now) (cur task : Rat) :
    let r := ((Reg.init t0 p).run h)
    r.on = false → r.down = false → r.seen + 3000 < t1 → 0 < r.par.acc →
    let q := ((r.event t1 .reset).event t2 (.on false)).run h2
    (q.eval now cur task).out * r.par.acc ≤ 100 * (((now - t2 : Nat) : Rat) / 1000) * max 1 (r.par.maxOut / 100) := by
  intro r hoff hd hseen hacc q
  have hi : Auto r := (Auto.init t0 hm).run h ha
  have e1 : r.event t1 .reset = r.clear t1 := by
    unfold Reg.event Reg.reset
    simp only
    rw [if_pos (by omega)]
  have e2 : (r.clear t1).event t2 (.on false) = { r.clear t1 with on := true, start := t2, last := t2, down := false } := by
    unfold Reg.event Reg.turnOn Reg.clear
    simp [hoff]
  have hq0 : Ramp ((r.event t1 .reset).event t2 (.on false)) t2 t2 ∧ ((r.event t1 .reset).event t2 (.on false)).par.acc = r.par.acc ∧
      ((r.event t1 .reset).event t2 (.on false)).on = true ∧ ((r.event t1 .reset).event t2 (.on false)).par.maxOut = r.par.maxOut := by
    rw [e1, e2]
    refine ⟨⟨⟨rfl, hi.prev, hi.sv, ?_, ?_⟩, rfl, rfl, ?_⟩, rfl, rfl, rfl⟩ <;> simp [Reg.clear, hd]
  have key : ∀ (h2 : List (Nat × Ev)) (q0 : Reg) (ta : Nat), (∀ e ∈ h2, e.2.calc) → Ordered ta h2 t3 → Ramp q0 t2 ta → q0.par.acc = r.par.acc →
      q0.on = true → q0.par.maxOut = r.par.maxOut →
      Ramp (q0.run h2) t2 t3 ∧ (q0.run h2).par.acc = r.par.acc ∧ (q0.run h2).on = true ∧ (q0.run h2).par.maxOut = r.par.maxOut := by
    intro h2
    induction h2 with
    | nil =>
      intro q0 ta _ ho hr ha' hon hmo
      have := ramp_mono (t1 := t2) ho
      exact ⟨⟨hr.auto, hr.down, hr.start, by have := hr.uk; simp only [Reg.run]; linarith⟩, ha', hon, hmo⟩
    | cons e h2 ih =>
      intro q0 ta hc ho hr ha' hon hmo
      refine ih (q0.event e.1 e.2) e.1 (fun x hx => hc x (by simp [hx])) ho.2 ?_ ?_ ?_ ?_
      all_goals have hce := hc e (by simp)
      all_goals rcases e with ⟨te, e⟩
      all_goals cases e with
        | eval c t => first
          | exact (hr.eval ho.1 (by rw [ha']; exact hacc) c t).1
          | exact (hr.eval ho.1 (by rw [ha']; exact hacc) c t).2.trans ha'
          | exact (eval_out hon hr.auto).2.2
          | exact (eval_out hon hr.auto).2.1.trans hmo
        | follow c t => first
          | exact (hr.follow ho.1 (by rw [ha']; exact hacc) c t).1
          | exact (hr.follow ho.1 (by rw [ha']; exact hacc) c t).2.trans ha'
          | (by_cases ht : t = 0
             · first
               | (simp only [Reg.event, Reg.follow, hon, if_true, ht]; exact hon)
               | (simp only [Reg.event, Reg.follow, hon, if_true, ht]; exact hmo)
             · first
               | (simp only [Reg.event, follow_eq q0 te c ht]; exact (eval_out hon hr.auto).2.2)
               | (simp only [Reg.event, follow_eq q0 te c ht]; exact (eval_out hon hr.auto).2.1.trans hmo))
        | _ => exact absurd hce (by simp [Ev.calc])
  have hq := key h2 _ t2 hcalc ho hq0.1 hq0.2.1 hq0.2.2.1 hq0.2.2.2
  have hv := (hq.1.eval hn (by rw [hq.2.1]; exact hacc) cur task)
  have hout := eval_out (now := now) (cur := cur) (task := task) hq.2.2.1 hq.1.auto
  change (Reg.eval (Reg.run _ h2) now cur task).out * _ ≤ _
  rw [hout.1]
  have hu := hv.1.uk
  have hlo := hv.1.auto.lo
  rw [hv.2, hq.2.1] at hu
  unfold Reg.scaled
  rw [hout.2.1, hq.2.2.2]
  generalize ((((r.event t1 .reset).event t2 (.on false)).run h2).eval now cur task).uk = u at hu hlo ⊢
  have hx : (0 : Rat) ≤ 100 * (((now - t2 : Nat) : Rat) / 1000) := by positivity
  generalize 100 * (((now - t2 : Nat) : Rat) / 1000) = x at hu hx ⊢
  split
  · rename_i hmo
    have h3 : x * (r.par.maxOut / 100) ≤ x * max 1 (r.par.maxOut / 100) := mul_le_mul_of_nonneg_left (le_max_right _ _) hx
    have h4 : u * r.par.acc * (r.par.maxOut / 100) ≤ x * (r.par.maxOut / 100) :=
      mul_le_mul_of_nonneg_right hu (by linarith)
    calc u * r.par.maxOut / 100 * r.par.acc = u * r.par.acc * (r.par.maxOut / 100) := by ring
      _ ≤ _ := h4.trans h3
  · have h3 : x * 1 ≤ x * max 1 (r.par.maxOut / 100) := mul_le_mul_of_nonneg_left (le_max_left _ _) hx
    linarith

/-- Six seconds after a start of thirty: not more than 20 per cent of the 80. -/
example : let q := (((r0.event 4000 .reset).event 4000 (.on false)).run [(5000, .eval 20 95), (9500, .eval 20 95)])
    r0.seen + 3000 < 4000 ∧ (q.eval 10000 20 95).out = 44 / 3 ∧ (q.eval 10001 20 95).out = 6001 / 30000 * 80 := by
  decide +kernel

/-- **C141, violated.** A regulator which is switched off and, within three seconds, on again gives at once what it gave before. -/
theorem C141_restart_violated (r : Reg) (t t1 t2 now : Nat) (cur task : Rat) (hm : r.par.manual = 0) (hp : r.prev = false)
    (h1 : t1 - r.seen ≤ 3000) (hn : ((now - t2 : Nat) : Rat) ≤ r.par.step * 1000) :
    ((((r.event t .off).event t1 .reset).event t2 (.on false)).eval now cur task).out = r.scaled := by
  have e1 : (r.event t .off).event t1 .reset = { r with on := false, out := 0 } := by
    unfold Reg.event Reg.reset Reg.turnOff
    simp only
    rw [if_neg (by omega)]
  have e2 : (({ r with on := false, out := 0 } : Reg)).event t2 (.on false) =
      { r with on := true, out := 0, start := t2, last := t2, down := false } := by
    simp [Reg.event, Reg.turnOn]
  rw [e1, e2]
  exact eval_within cur task rfl hm hp hn

/-- A wash goes into its next step with 80 per cent at once. -/
example : let r := r0.run (cold ++ [(41000, .eval 20 95)])
    r.par.manual = 0 ∧ r.prev = false ∧ 41200 - r.seen ≤ 3000 ∧
    ((((r.event 41100 .off).event 41200 .reset).event 41300 (.on false)).eval 41400 20 95).out = 80 := by
  decide +kernel

/-- **C141, violated.** The manual value is never forgotten: hours after the manual mode a start begins with it. -/
theorem C141_manual_violated :
    ((r0.run (takeover ++ [(50000, .off), (7200000, .reset), (7200000, .on false)])).eval 7200501 20 95).out > 72 := by
  decide +kernel

/-! ## C142 -/

/-- **C142.** A value which stays under the task drives the output of a working regulator to its largest value: after so many intervals as the
integral part needs, and the time of the start. -/
theorem C142_lack (t0 : Nat) (p : Par) (hm : p.manual = 0) (h : List (Nat × Ev)) (ha : ∀ e ∈ h, e.2.auto) (t d n : Nat)
    (ho : Ordered t0 h t) (cur task : Rat) :
    let r := (Reg.init t0 p).run h
    r.on = true → 0 < r.par.k → 0 < r.par.ti → 0 < r.par.dt → r.par.min < r.par.max → r.par.dt < d → cur < task →
    100 ≤ n * (r.par.k * (2 * (r.par.dt / 1000) / r.par.ti) * (100 * (task - cur) / (r.par.max - r.par.min))) →
    r.par.acc * 1000 ≤ n * d → (r.run (steady cur task (t + d) d (n + 2))).out = r.par.cap := by
  intro r hon hk hti hdt hmm hd hct hn hacc
  have hi : Auto r := (Auto.init t0 hm).run h ha
  have hl : Late r t := Late.run h (t0 := t0) ⟨le_refl _, le_refl _⟩ ho
  have hs : r.par.step = r.par.dt / 1000 := by
    unfold Par.step
    rw [if_neg (by positivity)]
  have hrate : r.par.rate cur task = r.par.k * (2 * (r.par.dt / 1000) / r.par.ti) * (100 * (task - cur) / (r.par.max - r.par.min)) := by
    unfold Par.rate Par.tint Par.dev
    rw [hs, if_neg hti.ne']
    simp only
    rw [if_neg hmm.ne']
  have hp : r.par.step * 1000 < d := by rw [hs]; linarith
  have hpos : 0 < r.par.rate cur task := by
    rw [hrate]
    have h1 : 0 < task - cur := by linarith
    have h2 : 0 < r.par.max - r.par.min := by linarith
    positivity
  rw [← hrate] at hn
  obtain ⟨h2, h2e, h2l, h2h⟩ := Steady.enter hi hon hl hp cur task
  cases n with
  | zero => norm_num at hn
  | succ n =>
    have hrun : r.run (steady cur task (t + d) d (n + 1 + 2)) =
        ((r.run (steady cur task (t + d) d 2)).run (steady cur task (t + d + d + d) d n)).eval (t + d + d + n * d + d) cur task := by
      rw [show n + 1 + 2 = n + 2 + 1 from rfl, steady_snoc, run_append]
      change Reg.eval (Reg.run r _) _ cur task = _
      rw [show t + d + (n + 2) * d = t + d + d + n * d + d by ring]
      rfl
    have h3 := h2.run n hp
    have h4 := h2.lo (n + 1) hp h2e hpos.le h2l (by norm_num)
    rw [steady_snoc cur task (t + d + d + d) d n, run_append _ (steady cur task (t + d + d + d) d n)] at h4
    have h5 := steady_out h3 hp (by omega) (by
      refine hacc.trans ?_
      have : (n + 1) * d ≤ t + d + d + n * d + d - t := by
        have : (n + 1) * d = n * d + d := by ring
        omega
      exact_mod_cast this)
    have h6 : (Reg.eval ((r.run (steady cur task (t + d) d 2)).run (steady cur task (t + d + d + d) d n)) (t + d + d + n * d + d) cur task).uk1 = 100 := by
      apply le_antisymm
      · have hb := h3
        obtain ⟨u, z, hz⟩ := hb.par
        have := (eval_tick hb.auto hb.on (now := t + d + d + n * d + d) (p := d) (by rw [hb.last]) (by rw [hz]; exact hp) cur task).1
        rw [this]
        exact (clamp_bounds _).2
      · refine le_trans ?_ (le_trans h4 (le_of_eq ?_))
        · apply le_min (le_refl _)
          rw [zero_add]
          exact hn
        · change (Reg.eval (Reg.run _ _) _ cur task).uk1 = _
          rw [show t + d + d + d + n * d = t + d + d + n * d + d by ring]
    rw [hrun, h5, h6]
    unfold Par.cap
    split
    · ring
    · rfl

/-- **C142.** A value which stays over the task drives the output to zero. -/
theorem C142_excess (t0 : Nat) (p : Par) (hm : p.manual = 0) (h : List (Nat × Ev)) (ha : ∀ e ∈ h, e.2.auto) (t d n : Nat)
    (ho : Ordered t0 h t) (cur task : Rat) :
    let r := (Reg.init t0 p).run h
    r.on = true → 0 < r.par.k → 0 < r.par.ti → 0 < r.par.dt → r.par.min < r.par.max → r.par.dt < d → task < cur →
    100 ≤ n * (r.par.k * (2 * (r.par.dt / 1000) / r.par.ti) * (100 * (cur - task) / (r.par.max - r.par.min))) →
    r.par.acc * 1000 ≤ n * d → (r.run (steady cur task (t + d) d (n + 2))).out = 0 := by
  intro r hon hk hti hdt hmm hd hct hn hacc
  have hi : Auto r := (Auto.init t0 hm).run h ha
  have hl : Late r t := Late.run h (t0 := t0) ⟨le_refl _, le_refl _⟩ ho
  have hs : r.par.step = r.par.dt / 1000 := by
    unfold Par.step
    rw [if_neg (by positivity)]
  have hrate : r.par.rate cur task = -(r.par.k * (2 * (r.par.dt / 1000) / r.par.ti) * (100 * (cur - task) / (r.par.max - r.par.min))) := by
    unfold Par.rate Par.tint Par.dev
    rw [hs, if_neg hti.ne']
    simp only
    rw [if_neg hmm.ne']
    ring
  have hp : r.par.step * 1000 < d := by rw [hs]; linarith
  have hpos : r.par.rate cur task < 0 := by
    rw [hrate]
    have h1 : 0 < cur - task := by linarith
    have h2 : 0 < r.par.max - r.par.min := by linarith
    have : 0 < r.par.k * (2 * (r.par.dt / 1000) / r.par.ti) * (100 * (cur - task) / (r.par.max - r.par.min)) := by positivity
    linarith
  have hn' : 100 + n * r.par.rate cur task ≤ 0 := by
    rw [hrate, mul_neg]
    linarith
  obtain ⟨h2, h2e, h2l, h2h⟩ := Steady.enter hi hon hl hp cur task
  cases n with
  | zero => norm_num at hn
  | succ n =>
    have hrun : r.run (steady cur task (t + d) d (n + 1 + 2)) =
        ((r.run (steady cur task (t + d) d 2)).run (steady cur task (t + d + d + d) d n)).eval (t + d + d + n * d + d) cur task := by
      rw [show n + 1 + 2 = n + 2 + 1 from rfl, steady_snoc, run_append]
      change Reg.eval (Reg.run r _) _ cur task = _
      rw [show t + d + (n + 2) * d = t + d + d + n * d + d by ring]
      rfl
    have h3 := h2.run n hp
    have h4 := h2.hi (n + 1) hp h2e hpos.le h2h (by norm_num)
    rw [steady_snoc cur task (t + d + d + d) d n, run_append _ (steady cur task (t + d + d + d) d n)] at h4
    have h5 := steady_out h3 hp (by omega) (by
      refine hacc.trans ?_
      have : (n + 1) * d ≤ t + d + d + n * d + d - t := by
        have : (n + 1) * d = n * d + d := by ring
        omega
      exact_mod_cast this)
    have h6 : (Reg.eval ((r.run (steady cur task (t + d) d 2)).run (steady cur task (t + d + d + d) d n)) (t + d + d + n * d + d) cur task).uk1 = 0 := by
      apply le_antisymm
      · refine le_trans (le_of_eq ?_) (le_trans h4 ?_)
        · change _ = (Reg.eval (Reg.run _ _) _ cur task).uk1
          rw [show t + d + d + d + n * d = t + d + d + n * d + d by ring]
        · exact max_le (le_refl _) hn'
      · have hb := h3
        obtain ⟨u, z, hz⟩ := hb.par
        have := (eval_tick hb.auto hb.on (now := t + d + d + n * d + d) (p := d) (by rw [hb.last]) (by rw [hz]; exact hp) cur task).1
        rw [this]
        exact (clamp_bounds _).1
    rw [hrun, h5, h6]
    split <;> norm_num

/-- The heating with a lack and an excess of 13 degrees: 30 intervals of a second. -/
example : (r0.run [(0, .on false)]).on = true ∧ (100 : Rat) ≤ 30 * (heat.k * (2 * (heat.dt / 1000) / heat.ti) * (100 * (95 - 82) / (heat.max - heat.min))) ∧
    heat.acc * 1000 ≤ 30 * 1000 ∧ Ordered 0 [(0, .on false)] 0 ∧ ((r0.run [(0, .on false)]).run (steady 82 95 1000 1000 8)).out = 64 / 3 := by
  refine ⟨by decide +kernel, by decide +kernel, by decide +kernel, by simp [Ordered], by decide +kernel⟩

/-! ## C143 -/

/-- **C143.** A regulator which is switched off gives zero until it is switched on, whatever happens: calculations, resets, parameters, the manual
mode. -/
theorem C143_off (r : Reg) (t : Nat) (h : List (Nat × Ev)) (hs : ∀ e ∈ h, e.2.still) : ((r.event t .off).run h).out = 0 := by
  have key : ∀ (h : List (Nat × Ev)) (r : Reg), (∀ e ∈ h, e.2.still) → r.on = false → r.out = 0 → (r.run h).out = 0 := by
    intro h
    induction h with
    | nil => intro r _ _ h0; exact h0
    | cons e h ih =>
      intro r hs hon h0
      refine ih (r.event e.1 e.2) (fun x hx => hs x (by simp [hx])) ?_ ?_
      all_goals have hse := hs e (by simp)
      all_goals rcases e with ⟨te, e⟩
      all_goals cases e with
        | eval c t => simp [Reg.event, Reg.eval, hon, h0]
        | follow c t => simp [Reg.event, Reg.follow, hon, h0]
        | reset => simp only [Reg.event, Reg.reset, Reg.clear]; split <;> assumption
        | clear => simp only [Reg.event, Reg.clear]; assumption
        | on d => exact absurd hse (by simp [Ev.still])
        | off => simp [Reg.event, Reg.turnOff]
        | set f => simp only [Reg.event]; assumption
  exact key h _ hs rfl rfl

example : (r0.run (cold ++ [(41000, .eval 20 95)])).out = 80 ∧ ((r0.run (cold ++ [(41000, .eval 20 95)])).event 42000 .off).out = 0 := by
  decide +kernel

/-- **C143.** In the manual mode of a regulator which is on, every calculation after the first one gives the value set by the operator, and the
first one the last value of the regulator. -/
theorem C143_manual (r : Reg) (now : Nat) (cur task : Rat) (ho : r.on = true) (hm : r.par.manual = 1) :
    (r.eval now cur task).out = (if r.prev then r.par.uman else r.par.u) := by
  have hf := mid_fields r now cur task
  have h5 : (r.task now task).on = true := ho
  unfold Reg.eval Reg.pidEval
  rw [if_pos ho, if_pos h5]
  change (Reg.put ((r.mid now cur task).enter.finish now)).out = _
  generalize r.mid now cur task = q at hf
  have hq : q.par.manual = 1 := by rw [hf.1]; exact hm
  cases hp : r.prev
  · have he : q.enter = { q with prev := true, par := { q.par with uman := q.par.u } } := by
      unfold Reg.enter
      exact if_pos ⟨by rw [hq]; norm_num, by rw [hf.2.1, hp]⟩
    rw [he]
    unfold Reg.put Reg.finish
    simp only [hq, hf.1]
    norm_num
    simp [hm]
  · have he : q.enter = q := by
      unfold Reg.enter
      exact if_neg (by rw [hf.2.1, hp]; simp)
    rw [he]
    unfold Reg.put Reg.finish
    simp only [hq, hf.1]
    norm_num
    simp [hm]

/-- **C143.** The first calculation after the manual mode gives the manual value once more. Missing: the following ones, see below. -/
theorem C143_leave_partial (r : Reg) (now : Nat) (cur task : Rat) (ho : r.on = true) (hm : r.par.manual = 0) (hp : r.prev = true) :
    (r.eval now cur task).out = r.par.uman := by
  have hf := mid_fields r now cur task
  have h5 : (r.task now task).on = true := ho
  unfold Reg.eval Reg.pidEval
  rw [if_pos ho, if_pos h5]
  change (Reg.put ((r.mid now cur task).enter.finish now)).out = _
  generalize r.mid now cur task = q at hf
  have h1 : q.par.manual = 0 := by rw [hf.1]; exact hm
  have h2 : q.prev = true := by rw [hf.2.1, hp]
  have he : q.enter = q := by
    unfold Reg.enter
    exact if_neg (by simp [h1])
  rw [he]
  unfold Reg.put Reg.finish
  rw [if_pos ⟨h1, h2⟩]
  simp only [Reg.reset, Reg.clear]
  split <;> simp [hf.1]

example : (r0.run takeover).out = 90 ∧ (r0.run takeover).prev = false ∧ (r0.run (takeover.take 7)).out = 90 := by
  decide +kernel

/-- **C143, violated.** The reset at the end of the manual mode never takes place, as the regulator has just been in use: the next calculation
within the interval gives what the regulator had in mind all the time. -/
theorem C143_jump_violated (r : Reg) (t1 t2 : Nat) (cur task : Rat) (ho : r.on = true) (hm : r.par.manual = 0) (hp : r.prev = true)
    (h1 : ((t1 - r.last : Nat) : Rat) ≤ r.par.step * 1000) (h2 : ((t2 - r.last : Nat) : Rat) ≤ r.par.step * 1000) :
    ((r.eval t1 cur task).eval t2 cur task).out = r.scaled := by
  have e1 : r.eval t1 cur task = { r with seen := t1, prev := false, start := t1, sv := r.par.uman, par := { r.par with z := task }, out := r.par.uman } := by
    have h5 : (r.task t1 task).on = true := ho
    unfold Reg.eval Reg.pidEval
    rw [if_pos ho, if_pos h5]
    have h6 : (r.task t1 task).tick t1 cur = r.task t1 task := by
      unfold Reg.tick
      exact if_neg (not_lt.2 h1)
    rw [h6]
    have h7 : (r.task t1 task).enter = r.task t1 task := by
      unfold Reg.enter
      rw [if_neg]
      rintro ⟨h, _⟩
      exact h hm
    rw [h7]
    unfold Reg.finish
    rw [if_pos ⟨hm, hp⟩]
    unfold Reg.put Reg.reset Reg.task
    simp
  rw [e1]
  exact eval_within cur task ho hm rfl h2

/-- The operator has set ten per cent for a minute; the valve goes to 80 per cent in the cycle after they give the regulator back. -/
example : let r := r0.run (cold ++ [(41000, .eval 20 95), (41100, .set fun p => { p with manual := 1 }), (41200, .eval 20 95),
      (41300, .set fun p => { p with uman := 10 }), (101000, .eval 20 95), (101100, .set fun p => { p with manual := 0 })])
    r.out = 10 ∧ (r.eval 101200 20 95).out = 10 ∧ ((r.eval 101200 20 95).eval 101300 20 95).out = 80 := by
  decide +kernel

end Ptusa.CipPid
