import Verif.CipPid.Spec
import Mathlib.Tactic.Linarith
import Mathlib.Tactic.FieldSimp
import Mathlib.Tactic.Positivity
import Mathlib.Tactic.Ring

/-!
# Lemmas about the regulators of a washing line
-/
namespace Ptusa.CipPid

/-- The regulator after the calculation, before the output is set. -/
def Reg.mid (r : Reg) (now : Nat) (cur task : Rat) : Reg := (r.task now task).tick now cur

/-- The output is set. -/
def Reg.shown (r : Reg) : Reg := { r with par := { r.par with u := r.scaled }, out := r.scaled }

theorem recalc_fields (r : Reg) (now : Nat) (cur : Rat) :
    (r.recalc now cur).par = r.par ∧ (r.recalc now cur).prev = r.prev ∧ (r.recalc now cur).sv = r.sv ∧ (r.recalc now cur).on = r.on ∧
    (r.recalc now cur).start = r.start ∧ (r.recalc now cur).down = r.down ∧ (r.recalc now cur).seen = r.seen ∧
    (r.recalc now cur).uk1 = clamp (r.uk1 + r.change (r.par.dev cur)) ∧ (r.recalc now cur).ek1 = r.par.dev cur ∧
    (r.recalc now cur).ek2 = r.ek1 ∧ (r.recalc now cur).last = now := by
  unfold Reg.recalc Reg.accel
  simp only
  split
  · split <;> simp
  · simp

theorem mid_fields (r : Reg) (now : Nat) (cur task : Rat) :
    (r.mid now cur task).par = { r.par with z := task } ∧ (r.mid now cur task).prev = r.prev ∧ (r.mid now cur task).sv = r.sv ∧
    (r.mid now cur task).on = r.on ∧ (r.mid now cur task).start = r.start ∧ (r.mid now cur task).down = r.down ∧
    (r.mid now cur task).seen = now := by
  unfold Reg.mid Reg.tick
  have := recalc_fields (r.task now task) now cur
  split
  · rw [this.1, this.2.1, this.2.2.1, this.2.2.2.1, this.2.2.2.2.1, this.2.2.2.2.2.1, this.2.2.2.2.2.2.1]
    exact ⟨rfl, rfl, rfl, rfl, rfl, rfl, rfl⟩
  · exact ⟨rfl, rfl, rfl, rfl, rfl, rfl, rfl⟩

theorem eval_eq {r : Reg} (now : Nat) (cur task : Rat) (ho : r.on = true) (hm : r.par.manual = 0) (hp : r.prev = false) :
    r.eval now cur task = (r.mid now cur task).shown := by
  have hf := mid_fields r now cur task
  have h2 : (r.mid now cur task).enter = r.mid now cur task := by
    unfold Reg.enter
    rw [if_neg]
    rw [hf.1]
    simp [hm]
  have h3 : ¬ ((r.mid now cur task).par.manual = 0 ∧ (r.mid now cur task).prev = true) := by rw [hf.2.1, hp]; simp
  have h4 : ¬ ((r.mid now cur task).par.manual = 1) := by rw [hf.1]; simp [hm]
  have h5 : (r.task now task).on = true := ho
  unfold Reg.eval Reg.pidEval
  rw [if_pos ho, if_pos h5]
  change Reg.put ((r.mid now cur task).enter.finish now) = _
  rw [h2]
  unfold Reg.finish
  rw [if_neg h3, if_neg h4]
  rfl

theorem follow_eq (r : Reg) (now : Nat) (cur : Rat) {task : Rat} (ht : task ≠ 0) : r.follow now cur task = r.eval now cur task := by
  unfold Reg.follow Reg.eval
  simp only [ht, if_false]

theorem clamp_bounds (u : Rat) : 0 ≤ clamp u ∧ clamp u ≤ 100 := by
  unfold clamp
  split
  · norm_num
  · split
    · norm_num
    · constructor <;> linarith

/-- A regulator in automatic mode. -/
structure Auto (r : Reg) : Prop where
  manual : r.par.manual = 0
  prev : r.prev = false
  sv : r.sv = 0
  lo : 0 ≤ r.uk
  hi : r.uk ≤ 100

theorem acc_pos {d : Nat} {a : Rat} (h : (d : Rat) < a * 1000) : 0 < a := by
  have : (0 : Rat) ≤ d := Nat.cast_nonneg d
  linarith

theorem res_bounds {d : Nat} {a : Rat} (h : (d : Rat) < a * 1000) : 0 ≤ 100 * ((d : Rat) / 1000) / a ∧ 100 * ((d : Rat) / 1000) / a ≤ 100 := by
  have ha := acc_pos h
  have hd : (0 : Rat) ≤ d := Nat.cast_nonneg d
  refine ⟨by positivity, ?_⟩
  rw [div_le_iff₀ ha]
  linarith

theorem Auto.recalc {r : Reg} (h : Auto r) (now : Nat) (cur : Rat) : Auto (r.recalc now cur) := by
  have hf := recalc_fields r now cur
  refine ⟨by rw [hf.1]; exact h.manual, by rw [hf.2.1]; exact h.prev, by rw [hf.2.2.1]; exact h.sv, ?_, ?_⟩ <;>
  · have hc := clamp_bounds (r.uk1 + r.change (r.par.dev cur))
    unfold Reg.recalc Reg.accel
    simp only
    split
    · rename_i hd
      have hr := res_bounds hd
      have hs := h.sv
      split
      · simp only
        split <;> linarith
      · simp only
        split <;> linarith
    · simp only
      linarith

theorem Auto.mid {r : Reg} (h : Auto r) (now : Nat) (cur task : Rat) : Auto (r.mid now cur task) := by
  unfold Reg.mid Reg.tick
  have h' : Auto (r.task now task) := ⟨h.manual, h.prev, h.sv, h.lo, h.hi⟩
  split
  · exact h'.recalc now cur
  · exact h'

theorem scaled_bounds {r : Reg} (h : Auto r) : 0 ≤ r.scaled ∧ r.scaled ≤ r.par.cap := by
  have h1 := h.lo
  have h2 := h.hi
  unfold Reg.scaled Par.cap
  split
  · rename_i hm
    constructor
    · have : 0 ≤ r.par.maxOut := by linarith
      positivity
    · have := mul_le_mul_of_nonneg_right h2 (show 0 ≤ r.par.maxOut by linarith)
      linarith
  · exact ⟨h1, h2⟩

theorem Auto.eval {r : Reg} (h : Auto r) (now : Nat) (cur task : Rat) : Auto (r.eval now cur task) := by
  cases ho : r.on
  · unfold Reg.eval
    simp only [ho, Bool.false_eq_true, if_false]
    exact h
  · rw [eval_eq now cur task ho h.manual h.prev]
    have := h.mid now cur task
    exact ⟨this.manual, this.prev, this.sv, this.lo, this.hi⟩

theorem Auto.event {r : Reg} (h : Auto r) (now : Nat) {e : Ev} (he : e.auto) : Auto (r.event now e) := by
  cases e with
  | eval cur task => exact h.eval now cur task
  | follow cur task =>
    by_cases ht : task = 0
    · unfold Reg.event Reg.follow
      simp only [ht, if_true]
      split
      · exact ⟨h.manual, h.prev, h.sv, h.lo, h.hi⟩
      · exact h
    · unfold Reg.event
      simp only [follow_eq r now cur ht]
      exact h.eval now cur task
  | reset =>
    unfold Reg.event Reg.reset Reg.clear
    simp only
    split
    · refine ⟨rfl, h.prev, h.sv, ?_, ?_⟩ <;> simp only <;> split <;> norm_num
    · exact h
  | clear =>
    unfold Reg.event Reg.clear
    refine ⟨rfl, h.prev, h.sv, ?_, ?_⟩ <;> simp only <;> split <;> norm_num
  | on d =>
    unfold Reg.event Reg.turnOn
    simp only
    split
    · exact h
    · exact ⟨h.manual, h.prev, h.sv, h.lo, h.hi⟩
  | off => exact ⟨h.manual, h.prev, h.sv, h.lo, h.hi⟩
  | set f => exact ⟨he _ h.manual, h.prev, h.sv, h.lo, h.hi⟩

theorem Auto.run {r : Reg} (h : Auto r) (es : List (Nat × Ev)) (he : ∀ e ∈ es, e.2.auto) : Auto (r.run es) := by
  induction es generalizing r with
  | nil => exact h
  | cons e es ih => exact ih (h.event e.1 (he e (by simp))) fun x hx => he x (by simp [hx])

theorem Auto.init (t : Nat) {p : Par} (h : p.manual = 0) : Auto (.init t p) := ⟨h, rfl, rfl, le_refl _, by norm_num [Reg.init]⟩

/-- The output is under the ramp of a start at `t1`. -/
structure Ramp (r : Reg) (t1 now : Nat) : Prop where
  auto : Auto r
  down : r.down = false
  start : r.start = t1
  uk : r.uk * r.par.acc ≤ 100 * (((now - t1 : Nat) : Rat) / 1000)

theorem ramp_mono {t1 now now' : Nat} (h : now ≤ now') : (((now - t1 : Nat) : Rat)) ≤ ((now' - t1 : Nat) : Rat) := by
  exact_mod_cast Nat.sub_le_sub_right h t1

theorem Ramp.eval {r : Reg} {t1 now now' : Nat} (h : Ramp r t1 now) (hn : now ≤ now') (ha : 0 < r.par.acc) (cur task : Rat) :
    Ramp (r.eval now' cur task) t1 now' ∧ (r.eval now' cur task).par.acc = r.par.acc := by
  cases ho : r.on
  · unfold Reg.eval
    simp only [ho, Bool.false_eq_true, if_false]
    have := ramp_mono (t1 := t1) hn
    exact ⟨⟨h.auto, h.down, h.start, by have := h.uk; linarith⟩, trivial⟩
  · have hx := h.auto.eval now' cur task
    rw [eval_eq now' cur task ho h.auto.manual h.auto.prev] at hx ⊢
    have hf := mid_fields r now' cur task
    have hacc : (r.mid now' cur task).shown.par.acc = r.par.acc := by
      change (r.mid now' cur task).par.acc = _
      rw [hf.1]
    refine ⟨⟨hx, hf.2.2.2.2.2.1.trans h.down, hf.2.2.2.2.1.trans h.start, ?_⟩, hacc⟩
    rw [hacc]
    change (r.mid now' cur task).uk * r.par.acc ≤ _
    have hu := h.uk
    have hm := ramp_mono (t1 := t1) hn
    have h1 : (r.task now' task).start = t1 := h.start
    have h2 : (r.task now' task).down = false := h.down
    have h3 : (r.task now' task).sv = 0 := h.auto.sv
    have h4 : (r.task now' task).par.acc = r.par.acc := rfl
    have h5 : (r.task now' task).uk = r.uk := rfl
    unfold Reg.mid Reg.tick
    split
    · generalize r.task now' task = q at h1 h2 h3 h4
      have hc := clamp_bounds (q.uk1 + q.change (q.par.dev cur))
      unfold Reg.recalc Reg.accel
      simp only [h1, h2, h3, h4, Bool.false_eq_true, if_false]
      split
      · rename_i hd
        simp only
        split
        · have : (100 * (((now' - t1 : Nat) : Rat) / 1000) / r.par.acc + 0) * r.par.acc = 100 * (((now' - t1 : Nat) : Rat) / 1000) := by
            rw [add_zero, div_mul_cancel₀ _ ha.ne']
          rw [this]
        · rename_i hr
          exact (le_div_iff₀ ha).1 (not_lt.1 hr)
      · rename_i hd
        simp only
        have := mul_le_mul_of_nonneg_right hc.2 ha.le
        linarith
    · rw [h5]
      linarith

theorem Ramp.follow {r : Reg} {t1 now now' : Nat} (h : Ramp r t1 now) (hn : now ≤ now') (ha : 0 < r.par.acc) (cur task : Rat) :
    Ramp (r.follow now' cur task) t1 now' ∧ (r.follow now' cur task).par.acc = r.par.acc := by
  by_cases ht : task = 0
  · have := ramp_mono (t1 := t1) hn
    have := h.uk
    unfold Reg.follow
    simp only [ht, if_true]
    split
    · exact ⟨⟨⟨h.auto.manual, h.auto.prev, h.auto.sv, h.auto.lo, h.auto.hi⟩, h.down, h.start,
        by change r.uk * r.par.acc ≤ _; linarith⟩, rfl⟩
    · exact ⟨⟨h.auto, h.down, h.start, by linarith⟩, rfl⟩
  · rw [follow_eq r now' cur ht]
    exact h.eval hn ha cur task

/-- The output as it is set by a calculation. -/
theorem eval_out {r : Reg} {now : Nat} {cur task : Rat} (ho : r.on = true) (h : Auto r) :
    (r.eval now cur task).out = (r.eval now cur task).scaled ∧ (r.eval now cur task).par.maxOut = r.par.maxOut ∧
    (r.eval now cur task).on = true := by
  rw [eval_eq now cur task ho h.manual h.prev]
  have hf := mid_fields r now cur task
  refine ⟨rfl, ?_, hf.2.2.2.1.trans ho⟩
  change (r.mid now cur task).par.maxOut = _
  rw [hf.1]

/-- The clock of the regulator is not ahead. -/
structure Late (r : Reg) (now : Nat) : Prop where
  last : r.last ≤ now
  start : r.start ≤ now

theorem tick_late {r : Reg} {now : Nat} (h : Late r now) (cur : Rat) : Late (r.tick now cur) now := by
  unfold Reg.tick
  have := recalc_fields r now cur
  split
  · exact ⟨by rw [this.2.2.2.2.2.2.2.2.2.2], by rw [this.2.2.2.2.1]; exact h.start⟩
  · exact h

theorem finish_late {r : Reg} {now : Nat} (h : Late r now) : Late (r.enter.finish now).1 now := by
  have h' : Late r.enter now := by
    unfold Reg.enter
    split
    · exact ⟨h.last, h.start⟩
    · exact h
  unfold Reg.finish
  split
  · refine ⟨?_, le_refl _⟩
    simp only
    unfold Reg.reset Reg.clear
    split
    · exact h'.last
    · exact h'.last
  · exact ⟨h'.last, h'.start⟩

theorem pidEval_late {r : Reg} {now : Nat} (h : Late r now) (cur : Rat) : Late (r.pidEval now cur).1 now := by
  unfold Reg.pidEval
  split
  · exact finish_late (tick_late h cur)
  · exact h

theorem eval_late {r : Reg} {now : Nat} (h : Late r now) (cur task : Rat) : Late (r.eval now cur task) now := by
  unfold Reg.eval
  split
  · have := pidEval_late (r := r.task now task) (now := now) ⟨h.last, h.start⟩ cur
    exact ⟨this.last, this.start⟩
  · exact h

theorem Late.event {r : Reg} {now : Nat} (h : Late r now) (e : Ev) : Late (r.event now e) now := by
  cases e with
  | eval cur task => exact eval_late h cur task
  | follow cur task =>
    by_cases ht : task = 0
    · unfold Reg.event Reg.follow
      simp only [ht, if_true]
      split
      · exact ⟨h.last, h.start⟩
      · exact h
    · unfold Reg.event
      simp only [follow_eq r now cur ht]
      exact eval_late h cur task
  | reset =>
    unfold Reg.event Reg.reset Reg.clear
    simp only
    split
    · exact ⟨h.last, le_refl _⟩
    · exact h
  | clear => exact ⟨h.last, le_refl _⟩
  | on d =>
    unfold Reg.event Reg.turnOn
    simp only
    split
    · exact h
    · exact ⟨le_refl _, le_refl _⟩
  | off => exact ⟨h.last, h.start⟩
  | set f => exact ⟨h.last, h.start⟩

theorem Late.mono {r : Reg} {now now' : Nat} (h : Late r now) (hn : now ≤ now') : Late r now' := ⟨h.last.trans hn, h.start.trans hn⟩

theorem Late.run (es : List (Nat × Ev)) {r : Reg} {t0 t : Nat} (h : Late r t0) (ho : Ordered t0 es t) : Late (r.run es) t := by
  induction es generalizing r t0 with
  | nil => exact h.mono ho
  | cons e es ih => exact ih ((h.mono ho.1).event e.2) ho.2

/-- What a calculation does to the memory of the regulator at the end of an interval. -/
theorem eval_tick {r : Reg} (h : Auto r) (ho : r.on = true) {now p : Nat} (hl : r.last + p ≤ now) (hp : r.par.step * 1000 < p)
    (cur task : Rat) :
    let q := r.task now task
    let r' := r.eval now cur task
    r'.uk1 = clamp (r.uk1 + q.change (q.par.dev cur)) ∧ r'.ek1 = q.par.dev cur ∧ r'.ek2 = r.ek1 ∧ r'.last = now ∧ r'.start = r.start ∧
    r'.par = { r.par with z := task, u := r'.scaled } ∧ r'.out = r'.scaled ∧ r'.on = true ∧
    (r.par.acc * 1000 ≤ ((now - r.start : Nat) : Rat) → r'.uk = r'.uk1) := by
  intro q r'
  have hr' : r' = (r.mid now cur task).shown := eval_eq now cur task ho h.manual h.prev
  have hd : q.par.step * 1000 < ((now - q.last : Nat) : Rat) := by
    have h1 : (p : Rat) ≤ ((now - r.last : Nat) : Rat) := by exact_mod_cast (by omega : p ≤ now - r.last)
    exact lt_of_lt_of_le hp h1
  have hm : r.mid now cur task = q.recalc now cur := by
    unfold Reg.mid Reg.tick
    exact if_pos hd
  have hf := recalc_fields q now cur
  rw [hm] at hr'
  rw [hr']
  refine ⟨hf.2.2.2.2.2.2.2.1, hf.2.2.2.2.2.2.2.2.1, hf.2.2.2.2.2.2.2.2.2.1, hf.2.2.2.2.2.2.2.2.2.2, hf.2.2.2.2.1, ?_, rfl,
    hf.2.2.2.1.trans ho, ?_⟩
  · have h1 : (q.recalc now cur).shown.par = { (q.recalc now cur).par with u := (q.recalc now cur).scaled } := rfl
    rw [h1, hf.1]
    rfl
  · intro ha
    change (q.recalc now cur).uk = (q.recalc now cur).uk1
    unfold Reg.recalc
    simp only
    rw [if_neg]
    exact not_lt.2 ha

/-- A steady deviation changes the memory by the same amount in every interval. -/
theorem steady_change (r : Reg) {e : Rat} (h1 : r.ek1 = e) (h2 : r.ek2 = e) :
    r.change e = r.par.k * (2 * r.par.step / r.par.tint) * e := by
  unfold Reg.change
  rw [h1, h2]
  ring

theorem clamp_lo {u a : Rat} (h : a ≤ u) (ha : a ≤ 100) : a ≤ clamp u := by
  unfold clamp
  split
  · exact ha
  · split <;> linarith

theorem clamp_hi {u a : Rat} (h : u ≤ a) (ha : 0 ≤ a) : clamp u ≤ a := by
  unfold clamp
  split
  · linarith
  · split <;> linarith

/-- The setting is the same but for the task and the value shown. -/
def Alike (p q : Par) : Prop := ∃ u z, q = { p with u := u, z := z }

/-- The state within a steady deviation. -/
structure Steady (r : Reg) (p0 : Par) (t0 t : Nat) (cur task : Rat) : Prop where
  auto : Auto r
  on : r.on = true
  last : r.last = t
  start : r.start ≤ t0
  par : Alike p0 r.par
  ek1 : r.ek1 = Par.dev { p0 with z := task } cur

theorem Steady.eval {r : Reg} {p0 : Par} {t0 t p : Nat} {cur task : Rat} (h : Steady r p0 t0 t cur task) (hp : p0.step * 1000 < p) :
    Steady (r.eval (t + p) cur task) p0 t0 (t + p) cur task ∧ (r.eval (t + p) cur task).ek2 = Par.dev { p0 with z := task } cur := by
  obtain ⟨u, z, hz⟩ := h.par
  have hp' : r.par.step * 1000 < p := by rw [hz]; exact hp
  have hx := eval_tick h.auto h.on (now := t + p) (p := p) (by rw [h.last]) hp' cur task
  obtain ⟨k1, k2, k3, k4, k5, k6, k7, k8, k9⟩ := hx
  refine ⟨⟨h.auto.eval _ _ _, k8, k4, by rw [k5]; exact h.start, ⟨_, task, by rw [k6, hz]⟩, ?_⟩, by rw [k3, h.ek1]⟩
  rw [k2]
  change Par.dev { r.par with z := task } cur = _
  rw [hz]
  rfl

/-- The change in an interval of a steady deviation. -/
def Par.rate (p : Par) (cur task : Rat) : Rat := p.k * (2 * p.step / p.tint) * Par.dev { p with z := task } cur

theorem Steady.uk1 {r : Reg} {p0 : Par} {t0 t p : Nat} {cur task : Rat} (h : Steady r p0 t0 t cur task) (hp : p0.step * 1000 < p)
    (h2 : r.ek2 = Par.dev { p0 with z := task } cur) : (r.eval (t + p) cur task).uk1 = clamp (r.uk1 + p0.rate cur task) := by
  obtain ⟨u, z, hz⟩ := h.par
  have hp' : r.par.step * 1000 < p := by rw [hz]; exact hp
  have hx := (eval_tick h.auto h.on (now := t + p) (p := p) (by rw [h.last]) hp' cur task).1
  rw [hx]
  have hd : (r.task (t + p) task).par.dev cur = Par.dev { p0 with z := task } cur := by
    change Par.dev { r.par with z := task } cur = _
    rw [hz]
    rfl
  rw [hd, steady_change (r.task (t + p) task) h.ek1 h2]
  change clamp (r.uk1 + r.par.k * (2 * r.par.step / r.par.tint) * _) = _
  rw [hz]
  rfl

theorem Steady.lo (n : Nat) {r : Reg} {p0 : Par} {t0 t p : Nat} {cur task a : Rat} (h : Steady r p0 t0 t cur task) (hp : p0.step * 1000 < p)
    (h2 : r.ek2 = Par.dev { p0 with z := task } cur) (hc : 0 ≤ p0.rate cur task) (ha : a ≤ r.uk1) (ha' : a ≤ 100) :
    min 100 (a + n * p0.rate cur task) ≤ (r.run (steady cur task (t + p) p n)).uk1 := by
  induction n generalizing r t a with
  | zero =>
    simp only [Nat.cast_zero, zero_mul, add_zero]
    exact (min_le_right _ _).trans ha
  | succ n ih =>
    have hs := h.eval hp
    have hu := h.uk1 hp h2
    have := ih (a := min 100 (a + p0.rate cur task)) hs.1 hs.2
      (by rw [hu]; exact clamp_lo ((min_le_right _ _).trans (by linarith)) (min_le_left _ _)) (min_le_left _ _)
    refine le_trans ?_ this
    push_cast
    apply le_min (min_le_left _ _)
    rcases min_choice 100 (a + p0.rate cur task) with hm | hm
    · rw [hm]
      have : (0 : Rat) ≤ n * p0.rate cur task := mul_nonneg (Nat.cast_nonneg n) hc
      exact (min_le_left _ _).trans (by linarith)
    · rw [hm]
      refine (min_le_right _ _).trans (le_of_eq ?_)
      ring

theorem Steady.hi (n : Nat) {r : Reg} {p0 : Par} {t0 t p : Nat} {cur task a : Rat} (h : Steady r p0 t0 t cur task) (hp : p0.step * 1000 < p)
    (h2 : r.ek2 = Par.dev { p0 with z := task } cur) (hc : p0.rate cur task ≤ 0) (ha : r.uk1 ≤ a) (ha' : 0 ≤ a) :
    (r.run (steady cur task (t + p) p n)).uk1 ≤ max 0 (a + n * p0.rate cur task) := by
  induction n generalizing r t a with
  | zero =>
    simp only [Nat.cast_zero, zero_mul, add_zero]
    exact ha.trans (le_max_right _ _)
  | succ n ih =>
    have hs := h.eval hp
    have hu := h.uk1 hp h2
    have := ih (a := max 0 (a + p0.rate cur task)) hs.1 hs.2
      (by rw [hu]; exact clamp_hi (le_trans (by linarith) (le_max_right _ _)) (le_max_left _ _)) (le_max_left _ _)
    refine le_trans this ?_
    push_cast
    apply max_le (le_max_left _ _)
    rcases max_choice 0 (a + p0.rate cur task) with hm | hm
    · rw [hm]
      have : n * p0.rate cur task ≤ 0 := mul_nonpos_of_nonneg_of_nonpos (Nat.cast_nonneg n) hc
      exact le_trans (by linarith) (le_max_left _ _)
    · rw [hm]
      refine le_trans (le_of_eq ?_) (le_max_right _ _)
      ring

theorem run_append (r : Reg) (a b : List (Nat × Ev)) : r.run (a ++ b) = (r.run a).run b := by
  induction a generalizing r with
  | nil => rfl
  | cons e a ih => exact ih _

theorem steady_snoc (cur task : Rat) (t p n : Nat) : steady cur task t p (n + 1) = steady cur task t p n ++ [(t + n * p, .eval cur task)] := by
  induction n generalizing t with
  | zero => simp [steady]
  | succ n ih =>
    rw [steady, ih, steady]
    simp only [List.cons_append, List.cons.injEq, true_and]
    congr 3
    ring

theorem Steady.run (n : Nat) {r : Reg} {p0 : Par} {t0 t p : Nat} {cur task : Rat} (h : Steady r p0 t0 t cur task) (hp : p0.step * 1000 < p) :
    Steady (r.run (steady cur task (t + p) p n)) p0 t0 (t + n * p) cur task := by
  induction n generalizing r t with
  | zero =>
    rw [Nat.zero_mul, Nat.add_zero]
    exact h
  | succ n ih =>
    have := ih (h.eval hp).1
    rw [show t + (n + 1) * p = t + p + n * p by ring]
    exact this

/-- Two calculations lead into the steady state. -/
theorem Steady.enter {r : Reg} {t p : Nat} (h : Auto r) (ho : r.on = true) (hl : Late r t) (hp : r.par.step * 1000 < p) (cur task : Rat) :
    let r2 := r.run (steady cur task (t + p) p 2)
    Steady r2 r.par t (t + p + p) cur task ∧ r2.ek2 = Par.dev { r.par with z := task } cur ∧ 0 ≤ r2.uk1 ∧ r2.uk1 ≤ 100 := by
  intro r2
  obtain ⟨k1, k2, k3, k4, k5, k6, k7, k8, k9⟩ := eval_tick h ho (now := t + p) (p := p) (by have := hl.last; omega) hp cur task
  have h1 : Steady (r.eval (t + p) cur task) r.par t (t + p) cur task :=
    ⟨h.eval _ _ _, k8, k4, by rw [k5]; exact hl.start, ⟨_, task, k6⟩, k2⟩
  have h2 := h1.eval hp
  refine ⟨h2.1, h2.2, ?_⟩
  obtain ⟨u, z, hz⟩ := h1.par
  have hx := (eval_tick h1.auto h1.on (now := t + p + p) (p := p) (by rw [h1.last]) (by rw [hz]; exact hp) cur task).1
  change 0 ≤ ((r.eval (t + p) cur task).eval (t + p + p) cur task).uk1 ∧ ((r.eval (t + p) cur task).eval (t + p + p) cur task).uk1 ≤ 100
  rw [hx]
  exact clamp_bounds _

/-- The output at the end of a steady deviation. -/
theorem steady_out {r : Reg} {p0 : Par} {t0 t p : Nat} {cur task : Rat} (h : Steady r p0 t0 t cur task) (hp : p0.step * 1000 < p)
    (ht : t0 ≤ t) (ha : p0.acc * 1000 ≤ ((t + p - t0 : Nat) : Rat)) :
    (r.eval (t + p) cur task).out = (if 1 / 10 ≤ p0.maxOut then (r.eval (t + p) cur task).uk1 * p0.maxOut / 100 else (r.eval (t + p) cur task).uk1) := by
  obtain ⟨u, z, hz⟩ := h.par
  obtain ⟨k1, k2, k3, k4, k5, k6, k7, k8, k9⟩ := eval_tick h.auto h.on (now := t + p) (p := p) (by rw [h.last]) (by rw [hz]; exact hp) cur task
  have hu := k9 (by
    have h1 : r.par.acc = p0.acc := by rw [hz]
    have h2 : ((t + p - t0 : Nat) : Rat) ≤ ((t + p - r.start : Nat) : Rat) := by
      have := h.start
      exact_mod_cast (by omega : t + p - t0 ≤ t + p - r.start)
    rw [h1]
    exact ha.trans h2)
  have hm : (r.eval (t + p) cur task).par.maxOut = p0.maxOut := by rw [k6, hz]
  rw [k7]
  unfold Reg.scaled
  rw [hu, hm]

/-- Within an interval a calculation gives the value of the last one. -/
theorem eval_within {r : Reg} {now : Nat} (cur task : Rat) (ho : r.on = true) (hm : r.par.manual = 0) (hp : r.prev = false)
    (hn : ((now - r.last : Nat) : Rat) ≤ r.par.step * 1000) : (r.eval now cur task).out = r.scaled := by
  rw [eval_eq now cur task ho hm hp]
  unfold Reg.mid Reg.tick
  rw [if_neg (by exact not_lt.2 hn)]
  rfl

end Ptusa.CipPid
