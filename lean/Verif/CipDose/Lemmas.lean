import Verif.CipDose.Spec
import Mathlib.Tactic.FieldSimp
import Mathlib.Tactic.Ring
import Mathlib.Tactic.Linarith

/-!
# Lemmas about the preparation of a solution
-/
namespace Ptusa.CipDose

theorem nz_pos {q : Rat} (h : 0 < q) : nz q = q := if_neg (ne_of_gt h)

/-- A dosing step with its timer: it works or is stopped, and the timer has counted the running time of the pump. -/
structure Dosing (l : Line) (cd t0 w : Nat) : Prop where
  step : l.step = .add
  cd : l.tmr.cd = cd
  pump : l.pump = l.on
  st : l.tmr.st = if l.on then .work else .pause
  time : l.tmr.time t0 = w
  at_ : l.tmr.at_ ≤ t0

theorem dosing_time {l : Line} {cd t0 w : Nat} (h : Dosing l cd t0 w) {t : Nat} (ht : t0 ≤ t) :
    l.tmr.time t = w + (if l.pump then t - t0 else 0) := by
  have h1 := h.time
  have h2 := h.at_
  have h3 := h.st
  have h4 := h.pump
  unfold Tmr.time at h1 ⊢
  cases hon : l.on
  · rw [hon] at h3 h4
    simp [h3, h4] at h1 ⊢
    exact h1
  · rw [hon] at h3 h4
    simp [h3, h4] at h1 ⊢
    omega

theorem toMs_small {q : Rat} (h0 : 0 ≤ q) (h : q < 2 ^ 32) : toMs q = some (⌊q⌋.toNat * 1000) := by
  unfold toMs
  rw [if_pos ⟨by linarith, by linarith⟩]
  have h1 : ⌊q⌋ < 2 ^ 32 := by
    rw [Int.floor_lt]
    exact_mod_cast h
  have h2 : ⌊q⌋.toNat * 1000 < 2 ^ 64 := by omega
  rw [Nat.mod_eq_of_lt h2]

theorem volume_pos (p : Par) (c : Rat) : 1 ≤ volume p c := by
  unfold volume
  simp only
  split
  · exact le_refl _
  · rename_i h
    exact not_lt.mp h

theorem dosing_init {l0 l : Line} {p : Par} {t0 : Nat} (hp : 0 < p.pd) (hs : volume p l0.conc / p.pd * 3600 < 2 ^ 32)
    (h : l0.init p t0 .add false = some l) :
    Dosing l (⌊volume p l0.conc / p.pd * 3600⌋.toNat * 1000) t0 0 ∧ l.on = true ∧ l.left = 0 ∧ l.rate = l0.rate := by
  have hv := volume_pos p l0.conc
  have h0 : 0 ≤ volume p l0.conc / p.pd * 3600 := by positivity
  have hm := toMs_small h0 hs
  unfold Line.init at h
  simp only [Bool.false_eq_true, if_false] at h
  unfold Line.initAdd Line.setTime at h
  simp only [Bool.false_eq_true, if_false, nz_pos hp, hm, Option.map_some, Option.some.injEq] at h
  subst h
  split <;> exact ⟨⟨rfl, rfl, rfl, rfl, by simp [Tmr.time, Tmr.start, Tmr.reset], by simp [Tmr.start, Tmr.reset]⟩, rfl, rfl, rfl⟩

theorem stop_dosing {l : Line} {cd t0 w t : Nat} (h : Dosing l cd t0 w) (ht : t0 ≤ t) :
    Dosing (l.stop t) cd t (w + if l.pump then t - t0 else 0) := by
  have ht' := dosing_time h ht
  refine ⟨h.step, h.cd, ?_, ?_, ?_, ?_⟩
  · simp [Line.stop, h.step]
  · simp [Line.stop, Tmr.pause]
  · simp only [Line.stop, Tmr.pause, Tmr.time, reduceCtorEq, if_false]
    exact ht'
  · have := h.at_
    simp only [Line.stop, Tmr.pause]
    omega

theorem doAdd_tmr (l : Line) (p : Par) (t : Nat) (c : Rat) : (l.doAdd p t c).1.tmr = l.tmr ∧ (l.doAdd p t c).1.pump = l.pump ∧
    (l.doAdd p t c).1.on = l.on ∧ (l.doAdd p t c).1.step = l.step := by
  unfold Line.doAdd Line.count
  simp only
  repeat' split
  all_goals simp

theorem doAdd_out (l : Line) (p : Par) (t : Nat) (c : Rat) : (l.doAdd p t c).2 =
    if p.czad * (1 + p.over / 100) < c then .done 1 else if l.tmr.up t then .done 1 else if l.warn then .noMedium else .go := by
  show (if p.czad * (1 + p.over / 100) < c then _ else if l.tmr.up t then _ else if l.warn then _ else _ : Line × Out).2 = _
  split
  · rfl
  · split
    · rfl
    · split <;> rfl

theorem cycle_add {l : Line} {p : Par} {t q : Nat} {c : Rat} {f : Bool} (hon : l.on = true) (hs : l.step = .add) (hw : l.warn = false)
    (hc : c ≤ p.czad * (1 + p.over / 100)) : l.event p t (.cycle c q f) =
      some { l with rate := l.rate + p.pd * (l.secs t - l.left) / 3600, left := l.secs t, conc := c } := by
  have hd : l.cycle p t c q f = ({ l with rate := l.rate + p.pd * (l.secs t - l.left) / 3600, left := l.secs t, conc := c },
      if l.tmr.up t then .done 1 else .go) := by
    unfold Line.cycle
    rw [hs]
    show (if p.czad * (1 + p.over / 100) < c then _ else if l.tmr.up t then _ else if l.warn then _ else _ : Line × Out) = _
    rw [if_neg (not_lt.mpr hc), hw]
    split <;> simp [Line.count, Line.secs, hs, hw]
  simp only [Line.event, hon, if_true, hd]
  split <;> rename_i h
  · split at h <;> simp at h
  · simp only [Prod.mk.injEq] at h
    rw [← h.1]

theorem same_dosing {l l' : Line} {cd t0 w t : Nat} (h : Dosing l cd t0 w) (ht : t0 ≤ t) (e1 : l'.tmr = l.tmr)
    (e2 : l'.pump = l.pump) (e3 : l'.on = l.on) (e4 : l'.step = l.step) :
    Dosing l' cd t (w + if l.pump then t - t0 else 0) := by
  have ht' := dosing_time h ht
  have := h.at_
  exact ⟨by rw [e4, h.step], by rw [e1, h.cd], by rw [e2, e3, h.pump], by rw [e1, e3, h.st], by rw [e1, ht'], by rw [e1]; omega⟩

theorem event_dosing {l l' : Line} {p : Par} {cd t0 w t : Nat} {e : Ev} (h : Dosing l cd t0 w) (ht : t0 ≤ t) (he : e.within)
    (hr : l.event p t e = some l') : Dosing l' cd t (w + if l.pump then t - t0 else 0) := by
  cases e with
  | next s => exact absurd he (by simp [Ev.within])
  | stop =>
    simp only [Line.event] at hr
    split at hr
    · simp only [Option.some.injEq] at hr; subst hr; exact stop_dosing h ht
    · simp only [Option.some.injEq] at hr; subst hr; exact same_dosing h ht rfl rfl rfl rfl
  | resume =>
    simp only [Line.event] at hr
    split at hr
    · simp only [Option.some.injEq] at hr; subst hr; exact same_dosing h ht rfl rfl rfl rfl
    · rename_i hon
      simp only [Bool.not_eq_true] at hon
      rw [h.step] at hr
      simp only [Line.init, Line.initAdd, if_true, Option.some.injEq] at hr
      subst hr
      have h2 := h.st
      have hw := h.time
      have hp := h.pump
      simp only [hon, Bool.false_eq_true, if_false] at h2 hp
      rw [Tmr.time, h2] at hw
      simp only [reduceCtorEq, if_false] at hw
      refine ⟨rfl, ?_, rfl, ?_, ?_, ?_⟩
      · simp [Tmr.start, h2, h.cd]
      · simp [Tmr.start, h2]
      · simp [Tmr.start, Tmr.time, h2, hp, hw]
      · simp [Tmr.start, h2]
  | cycle c q f =>
    simp only [Line.event] at hr
    have hc : l.cycle p t c q f = l.doAdd p t c := by unfold Line.cycle; rw [h.step]
    split at hr
    · rw [hc] at hr
      obtain ⟨e1, e2, e3, e4⟩ := doAdd_tmr l p t c
      split at hr
      · rename_i l2 heq
        rw [heq] at e1 e2 e3 e4
        simp only at e1 e2 e3 e4
        simp only [Option.some.injEq] at hr
        subst hr
        have := stop_dosing (same_dosing h ht e1 e2 e3 e4) (le_refl t)
        simpa using this
      · rename_i l2 o _ heq
        rw [heq] at e1 e2 e3 e4
        simp only at e1 e2 e3 e4
        simp only [Option.some.injEq] at hr
        subst hr
        exact same_dosing h ht e1 e2 e3 e4
    · simp only [Option.some.injEq] at hr; subst hr; exact same_dosing h ht rfl rfl rfl rfl

theorem run_dosing {p : Par} {cd : Nat} (h : List (Nat × Ev)) {l l' : Line} {t0 w t : Nat} (hd : Dosing l cd t0 w)
    (ho : Ordered t0 h t) (he : ∀ e ∈ h, e.2.within) (hr : l.run p h = some l') :
    ∃ t1 ≤ t, Dosing l' cd t1 (w + ran p l t0 h t - (if l'.pump then t - t1 else 0)) ∧
      (if l'.pump then t - t1 else 0) ≤ w + ran p l t0 h t := by
  induction h generalizing l t0 w with
  | nil =>
    simp only [Line.run, Option.some.injEq] at hr
    subst hr
    refine ⟨t0, ho, ?_, ?_⟩
    · simp only [ran]
      rw [Nat.add_sub_cancel]
      exact hd
    · simp only [ran]; omega
  | cons e h ih =>
    rw [Line.run] at hr
    obtain ⟨l1, h1, hr⟩ := Option.bind_eq_some_iff.mp hr
    have hd1 := event_dosing hd ho.1 (he e (by simp)) h1
    have := ih hd1 ho.2 (fun e' he' => he e' (by simp [he'])) hr
    simp only [ran, h1]
    rw [← Nat.add_assoc]
    exact this

/-- The timer after the events: the time the pump has run. -/
theorem run_time {p : Par} {cd : Nat} {h : List (Nat × Ev)} {l l' : Line} {t0 t : Nat} (hd : Dosing l cd t0 0)
    (ho : Ordered t0 h t) (he : ∀ e ∈ h, e.2.within) (hr : l.run p h = some l') :
    l'.tmr.time t = ran p l t0 h t ∧ l'.tmr.cd = cd ∧ l'.step = .add ∧ l'.pump = l'.on ∧
      l'.tmr.st = if l'.on then .work else .pause := by
  obtain ⟨t1, ht, hd', hle⟩ := run_dosing h hd ho he hr
  have := dosing_time hd' ht
  refine ⟨?_, hd'.cd, hd'.step, hd'.pump, hd'.st⟩
  omega

/-- The line and the memory agree about the last dosing and the warning. -/
structure Warned (p : Par) (l : Line) (m : Mem) : Prop where
  warn : l.warn = m.pend
  phase : l.phase = m.prev.isSome
  last : ∀ u, m.prev = some u → l.last = u / p.pd * 1000

theorem Warned.of_eq {p : Par} {l l' : Line} {m : Mem} (h : Warned p l m) (e1 : l'.warn = l.warn) (e2 : l'.phase = l.phase)
    (e3 : l'.last = l.last) : Warned p l' m := ⟨by rw [e1, h.warn], by rw [e2, h.phase], fun u hu => by rw [e3, h.last u hu]⟩

theorem near_scale {a b d : Rat} (h : 0 < d) :
    fabs (a / d * 1000 - b / d * 1000) < a / d * 1000 * (1 / 10) ↔ (a - b < a / 10 ∧ b - a < a / 10) := by
  have e : ∀ x y : Rat, x / d * 1000 - y / d * 1000 = (x - y) * (1000 / d) := fun x y => by ring
  have hk : (0 : Rat) < 1000 / d := by positivity
  have e2 : a / d * 1000 * (1 / 10) = a / 10 * (1000 / d) := by ring
  have m : ∀ x : Rat, x * (1000 / d) < a / d * 1000 * (1 / 10) ↔ x < a / 10 := fun x => by
    rw [e2]; exact mul_lt_mul_iff_left₀ hk
  have hab : fabs (a / d * 1000 - b / d * 1000) < a / d * 1000 * (1 / 10) ↔
      (a / d * 1000 - b / d * 1000 < a / d * 1000 * (1 / 10) ∧ b / d * 1000 - a / d * 1000 < a / d * 1000 * (1 / 10)) := by
    unfold fabs
    constructor
    · intro h; split at h <;> constructor <;> linarith
    · intro h; split <;> linarith [h.1, h.2]
  rw [hab, e, e, m, m]

theorem event_warned {p : Par} (hp : 0 < p.pd) {l l' : Line} {m : Mem} (h : Warned p l m) {t : Nat} {e : Ev}
    (hrep : e = .next .add → m.pend = false) (hr : l.event p t e = some l') : Warned p l' (m.event p l t e) := by
  cases e with
  | stop =>
    simp only [Line.event] at hr
    split at hr <;> simp only [Option.some.injEq] at hr <;> subst hr
    · exact h.of_eq rfl rfl rfl
    · exact h
  | resume =>
    simp only [Line.event] at hr
    split at hr
    · simp only [Option.some.injEq] at hr; subst hr; exact h
    · simp only [Line.init, if_true] at hr
      split at hr
      · obtain ⟨m, _, rfl⟩ := Option.map_eq_some_iff.mp hr
        exact h.of_eq rfl rfl rfl
      · obtain ⟨m, _, rfl⟩ := Option.map_eq_some_iff.mp hr
        exact h.of_eq rfl rfl rfl
      · obtain ⟨l1, h1, h2⟩ := Option.bind_eq_some_iff.mp hr
        obtain ⟨m, _, rfl⟩ := Option.map_eq_some_iff.mp h1
        obtain ⟨m, _, rfl⟩ := Option.map_eq_some_iff.mp h2
        exact h.of_eq rfl rfl rfl
      · simp only [Line.initAdd, if_true, Option.some.injEq] at hr
        subst hr
        exact h.of_eq rfl rfl rfl
  | next s =>
    cases s with
    | fill =>
      obtain ⟨m, _, rfl⟩ := Option.map_eq_some_iff.mp hr
      exact h.of_eq rfl rfl rfl
    | circ =>
      obtain ⟨m, _, rfl⟩ := Option.map_eq_some_iff.mp hr
      exact h.of_eq rfl rfl rfl
    | check =>
      obtain ⟨l1, h1, h2⟩ := Option.bind_eq_some_iff.mp hr
      obtain ⟨m, _, rfl⟩ := Option.map_eq_some_iff.mp h1
      obtain ⟨m, _, rfl⟩ := Option.map_eq_some_iff.mp h2
      exact h.of_eq rfl rfl rfl
    | add =>
      have hw := h.warn
      rw [hrep rfl] at hw
      simp only [Line.event, Line.init, Line.initAdd, Line.setTime, Bool.false_eq_true, if_false, nz_pos hp] at hr
      obtain ⟨ms, _, rfl⟩ := Option.map_eq_some_iff.mp hr
      simp only [Mem.event, Mem.dose]
      have hph := h.phase
      cases hm : m.prev with
      | none =>
        rw [hm] at hph
        simp only [Option.isSome_none] at hph
        rw [if_neg (by simp [hph])]
        exact ⟨rfl, rfl, fun u hu => by simp only [Option.some.injEq] at hu; subst hu; rfl⟩
      | some u =>
        rw [hm] at hph
        simp only [Option.isSome_some] at hph
        rw [if_pos hph]
        refine ⟨?_, hph, fun u hu => by simp only [Option.some.injEq] at hu; subst hu; rfl⟩
        simp only [hw, Bool.false_or, h.last u hm, near_scale hp]
  | cycle c q f =>
    simp only [Line.event] at hr
    by_cases hon : l.on = true
    · simp only [hon, if_true] at hr
      simp only [Mem.event, hon, true_and]
      have hk : (l.cycle p t c q f).1.phase = l.phase ∧ (l.cycle p t c q f).1.last = l.last ∧
          (l.cycle p t c q f).1.warn = if (l.cycle p t c q f).2 = .noMedium then false else l.warn := by
        unfold Line.cycle Line.doCirc Line.doCheck Line.doAdd Line.count
        cases l.step <;> simp only
        · split <;> simp
        · split <;> simp
        · repeat' split
          all_goals simp_all
        · repeat' split
          all_goals simp_all
      obtain ⟨k1, k2, k3⟩ := hk
      split at hr
      · rename_i l2 heq
        rw [heq] at k1 k2 k3
        simp only [if_true] at k1 k2 k3
        simp only [Option.some.injEq] at hr
        subst hr
        rw [heq]
        simp only [if_true]
        exact ⟨k3, k1.trans h.phase, fun u hu => k2.trans (h.last u hu)⟩
      · rename_i l2 o hne heq
        rw [heq] at k1 k2 k3
        have ho : o ≠ .noMedium := fun e => hne (by rw [e])
        simp only [if_neg ho] at k1 k2 k3
        simp only [Option.some.injEq] at hr
        subst hr
        rw [heq]
        simp only [if_neg ho]
        exact h.of_eq k3 k1 k2
    · simp only [hon, Bool.false_eq_true, if_false, Option.some.injEq] at hr
      subst hr
      simp only [Mem.event, hon, Bool.false_eq_true, false_and, if_false]
      exact h

theorem run_warned {p : Par} (hp : 0 < p.pd) (h : List (Nat × Ev)) {l l' : Line} {m : Mem} (hw : Warned p l m)
    (hrep : Reported p m l h) (hr : l.run p h = some l') : Warned p l' (Mem.run p m l h) := by
  induction h generalizing l m with
  | nil => simp only [Line.run, Option.some.injEq] at hr; subst hr; exact hw
  | cons e h ih =>
    rw [Line.run] at hr
    obtain ⟨l1, h1, h2⟩ := Option.bind_eq_some_iff.mp hr
    simp only [Reported, h1] at hrep
    simp only [Mem.run, h1]
    exact ih (event_warned hp hw hrep.1 h1) hrep.2 h2

theorem loop_spec (val : Rat) (k : Nat) (s : Sav) :
    (s.loop val k).n = s.n + k ∧ (s.loop val k).integrator = s.integrator ∧
    (s.loop val k).cn * ((s.n + k : Nat) : Rat) = s.cn * s.n + val * k := by
  induction k generalizing s with
  | zero => simp [Sav.loop]
  | succ k ih =>
    rw [Sav.loop]
    obtain ⟨h1, h2, h3⟩ := ih { s with n := s.n + 1, cn := (s.cn * s.n + val) / (s.n + 1) }
    refine ⟨by rw [h1]; simp only; omega, h2, ?_⟩
    have e : s.n + (k + 1) = s.n + 1 + k := by omega
    rw [e, h3]
    have : (s.n : Rat) + 1 ≠ 0 := by positivity
    push_cast
    field_simp
    ring

theorem adds (h : List (Rat × Nat)) (s : Sav) (hs : s.integrator = s.n) :
    (h.foldl (fun s e => s.add e.1 e.2) s).cn * (highest s.n h : Nat) = s.cn * s.n + weighted s.n h := by
  induction h generalizing s with
  | nil => simp [highest, weighted]
  | cons e h ih =>
    simp only [List.foldl_cons, highest, weighted]
    by_cases hlt : s.integrator < e.2
    · obtain ⟨h1, h2, h3⟩ := loop_spec e.1 (e.2 - s.integrator) { s with integrator := e.2 }
      have ea : s.add e.1 e.2 = ({ s with integrator := e.2 } : Sav).loop e.1 (e.2 - s.integrator) := if_pos hlt
      have en : s.n + (e.2 - s.integrator) = e.2 := by omega
      simp only [en] at h1 h3
      have := ih (s.add e.1 e.2) (by rw [ea, h2, h1])
      rw [ea, h1] at this
      have em : max s.n e.2 = e.2 := by omega
      rw [ea, em]
      simp only [highest] at this
      rw [this, h3, hs]
      ring
    · have ea : s.add e.1 e.2 = s := if_neg hlt
      have em : max s.n e.2 = s.n := by omega
      have e0 : e.2 - s.n = 0 := by omega
      rw [ea, em, e0]
      have := ih s hs
      simp only [highest] at this
      rw [this]
      simp

end Ptusa.CipDose
