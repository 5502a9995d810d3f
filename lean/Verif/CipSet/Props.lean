import Verif.CipSet.Lemmas
import Mathlib.Algebra.Order.Field.Rat
import Mathlib.Data.Rat.Floor
import Mathlib.Tactic.Linarith
import Mathlib.Tactic.FieldSimp
import Mathlib.Tactic.Ring
import Mathlib.Tactic.NormNum
import Mathlib.Tactic.Positivity

/-!
# Properties: what the steps of a washing program are set to
-/
namespace Ptusa.CipSet
open CipDose (Tmr)

/-! ## C185: temperatures -/

/-- The settings of a reached wash are those which the initialization of its step has made, or these after a stop. -/
theorem run_last {c : Ctx} {evs : List Ev} {w w' : Wash}
    (h : ∃ s0 s1, c.init w.step s0 = some s1 ∧ (w.set = s1 ∨ w.set = { s1 with heat := false, pump := false }))
    (hr : run c w evs = some w') :
    ∃ s0 s1, c.init w'.step s0 = some s1 ∧ (w'.set = s1 ∨ w'.set = { s1 with heat := false, pump := false }) := by
  induction evs generalizing w with
  | nil => simp only [run, Option.some.injEq] at hr; exact hr ▸ h
  | cons e l ih =>
    simp only [run, Option.bind_eq_some_iff] at hr
    obtain ⟨w1, h1, h2⟩ := hr
    refine ih ?_ h2
    cases e with
    | next b prg prog o =>
      simp only [Wash.next, Option.map_eq_some_iff] at h1
      obtain ⟨s, hs, rfl⟩ := h1
      exact ⟨w.set, s, hs, .inl rfl⟩
    | stop =>
      simp only [Wash.next, Option.some.injEq] at h1
      subst h1
      obtain ⟨s0, s1, hi, h | h⟩ := h
      · exact ⟨s0, s1, hi, .inr (by simp only [h])⟩
      · exact ⟨s0, s1, hi, .inr (by simp only [h])⟩
    | resume =>
      simp only [Wash.next, Option.map_eq_some_iff] at h1
      obtain ⟨s, hs, rfl⟩ := h1
      exact ⟨w.set, s, hs, .inl rfl⟩

theorem reached {c : Ctx} {evs : List Ev} {w : Wash} (hr : run c {} evs = some w) :
    ∃ s0 s1, c.init w.step s0 = some s1 ∧ (w.set = s1 ∨ w.set = { s1 with heat := false, pump := false }) :=
  run_last (w := {}) ⟨{}, {}, by simp [Ctx.init], .inl rfl⟩ hr

/-- While the heating is on, its task is the temperature of the recipe for this part of the wash, after any steps, stops and
resumptions. -/
theorem C185_part_partial {c : Ctx} {evs : List Ev} {w : Wash} {p : Par} (hr : run c {} evs = some w)
    (hp : c.demanded w.step = some p) (hh : w.set.heat = true) : w.set.temp = c.r p :=
  (ok_run (ok_initial c) hr).fits.temp hh p hp

/-- A recipe for examples. -/
def exPar : Par → Rat
  | .T_WP => 25 | .T_WSP => 30 | .T_WKP => 35 | .T_WOP => 40 | .T_S => 75 | .T_K => 65 | .T_D => 90 | .T_SANITIZER => 20
  | .T_CLEAN_RINSING => 15 | .T_SANITIZER_RINSING => 22 | .FLOW => 18 | .V1 => 500 | .V2 => 300 | .TM_S => 600 | .TM_K => 300
  | .TM_S_SK => 900 | .TM_K_SK => 450 | .DOP_V_AFTER_S => 200 | .V_RAB_ML => 100 | .TM_MAX_TIME_OPORCIP => 60 | .TM_OP => 60
  | _ => 10

/-- A tank, whole program. -/
def exCtx (tank line : Bool) : Ctx := ⟨exPar, 181, false, tank, line, false⟩

/-- The small tank is filled from the return with caustic; a stop and a resumption; the temperature is still that of caustic. -/
example : (run (exCtx false true) {} [.next false 5 181 {}, .next false 5 181 {}, .next false 5 181 {}, .next false 5 181 {},
    .stop, .resume]).map (fun w => (w.step, w.set.heat, w.set.temp)) = some (26, true, 75) ∧
    (exCtx false true).demanded 26 = some .T_S := by
  decide +kernel

/-- Nothing is heated and nothing is pumped while the small tank is filled with water. -/
theorem C185_fill {c : Ctx} {evs : List Ev} {w : Wash} (hr : run c {} evs = some w) (hm : w.step ∈ fills) :
    w.set.heat = false ∧ w.set.pump = false := by
  obtain ⟨s0, s1, hi, h⟩ := reached hr
  suffices s1.heat = false ∧ s1.pump = false by
    rcases h with h | h <;> rw [h]
    · exact this
    · exact ⟨rfl, rfl⟩
  simp only [fills, List.mem_cons, List.not_mem_nil, or_false] at hm
  have he : c.init w.step s0 = c.fillWater s0 := by
    generalize w.step = x at hm
    rcases hm with rfl | rfl | rfl | rfl | rfl | rfl <;> simp [Ctx.init]
  rw [he] at hi
  have := within_some hi
  exact ⟨this.1, this.2.2.1⟩

/-- Nor while the object is emptied, unless it is a line. -/
theorem C185_empty {c : Ctx} {evs : List Ev} {w : Wash} (hr : run c {} evs = some w) (hm : w.step ∈ empties) (hl : c.line = false) :
    w.set.heat = false ∧ w.set.pump = false := by
  obtain ⟨s0, s1, hi, h⟩ := reached hr
  suffices s1.heat = false ∧ s1.pump = false by
    rcases h with h | h <;> rw [h]
    · exact this
    · exact ⟨rfl, rfl⟩
  simp only [empties, List.mem_cons, List.not_mem_nil, or_false] at hm
  have he : c.init w.step s0 = c.emptyObject s0 := by
    generalize w.step = x at hm
    rcases hm with rfl | rfl | rfl | rfl | rfl | rfl | rfl | rfl | rfl | rfl | rfl | rfl | rfl <;> simp [Ctx.init]
  rw [he, Ctx.emptyObject, if_neg (by simp [hl])] at hi
  have := within_some hi
  exact ⟨this.1, this.2.2.1⟩

example : ((run (exCtx true false) {} [.next false 2 181 {}]).map fun w => (w.step, w.set.heat)) = some (61, false) ∧
    ((run (exCtx true false) {} [.next false 5 181 {}, .next false 5 181 {}]).map fun w => (w.step, w.set.heat)) = some (23, false) ∧
    (61 : Int) ∈ fills ∧ (23 : Int) ∈ empties := by
  decide +kernel

theorem begun {c : Ctx} {w w' : Wash} {e : Ev} (hn : w.next c e = some w') (he : e ≠ .stop) : ∃ s0, c.init w'.step s0 = some w'.set := by
  cases e with
  | next b prg prog o =>
    simp only [Wash.next, Option.map_eq_some_iff] at hn
    obtain ⟨s, hs, rfl⟩ := hn
    exact ⟨_, hs⟩
  | stop => exact absurd rfl he
  | resume =>
    simp only [Wash.next, Option.map_eq_some_iff] at hn
    obtain ⟨s, hs, rfl⟩ := hn
    exact ⟨_, hs⟩

/-- A circulation which begins or is resumed is heated and pumped. -/
theorem C185_circulation {c : Ctx} {w w' : Wash} {e : Ev} (hn : w.next c e = some w') (he : e ≠ .stop) (hm : w'.step ∈ circulates) :
    w'.set.heat = true ∧ w'.set.pump = true ∧ w'.set.flow = c.r .FLOW := by
  obtain ⟨s0, hi⟩ := begun hn he
  simp only [circulates, List.mem_cons, List.not_mem_nil, or_false] at hm
  have hc : ∃ m, c.circ m s0 = some w'.set := by
    generalize w'.step = x at hm hi
    rcases hm with rfl | rfl | rfl | rfl
    · exact ⟨.caustic, by simpa [Ctx.init] using hi⟩
    · exact ⟨.acid, by simpa [Ctx.init] using hi⟩
    · exact ⟨.hot, by simpa [Ctx.init] using hi⟩
    · exact ⟨.sanitizer, by simpa [Ctx.init] using hi⟩
  obtain ⟨m, hc⟩ := hc
  simp only [Ctx.circ, Option.map_eq_some_iff] at hc
  obtain ⟨ms, _, hc⟩ := hc
  rw [← hc]
  exact ⟨rfl, rfl, rfl⟩

example : ((Wash.next (exCtx true false) ⟨28, {}⟩ .resume).map fun w => (w.step, w.set.heat, w.set.temp)) = some (28, true, 75) := by
  decide +kernel

/-- While the small tank is emptied after caustic, acid, hot water or the disinfectant, the water for the rinse behind it is already
heated to the temperature of that rinse. -/
theorem C185_ahead {c : Ctx} {evs : List Ev} {w : Wash} (hr : run c {} evs = some w) :
    (∀ y, (w.step, y) ∈ before → ∃ p, c.demanded y = some p ∧ w.set.temp = c.r p) ∧
    (w.step = 67 → c.prog ≠ 1 → c.cold = false → w.set.temp = c.r c.lastRinse) ∧
    (w.step = 78 → c.prog ≠ 1 → c.cold = true → w.set.temp = c.r c.lastRinse) := by
  obtain ⟨s0, s1, hi, h⟩ := reached hr
  have ht : w.set.temp = s1.temp := by rcases h with h | h <;> rw [h]
  rw [ht]
  generalize w.step = x at hi
  refine ⟨fun y hy => ?_, fun hx hp hc => ?_, fun hx hp hc => ?_⟩
  · simp only [before, List.mem_cons, List.not_mem_nil, or_false, Prod.mk.injEq] at hy
    rcases hy with ⟨rfl, rfl⟩ | ⟨rfl, rfl⟩
    · exact ⟨.T_WSP, rfl, (within_some (show c.emptyCirc 29 s0 = some s1 from by simpa [Ctx.init] using hi)).2.1⟩
    · exact ⟨.T_WKP, rfl, (within_some (show c.emptyCirc 49 s0 = some s1 from by simpa [Ctx.init] using hi)).2.1⟩
  · subst hx
    have : s1.temp = c.r .T_WOP := (within_some (show c.emptyCirc 67 s0 = some s1 from by simpa [Ctx.init] using hi)).2.1
    rw [this, Ctx.lastRinse, if_neg hp, if_neg (by simp [hc])]
  · subst hx
    have : s1.temp = c.r .T_SANITIZER_RINSING := (within_some (show c.emptyCirc 78 s0 = some s1 from by simpa [Ctx.init] using hi)).2.1
    rw [this, Ctx.lastRinse, if_neg hp, if_pos hc]

example : ((run (exCtx true false) ⟨28, {}⟩ [.next false 5 181 {}]).map fun w => (w.step, w.set.temp)) = some (29, 30) ∧
    (exCtx true false).demanded 33 = some .T_WSP := by
  decide +kernel

/-- The circulation of rinse water begins with the heating switched on and no temperature to heat to. -/
theorem C185_rinse_violated (c : Ctx) (prog : Nat) (o : Cip.Opt) :
    ∃ w, run c {} [.next false 6 prog o] = some w ∧ w.step = 10 ∧ w.set.heat = true ∧ w.set.temp = 0 := by
  refine ⟨⟨10, { heat := true, temp := 0, pump := true, flow := 0, vol := c.r .V_RAB_ML, limit := 300, cd := 300000 }⟩, ?_, rfl, rfl, rfl⟩
  have : toMs 300 = some 300000 := by decide +kernel
  simp [run, Wash.next, Cip.succ, Cip.startStep, Ctx.init, Ctx.fillReturn, Set.within, this]

/-! ## C186: volumes and times -/

theorem volume_init {c : Ctx} {x : Int} {p : Par} {s0 s1 : Set} (hm : (x, p) ∈ volumes ∨ x = 86 ∧ p = c.lastVolume) :
    c.init x s0 = c.toObject x s0 ∧ c.toVol x = c.r p ∨ c.init x s0 = c.fromObject x s0 ∧ p = .V2 := by
  rcases hm with hm | ⟨rfl, rfl⟩
  · simp only [volumes, List.mem_cons, List.not_mem_nil, or_false, Prod.mk.injEq] at hm
    rcases hm with ⟨rfl, rfl⟩ | ⟨rfl, rfl⟩ | ⟨rfl, rfl⟩ | ⟨rfl, rfl⟩ | ⟨rfl, rfl⟩ | ⟨rfl, rfl⟩ | ⟨rfl, rfl⟩ | ⟨rfl, rfl⟩ | ⟨rfl, rfl⟩ |
      ⟨rfl, rfl⟩ | ⟨rfl, rfl⟩ | ⟨rfl, rfl⟩ | ⟨rfl, rfl⟩ | ⟨rfl, rfl⟩ | ⟨rfl, rfl⟩ | ⟨rfl, rfl⟩ | ⟨rfl, rfl⟩ | ⟨rfl, rfl⟩ | ⟨rfl, rfl⟩
    all_goals first
      | exact .inl ⟨by simp [Ctx.init], rfl⟩
      | exact .inr ⟨by simp [Ctx.init], rfl⟩
  · refine .inl ⟨by simp [Ctx.init], ?_⟩
    show c.finalVol = _
    unfold Ctx.finalVol Ctx.lastVolume
    split <;> [rfl; split <;> rfl]

/-- A step which pumps to the object or from it pumps the volume of the recipe with the flow of the recipe, in not more than twice
the time which this takes (litres and cubic metres an hour give seconds). -/
theorem C186_amount_partial {c : Ctx} {evs : List Ev} {w : Wash} {p : Par} (hr : run c {} evs = some w)
    (hm : (w.step, p) ∈ volumes ∨ w.step = 86 ∧ p = c.lastVolume) :
    w.set.vol = c.r p ∧ w.set.flow = c.r .FLOW ∧ (c.r .FLOW ≠ 0 → w.set.limit = 2 * (c.r p / (c.r .FLOW * 1000 / 3600))) := by
  obtain ⟨s0, s1, hi, h⟩ := reached hr
  have ht : w.set.vol = s1.vol ∧ w.set.flow = s1.flow ∧ w.set.limit = s1.limit := by rcases h with h | h <;> rw [h] <;> simp
  rw [ht.1, ht.2.1, ht.2.2]
  have key : ∀ v : Rat, c.r .FLOW ≠ 0 → maxTime v (c.r .FLOW) = 2 * (v / (c.r .FLOW * 1000 / 3600)) := fun v hf => by
    rw [maxTime, if_neg hf]; field_simp; ring
  rcases volume_init (s0 := s0) (s1 := s1) hm with ⟨he, hv⟩ | ⟨he, hv⟩
  · rw [he] at hi
    have := within_some hi
    refine ⟨by rw [this.2.2.2.2.1, hv], this.2.2.2.1, fun hf => ?_⟩
    rw [this.2.2.2.2.2, hv, key _ hf]
  · rw [he] at hi
    have := within_some hi
    refine ⟨by rw [this.2.2.2.2.1, hv], this.2.2.2.1, fun hf => ?_⟩
    rw [this.2.2.2.2.2, hv, key _ hf]

/-- Rinse after caustic: 500 litres with 18 m³/h, 100 s at this flow. -/
example : ((run (exCtx true false) ⟨31, {}⟩ [.next false 5 181 {}]).map fun w => (w.step, w.set.vol, w.set.flow, w.set.limit, w.set.cd)) =
    some (33, 500, 18, 200, 200000) ∧ ((33, .V1) : Int × Par) ∈ volumes := by
  decide +kernel

/-- The pump works from the beginning of such a step or its resumption. -/
theorem C186_pumps {c : Ctx} {w w' : Wash} {e : Ev} {p : Par} (hn : w.next c e = some w') (he : e ≠ .stop)
    (hm : (w'.step, p) ∈ volumes ∨ w'.step = 86 ∧ p = c.lastVolume) : w'.set.pump = true := by
  obtain ⟨s0, hi⟩ := begun hn he
  rcases volume_init (s0 := s0) (s1 := s0) hm with ⟨h1, _⟩ | ⟨h1, _⟩
  · rw [h1] at hi; exact (within_some hi).2.2.1
  · rw [h1] at hi; exact (within_some hi).2.2.1

example : ((Wash.next (exCtx true false) ⟨85, {}⟩ (.next false 5 181 {})).map fun w => (w.step, w.set.pump, w.set.vol)) = some (86, true, 10) := by
  decide +kernel

/-- Which pumping steps are heated when they begin or are resumed. -/
theorem C185_heated {c : Ctx} {w w' : Wash} {e : Ev} {p : Par} (hn : w.next c e = some w') (he : e ≠ .stop)
    (hm : (w'.step, p) ∈ volumes ∨ w'.step = 86 ∧ p = c.lastVolume ∨ w'.step = 26 ∨ w'.step = 46) :
    w'.set.heat = !c.unheated w'.step := by
  obtain ⟨s0, hi⟩ := begun hn he
  generalize w'.step = x at hm hi
  generalize w'.set = s1 at hi
  rcases hm with hm | ⟨rfl, rfl⟩ | rfl | rfl
  · simp only [volumes, List.mem_cons, List.not_mem_nil, or_false, Prod.mk.injEq] at hm
    rcases hm with ⟨rfl, rfl⟩ | ⟨rfl, rfl⟩ | ⟨rfl, rfl⟩ | ⟨rfl, rfl⟩ | ⟨rfl, rfl⟩ | ⟨rfl, rfl⟩ | ⟨rfl, rfl⟩ | ⟨rfl, rfl⟩ | ⟨rfl, rfl⟩ |
      ⟨rfl, rfl⟩ | ⟨rfl, rfl⟩ | ⟨rfl, rfl⟩ | ⟨rfl, rfl⟩ | ⟨rfl, rfl⟩ | ⟨rfl, rfl⟩ | ⟨rfl, rfl⟩ | ⟨rfl, rfl⟩ | ⟨rfl, rfl⟩ | ⟨rfl, rfl⟩
    all_goals
      simp [Ctx.init, Ctx.toObject, Ctx.fromObject] at hi
      rw [(within_some hi).1]
      clear hi
      simp only [Ctx.unheated]
      cases c.tank <;> cases c.noTankHeat <;> rfl
  · simp [Ctx.init, Ctx.toObject] at hi
    rw [(within_some hi).1]
    clear hi
    simp only [Ctx.unheated]
    cases c.tank <;> cases c.noTankHeat <;> rfl
  · simp [Ctx.init, Ctx.fillReturn] at hi
    rw [(within_some hi).1]
    clear hi
    simp only [Ctx.unheated]
    cases c.tank <;> cases c.noTankHeat <;> rfl
  · simp [Ctx.init, Ctx.fillReturn] at hi
    rw [(within_some hi).1]
    clear hi
    simp only [Ctx.unheated]
    cases c.tank <;> cases c.noTankHeat <;> rfl

example : ((Wash.next (exCtx true false) {} (.next false 5 181 {})).map fun w => (w.step, w.set.heat)) = some (22, false) ∧
    ((Wash.next (exCtx false false) {} (.next false 5 181 {})).map fun w => (w.step, w.set.heat)) = some (22, true) := by
  decide +kernel

/-- With values of a recipe which are not negative and a flow of at least 0.01 m³/h, or none, every step can be set. -/
theorem C186_defined {c : Ctx} (h : ∀ p, 0 ≤ c.r p ∧ c.r p < 2 ^ 32) (hf : c.r .FLOW = 0 ∨ 1 / 100 ≤ c.r .FLOW) (step : Int) (s : Set) :
    ∃ s', c.init step s = some s' := by
  have ms : ∀ x : Rat, 0 ≤ x → x < 2 ^ 64 → ∃ n, toMs x = some n := fun x h1 h2 =>
    ⟨_, if_pos ⟨by linarith, h2⟩⟩
  have wi : ∀ (s : Set) (x : Rat), 0 ≤ x → x < 2 ^ 64 → ∃ s', s.within x = some s' := fun s x h1 h2 => by
    obtain ⟨n, hn⟩ := ms x h1 h2
    exact ⟨_, by rw [Set.within, hn]; rfl⟩
  have par : ∀ p, 0 ≤ c.r p ∧ c.r p < 2 ^ 64 := fun p => ⟨(h p).1, lt_trans (h p).2 (by norm_num)⟩
  have mt : ∀ v : Rat, 0 ≤ v → v < 2 ^ 32 → 0 ≤ maxTime v (c.r .FLOW) ∧ maxTime v (c.r .FLOW) < 2 ^ 64 := fun v h1 h2 => by
    unfold maxTime
    rcases hf with hf | hf
    · rw [if_pos hf]
      exact ⟨by linarith, by norm_num at h2 ⊢; linarith⟩
    · have hp : 0 < c.r .FLOW := by linarith
      rw [if_neg (ne_of_gt hp)]
      refine ⟨div_nonneg (by linarith) (le_of_lt hp), ?_⟩
      rw [div_lt_iff₀ hp]
      norm_num at h2 ⊢
      linarith
  have tv : ∀ x, 0 ≤ c.toVol x ∧ c.toVol x < 2 ^ 32 := fun x => by
    unfold Ctx.toVol Ctx.finalVol
    repeat' split
    all_goals first
      | exact h _
      | norm_num
  have ct : ∀ m, ∃ n, toMs (c.circTime m) = some n := fun m => by
    cases m <;> simp only [Ctx.circTime]
    · exact ms _ (par _).1 (par _).2
    · exact ms _ (par _).1 (par _).2
    · exact ms _ (par _).1 (par _).2
    · split <;> exact ms _ (par _).1 (par _).2
    · split <;> exact ms _ (par _).1 (par _).2
  have ci : ∀ m, ∃ s', c.circ m s = some s' := fun m => by
    obtain ⟨n, hn⟩ := ct m
    exact ⟨_, by rw [Ctx.circ, hn]; rfl⟩
  have it {q : Prop} [Decidable q] {a b : Option Set} (ha : ∃ s', a = some s') (hb : ∃ s', b = some s') :
      ∃ s', (if q then a else b) = some s' := by
    by_cases hq : q
    · rw [if_pos hq]; exact ha
    · rw [if_neg hq]; exact hb
  unfold Ctx.init
  refine it (wi _ _ (mt _ (tv _).1 (tv _).2).1 (mt _ (tv _).1 (tv _).2).2) (it (wi _ _ (mt _ (h _).1 (h _).2).1 (mt _ (h _).1 (h _).2).2)
    (it ?_ (it (wi _ _ (by norm_num) (by norm_num)) (it (wi _ _ (by norm_num) (by norm_num)) (it (wi _ _ (par _).1 (par _).2)
    (it (ci _) (it (ci _) (it (ci _) (it (ci _) (it (ci _) (it (wi _ _ (par _).1 (par _).2) ⟨s, rfl⟩)))))))))))
  exact it ⟨s, rfl⟩ (wi _ _ (par _).1 (par _).2)

example : (∀ p, 0 ≤ exPar p ∧ exPar p < 2 ^ 32) ∧ 1 / 100 ≤ exPar .FLOW := by
  refine ⟨fun p => ?_, by norm_num [exPar]⟩
  cases p <;> norm_num [exPar]

/-- A negative flow in the recipe: the time of the step is converted to an unsigned number, which is undefined. -/
theorem C186_negative_violated {c : Ctx} {x : Int} {p : Par} (s : Set) (hm : (x, p) ∈ volumes) (hf : c.r .FLOW < 0)
    (hv : -c.r .FLOW ≤ c.r p) : c.init x s = none := by
  have key : ∀ (t : Set), t.within (maxTime (c.r p) (c.r .FLOW)) = none := fun t => by
    have : ¬(-1 < maxTime (c.r p) (c.r .FLOW)) := by
      rw [maxTime, if_neg (ne_of_lt hf), not_lt, div_le_iff_of_neg hf]
      linarith
    rw [Set.within, toMs, if_neg (fun h => this h.1)]
    rfl
  rcases volume_init (c := c) (s0 := s) (s1 := s) (.inl hm) with ⟨he, hv⟩ | ⟨he, hv⟩
  · rw [he, Ctx.toObject, hv]; exact key _
  · rw [he, Ctx.fromObject, ← hv]; exact key _

example : ((exCtx true false).init 33 {}).isSome = true ∧
    ({ exCtx true false with r := fun p => if p = .FLOW then -18 else exPar p } : Ctx).init 33 {} = none :=
  ⟨by decide +kernel, C186_negative_violated (p := .V1) {} (by decide) (by decide +kernel) (by decide +kernel)⟩

/-! ## C187: the time of a circulation -/

/-- A circulation of caustic, acid, hot water or the disinfectant is over in the first cycle in which the return is warm enough with
flow and was so, together, longer than the whole seconds of the recipe; with a signal to go on also not before this signal was seen.
Time when the return is cold, there is no flow or the wash is stopped does not count. -/
theorem C187_time_partial {c : Ctx} {step : Int} {p : Par} {s s' : Set} {t : Tmr} {evs : List CEv} {k : Circ}
    (hi : c.init step s = some s') (hd : c.duration step = some p) (hp : 0 ≤ c.r p) (hp' : c.r p < 10 ^ 9)
    (hg : goOn (enter t s'.cd) evs = some k) {now : Nat} {tr z delta flow noFlow : Rat} {cont : Option Bool}
    (hs : (evs.filterMap CEv.sample ++ [(now, warm tr z delta flow noFlow)]).Pairwise fun a b => a.1 ≤ b.1)
    (hw : good (evs.filterMap CEv.sample ++ [(now, true)]) < 2 ^ 32) :
    (k.cycle now tr z delta flow noFlow cont).2 = true ↔
      (z - delta ≤ tr ∧ noFlow < flow) ∧ 1000 * (c.r p).floor < good (evs.filterMap CEv.sample ++ [(now, true)]) ∧
      (cont = none ∨ cont = some true ∨ ∃ e ∈ evs, e.signal = true) := by
  have hcd : (s'.cd : Int) = 1000 * (c.r p).floor := by
    have hc : ∃ m, c.circ m s = some s' ∧ c.circTime m = c.r p := by
      have hb : (c.prog &&& 48 = 48) ↔ (c.prog.testBit 4 && c.prog.testBit 5) = true := by
        constructor
        · intro hx
          have h4 : (c.prog &&& 48).testBit 4 = true := by rw [hx]; decide
          have h5 : (c.prog &&& 48).testBit 5 = true := by rw [hx]; decide
          rw [Nat.testBit_and] at h4 h5
          simp only [Bool.and_eq_true] at h4 h5
          rw [h4.1, h5.1]; rfl
        · intro hx
          rw [Bool.and_eq_true] at hx
          apply Nat.eq_of_testBit_eq
          intro i
          rw [Nat.testBit_and]
          by_cases h4 : i = 4
          · subst h4; rw [hx.1]; decide
          by_cases h5 : i = 5
          · subst h5; rw [hx.2]; decide
          have : Nat.testBit 48 i = false := by
            by_cases hl : i < 6
            · have : i = 0 ∨ i = 1 ∨ i = 2 ∨ i = 3 := by omega
              rcases this with rfl | rfl | rfl | rfl <;> decide
            · exact Nat.testBit_lt_two_pow (lt_of_lt_of_le (by decide : 48 < 2 ^ 6) (Nat.pow_le_pow_right (by decide) (by omega)))
          rw [this, Bool.and_false]
      unfold Ctx.duration at hd
      simp only at hd
      by_cases e1 : step = 28
      · rw [if_pos e1] at hd
        subst e1
        refine ⟨.caustic, by simpa [Ctx.init] using hi, ?_⟩
        rw [← Option.some.inj hd]
        simp only [Ctx.circTime]
        by_cases hx : c.prog &&& 48 = 48
        · rw [if_pos hx, if_pos (hb.1 hx)]
        · rw [if_neg hx, if_neg (fun y => hx (hb.2 y))]
      rw [if_neg e1] at hd
      by_cases e2 : step = 48
      · rw [if_pos e2] at hd
        subst e2
        refine ⟨.acid, by simpa [Ctx.init] using hi, ?_⟩
        rw [← Option.some.inj hd]
        simp only [Ctx.circTime]
        by_cases hx : c.prog &&& 48 = 48
        · rw [if_pos hx, if_pos (hb.1 hx)]
        · rw [if_neg hx, if_neg (fun y => hx (hb.2 y))]
      rw [if_neg e2] at hd
      by_cases e3 : step = 66
      · rw [if_pos e3] at hd
        subst e3
        exact ⟨.hot, by simpa [Ctx.init] using hi, by rw [← Option.some.inj hd]; rfl⟩
      rw [if_neg e3] at hd
      by_cases e4 : step = 77
      · rw [if_pos e4] at hd
        subst e4
        exact ⟨.sanitizer, by simpa [Ctx.init] using hi, by rw [← Option.some.inj hd]; rfl⟩
      rw [if_neg e4] at hd
      exact absurd hd (by simp)
    obtain ⟨m, hc, hm⟩ := hc
    simp only [Ctx.circ, Option.map_eq_some_iff] at hc
    obtain ⟨ms, h1, rfl⟩ := hc
    rw [hm, toMs] at h1
    split at h1
    · have hfl : 0 ≤ (c.r p).floor := Rat.le_floor_iff.2 (by exact_mod_cast hp)
      have hfu : (c.r p).floor < 10 ^ 9 := Rat.floor_lt_iff.2 (by exact_mod_cast hp')
      have := Option.some.inj h1
      simp only
      rw [← this]
      omega
    · exact absurd h1 (by simp)
  have h0 : Sorted (evs.filterMap CEv.sample ++ [(now, warm tr z delta flow noFlow)]) := hs
  obtain ⟨h1, h2, h3⟩ := goOn_knows (knows_enter t s'.cd) (by simpa using sorted_prefix h0) hg
  rw [List.nil_append] at h1
  obtain ⟨_, _, h4, _⟩ := cycle_ends (cont := cont) h1 h0
  rw [h4, h2, h3, Nat.mod_eq_of_lt hw]
  have he : (enter t s'.cd).tmr.cd = s'.cd := rfl
  have hf : (enter t s'.cd).flip = false := rfl
  rw [he, hf, Bool.false_or, ← hcd]
  have hwm : warm tr z delta flow noFlow = true ↔ z - delta ≤ tr ∧ noFlow < flow := by simp [warm]
  rw [hwm, List.any_eq_true, Nat.cast_lt]

/-- Cycles with a return at 74 °C of 75 ± 2 and with a cold one, a stop. -/
def exCirc : List CEv :=
  [.cycle 1000 20 75 2 10 1 none, .cycle 5000 74 75 2 10 1 none, .cycle 300000 74 75 2 10 1 none, .cycle 300500 60 75 2 10 1 none,
   .cycle 400000 74 75 2 10 1 none, .stop 500000, .resume 900000, .cycle 900500 74 75 2 10 1 none]

/-- 900 s of caustic: 295.5 s, 100 s and the time from 900.5 s. -/
example : ((exCtx true false).init 28 {}).map (fun s => s.cd) = some 900000 ∧ (exCtx true false).duration 28 = some .TM_S_SK ∧
    good (exCirc.filterMap CEv.sample ++ [(1405000, true)]) = 900000 ∧
    ((goOn (enter {} 900000) exCirc).map fun k => ((k.cycle 1405000 74 75 2 10 1 none).2, (k.cycle 1405001 74 75 2 10 1 none).2,
      (k.cycle 1405001 74 75 2 10 1 (some false)).2)) = some (false, true, false) := by
  decide +kernel

/-- A negative time: the conversion is undefined. -/
theorem C187_negative_violated {c : Ctx} {s : Set} (h : c.r .TM_D ≤ -1) : c.init 66 s = none := by
  have : ¬(-1 < c.r .TM_D) := not_lt.2 h
  simp only [Ctx.init]
  norm_num
  rw [Ctx.circ, Ctx.circTime, toMs, if_neg (fun h => this h.1)]
  rfl

example : ({ exCtx true false with r := fun p => if p = .TM_D then -5 else exPar p } : Ctx).init 66 {} = none :=
  C187_negative_violated (by decide +kernel)

/-! ## C188: self-cleaning -/

/-- 20 litres of each. -/
def exSc' : Sc → Rat
  | .FLOW => 12 | _ => 20

/-- The rest of a tank is pumped out with the litres given for this tank, except in step 176. -/
theorem C188_rest_partial {r : Sc → Rat} {step : Int} {a b d pumped : Bool} {src : CipFlow.Src} {dst : CipFlow.ScDest} {p : Sc}
    (hm : step ∈ restSteps) (hn : step ≠ 176) (ho : CipFlow.op true a b d step = some (.pumping (some src) dst))
    (hp : rest src = some p) : (scInit r pumped step).2.1 = r p := by
  simp only [restSteps, List.mem_cons, List.not_mem_nil, or_false] at hm
  rcases hm with rfl | rfl | rfl | rfl | rfl | rfl | rfl
  case inr.inr.inr.inr.inl => exact absurd rfl hn
  all_goals
    simp [CipFlow.op] at ho
    obtain ⟨rfl, _⟩ := ho
    simp only [rest, Option.some.injEq] at hp
    subst hp
    simp [scInit, scAmount]

example : CipFlow.op true false false false 157 = some (.pumping (some .tankS) .tankWmg) ∧ rest .tankS = some .LL_TS := by
  decide +kernel

/-- Step 176 pumps from the tank of caustic, with the litres given for the tank of acid. -/
theorem C188_rest_violated (r : Sc → Rat) (a b d : Bool) :
    CipFlow.op true a b d 176 = some (.pumping (some .tankS) .neutro) ∧ rest .tankS = some .LL_TS ∧
    (scInit r true 176).2.1 = r .LL_TK := by
  refine ⟨by simp [CipFlow.op], rfl, by simp [scInit, scAmount]⟩

/-- A step which pumps out a tank ends exactly when the lower level of the tank it pumps from is not covered any more. -/
theorem C188_level {step : Int} {a b d : Bool} {src : CipFlow.Src} {dst : CipFlow.ScDest} (hm : step ∈ levelSteps)
    (ho : CipFlow.op true a b d step = some (.pumping (some src) dst)) (e : ScEnv) (vol limit : Rat) :
    scEnds e step vol limit = true ↔ covered e src = false := by
  simp only [levelSteps, List.mem_cons, List.not_mem_nil, or_false] at hm
  rcases hm with rfl | rfl | rfl | rfl | rfl | rfl | rfl
  all_goals
    simp [CipFlow.op] at ho
    obtain ⟨rfl, _⟩ := ho
    simp [scEnds, covered]

example : CipFlow.op true false false false 163 = some (.pumping (some .tankK) .tankSmg) ∧
    scEnds ⟨0, 0, true, true, false⟩ 163 0 0 = true ∧ scEnds ⟨0, 0, false, false, true⟩ 163 0 0 = false := by
  decide +kernel

/-- A step which pumps out the rest of a tank ends when its litres have passed, and at the latest after a time between 4.32/3.6 and
5/3.6 of what they take at the given flow. -/
theorem C188_rest_ends_partial {r : Sc → Rat} {step : Int} {a b d : Bool} {src : CipFlow.Src} {dst : CipFlow.ScDest} {p : Sc}
    (hm : step ∈ restSteps) (hn : step ≠ 176) (ho : CipFlow.op true a b d step = some (.pumping (some src) dst))
    (hp : rest src = some p) (hv : 0 < r p) (hf : 0 < r .FLOW) (e : ScEnv) :
    (r p ≤ e.litres → scEnds e step (scInit r true step).2.1 (scInit r true step).2.2 = true) ∧
    (5000 * r p ≤ e.work * r .FLOW → scEnds e step (scInit r true step).2.1 (scInit r true step).2.2 = true) ∧
    (e.litres < r p → e.work * r .FLOW < 4320 * r p → scEnds e step (scInit r true step).2.1 (scInit r true step).2.2 = false) := by
  have h0 : r .FLOW ≠ 0 := ne_of_gt hf
  have key : ∀ k : Rat, 0 < k → k ≤ 5 → 108 / 25 ≤ k → ∀ x : Rat, x = k * r p / r .FLOW →
      0 < x ∧ (5000 * r p ≤ e.work * r .FLOW → x * 1000 ≤ e.work) ∧ (e.work * r .FLOW < 4320 * r p → (e.work : Rat) < x * 1000) := by
    intro k h1 h2 h3 x hx
    have hx' : x * r .FLOW = k * r p := by rw [hx]; field_simp
    refine ⟨hx ▸ div_pos (mul_pos h1 hv) hf, fun h => ?_, fun h => ?_⟩
    · by_contra hc
      rw [not_le] at hc
      have := mul_lt_mul_of_pos_right hc hf
      nlinarith [mul_le_mul_of_nonneg_right h2 (le_of_lt hv)]
    · by_contra hc
      rw [not_lt] at hc
      have := mul_le_mul_of_nonneg_right hc (le_of_lt hf)
      nlinarith [mul_le_mul_of_nonneg_right h3 (le_of_lt hv)]
  suffices hx : ∃ x k : Rat, scEnds e step (scInit r true step).2.1 (scInit r true step).2.2 = (volumePassed e (r p) || timeIsOut e x) ∧
      0 < k ∧ k ≤ 5 ∧ 108 / 25 ≤ k ∧ x = k * r p / r .FLOW by
    obtain ⟨x, k, hx, h1, h2, h3, h4⟩ := hx
    obtain ⟨k1, k2, k3⟩ := key k h1 h2 h3 x h4
    rw [hx]
    refine ⟨fun h => ?_, fun h => ?_, fun h h' => ?_⟩
    · rw [volumePassed, decide_eq_true ⟨hv, h⟩, Bool.true_or]
    · rw [timeIsOut, decide_eq_true ⟨k2 h, k1⟩, Bool.or_true]
    · rw [volumePassed, timeIsOut, decide_eq_false (fun hc => absurd hc.2 (not_le.2 h)),
        decide_eq_false (fun hc => absurd hc.1 (not_le.2 (k3 h'))), Bool.false_or]
  have hne : r p / r .FLOW * (18 / 5) * (6 / 5) ≠ 0 := by positivity
  simp only [restSteps, List.mem_cons, List.not_mem_nil, or_false] at hm
  rcases hm with rfl | rfl | rfl | rfl | rfl | rfl | rfl
  case inr.inr.inr.inr.inl => exact absurd rfl hn
  all_goals
    simp [CipFlow.op] at ho
    obtain ⟨rfl, _⟩ := ho
    simp only [rest, Option.some.injEq] at hp
    subst hp
    first
      | (refine ⟨5 * r .LL_TW / r .FLOW, 5, ?_, by norm_num, by norm_num, by norm_num, rfl⟩
         simp only [scEnds, scInit, scAmount]; norm_num [h0, hv.ne']; done)
      | (refine ⟨5 * r .LL_TK / r .FLOW, 5, ?_, by norm_num, by norm_num, by norm_num, rfl⟩
         simp only [scEnds, scInit, scAmount]; norm_num [h0, hv.ne']; done)
      | (refine ⟨r .LL_TW / r .FLOW * (18 / 5) * (6 / 5), 108 / 25, ?_, by norm_num, by norm_num, by norm_num, by ring⟩
         simp only [scEnds, scInit, scAmount]; norm_num [h0, hv.ne']; done)
      | (refine ⟨r .LL_TK / r .FLOW * (18 / 5) * (6 / 5), 108 / 25, ?_, by norm_num, by norm_num, by norm_num, by ring⟩
         simp only [scEnds, scInit, scAmount]; norm_num [h0, hv.ne']; done)
      | (refine ⟨r .LL_TS / r .FLOW * (18 / 5) * (6 / 5), 108 / 25, ?_, by norm_num, by norm_num, by norm_num, by ring⟩
         simp only [scEnds, scInit, scAmount]; norm_num [h0, hv.ne']; done)

/-- 20 litres with 12 m³/h: over with 20 litres or after 8.33 s, not before 7.2 s. -/
example : (scEnds ⟨0, 20, true, true, true⟩ 157 (scInit exSc' true 157).2.1 (scInit exSc' true 157).2.2,
    scEnds ⟨8334, 0, true, true, true⟩ 152 (scInit exSc' true 152).2.1 (scInit exSc' true 152).2.2,
    scEnds ⟨7199, 19, true, true, true⟩ 157 (scInit exSc' true 157).2.1 (scInit exSc' true 157).2.2) = (true, true, false) := by
  decide +kernel

/-- A step which rinses with a volume ends exactly when this volume has passed, if it is given. -/
theorem C188_rinse_partial {r : Sc → Rat} {step : Int} {p : Sc} (hm : (step, p) ∈ rinseSteps) (hp : 0 < r p) (pumped : Bool) (e : ScEnv) :
    scEnds e step (scInit r pumped step).2.1 (scInit r pumped step).2.2 = true ↔ r p ≤ e.litres := by
  simp only [rinseSteps, List.mem_cons, List.not_mem_nil, or_false, Prod.mk.injEq] at hm
  rcases hm with ⟨rfl, rfl⟩ | ⟨rfl, rfl⟩ | ⟨rfl, rfl⟩ | ⟨rfl, rfl⟩ | ⟨rfl, rfl⟩ | ⟨rfl, rfl⟩ | ⟨rfl, rfl⟩ | ⟨rfl, rfl⟩ <;>
    simp [scEnds, scInit, scAmount, volumePassed, hp]

/-- A step with a time of its own ends exactly when this time is over, if it is given. -/
theorem C188_time_partial {r : Sc → Rat} {step : Int} {p : Sc} (hm : (step, p) ∈ timeSteps) (hp : 0 < r p) (pumped : Bool) (e : ScEnv) :
    scEnds e step (scInit r pumped step).2.1 (scInit r pumped step).2.2 = true ↔ r p * 1000 ≤ e.work := by
  have h0 : r p ≠ 0 := ne_of_gt hp
  simp only [timeSteps, List.mem_cons, List.not_mem_nil, or_false, Prod.mk.injEq] at hm
  rcases hm with ⟨rfl, rfl⟩ | ⟨rfl, rfl⟩ | ⟨rfl, rfl⟩ | ⟨rfl, rfl⟩ | ⟨rfl, rfl⟩ | ⟨rfl, rfl⟩ | ⟨rfl, rfl⟩ <;>
    simp [scEnds, scInit, scAmount, timeIsOut, hp, h0]

/-- Parameters for examples. -/
def exSc : Sc → Rat
  | .FLOW => 12 | .V_PROM_TS => 150 | .T_TS_CIRC => 90 | .T_TW_DRAIN => 30 | .T_TS_DRAIN => 600 | _ => 20

example : (scEnds ⟨0, 149, true, true, true⟩ 160 (scInit exSc true 160).2.1 (scInit exSc true 160).2.2,
    scEnds ⟨0, 150, true, true, true⟩ 160 (scInit exSc true 160).2.1 (scInit exSc true 160).2.2,
    scEnds ⟨89999, 0, true, true, true⟩ 168 (scInit exSc true 168).2.1 (scInit exSc true 168).2.2,
    scEnds ⟨90000, 0, true, true, true⟩ 168 (scInit exSc true 168).2.1 (scInit exSc true 168).2.2) = (false, true, false, true) := by
  decide +kernel

/-- A step whose volume or time is 0 never ends. -/
theorem C188_zero_violated {r : Sc → Rat} {step : Int} {p : Sc} (hm : (step, p) ∈ rinseSteps ∨ (step, p) ∈ timeSteps) (hp : r p = 0)
    (pumped : Bool) (e : ScEnv) : scEnds e step (scInit r pumped step).2.1 (scInit r pumped step).2.2 = false := by
  rcases hm with hm | hm
  · simp only [rinseSteps, List.mem_cons, List.not_mem_nil, or_false, Prod.mk.injEq] at hm
    rcases hm with ⟨rfl, rfl⟩ | ⟨rfl, rfl⟩ | ⟨rfl, rfl⟩ | ⟨rfl, rfl⟩ | ⟨rfl, rfl⟩ | ⟨rfl, rfl⟩ | ⟨rfl, rfl⟩ | ⟨rfl, rfl⟩ <;>
      simp [scEnds, scInit, scAmount, volumePassed, hp]
  · simp only [timeSteps, List.mem_cons, List.not_mem_nil, or_false, Prod.mk.injEq] at hm
    rcases hm with ⟨rfl, rfl⟩ | ⟨rfl, rfl⟩ | ⟨rfl, rfl⟩ | ⟨rfl, rfl⟩ | ⟨rfl, rfl⟩ | ⟨rfl, rfl⟩ | ⟨rfl, rfl⟩ <;>
      simp [scEnds, scInit, scAmount, timeIsOut, hp]

/-- The last step drains all three tanks; the times given for the tanks of caustic and acid do not matter. -/
theorem C188_drain_violated {r : Sc → Rat} (hp : 0 < r .T_TW_DRAIN) (pumped : Bool) (e : ScEnv) :
    scEnds e 188 (scInit r pumped 188).2.1 (scInit r pumped 188).2.2 = true ↔ r .T_TW_DRAIN * 1000 ≤ e.work := by
  have h0 : r .T_TW_DRAIN ≠ 0 := ne_of_gt hp
  simp [scEnds, scInit, scAmount, timeIsOut, hp, h0]

/-- Over after 30 s, though 600 s are given for caustic. -/
example : scEnds ⟨30000, 0, true, true, true⟩ 188 (scInit exSc false 188).2.1 (scInit exSc false 188).2.2 = true ∧ exSc .T_TS_DRAIN = 600 := by
  decide +kernel

end Ptusa.CipSet
