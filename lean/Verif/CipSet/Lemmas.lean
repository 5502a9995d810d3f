import Verif.CipSet.Spec

/-!
# Lemmas: settings of the steps
-/
namespace Ptusa.CipSet
open CipDose (Tmr)

/-- Steps which keep what an earlier step has set, and that step. -/
def kept : List (Int × Int) := [(23, 22), (34, 33), (43, 42), (54, 53), (63, 62), (73, 72), (84, 83), (26, 24), (46, 44)]

/-- The steps of histories. -/
def steps : List Int := -2 :: Cip.knownSteps

theorem succ_steps : ∀ x ∈ steps, ∀ b : Bool, ∀ y ∈ (Cip.succ x b).toList, y ∈ steps ∧ y ≠ 6 ∧ ∀ q ∈ kept, y = q.1 → x = q.2 := by
  decide +kernel

theorem ite_of {P : Int → Prop} {q : Prop} [Decidable q] {a b : Int} (ha : P a) (hb : P b) : P (if q then a else b) := by
  by_cases h : q
  · rw [if_pos h]; exact ha
  · rw [if_neg h]; exact hb

theorem start_of {P : Int → Prop} (prg : Int) (prog : Nat) (o : Cip.Opt)
    (h : ∀ y ∈ ([5, 10, 22, 42, 61, 71, 91, 83, 81, 105, 115, 151, 300, 555] : List Int), P y) : P (Cip.startStep prg prog o) := by
  have m : ∀ y, decide (y ∈ ([5, 10, 22, 42, 61, 71, 91, 83, 81, 105, 115, 151, 300, 555] : List Int)) = true → P y :=
    fun y hy => h y (of_decide_eq_true hy)
  unfold Cip.startStep
  exact ite_of (m _ rfl) (ite_of (m _ rfl) (ite_of (m _ rfl) (ite_of (m _ rfl) (ite_of (m _ rfl) (ite_of (m _ rfl) (ite_of (m _ rfl)
    (ite_of (ite_of (m _ rfl) (ite_of (m _ rfl) (m _ rfl))) (ite_of (m _ rfl) (ite_of (m _ rfl) (ite_of (m _ rfl)
    (ite_of (m _ rfl) (m _ rfl))))))))))))

theorem start_steps : ∀ y ∈ ([5, 10, 22, 42, 61, 71, 91, 83, 81, 105, 115, 151, 300, 555] : List Int),
    y ∈ steps ∧ y ≠ 6 ∧ ∀ q ∈ kept, y ≠ q.1 := by
  decide +kernel

/-- The settings fit the step. -/
structure Fits (c : Ctx) (step : Int) (s : Set) : Prop where
  temp : s.heat = true → ∀ p, c.demanded step = some p → s.temp = c.r p
  caustic : step = 24 ∨ step = 26 → c.tank = false → s.temp = c.r .T_S
  acid : step = 44 ∨ step = 46 → c.tank = false → s.temp = c.r .T_K

theorem within_some {s s' : Set} {x : Rat} (h : s.within x = some s') :
    s'.heat = s.heat ∧ s'.temp = s.temp ∧ s'.pump = s.pump ∧ s'.flow = s.flow ∧ s'.vol = s.vol ∧ s'.limit = x := by
  simp only [Set.within, Option.map_eq_some_iff] at h
  obtain ⟨ms, _, rfl⟩ := h
  exact ⟨rfl, rfl, rfl, rfl, rfl, rfl⟩

theorem finalTemp_eq (c : Ctx) : c.finalTemp = c.r c.lastRinse := by
  unfold Ctx.finalTemp Ctx.lastRinse; split <;> [rfl; split <;> rfl]

theorem empties_demanded {c : Ctx} {x y : Int} (h : (x, y) ∈ kept) : c.demanded x = c.demanded y := by
  simp only [kept, List.mem_cons, List.not_mem_nil, or_false, Prod.mk.injEq] at h
  rcases h with h | h | h | h | h | h | h | h | h <;> obtain ⟨rfl, rfl⟩ := h <;> rfl

theorem to_fits {c : Ctx} {step : Int} {s s' : Set} (h : c.toObject step s = some s')
    (hs : step = 5 ∨ step = 8 ∨ step = 14 ∨ step = 22 ∨ step = 33 ∨ step = 37 ∨ step = 42 ∨ step = 53 ∨ step = 57 ∨ step = 62 ∨
      step = 72 ∨ step = 83 ∨ step = 86) : Fits c step s' := by
  have ht := within_some h
  have hu : s'.temp = if c.tank = true ∧ (step = 22 ∨ step = 42 ∨ step = 62) then 0 else c.toTemp step := ht.2.1
  have hv : s'.heat = !decide (c.tank = true ∧ (step = 22 ∨ step = 42 ∨ step = 62)) := ht.1
  refine ⟨fun hh p hp => ?_, fun h => by omega, fun h => by omega⟩
  rw [hv] at hh
  have hn : ¬(c.tank = true ∧ (step = 22 ∨ step = 42 ∨ step = 62)) :=
    of_decide_eq_false (by rwa [Bool.not_eq_true'] at hh)
  rw [hu, if_neg hn]
  clear hu hv hh hn ht h
  rcases hs with rfl | rfl | rfl | rfl | rfl | rfl | rfl | rfl | rfl | rfl | rfl | rfl | rfl
  case inr.inr.inl => exact absurd hp (by simp [Ctx.demanded])
  case inr.inr.inr.inr.inr.inr.inr.inr.inr.inr.inr.inl => rw [← Option.some.inj hp, ← finalTemp_eq]; rfl
  case inr.inr.inr.inr.inr.inr.inr.inr.inr.inr.inr.inr => rw [← Option.some.inj hp, ← finalTemp_eq]; rfl
  all_goals (rw [← Option.some.inj hp]; rfl)

theorem from_fits {c : Ctx} {step : Int} {s s' : Set} (h : c.fromObject step s = some s')
    (hs : step = 7 ∨ step = 24 ∨ step = 35 ∨ step = 44 ∨ step = 55 ∨ step = 64 ∨ step = 74 ∨ step = 85) : Fits c step s' := by
  have ht := within_some h
  have hu : s'.temp = if c.noTankHeat = true ∧ c.tank = true ∧ (step = 24 ∨ step = 44 ∨ step = 64) then 0 else c.fromTemp step := ht.2.1
  have hv : s'.heat = !decide (c.noTankHeat = true ∧ c.tank = true ∧ (step = 24 ∨ step = 44 ∨ step = 64)) := ht.1
  refine ⟨fun hh p hp => ?_, fun hq hl => ?_, fun hq hl => ?_⟩
  · rw [hv] at hh
    have hn : ¬(c.noTankHeat = true ∧ c.tank = true ∧ (step = 24 ∨ step = 44 ∨ step = 64)) :=
      of_decide_eq_false (by rwa [Bool.not_eq_true'] at hh)
    rw [hu, if_neg hn]
    clear hu hv hh hn ht h
    rcases hs with rfl | rfl | rfl | rfl | rfl | rfl | rfl | rfl
    case inr.inr.inr.inr.inr.inr.inr => rw [← Option.some.inj hp, ← finalTemp_eq]; rfl
    all_goals (rw [← Option.some.inj hp]; rfl)
  · have : step = 24 := by omega
    subst this
    rw [hu, if_neg (by rw [hl]; simp)]; rfl
  · have : step = 44 := by omega
    subst this
    rw [hu, if_neg (by rw [hl]; simp)]; rfl

theorem demanded_range {c : Ctx} {step : Int} {p : Par} (hp : c.demanded step = some p) : 5 ≤ step ∧ step ≤ 86 := by
  unfold Ctx.demanded at hp
  repeat' split at hp
  all_goals first
    | omega
    | simp at hp

theorem known_range : ∀ x ∈ steps, 5 ≤ x ∧ x ≤ 86 →
    x ∈ ([5, 6, 7, 8, 9, 10, 11, 12, 13, 14, 15, 16, 22, 23, 24, 26, 28, 29, 31, 33, 34, 35, 37, 39, 40,
      42, 43, 44, 46, 48, 49, 53, 54, 55, 57, 59, 60, 61, 62, 63, 64, 65, 66, 67, 71, 72, 73, 74, 75, 76, 77, 78, 79, 81, 83, 84, 85,
      86] : List Int) := by
  decide +kernel

theorem empty_fits {c : Ctx} {step : Int} {s s' : Set} (h : c.emptyObject s = some s') (h6 : step ≠ 6)
    (hs : step = 6 ∨ step = 9 ∨ step = 23 ∨ step = 34 ∨ step = 40 ∨ step = 43 ∨ step = 54 ∨ step = 60 ∨ step = 63 ∨ step = 73 ∨
      step = 79 ∨ step = 84 ∨ step = 91) (hk : ∀ p, (step, p) ∈ kept → Fits c p s ∨ Fits c step s) : Fits c step s' := by
  have he : c.line = true ∧ s' = s ∨ s'.heat = false := by
    unfold Ctx.emptyObject at h
    by_cases hl : c.line = true
    · rw [if_pos hl] at h; exact .inl ⟨hl, by simpa using h.symm⟩
    · rw [if_neg hl] at h; exact .inr (within_some h).1
  refine ⟨fun hh p hp => ?_, fun h => by omega, fun h => by omega⟩
  rcases he with ⟨_, rfl⟩ | hf
  · have key : ∀ y, (step, y) ∈ kept → s'.temp = c.r p := fun y hy => by
      rcases hk y hy with h | h
      · exact h.temp hh p (by rw [← empties_demanded hy]; exact hp)
      · exact h.temp hh p hp
    clear hk h
    rcases hs with rfl | rfl | rfl | rfl | rfl | rfl | rfl | rfl | rfl | rfl | rfl | rfl | rfl
    · exact absurd rfl h6
    · simp [Ctx.demanded] at hp
    · exact key 22 (by decide)
    · exact key 33 (by decide)
    · simp [Ctx.demanded] at hp
    · exact key 42 (by decide)
    · exact key 53 (by decide)
    · simp [Ctx.demanded] at hp
    · exact key 62 (by decide)
    · exact key 72 (by decide)
    · simp [Ctx.demanded] at hp
    · exact key 83 (by decide)
    · simp [Ctx.demanded] at hp
  · rw [hf] at hh; exact absurd hh (by decide)

theorem return_fits {c : Ctx} {step : Int} {s s' : Set} (h : c.fillReturn step s = some s')
    (hs : step = 10 ∨ step = 13 ∨ step = 26 ∨ step = 46) (hk : ∀ p, (step, p) ∈ kept → Fits c p s ∨ Fits c step s) :
    Fits c step s' := by
  have ht := within_some h
  have hd : s'.temp = s.temp := ht.2.1
  have hv : s'.heat = !decide (c.tank = true ∧ (step = 26 ∨ step = 46 ∨ step = 65)) := ht.1
  clear ht h
  rcases hs with rfl | rfl | rfl | rfl
  · exact ⟨fun _ p hp => by simp [Ctx.demanded] at hp, fun h => by omega, fun h => by omega⟩
  · exact ⟨fun _ p hp => by simp [Ctx.demanded] at hp, fun h => by omega, fun h => by omega⟩
  · have key : c.tank = false → s'.temp = c.r .T_S := fun hf => by
      rw [hd]
      rcases hk 24 (by decide) with h | h
      · exact h.caustic (by decide) hf
      · exact h.caustic (by decide) hf
    refine ⟨fun hh p hp => ?_, fun _ => key, fun h => by omega⟩
    rw [← Option.some.inj hp]
    refine key ?_
    rw [hv] at hh
    simpa using hh
  · have key : c.tank = false → s'.temp = c.r .T_K := fun hf => by
      rw [hd]
      rcases hk 44 (by decide) with h | h
      · exact h.acid (by decide) hf
      · exact h.acid (by decide) hf
    refine ⟨fun hh p hp => ?_, fun h => by omega, fun _ => key⟩
    rw [← Option.some.inj hp]
    refine key ?_
    rw [hv] at hh
    simpa using hh

theorem circ_temp {c : Ctx} {m : Medium} {s s' : Set} (h : c.circ m s = some s') : s'.temp = c.circTemp m := by
  simp only [Ctx.circ, Option.map_eq_some_iff] at h
  obtain ⟨ms, _, rfl⟩ := h
  rfl

/-- The settings after the initialization of a step fit it. -/
theorem init_fits {c : Ctx} {step : Int} {s s' : Set} (h : c.init step s = some s') (h6 : step ≠ 6)
    (hm : step ∈ steps) (hk : ∀ p, (step, p) ∈ kept → Fits c p s ∨ Fits c step s) : Fits c step s' := by
  unfold Ctx.init at h
  by_cases n1 : step = 5 ∨ step = 8 ∨ step = 14 ∨ step = 22 ∨ step = 33 ∨ step = 37 ∨ step = 42 ∨ step = 53 ∨ step = 57 ∨ step = 62 ∨
    step = 72 ∨ step = 83 ∨ step = 86
  · rw [if_pos n1] at h; exact to_fits h n1
  rw [if_neg n1] at h
  by_cases n2 : step = 7 ∨ step = 24 ∨ step = 35 ∨ step = 44 ∨ step = 55 ∨ step = 64 ∨ step = 74 ∨ step = 85
  · rw [if_pos n2] at h; exact from_fits h n2
  rw [if_neg n2] at h
  by_cases n3 : step = 6 ∨ step = 9 ∨ step = 23 ∨ step = 34 ∨ step = 40 ∨ step = 43 ∨ step = 54 ∨ step = 60 ∨ step = 63 ∨ step = 73 ∨
    step = 79 ∨ step = 84 ∨ step = 91
  · rw [if_pos n3] at h; exact empty_fits h h6 n3 hk
  rw [if_neg n3] at h
  by_cases n4 : step = 10 ∨ step = 13 ∨ step = 26 ∨ step = 46
  · rw [if_pos n4] at h; exact return_fits h n4 hk
  rw [if_neg n4] at h
  by_cases n5 : step = 31 ∨ step = 61 ∨ step = 65 ∨ step = 71 ∨ step = 75 ∨ step = 81
  · rw [if_pos n5] at h
    have ht := (within_some h).1
    refine ⟨fun hh p hp => ?_, fun h => by omega, fun h => by omega⟩
    rw [ht] at hh
    exact absurd (show false = true from hh) (by decide)
  rw [if_neg n5] at h
  have no : (∀ p, c.demanded step ≠ some p) → step ≠ 24 → step ≠ 26 → step ≠ 44 → step ≠ 46 → Fits c step s' := fun hn h1 h2 h3 h4 =>
    ⟨fun _ p hp => absurd hp (hn p), fun h => by omega, fun h => by omega⟩
  by_cases n6 : step = 12 ∨ step = 15 ∨ step = 16 ∨ step = 29 ∨ step = 39 ∨ step = 49 ∨ step = 59 ∨ step = 67 ∨ step = 78
  · refine no (fun p hp => ?_) (by omega) (by omega) (by omega) (by omega)
    clear h no
    rcases n6 with rfl | rfl | rfl | rfl | rfl | rfl | rfl | rfl | rfl <;> simp [Ctx.demanded] at hp
  rw [if_neg n6] at h
  by_cases n7 : step = 11
  · refine no (fun p hp => ?_) (by omega) (by omega) (by omega) (by omega)
    subst n7; simp [Ctx.demanded] at hp
  rw [if_neg n7] at h
  by_cases n8 : step = 28
  · rw [if_pos n8] at h
    subst n8
    exact ⟨fun _ p hp => by rw [circ_temp h, ← Option.some.inj hp]; rfl, fun h => by omega, fun h => by omega⟩
  rw [if_neg n8] at h
  by_cases n9 : step = 48
  · rw [if_pos n9] at h
    subst n9
    exact ⟨fun _ p hp => by rw [circ_temp h, ← Option.some.inj hp]; rfl, fun h => by omega, fun h => by omega⟩
  rw [if_neg n9] at h
  by_cases n10 : step = 66
  · rw [if_pos n10] at h
    subst n10
    exact ⟨fun _ p hp => by rw [circ_temp h, ← Option.some.inj hp]; rfl, fun h => by omega, fun h => by omega⟩
  rw [if_neg n10] at h
  by_cases n11 : step = 77
  · rw [if_pos n11] at h
    subst n11
    exact ⟨fun _ p hp => by rw [circ_temp h, ← Option.some.inj hp]; rfl, fun h => by omega, fun h => by omega⟩
  rw [if_neg n11] at h
  by_cases n12 : step = 76
  · rw [if_pos n12] at h
    have ht := (within_some h).1
    refine ⟨fun hh p hp => ?_, fun h => by omega, fun h => by omega⟩
    rw [ht] at hh
    exact absurd (show false = true from hh) (by decide)
  refine no (fun p hp => ?_) (by omega) (by omega) (by omega) (by omega)
  have := known_range step hm (demanded_range hp)
  clear h no hp hm hk
  simp only [List.mem_cons, List.not_mem_nil, or_false] at this
  omega

theorem Fits.stop {c : Ctx} {step : Int} {s : Set} (h : Fits c step s) :
    Fits c step { s with heat := false, pump := false } :=
  ⟨fun hh => absurd (show false = true from hh) (by decide), h.caustic, h.acid⟩

/-- The invariant of histories. -/
structure Ok (c : Ctx) (w : Wash) : Prop where
  mem : w.step ∈ steps
  ne6 : w.step ≠ 6
  fits : Fits c w.step w.set

theorem ok_next {c : Ctx} {w w' : Wash} {e : Ev} (h : Ok c w) (hn : w.next c e = some w') : Ok c w' := by
  cases e with
  | next b prg prog o =>
    simp only [Wash.next, Option.map_eq_some_iff] at hn
    obtain ⟨s, hs, rfl⟩ := hn
    cases hc : Cip.succ w.step b with
    | some y =>
      simp only [hc] at hs ⊢
      have h1 := succ_steps w.step h.mem b y (by rw [hc]; simp)
      exact ⟨h1.1, h1.2.1, init_fits hs h1.2.1 h1.1 fun p hp => .inl (by
        have := h1.2.2 (y, p) hp rfl
        simp only at this
        rw [← this]; exact h.fits)⟩
    | none =>
      simp only [hc] at hs ⊢
      have h1 := start_of prg prog o start_steps
      exact ⟨h1.1, h1.2.1, init_fits hs h1.2.1 h1.1 fun p hp => absurd rfl (h1.2.2 _ hp)⟩
  | stop =>
    simp only [Wash.next, Option.some.injEq] at hn
    subst hn
    exact ⟨h.mem, h.ne6, h.fits.stop⟩
  | resume =>
    simp only [Wash.next, Option.map_eq_some_iff] at hn
    obtain ⟨s, hs, rfl⟩ := hn
    exact ⟨h.mem, h.ne6, init_fits hs h.ne6 h.mem fun p _ => .inr h.fits⟩

theorem ok_run {c : Ctx} {w w' : Wash} {l : List Ev} (h : Ok c w) (hr : run c w l = some w') : Ok c w' := by
  induction l generalizing w with
  | nil => simp only [run, Option.some.injEq] at hr; exact hr ▸ h
  | cons e l ih =>
    simp only [run, Option.bind_eq_some_iff] at hr
    obtain ⟨w1, h1, h2⟩ := hr
    exact ih (ok_next h h1) h2

theorem ok_initial (c : Ctx) : Ok c {} := by
  refine ⟨by decide +kernel, by decide, fun hh => ?_, fun h => ?_, fun h => ?_⟩
  · exact absurd hh (by decide)
  · rcases h with h | h <;> exact absurd h (by decide)
  · rcases h with h | h <;> exact absurd h (by decide)

/-! ## Circulation -/

theorem good_snoc (l : List (Nat × Bool)) (a b : Nat × Bool) : good (l ++ [a, b]) = good (l ++ [a]) + if a.2 then b.1 - a.1 else 0 := by
  induction l with
  | nil => simp [good]
  | cons x l ih =>
    cases l with
    | nil => simp [good]
    | cons y l =>
      simp only [List.cons_append, good] at ih ⊢
      omega

/-- What the timer knows about the samples. -/
def Knows (t : Tmr) (l : List (Nat × Bool)) : Prop :=
  match l.getLast? with
  | none => t.st = .stop ∧ t.work = 0
  | some (a, true) => t.st = .work ∧ t.at_ ≤ a ∧ t.work + (a - t.at_) = good l
  | some (_, false) => t.st = .pause ∧ t.work = good l

theorem knows_cases {t : Tmr} {l : List (Nat × Bool)} (h : Knows t l) :
    (l = [] ∧ t.st = .stop ∧ t.work = 0) ∨
    (∃ l' a, l = l' ++ [(a, true)] ∧ t.st = .work ∧ t.at_ ≤ a ∧ t.work + (a - t.at_) = good l) ∨
    (∃ l' a, l = l' ++ [(a, false)] ∧ t.st = .pause ∧ t.work = good l) := by
  unfold Knows at h
  cases hl : l.getLast? with
  | none => rw [hl] at h; exact .inl ⟨by simpa using hl, h⟩
  | some x =>
    rw [hl] at h
    obtain ⟨a, b⟩ := x
    obtain ⟨l', hl'⟩ := List.getLast?_eq_some_iff.1 hl
    cases b with
    | true => exact .inr (.inl ⟨l', a, hl', h⟩)
    | false => exact .inr (.inr ⟨l', a, hl', h⟩)

/-- The times do not go back. -/
def Sorted (l : List (Nat × Bool)) : Prop := l.Pairwise fun a b => a.1 ≤ b.1

theorem sorted_last {l : List (Nat × Bool)} {a b : Nat × Bool} (h : Sorted ((l ++ [a]) ++ [b])) : a.1 ≤ b.1 := by
  unfold Sorted at h
  rw [List.pairwise_append] at h
  exact h.2.2 a (by simp) b (by simp)

theorem knows_start {t : Tmr} {l : List (Nat × Bool)} {now : Nat} (h : Knows t l) (hs : Sorted (l ++ [(now, true)])) :
    Knows (t.start now) (l ++ [(now, true)]) ∧ (t.start now).st = .work ∧ (t.start now).time now = good (l ++ [(now, true)]) := by
  rcases knows_cases h with ⟨rfl, h1, h2⟩ | ⟨l', a, rfl, h1, h2, h3⟩ | ⟨l', a, rfl, h1, h2⟩
  · simp [Knows, Tmr.start, Tmr.time, h1, good]
  · have hl := sorted_last hs
    simp only at hl
    have hg := good_snoc l' (a, true) (now, true)
    simp only [if_true] at hg
    simp only [Knows, List.getLast?_append, List.getLast?_singleton, Option.some_or, Tmr.start, h1, Tmr.time, if_true]
    rw [List.append_assoc, List.singleton_append, hg, ← h3]
    refine ⟨⟨trivial, by omega, by omega⟩, ?_, by omega⟩
    trivial
  · have hg := good_snoc l' (a, false) (now, true)
    simp only [Bool.false_eq_true, if_false, Nat.add_zero] at hg
    simp only [Knows, List.getLast?_append, List.getLast?_singleton, Option.some_or, Tmr.start, h1, Tmr.time, if_true]
    rw [List.append_assoc, List.singleton_append, hg, ← h2]
    simp

theorem knows_pause {t : Tmr} {l : List (Nat × Bool)} {now : Nat} (h : Knows t l) (hs : Sorted (l ++ [(now, false)])) :
    Knows (t.pause now) (l ++ [(now, false)]) ∧ (t.pause now).st = .pause := by
  refine ⟨?_, rfl⟩
  rcases knows_cases h with ⟨rfl, h1, h2⟩ | ⟨l', a, rfl, h1, h2, h3⟩ | ⟨l', a, rfl, h1, h2⟩
  · simp [Knows, Tmr.pause, Tmr.time, h1, h2, good]
  · have hl := sorted_last hs
    simp only at hl
    have hg := good_snoc l' (a, true) (now, false)
    simp only [if_true] at hg
    simp only [Knows, List.getLast?_append, List.getLast?_singleton, Option.some_or, Tmr.pause, h1, Tmr.time, if_true]
    rw [List.append_assoc, List.singleton_append, hg, ← h3]
    refine ⟨trivial, by omega⟩
  · have hg := good_snoc l' (a, false) (now, false)
    simp only [Bool.false_eq_true, if_false, Nat.add_zero] at hg
    simp only [Knows, List.getLast?_append, List.getLast?_singleton, Option.some_or, Tmr.pause, h1, Tmr.time]
    rw [List.append_assoc, List.singleton_append, hg, ← h2]
    simp

theorem start_cd (t : Tmr) (now : Nat) : (t.start now).cd = t.cd := by
  unfold Tmr.start; cases t.st <;> rfl

theorem sorted_prefix {l m : List (Nat × Bool)} (h : Sorted (l ++ m)) : Sorted l := (List.pairwise_append.1 h).1

/-- One cycle. -/
theorem cycle_ends {c : Circ} {l : List (Nat × Bool)} {now : Nat} {tr z delta flow noFlow : Rat} {cont : Option Bool}
    (h : Knows c.tmr l) (hs : Sorted (l ++ [(now, warm tr z delta flow noFlow)])) :
    Knows (c.cycle now tr z delta flow noFlow cont).1.tmr (l ++ [(now, warm tr z delta flow noFlow)]) ∧
    (c.cycle now tr z delta flow noFlow cont).1.tmr.cd = c.tmr.cd ∧
    ((c.cycle now tr z delta flow noFlow cont).2 = true ↔
      warm tr z delta flow noFlow = true ∧ c.tmr.cd < good (l ++ [(now, true)]) % 2 ^ 32 ∧ (cont = none ∨ cont = some true ∨ c.flip = true)) ∧
    ((c.cycle now tr z delta flow noFlow cont).2 = false →
      (c.cycle now tr z delta flow noFlow cont).1.flip = (c.flip || cont == some true)) := by
  by_cases hw : tr ≥ z - delta ∧ flow > noFlow
  · have hw' : warm tr z delta flow noFlow = true := by simp only [warm, decide_eq_true_eq]; exact hw
    rw [hw'] at hs ⊢
    obtain ⟨h1, h2, h3⟩ := knows_start h hs
    have hu : (c.tmr.start now).up now = decide (c.tmr.cd < good (l ++ [(now, true)]) % 2 ^ 32) := by
      simp [Tmr.up, h2, h3, start_cd]
    simp only [Circ.cycle, if_pos hw, hu]
    generalize good (l ++ [(now, true)]) % 2 ^ 32 = g
    by_cases hd : c.tmr.cd < g
    · simp only [decide_eq_true hd, if_true]
      refine ⟨h1, start_cd .., ?_, ?_⟩
      · cases cont with
        | none => simp [hd]
        | some b => cases b <;> simp [hd]
      · cases cont with
        | none => simp
        | some b => cases b <;> simp
    · simp only [decide_eq_false hd, Bool.false_eq_true, if_false]
      refine ⟨h1, start_cd .., ?_, by simp⟩
      simp [hd]
  · have hw' : warm tr z delta flow noFlow = false := by simp only [warm, decide_eq_false_iff_not]; exact hw
    rw [hw'] at hs ⊢
    obtain ⟨h1, h2⟩ := knows_pause h hs
    have hu : (c.tmr.pause now).up now = false := by simp [Tmr.up, h2]
    simp only [Circ.cycle, if_neg hw, hu, Bool.false_eq_true, if_false]
    exact ⟨h1, rfl, by simp, by simp⟩

theorem goOn_knows {c c' : Circ} {evs : List CEv} {l : List (Nat × Bool)} (h : Knows c.tmr l)
    (hs : Sorted (l ++ evs.filterMap CEv.sample)) (hg : goOn c evs = some c') :
    Knows c'.tmr (l ++ evs.filterMap CEv.sample) ∧ c'.tmr.cd = c.tmr.cd ∧ c'.flip = (c.flip || evs.any CEv.signal) := by
  induction evs generalizing c l with
  | nil =>
    simp only [goOn, Option.some.injEq] at hg
    subst hg
    simpa using h
  | cons e evs ih =>
    cases e with
    | cycle now tr z delta flow noFlow cont =>
      simp only [List.filterMap_cons, CEv.sample] at hs ⊢
      have hs' : Sorted ((l ++ [(now, warm tr z delta flow noFlow)]) ++ evs.filterMap CEv.sample) := by simpa using hs
      obtain ⟨h1, h2, h3, h4⟩ := cycle_ends (cont := cont) h (sorted_prefix hs')
      cases hb : (c.cycle now tr z delta flow noFlow cont).2 with
      | true =>
        have he : c.cycle now tr z delta flow noFlow cont = ((c.cycle now tr z delta flow noFlow cont).1, true) := by rw [← hb]
        simp only [goOn] at hg
        rw [he] at hg
        simp at hg
      | false =>
        have he : c.cycle now tr z delta flow noFlow cont = ((c.cycle now tr z delta flow noFlow cont).1, false) := by rw [← hb]
        simp only [goOn] at hg
        rw [he] at hg
        obtain ⟨g1, g2, g3⟩ := ih h1 hs' hg
        refine ⟨by simpa using g1, g2.trans h2, ?_⟩
        rw [g3, h4 hb, List.any_cons, Bool.or_assoc]
        rfl
    | stop now =>
      simp only [List.filterMap_cons, CEv.sample] at hs ⊢
      have hs' : Sorted ((l ++ [(now, false)]) ++ evs.filterMap CEv.sample) := by simpa using hs
      obtain ⟨h1, _⟩ := knows_pause h (sorted_prefix hs')
      obtain ⟨g1, g2, g3⟩ := ih (c := { c with tmr := c.tmr.pause now }) h1 hs' hg
      exact ⟨by simpa using g1, g2, by rw [g3, List.any_cons]; rfl⟩
    | resume now =>
      simp only [List.filterMap_cons, CEv.sample] at hs ⊢
      obtain ⟨g1, g2, g3⟩ := ih h hs hg
      exact ⟨g1, g2, by rw [g3, List.any_cons]; rfl⟩

theorem knows_enter (t : Tmr) (cd : Nat) : Knows (enter t cd).tmr [] := ⟨rfl, rfl⟩

end Ptusa.CipSet
