import Verif.Valve.Spec
import Verif.Counter.Lemmas
import Mathlib.Data.Rat.Floor
import Mathlib.Tactic.NormNum
import Mathlib.Tactic.Linarith

namespace Ptusa.Valve

theorem passed_eq (now t : Tm) (h : t ≤ now) : passed now t = now.toNat - t.toNat := by
  unfold passed Time.deltaMs
  have h1 : ¬ now < t := by rw [BitVec.lt_def]; rw [BitVec.le_def] at h; omega
  simp only [h1, h, if_false, if_true]
  rw [BitVec.toNat_sub]
  rw [BitVec.le_def] at h
  have := now.isLt
  have := t.isLt
  omega

theorem tdiv_floor (q : Rat) (h : 0 ≤ q) : Int.tdiv q.num q.den = ⌊q⌋ := by
  rw [Int.tdiv_eq_ediv_of_nonneg (Rat.num_nonneg.mpr h), Rat.floor_def']

theorem toUnsigned_floor (w : Nat) (hw : 24 ≤ w) (q : Rat) (h0 : 0 ≤ q) (h1 : q < 2 ^ 24) :
    toUnsigned w (.num q) = some ⌊q⌋.toNat := by
  have hf : ⌊q⌋ < 2 ^ 24 := by
    rw [Int.floor_lt]
    exact_mod_cast h1
  have hp : (2 : Int) ^ 24 ≤ 2 ^ w := pow_le_pow_right₀ (by norm_num) hw
  unfold toUnsigned
  simp only [tdiv_floor q h0]
  rw [if_pos ⟨Int.floor_nonneg.mpr h0, lt_of_lt_of_le hf hp⟩]

theorem floor_toNat_lt (q : Rat) (h0 : 0 ≤ q) (n : Nat) (h : ⌊q⌋.toNat < n) : q < n := by
  have h2 : ⌊q⌋ < n := by have := Int.floor_nonneg.mpr h0; omega
  rw [Int.floor_lt] at h2
  exact_mod_cast h2

/-- Past the time, the comparison of floats says so. -/
theorem inTime_late (now start : Tm) (q : Rat) (h0 : 0 ≤ q) (h1 : q < 2 ^ 24)
    (h : passed now start > ⌊q⌋.toNat) : inTime now start (.num q) = false := by
  unfold inTime
  rw [Fl.lt_num, decide_eq_false_iff_not, not_lt]
  have hf : ⌊q⌋ < 2 ^ 24 := by rw [Int.floor_lt]; exact_mod_cast h1
  have hnn := Int.floor_nonneg.mpr h0
  have hfl : Counter.IsFloat (⌊q⌋.toNat + 1) := by
    by_cases hc : ⌊q⌋.toNat + 1 < 2 ^ 24
    · exact ⟨_, 0, hc, by simp⟩
    · exact ⟨1, 24, by norm_num, by omega⟩
  have := Counter.le_rnd hfl (show ⌊q⌋.toNat + 1 ≤ passed now start from h)
  exact le_of_lt (floor_toNat_lt q h0 _ this)

/-- Within the time, exactly representable, it does not. -/
theorem inTime_early (now start : Tm) (q : Rat) (h1 : q ≤ 2 ^ 24) (h : (passed now start : Rat) < q) :
    inTime now start (.num q) = true := by
  unfold inTime
  rw [Fl.lt_num, decide_eq_true_eq, Counter.rnd_small]
  · exact h
  · have : (passed now start : Rat) < 2 ^ 24 := lt_of_lt_of_le h h1
    have : passed now start < 2 ^ 24 := by exact_mod_cast this
    omega

theorem fbState_held (k : Kind) (hk : Held k) (now : Tm) (pOn : Fl) (v : Dv) :
    ∃ w : Dv, fbState k now pOn v = some (if agrees k v then (true, w) else (inTime now v.start pOn, v)) ∧
      outputs w = outputs v ∧ w.start = (if k = .di1Off ∨ k = .di1On then now else v.start) := by
  obtain ⟨a, b, c, x, y, start, stopped, opening, closing, state⟩ := v
  rcases hk with rfl | rfl | rfl | rfl | rfl
  · exact ⟨⟨a, b, c, x, y, now, stopped, opening, closing, state⟩, by
      cases a <;> cases x <;> simp [fbState, agrees], rfl, by simp⟩
  · exact ⟨⟨a, b, c, x, y, now, stopped, opening, closing, state⟩, by
      cases a <;> cases x <;> simp [fbState, agrees], rfl, by simp⟩
  · exact ⟨⟨a, b, c, x, y, start, stopped, opening, closing, state⟩, by
      cases a <;> cases x <;> cases y <;> simp [fbState, agrees], rfl, by simp⟩
  · exact ⟨⟨a, b, c, x, y, start, stopped, opening, closing, state⟩, by
      cases a <;> cases b <;> cases x <;> cases y <;> simp [fbState, agrees], rfl, by simp⟩
  · exact ⟨⟨a, b, c, x, y, start, stopped, opening, closing, state⟩, by
      cases a <;> cases b <;> cases c <;> cases x <;> cases y <;> simp [fbState, agrees], rfl, by simp⟩

/-- Asking for feedback or state changes at most the moment from which the time counts. -/
theorem fbState_same (k : Kind) (now : Tm) (pOn : Fl) (v : Dv) (r : Bool × Dv) (h : fbState k now pOn v = some r) :
    r.2 = v ∨ r.2 = { v with start := now } := by
  unfold fbState at h
  cases k <;> simp only [Option.some.injEq] at h
  case bistable =>
    split at h
    · simp only [Option.some.injEq] at h; subst h; exact Or.inl rfl
    · simp only [Option.map_eq_some_iff] at h
      obtain ⟨t, _, h⟩ := h
      subst h
      left
      repeat' split
      all_goals rfl
  all_goals
    subst h
    repeat' split
    all_goals simp

theorem exState_cases (k : Kind) (t1 t2 : Tm) (pOn pFb : Fl) (m : Bool) (v : Dv) (r : Int × Dv)
    (h : exState k t1 t2 pOn pFb m v = some r) :
    r.2 = v ∨ ∃ b, fbState k t1 pOn v = some (b, r.2) := by
  unfold exState at h
  simp only [] at h
  have bindCase : ∀ (e1 e2 e3 : Int), ((fbState k t1 pOn v).bind fun r =>
        if r.1 then some (e1, r.2)
        else (toUnsigned 64 pOn).map fun p =>
          if passed t2 r.2.start > p then (e2, r.2) else (e3, r.2)) = some r →
      ∃ b, fbState k t1 pOn v = some (b, r.2) := by
    intro e1 e2 e3 h
    rw [Option.bind_eq_some_iff] at h
    obtain ⟨⟨b, w⟩, hw, h⟩ := h
    refine ⟨b, ?_⟩
    rw [hw]
    cases b
    · simp only [Bool.false_eq_true, if_false, Option.map_eq_some_iff] at h
      obtain ⟨p, _, h⟩ := h
      split at h <;> subst h <;> rfl
    · simp only [if_true, Option.some.injEq] at h
      subst h; rfl
  have done : ∀ e : Int, some (e, v) = some r → r.2 = v := by
    intro e h; simp only [Option.some.injEq] at h; subst h; rfl
  by_cases h1 : k = .do2
  · rw [if_pos h1] at h; exact Or.inl (done _ h)
  rw [if_neg h1] at h
  by_cases h1 : valveState k v = 3
  · rw [if_pos h1] at h; exact Or.inl (done _ h)
  rw [if_neg h1] at h
  by_cases h1 : valveState k v = 2
  · rw [if_pos h1] at h; exact Or.inl (done _ h)
  rw [if_neg h1] at h
  by_cases h1 : valveState k v = 1
  · rw [if_pos h1] at h
    by_cases h2 : hasFb k = true
    · rw [if_pos h2] at h
      by_cases h3 : pFb.eq (.num 0) = true
      · rw [if_pos h3] at h; exact Or.inl (done _ h)
      · rw [if_neg h3] at h; exact Or.inr (bindCase _ _ _ h)
    · rw [if_neg h2] at h; exact Or.inl (done _ h)
  rw [if_neg h1] at h
  by_cases h1 : valveState k v = 0
  · rw [if_pos h1] at h
    by_cases h2 : hasFb k = true
    · rw [if_pos h2] at h
      by_cases h3 : pFb.eq (.num 0) = true
      · rw [if_pos h3] at h; exact Or.inl (done _ h)
      · rw [if_neg h3] at h; exact Or.inr (bindCase _ _ _ h)
    · rw [if_neg h2] at h; exact Or.inl (done _ h)
  rw [if_neg h1] at h
  by_cases h1 : valveState k v = 5
  · rw [if_pos h1] at h; exact Or.inl (done _ h)
  · rw [if_neg h1] at h; exact Or.inl (done _ h)

theorem exState_same (k : Kind) (t1 t2 : Tm) (pOn pFb : Fl) (m : Bool) (v : Dv) (r : Int × Dv)
    (h : exState k t1 t2 pOn pFb m v = some r) : r.2 = v ∨ r.2 = { v with start := t1 } := by
  rcases exState_cases k t1 t2 pOn pFb m v r h with h | ⟨b, h⟩
  · exact Or.inl h
  · exact fbState_same k t1 pOn v _ h

/-- Exclusive outputs, and those a class does not have are off. -/
def Fits (k : Kind) (v : Dv) : Prop :=
  exclusive v ∧ (k ≠ .mix → v.c = false) ∧ (k = .do1 ∨ k = .di1Off ∨ k = .di1On ∨ k = .do1di2 → v.b = false)

theorem step_fits (k : Kind) (pOn pFb : Fl) (v v' : Dv) (e : Ev) (hv : Fits k v)
    (h : step k pOn pFb v e = some v') : Fits k v' := by
  cases e with
  | on t =>
    simp only [step, Option.some.injEq] at h; subst h
    obtain ⟨a, b, c, x, y, start, stopped, opening, closing, state⟩ := v
    revert hv
    cases k <;> cases a <;> cases b <;> cases c <;> cases x <;> simp [Fits, directOn, exclusive]
  | off t =>
    simp only [step, Option.some.injEq] at h; subst h
    obtain ⟨a, b, c, x, y, start, stopped, opening, closing, state⟩ := v
    revert hv
    cases k <;> cases a <;> cases b <;> cases c <;> cases y <;> simp [Fits, directOff, exclusive, valveState]
  | set t n =>
    simp only [step, Option.some.injEq] at h; subst h
    obtain ⟨a, b, c, x, y, start, stopped, opening, closing, state⟩ := v
    revert hv
    cases k
    case mix =>
      simp only [directSet]
      split
      · cases a <;> cases b <;> cases c <;> simp [Fits, directOff, exclusive, valveState]
      · split
        · cases a <;> cases b <;> cases c <;> simp [Fits, directOff, exclusive, valveState]
        · split
          · cases a <;> cases b <;> cases c <;> simp [Fits, directOff, exclusive, valveState]
          · cases a <;> cases b <;> cases c <;> simp [Fits, directOn, exclusive]
    case bistable =>
      simp only [directSet]
      split
      · cases a <;> cases b <;> cases c <;> cases x <;> cases y <;> simp [Fits, exclusive]
      · exact fun h => h
    all_goals exact fun h => h
  | inputs x y => simp only [step, Option.some.injEq] at h; subst h; exact hv
  | ask t m =>
    simp only [step, Option.map_eq_some_iff] at h
    obtain ⟨r, hr, h⟩ := h
    subst h
    rcases exState_same _ _ _ _ _ _ _ _ hr with h | h <;> rw [h] <;> exact hv
  | tick t =>
    simp only [step, tick] at h
    cases k
    case bistable =>
      simp only [Option.map_eq_some_iff] at h
      obtain ⟨p, _, h⟩ := h
      subst h
      unfold Fits exclusive at hv ⊢
      repeat' split
      all_goals simp_all
    all_goals (simp only [Option.some.injEq] at h; subst h; exact hv)

theorem run_fits (k : Kind) (pOn pFb : Fl) (es : List Ev) : ∀ v v' : Dv, Fits k v →
    run k pOn pFb v es = some v' → Fits k v' := by
  induction es with
  | nil => intro v v' hv h; simp only [run, Option.some.injEq] at h; subst h; exact hv
  | cons e es ih =>
    intro v v' hv h
    simp only [run, Option.bind_eq_some_iff] at h
    obtain ⟨w, hw, h⟩ := h
    exact ih w v' (step_fits k pOn pFb v w e hv hw) h

theorem directOn_start (k : Kind) (hk : Held k) (t : Tm) (v : Dv) (hv : Fits k v) :
    (directOn k t v).start = if outputs (directOn k t v) ≠ outputs v then t else v.start := by
  obtain ⟨a, b, c, x, y, start, stopped, opening, closing, state⟩ := v
  revert hv
  rcases hk with rfl | rfl | rfl | rfl | rfl <;> cases a <;> cases b <;> cases c <;>
    simp [Fits, directOn, exclusive, outputs]

theorem directOff_start (k : Kind) (hk : Held k) (t : Tm) (v : Dv) (hv : Fits k v) :
    (directOff k t v).start = if outputs (directOff k t v) ≠ outputs v then t else v.start := by
  obtain ⟨a, b, c, x, y, start, stopped, opening, closing, state⟩ := v
  revert hv
  rcases hk with rfl | rfl | rfl | rfl | rfl <;> cases a <;> cases b <;> cases c <;>
    simp [Fits, directOff, exclusive, outputs, valveState]

theorem directSet_start (k : Kind) (hk : Held k) (t : Tm) (n : Int) (v : Dv) (hv : Fits k v) :
    (directSet k t n v).start =
      if outputs (directSet k t n v) ≠ outputs v ∨ (k = .mix ∧ (n = 2 ∨ n = 3)) then t else v.start := by
  by_cases hm : k = .mix
  · subst hm
    by_cases h0 : n = 0
    · subst h0
      have := directOff_start .mix (by simp [Held]) t v hv
      simpa [directSet] using this
    · by_cases h2 : n = 2
      · subst h2
        obtain ⟨a, b, c, x, y, start, stopped, opening, closing, state⟩ := v
        cases a <;> cases b <;> cases c <;> simp [directSet, directOff, valveState]
      · by_cases h3 : n = 3
        · subst h3
          obtain ⟨a, b, c, x, y, start, stopped, opening, closing, state⟩ := v
          cases a <;> cases b <;> cases c <;> simp [directSet, directOff, valveState]
        · have := directOn_start .mix (by simp [Held]) t v hv
          simpa [directSet, h0, h2, h3] using this
  · rcases hk with rfl | rfl | rfl | rfl | rfl <;> simp_all [directSet, outputs]

theorem valveState_held (k : Kind) (hk : Held k) (v : Dv) :
    valveState k v = 0 ∨ valveState k v = 1 ∨ (k = .mix ∧ (valveState k v = 2 ∨ valveState k v = 3)) := by
  obtain ⟨a, b, c, x, y, start, stopped, opening, closing, state⟩ := v
  rcases hk with rfl | rfl | rfl | rfl | rfl <;> cases a <;> cases b <;> cases c <;> simp [valveState]

theorem ask_start (k : Kind) (hk : Held k) (t1 t2 : Tm) (pOn pFb : Fl) (m : Bool) (v : Dv) (r : Int × Dv)
    (h : exState k t1 t2 pOn pFb m v = some r) :
    r.2.start = if (k = .di1Off ∨ k = .di1On) ∧ agrees k v = true ∧ pFb.eq (.num 0) = false then t1 else v.start := by
  obtain ⟨w, hw, _, hs⟩ := fbState_held k hk t1 pOn v
  by_cases hd : k = .di1Off ∨ k = .di1On
  · have hne : k ≠ .do2 := by rcases hd with rfl | rfl <;> simp
    have hfb : hasFb k = true := by rcases hd with rfl | rfl <;> rfl
    have hst : valveState k v = 0 ∨ valveState k v = 1 := by
      rcases valveState_held k hk v with h | h | ⟨h, _⟩
      · exact Or.inl h
      · exact Or.inr h
      · subst h; simp at hd
    cases ha : agrees k v
    · simp only [Bool.false_eq_true, false_and, and_false, if_false]
      rcases exState_cases _ _ _ _ _ _ _ _ h with h | ⟨b, h⟩
      · rw [h]
      · rw [hw, ha] at h
        simp only [Bool.false_eq_true, if_false, Option.some.injEq, Prod.mk.injEq] at h
        rw [← h.2]
    · unfold exState at h
      rw [hw] at h
      cases hf : pFb.eq (.num 0)
      · rcases hst with hst | hst <;> simp [hne, hfb, hst, hf, ha, hd] at h hs ⊢ <;> rw [← h] <;> exact hs
      · simp only [Bool.true_eq_false, and_false, if_false]
        rcases hst with hst | hst <;> simp [hne, hfb, hst, hf] at h <;> rw [← h]
  · rw [if_neg (fun h => hd h.1)]
    rcases exState_cases _ _ _ _ _ _ _ _ h with h | ⟨b, h⟩
    · rw [h]
    · rw [hw] at h
      rw [if_neg hd] at hs
      simp only [Option.some.injEq] at h
      split at h
      · simp only [Prod.mk.injEq] at h; rw [← h.2, hs]
      · simp only [Prod.mk.injEq] at h; rw [← h.2]

theorem step_start (k : Kind) (hk : Held k) (pOn pFb : Fl) (v v' : Dv) (e : Ev) (hv : Fits k v)
    (h : step k pOn pFb v e = some v') : v'.start = (restarts k pFb v e).getD v.start := by
  cases e with
  | on t =>
    simp only [step, Option.some.injEq] at h; subst h
    rw [directOn_start k hk t v hv]; simp only [restarts]; split <;> rfl
  | off t =>
    simp only [step, Option.some.injEq] at h; subst h
    rw [directOff_start k hk t v hv]; simp only [restarts]; split <;> rfl
  | set t n =>
    simp only [step, Option.some.injEq] at h; subst h
    rw [directSet_start k hk t n v hv]; simp only [restarts]; split <;> rfl
  | inputs x y => simp only [step, Option.some.injEq] at h; subst h; rfl
  | ask t m =>
    simp only [step, Option.map_eq_some_iff] at h
    obtain ⟨r, hr, h⟩ := h
    subst h
    rw [ask_start k hk _ _ _ _ _ _ _ hr]; simp only [restarts]; split <;> rfl
  | tick t =>
    rcases hk with rfl | rfl | rfl | rfl | rfl <;>
      (simp only [step, tick, Option.some.injEq] at h; subst h; rfl)

theorem run_since (k : Kind) (hk : Held k) (pOn pFb : Fl) (es : List Ev) : ∀ v v' : Dv, Fits k v →
    run k pOn pFb v es = some v' → v'.start = since k pOn pFb v v.start es := by
  induction es with
  | nil => intro v v' _ h; simp only [run, Option.some.injEq] at h; subst h; rfl
  | cons e es ih =>
    intro v v' hv h
    simp only [run, Option.bind_eq_some_iff] at h
    obtain ⟨w, hw, h⟩ := h
    rw [ih w v' (step_fits k pOn pFb v w e hv hw) h, step_start k hk pOn pFb v w e hv hw]
    simp only [since, hw]

theorem fits_init (k : Kind) (t0 : Tm) : Fits k { start := t0 } := by simp [Fits, exclusive]

theorem run_append (k : Kind) (pOn pFb : Fl) (es es' : List Ev) : ∀ v : Dv,
    run k pOn pFb v (es ++ es') = (run k pOn pFb v es).bind fun w => run k pOn pFb w es' := by
  induction es with
  | nil => intro v; rfl
  | cons e es ih =>
    intro v
    simp only [List.cons_append, run]
    cases step k pOn pFb v e with
    | none => rfl
    | some w => simp [ih w]

theorem since_append (k : Kind) (pOn pFb : Fl) (es es' : List Ev) : ∀ (v w : Dv) (t : Tm), run k pOn pFb v es = some w →
    since k pOn pFb v t (es ++ es') = since k pOn pFb w (since k pOn pFb v t es) es' := by
  induction es with
  | nil => intro v w t h; simp only [run, Option.some.injEq] at h; subst h; rfl
  | cons e es ih =>
    intro v w t h
    simp only [run, Option.bind_eq_some_iff] at h
    obtain ⟨u, hu, h⟩ := h
    simp only [List.cons_append, since, hu]
    exact ih u w _ h

/-- The answer when the feedback disagrees for too long. -/
theorem exState_late (k : Kind) (hk : Held k) (q : Rat) (h0 : 0 ≤ q) (h1 : q < 2 ^ 24) (pFb : Fl) (t1 t2 : Tm) (m : Bool)
    (v : Dv) (hf : pFb.eq (.num 0) = false) (ha : agrees k v = false)
    (hl1 : passed t1 v.start > ⌊q⌋.toNat) (hl2 : passed t2 v.start > ⌊q⌋.toNat) :
    exState k t1 t2 (.num q) pFb m v =
      some (if valveState k v = 1 then (if m then -12 else -2) else (if m then -13 else -3), v) := by
  obtain ⟨w, hw, _, _⟩ := fbState_held k hk t1 (.num q) v
  rw [ha] at hw
  simp only [Bool.false_eq_true, if_false, inTime_late t1 v.start q h0 h1 hl1] at hw
  have hne : k ≠ .do2 := by rcases hk with rfl | rfl | rfl | rfl | rfl <;> simp
  have hfb : hasFb k = true := by rcases hk with rfl | rfl | rfl | rfl | rfl <;> rfl
  have hst : valveState k v = 0 ∨ valveState k v = 1 := by
    rcases valveState_held k hk v with h | h | ⟨h, h'⟩
    · exact Or.inl h
    · exact Or.inr h
    · subst h
      obtain ⟨a, b, c, x, y, start, stopped, opening, closing, state⟩ := v
      revert ha h'
      cases a <;> cases b <;> cases c <;> cases x <;> cases y <;> simp [agrees, valveState]
  unfold exState
  rw [hw, toUnsigned_floor 64 (by omega) q h0 h1]
  rcases hst with hst | hst <;> simp [hne, hfb, hst, hf, hl2]

/-- When an error is reported. -/
theorem exState_error (k : Kind) (hk : Held k) (q : Rat) (h0 : 0 ≤ q) (h1 : q < 2 ^ 24) (pFb : Fl) (t1 t2 : Tm) (m : Bool)
    (v : Dv) (r : Int × Dv) (h : exState k t1 t2 (.num q) pFb m v = some r) (he : isError r.1 = true) :
    agrees k v = false ∧ pFb.eq (.num 0) = false ∧ passed t2 v.start > ⌊q⌋.toNat := by
  obtain ⟨w, hw, _, _⟩ := fbState_held k hk t1 (.num q) v
  have hne : k ≠ .do2 := by rcases hk with rfl | rfl | rfl | rfl | rfl <;> simp
  have hfb : hasFb k = true := by rcases hk with rfl | rfl | rfl | rfl | rfl <;> rfl
  unfold exState at h
  rw [hw, toUnsigned_floor 64 (by omega) q h0 h1] at h
  cases hf : pFb.eq (.num 0)
  · cases ha : agrees k v
    · refine ⟨rfl, rfl, ?_⟩
      by_cases hl : passed t2 v.start > ⌊q⌋.toNat
      · exact hl
      · exfalso
        rcases valveState_held k hk v with hst | hst | ⟨rfl, hst | hst⟩ <;>
          cases hi : inTime t1 v.start (.num q) <;>
          simp [hne, hfb, hst, hf, ha, hl, hi] at h <;> subst h <;> cases m <;> simp [isError] at he
    · exfalso
      rcases valveState_held k hk v with hst | hst | ⟨rfl, hst | hst⟩ <;>
          simp [hne, hfb, hst, hf, ha] at h <;> subst h <;> cases m <;> simp [isError] at he
  · exfalso
    rcases valveState_held k hk v with hst | hst | ⟨rfl, hst | hst⟩ <;>
          simp [hne, hfb, hst, hf] at h <;> subst h <;> cases m <;> simp [isError] at he

theorem fbState_some (k : Kind) (q : Rat) (h0 : 0 ≤ q) (h1 : q < 2 ^ 24) (t : Tm) (v : Dv) :
    ∃ r, fbState k t (.num q) v = some r := by
  unfold fbState
  cases k
  case bistable =>
    simp only [toUnsigned_floor 32 (by omega) q h0 h1]
    split
    · exact ⟨_, rfl⟩
    · exact ⟨_, rfl⟩
  all_goals exact ⟨_, rfl⟩

theorem some_ite {α : Type} {c : Prop} [Decidable c] {a b : Option α} (ha : ∃ r, a = some r) (hb : ∃ r, b = some r) :
    ∃ r, (if c then a else b) = some r := by
  split
  · exact ha
  · exact hb

theorem exState_some (k : Kind) (q : Rat) (h0 : 0 ≤ q) (h1 : q < 2 ^ 24) (pFb : Fl) (t1 t2 : Tm) (m : Bool) (v : Dv) :
    ∃ r, exState k t1 t2 (.num q) pFb m v = some r := by
  obtain ⟨r, hr⟩ := fbState_some k q h0 h1 t1 v
  unfold exState
  rw [hr, toUnsigned_floor 64 (by omega) q h0 h1]
  have go : ∀ e1 e2 e3 : Int, ∃ u : Int × Dv, ((some r).bind fun r =>
        if r.1 then some (e1, r.2)
        else (some ⌊q⌋.toNat).map fun p =>
          if passed t2 r.2.start > p then (e2, r.2) else (e3, r.2)) = some u := by
    intro e1 e2 e3
    exact some_ite (c := r.1 = true) ⟨_, rfl⟩ ⟨_, rfl⟩
  exact some_ite ⟨_, rfl⟩ (some_ite ⟨_, rfl⟩ (some_ite ⟨_, rfl⟩ (some_ite
    (some_ite (some_ite ⟨_, rfl⟩ (go _ _ _)) ⟨_, rfl⟩)
    (some_ite (some_ite (some_ite ⟨_, rfl⟩ (go _ _ _)) ⟨_, rfl⟩) (some_ite ⟨_, rfl⟩ ⟨_, rfl⟩)))))

theorem step_some (k : Kind) (q : Rat) (h0 : 0 ≤ q) (h1 : q < 2 ^ 24) (pFb : Fl) (v : Dv) (e : Ev) :
    ∃ w, step k (.num q) pFb v e = some w := by
  cases e with
  | ask t m =>
    obtain ⟨r, hr⟩ := exState_some k q h0 h1 pFb t t m v
    exact ⟨r.2, by simp [step, hr]⟩
  | tick t =>
    simp only [step, tick]
    cases k
    case bistable => rw [toUnsigned_floor 32 (by omega) q h0 h1]; exact ⟨_, rfl⟩
    all_goals exact ⟨_, rfl⟩
  | _ => exact ⟨_, rfl⟩

theorem run_some (k : Kind) (q : Rat) (h0 : 0 ≤ q) (h1 : q < 2 ^ 24) (pFb : Fl) (es : List Ev) :
    ∀ v : Dv, ∃ w, run k (.num q) pFb v es = some w := by
  induction es with
  | nil => intro v; exact ⟨v, rfl⟩
  | cons e es ih =>
    intro v
    obtain ⟨w, hw⟩ := step_some k q h0 h1 pFb v e
    obtain ⟨u, hu⟩ := ih w
    exact ⟨u, by simp [run, hw, hu]⟩

theorem directOn_again (k : Kind) (hk : Held k) (t t' : Tm) (v : Dv) :
    outputs (directOn k t' v) = outputs (directOn k t v) ∧
    (outputs (directOn k t v) = outputs v → (directOn k t' v).x = v.x ∧ (directOn k t' v).y = v.y) := by
  obtain ⟨a, b, c, x, y, start, stopped, opening, closing, state⟩ := v
  rcases hk with rfl | rfl | rfl | rfl | rfl <;> cases a <;> cases b <;> cases c <;> simp [directOn, outputs]

theorem directOff_again (k : Kind) (hk : Held k) (t t' : Tm) (v : Dv) :
    outputs (directOff k t' v) = outputs (directOff k t v) ∧
    (outputs (directOff k t v) = outputs v → (directOff k t' v).x = v.x ∧ (directOff k t' v).y = v.y) := by
  obtain ⟨a, b, c, x, y, start, stopped, opening, closing, state⟩ := v
  rcases hk with rfl | rfl | rfl | rfl | rfl <;> cases a <;> cases b <;> cases c <;> simp [directOff, outputs, valveState]

theorem agrees_congr (k : Kind) (v w : Dv) (ho : outputs w = outputs v) (hx : w.x = v.x) (hy : w.y = v.y) :
    agrees k w = agrees k v := by
  simp only [outputs, Prod.mk.injEq] at ho
  unfold agrees
  cases k <;> simp [ho.1, ho.2.1, ho.2.2, hx, hy]

theorem directOn_idem (k : Kind) (hk : Held k) (t t' : Tm) (v : Dv) (hv : Fits k v) :
    outputs (directOn k t' (directOn k t v)) = outputs (directOn k t v) := by
  obtain ⟨a, b, c, x, y, start, stopped, opening, closing, state⟩ := v
  revert hv
  rcases hk with rfl | rfl | rfl | rfl | rfl <;> cases a <;> cases b <;> cases c <;>
    simp [Fits, exclusive, directOn, outputs]

theorem directOff_idem (k : Kind) (hk : Held k) (t t' : Tm) (v : Dv) (hv : Fits k v) :
    outputs (directOff k t' (directOff k t v)) = outputs (directOff k t v) := by
  obtain ⟨a, b, c, x, y, start, stopped, opening, closing, state⟩ := v
  revert hv
  rcases hk with rfl | rfl | rfl | rfl | rfl <;> cases a <;> cases b <;> cases c <;>
    simp [Fits, exclusive, directOff, outputs, valveState]

/-- Outputs and inputs determine what a command does to the outputs. -/
theorem directOn_congr (k : Kind) (hk : Held k) (t : Tm) (v w : Dv) (ho : outputs w = outputs v) :
    outputs (directOn k t w) = outputs (directOn k t v) := by
  obtain ⟨a, b, c, x, y, start, stopped, opening, closing, state⟩ := v
  obtain ⟨a', b', c', x', y', start', stopped', opening', closing', state'⟩ := w
  simp only [outputs, Prod.mk.injEq] at ho
  obtain ⟨rfl, rfl, rfl⟩ := ho
  rcases hk with rfl | rfl | rfl | rfl | rfl <;> cases a' <;> simp [directOn, outputs]

theorem directOff_congr (k : Kind) (hk : Held k) (t : Tm) (v w : Dv) (ho : outputs w = outputs v) :
    outputs (directOff k t w) = outputs (directOff k t v) := by
  obtain ⟨a, b, c, x, y, start, stopped, opening, closing, state⟩ := v
  obtain ⟨a', b', c', x', y', start', stopped', opening', closing', state'⟩ := w
  simp only [outputs, Prod.mk.injEq] at ho
  obtain ⟨rfl, rfl, rfl⟩ := ho
  rcases hk with rfl | rfl | rfl | rfl | rfl <;> cases a' <;> cases b' <;> cases c' <;>
    simp [directOff, outputs, valveState]

theorem direct_inputs (k : Kind) (hk : Held k) (t : Tm) (v : Dv) :
    (directOn k t v).x = v.x ∧ (directOn k t v).y = v.y ∧ (directOff k t v).x = v.x ∧ (directOff k t v).y = v.y := by
  obtain ⟨a, b, c, x, y, start, stopped, opening, closing, state⟩ := v
  rcases hk with rfl | rfl | rfl | rfl | rfl <;> cases a <;> cases b <;> cases c <;>
    simp [directOn, directOff, valveState]

/-- A history that repeats commands which change nothing and looks, while the feedback disagrees, leaves the valve
waiting since the same moment. -/
theorem run_still (k : Kind) (q : Rat) (h0 : 0 ≤ q) (h1 : q < 2 ^ 24) (pFb : Fl) (P : Ev → Prop) (es : List Ev)
    (hP : ∀ e ∈ es, P e) (o : Bool × Bool × Bool)
    (hstep : ∀ e, P e → ∀ v w : Dv, Fits k v → outputs v = o → agrees k v = false →
      step k (.num q) pFb v e = some w → outputs w = o ∧ agrees k w = false ∧ w.start = v.start) :
    ∀ v : Dv, Fits k v → outputs v = o → agrees k v = false →
    ∃ w, run k (.num q) pFb v es = some w ∧ outputs w = o ∧ agrees k w = false ∧ w.start = v.start := by
  induction es with
  | nil => intro v _ ho ha; exact ⟨v, rfl, ho, ha, rfl⟩
  | cons e es ih =>
    intro v hv ho ha
    obtain ⟨w, hw⟩ := step_some k q h0 h1 pFb v e
    obtain ⟨ho', ha', hs⟩ := hstep e (hP e List.mem_cons_self) v w hv ho ha hw
    obtain ⟨u, hu, h2, h3, h4⟩ := ih (fun e he => hP e (List.mem_cons_of_mem _ he)) w
      (step_fits k _ pFb v w e hv hw) ho' ha'
    exact ⟨u, by simp [run, hw, hu], h2, h3, h4.trans hs⟩

/-- One event of a repetition. -/
theorem still_step (k : Kind) (hk : Held k) (pOn pFb : Fl) (o : Bool × Bool × Bool)
    (cmd : Ev → Prop) (e : Ev) (he : Repeats k o cmd e) (v w : Dv) (hv : Fits k v) (ho : outputs v = o)
    (hc : cmd e → ∀ w, step k pOn pFb v e = some w →
      outputs w = o ∧ w.x = v.x ∧ w.y = v.y ∧ restarts k pFb v e = none)
    (ha : agrees k v = false) (h : step k pOn pFb v e = some w) :
    outputs w = o ∧ agrees k w = false ∧ w.start = v.start := by
  have hs := step_start k hk pOn pFb v w e hv h
  rcases he with he | ⟨t, m, rfl⟩ | ⟨t, rfl⟩ | ⟨x, y, rfl, hxy⟩
  · obtain ⟨h1, hx, hy, h3⟩ := hc he w h
    refine ⟨h1, ?_, by rw [hs, h3]; rfl⟩
    rw [agrees_congr k v w (h1.trans ho.symm) hx hy, ha]
  · simp only [restarts, ha, Bool.false_eq_true, false_and, and_false, if_false, Option.getD_none] at hs
    simp only [step, Option.map_eq_some_iff] at h
    obtain ⟨r, hr, h⟩ := h
    subst h
    rcases exState_same _ _ _ _ _ _ _ _ hr with h | h
    · rw [h]; exact ⟨ho, ha, rfl⟩
    · refine ⟨?_, ?_, hs⟩
      · rw [h, ← ho]; rfl
      · rw [h, ← ha]; exact agrees_congr k _ _ rfl rfl rfl
  · rcases hk with rfl | rfl | rfl | rfl | rfl <;>
      (simp only [step, tick, Option.some.injEq] at h; subst h; exact ⟨ho, ha, rfl⟩)
  · simp only [step, Option.some.injEq] at h; subst h
    exact ⟨ho, hxy _ ho rfl rfl, rfl⟩

theorem on_restarts_none (k : Kind) (hk : Held k) (pFb : Fl) (t t' : Tm) (v0 v : Dv) (hv0 : Fits k v0)
    (ho : outputs v = outputs (directOn k t' v0)) :
    outputs (directOn k t v) = outputs (directOn k t' v0) ∧ restarts k pFb v (.on t) = none := by
  have h1 : outputs (directOn k t v) = outputs v := by
    rw [directOn_congr k hk t _ v ho, directOn_idem k hk t' t v0 hv0, ho]
  exact ⟨h1.trans ho, by simp [restarts, h1]⟩

theorem off_restarts_none (k : Kind) (hk : Held k) (pFb : Fl) (t t' : Tm) (v0 v : Dv) (hv0 : Fits k v0)
    (ho : outputs v = outputs (directOff k t' v0)) :
    outputs (directOff k t v) = outputs (directOff k t' v0) ∧ restarts k pFb v (.off t) = none := by
  have h1 : outputs (directOff k t v) = outputs v := by
    rw [directOff_congr k hk t _ v ho, directOff_idem k hk t' t v0 hv0, ho]
  exact ⟨h1.trans ho, by simp [restarts, h1]⟩

theorem error_shown (k : Kind) (m : Bool) (v : Dv) :
    isError (if valveState k v = 1 then (if m then -12 else -2) else (if m then -13 else -3)) = true := by
  cases m <;> split <;> rfl

/-! ## Bistable valves -/

theorem exState_stopped (t1 t2 : Tm) (pOn pFb : Fl) (m : Bool) (v : Dv) (hs : v.stopped = true) :
    ∃ r, exState .bistable t1 t2 pOn pFb m v = some r ∧ isError r.1 = false ∧ r.2 = v := by
  have hst : valveState .bistable v = 1 ∨ valveState .bistable v = 0 ∨ valveState .bistable v = 5 := by
    unfold valveState
    repeat' split
    all_goals simp_all
  have hf : fbState .bistable t1 pOn v = some (true, v) := by simp [fbState, hs]
  unfold exState
  rw [hf]
  rcases hst with h | h | h <;> cases hp : pFb.eq (.num 0) <;> cases m <;>
    simp [h, hasFb, isError]

theorem step_stopped (pOn pFb : Fl) (v w : Dv) (e : Ev) (hs : v.stopped = true) (he : ∀ t n, e ≠ .set t n)
    (h : step .bistable pOn pFb v e = some w) : w.stopped = true := by
  cases e with
  | on t => simp only [step, Option.some.injEq] at h; subst h; simp only [directOn]; split <;> exact hs
  | off t => simp only [step, Option.some.injEq] at h; subst h; simp only [directOff]; split <;> exact hs
  | set t n => exact absurd rfl (he t n)
  | inputs x y => simp only [step, Option.some.injEq] at h; subst h; exact hs
  | ask t m =>
    simp only [step, Option.map_eq_some_iff] at h
    obtain ⟨r, hr, h⟩ := h
    subst h
    rcases exState_same _ _ _ _ _ _ _ _ hr with h | h <;> rw [h] <;> exact hs
  | tick t =>
    simp only [step, tick, Option.map_eq_some_iff] at h
    obtain ⟨p, _, h⟩ := h
    subst h
    repeat' split
    all_goals exact hs

theorem run_stopped (pOn pFb : Fl) (es : List Ev) : ∀ v w : Dv, v.stopped = true → (∀ e ∈ es, ∀ t n, e ≠ .set t n) →
    run .bistable pOn pFb v es = some w → w.stopped = true := by
  induction es with
  | nil => intro v w hs _ h; simp only [run, Option.some.injEq] at h; subst h; exact hs
  | cons e es ih =>
    intro v w hs he h
    simp only [run, Option.bind_eq_some_iff] at h
    obtain ⟨u, hu, h⟩ := h
    exact ih u w (step_stopped pOn pFb v u e hs (he e List.mem_cons_self) hu)
      (fun e h' => he e (List.mem_cons_of_mem _ h')) h

/-! ## IO-Link mix-proof valves -/

theorem Iol.step_exclusive (v : Iol) (hv : v.exclusive) (e : IEv) : (v.step e).exclusive := by
  obtain ⟨sv1, sv2, sv3, deEn, main, usl, lsp, st, err, ioOk, start⟩ := v
  cases e with
  | on t => cases main <;> simp [Iol.step, Iol.directOn, Iol.exclusive]
  | off t => cases sv1 <;> cases sv2 <;> cases sv3 <;> simp [Iol.step, Iol.directOff, Iol.exclusive]
  | set t n =>
    simp only [Iol.step, Iol.directSet]
    repeat' split
    · cases sv1 <;> cases sv2 <;> cases sv3 <;> simp [Iol.directOff, Iol.exclusive]
    · cases sv1 <;> cases sv2 <;> cases sv3 <;> simp [Iol.directOff, Iol.exclusive]
    · cases sv1 <;> cases sv2 <;> cases sv3 <;> simp [Iol.directOff, Iol.exclusive]
    · cases main <;> simp [Iol.directOn, Iol.exclusive]
  | inputs d m u l s e o => exact hv

theorem Iol.run_exclusive (es : List IEv) : ∀ v : Iol, v.exclusive → (v.run es).exclusive := by
  induction es with
  | nil => intro v h; exact h
  | cons e es ih => intro v h; exact ih _ (v.step_exclusive h e)

theorem Iol.run_append (v : Iol) (es es' : List IEv) : v.run (es ++ es') = (v.run es).run es' := by
  simp [Iol.run, List.foldl_append]

end Ptusa.Valve
