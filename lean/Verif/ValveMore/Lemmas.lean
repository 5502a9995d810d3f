import Verif.ValveMore.Spec
import Verif.Valve.Lemmas

/-!
# Lemmas about the remaining valves
-/
namespace Ptusa.ValveMore
open Valve (Tm toUnsigned passed inTime)

/-- Which outputs a class can have at once. -/
def Shape (k : Kind) (v : Dv) : Prop :=
  match k with
  | .flush => v.b = false ∧ ¬ (v.a = true ∧ v.c = true)
  | .termMix => ¬ (v.a = true ∧ v.b = true) ∧ ¬ (v.a = true ∧ v.c = true) ∧ ¬ (v.b = true ∧ v.c = true)
  | _ => v.b = false ∧ v.c = false

/-- The effect of a look at agreeing inputs. -/
def noted (k : Kind) (now : Tm) (v : Dv) : Dv :=
  match k with
  | .asDi2 => { v with err := now }
  | .termOn | .termOff | .termDi2 | .termMix => { v with start := now }
  | _ => v

/-- Is there still time. -/
def still (k : Kind) (now : Tm) (pOn : Fl) (v : Dv) : Option Bool :=
  match k with
  | .asDi2 => some (inTime now v.start pOn || inTime now v.err pOn)
  | .flush | .as => some (inTime now v.start pOn)
  | _ => (toUnsigned 64 pOn).map fun p => decide (passed now v.start < p)

theorem fbState_spec (k : Kind) (now : Tm) (pOn : Fl) (v : Dv) (hs : Shape k v)
    (h01 : valveState k v = 0 ∨ valveState k v = 1) :
    fbState k true now pOn v =
      if agrees k (valveState k v) v.x v.y then some (true, noted k now v)
      else (still k now pOn v).map fun b => (b, v) := by
  obtain ⟨a, b, c, x, y, start, err⟩ := v
  revert hs h01
  cases k <;> cases a <;> cases b <;> cases c <;> cases x <;> cases y <;>
    simp [Shape, valveState, fbState, agrees, noted, still, Option.map_map, Function.comp_def] <;>
    cases hi : inTime now start pOn <;> simp

theorem state_range (k : Kind) (v : Dv) :
    valveState k v = 0 ∨ valveState k v = 1 ∨ valveState k v = 2 ∨ valveState k v = 3 := by
  obtain ⟨a, b, c, x, y, start, err⟩ := v
  cases k <;> cases a <;> cases b <;> cases c <;> simp [valveState]

/-- The state after a look. -/
def after (k : Kind) (now : Tm) (pFb : Fl) (v : Dv) : Dv :=
  if (valveState k v = 0 ∨ valveState k v = 1) ∧ agrees k (valveState k v) v.x v.y ∧ pFb.eq (.num 0) = false then
    noted k now v
  else v

theorem report_after (k : Kind) (t1 t2 : Tm) (pOn pFb : Fl) (m : Bool) (v : Dv) (hs : Shape k v) (r : Int × Dv)
    (h : report k true t1 t2 pOn pFb m v = some r) : r.2 = after k t1 pFb v ∧ r.1 ∈ codes (pFb.eq (.num 0)) m (valveState k v) := by
  unfold report at h
  unfold after
  cases hf : pFb.eq (.num 0)
  · rcases state_range k v with h0 | h0 | h0 | h0
    · rw [fbState_spec k t1 pOn v hs (.inl h0)] at h
      cases ha : agrees k (valveState k v) v.x v.y
      · rw [h0] at ha
        cases hst : still k t1 pOn v with
        | none => simp [h0, hf, ha, hst] at h
        | some b =>
          cases b
          · cases hu : toUnsigned 64 pOn with
            | none => simp [h0, hf, ha, hst, hu] at h
            | some p =>
              simp [h0, hf, ha, hst, hu] at h
              by_cases hp : p < passed t2 v.start <;> simp [hp] at h <;> subst h <;> cases m <;> simp [ha, h0, codes]
          · simp [h0, hf, ha, hst] at h; subst h; cases m <;> simp [ha, h0, codes]
      · rw [h0] at ha
        simp [h0, hf, ha] at h; subst h; cases m <;> simp [ha, h0, codes]
    · rw [fbState_spec k t1 pOn v hs (.inr h0)] at h
      cases ha : agrees k (valveState k v) v.x v.y
      · rw [h0] at ha
        cases hst : still k t1 pOn v with
        | none => simp [h0, hf, ha, hst] at h
        | some b =>
          cases b
          · cases hu : toUnsigned 64 pOn with
            | none => simp [h0, hf, ha, hst, hu] at h
            | some p =>
              simp [h0, hf, ha, hst, hu] at h
              by_cases hp : p < passed t2 v.start <;> simp [hp] at h <;> subst h <;> cases m <;> simp [ha, h0, codes]
          · simp [h0, hf, ha, hst] at h; subst h; cases m <;> simp [ha, h0, codes]
      · rw [h0] at ha
        simp [h0, hf, ha] at h; subst h; cases m <;> simp [ha, h0, codes]
    · simp [h0, hf] at h; subst h; cases m <;> simp [h0, codes]
    · simp [h0, hf] at h; subst h; cases m <;> simp [h0, codes]
  · rcases state_range k v with h0 | h0 | h0 | h0 <;> simp [h0, hf] at h <;> subst h <;> cases m <;> simp [h0, codes]

theorem report_error (k : Kind) (q : Rat) (h0 : 0 ≤ q) (h1 : q < 2 ^ 24) (t1 t2 : Tm) (pFb : Fl) (m : Bool) (v : Dv)
    (hs : Shape k v) (r : Int × Dv) (h : report k true t1 t2 (.num q) pFb m v = some r)
    (he : Valve.isError r.1 = true) :
    (valveState k v = 0 ∨ valveState k v = 1) ∧ agrees k (valveState k v) v.x v.y = false ∧ pFb.eq (.num 0) = false ∧
      passed t2 v.start > ⌊q⌋.toNat ∧ still k t1 (.num q) v = some false := by
  unfold report at h
  rw [Valve.toUnsigned_floor 64 (by omega) q h0 h1] at h
  cases hf : pFb.eq (.num 0)
  · rcases state_range k v with hv | hv | hv | hv
    · rw [fbState_spec k t1 _ v hs (.inl hv)] at h
      cases ha : agrees k (valveState k v) v.x v.y
      · rw [hv] at ha
        cases hst : still k t1 (.num q) v with
        | none => simp [hv, hf, ha, hst] at h
        | some b =>
          cases b
          · simp [hv, hf, ha, hst] at h
            by_cases hp : ⌊q⌋.toNat < passed t2 v.start
            · exact ⟨.inl hv, rfl, rfl, hp, rfl⟩
            · simp [hp] at h; subst h; cases m <;> simp [Valve.isError] at he
          · simp [hv, hf, ha, hst] at h; subst h; cases m <;> simp [Valve.isError] at he
      · rw [hv] at ha
        simp [hv, hf, ha] at h; subst h; cases m <;> simp [Valve.isError] at he
    · rw [fbState_spec k t1 _ v hs (.inr hv)] at h
      cases ha : agrees k (valveState k v) v.x v.y
      · rw [hv] at ha
        cases hst : still k t1 (.num q) v with
        | none => simp [hv, hf, ha, hst] at h
        | some b =>
          cases b
          · simp [hv, hf, ha, hst] at h
            by_cases hp : ⌊q⌋.toNat < passed t2 v.start
            · exact ⟨.inr hv, rfl, rfl, hp, rfl⟩
            · simp [hp] at h; subst h; cases m <;> simp [Valve.isError] at he
          · simp [hv, hf, ha, hst] at h; subst h; cases m <;> simp [Valve.isError] at he
      · rw [hv] at ha
        simp [hv, hf, ha] at h; subst h; cases m <;> simp [Valve.isError] at he
    · simp [hv, hf] at h; subst h; cases m <;> simp [Valve.isError] at he
    · simp [hv, hf] at h; subst h; cases m <;> simp [Valve.isError] at he
  · rcases state_range k v with hv | hv | hv | hv <;> simp [hv, hf] at h <;> subst h <;> cases m <;>
      simp [Valve.isError] at he

theorem report_late (k : Kind) (q : Rat) (h0 : 0 ≤ q) (h1 : q < 2 ^ 24) (t1 t2 : Tm) (pFb : Fl) (m : Bool) (v : Dv)
    (hs : Shape k v) (hv : valveState k v = 0 ∨ valveState k v = 1) (ha : agrees k (valveState k v) v.x v.y = false)
    (hf : pFb.eq (.num 0) = false) (hp : passed t2 v.start > ⌊q⌋.toNat) (hst : still k t1 (.num q) v = some false) :
    report k true t1 t2 (.num q) pFb m v =
      some (if valveState k v = 1 then (if m then -12 else -2) else (if m then -13 else -3), v) := by
  unfold report
  rw [Valve.toUnsigned_floor 64 (by omega) q h0 h1, fbState_spec k t1 _ v hs hv]
  rcases hv with hv | hv <;> rw [hv] at ha <;> simp [hv, ha, hf, hst, hp]

theorem still_late (k : Kind) (q : Rat) (h0 : 0 ≤ q) (h1 : q < 2 ^ 24) (t1 : Tm) (v : Dv)
    (hp : passed t1 v.start > ⌊q⌋.toNat) (he : k = .asDi2 → passed t1 v.err > ⌊q⌋.toNat) :
    still k t1 (.num q) v = some false := by
  have hi := Valve.inTime_late t1 v.start q h0 h1 hp
  have hu := Valve.toUnsigned_floor 64 (by omega) q h0 h1
  cases k <;> simp [still, hi, hu]
  · omega
  · omega
  · omega
  · omega
  · exact Valve.inTime_late t1 v.err q h0 h1 (he rfl)

/-- What holds after a history, with the memory of it; `now` is the last moment. -/
structure Inv (k : Kind) (v : Dv) (m : Mem) (now : Tm) : Prop where
  shape : Shape k v
  told : valveState k v = m.told
  x : v.x = m.x
  y : v.y = m.y
  le : m.since ≤ now
  start : k ≠ .asDi2 → (m.told = 0 ∨ m.told = 1) → v.start = m.since
  both : k = .asDi2 → v.start ≤ m.since ∧ v.err ≤ m.since ∧ (v.start = m.since ∨ v.err = m.since)

theorem inv_init (k : Kind) (t0 : Tm) : Inv k { start := t0, err := t0 } { since := t0 } t0 := by
  refine ⟨?_, ?_, rfl, rfl, ?_, fun _ _ => rfl, fun _ => ⟨?_, ?_, .inl rfl⟩⟩
  · cases k <;> simp [Shape]
  · cases k <;> simp [valveState]
  all_goals exact BitVec.le_refl _

theorem le_trans' {a b c : Tm} (h : a ≤ b) (h' : b ≤ c) : a ≤ c := by rw [BitVec.le_def] at *; omega

/-- Commands. -/
theorem cmd_inv (k : Kind) (v v' : Dv) (m : Mem) (now t : Tm) (s : Int) (h : Inv k v m now) (ht : now ≤ t)
    (hshape : Shape k v') (hx : v'.x = v.x) (hy : v'.y = v.y) (hst : valveState k v' = s) (he : v'.err = v.err)
    (hsame : s = m.told → (k = .asDi2 ∨ m.told = 0 ∨ m.told = 1) → v'.start = v.start)
    (hnew : s ≠ m.told → (k = .asDi2 ∨ s = 0 ∨ s = 1) → v'.start = t) :
    Inv k v' (if s = m.told then m else { m with told := s, since := t }) t := by
  by_cases hs : s = m.told
  · rw [if_pos hs]
    refine ⟨hshape, hst.trans hs, hx.trans h.x, hy.trans h.y, le_trans' h.le ht, fun hk h01 => ?_, fun hk => ?_⟩
    · rw [hsame hs (.inr h01)]; exact h.start hk h01
    · rw [hsame hs (.inl hk), he]; exact h.both hk
  · rw [if_neg hs]
    refine ⟨hshape, hst, hx.trans h.x, hy.trans h.y, BitVec.le_refl _, fun hk h01 => hnew hs (.inr h01), fun hk => ?_⟩
    have := hnew hs (.inl hk)
    refine ⟨by rw [this]; exact BitVec.le_refl _, ?_, .inl this⟩
    rw [he]; exact le_trans' (h.both hk).2.1 (le_trans' h.le ht)

theorem on_facts (k : Kind) (t : Tm) (v : Dv) (hs : Shape k v) :
    Shape k (directOn k t v) ∧ (directOn k t v).x = v.x ∧ (directOn k t v).y = v.y ∧ valveState k (directOn k t v) = 1 ∧
      (directOn k t v).err = v.err ∧ (directOn k t v).start = if valveState k v = 1 then v.start else t := by
  obtain ⟨a, b, c, x, y, start, err⟩ := v
  revert hs
  cases k <;> cases a <;> cases b <;> cases c <;> simp [Shape, directOn, valveState]

theorem off_facts (k : Kind) (t : Tm) (v : Dv) (hs : Shape k v) :
    Shape k (directOff k t v) ∧ (directOff k t v).x = v.x ∧ (directOff k t v).y = v.y ∧ valveState k (directOff k t v) = 0 ∧
      (directOff k t v).err = v.err ∧ (directOff k t v).start = if valveState k v = 0 then v.start else t := by
  obtain ⟨a, b, c, x, y, start, err⟩ := v
  revert hs
  cases k <;> cases a <;> cases b <;> cases c <;> simp [Shape, directOff, valveState]

theorem on_inv (k : Kind) (v : Dv) (m : Mem) (now t : Tm) (h : Inv k v m now) (ht : now ≤ t) :
    Inv k (directOn k t v) (if 1 = m.told then m else { m with told := 1, since := t }) t := by
  obtain ⟨h1, h2, h3, h4, h5, h6⟩ := on_facts k t v h.shape
  refine cmd_inv k v _ m now t 1 h ht h1 h2 h3 h4 h5 (fun hs _ => ?_) (fun hs _ => ?_)
  · rw [h6, if_pos (h.told.trans hs.symm)]
  · rw [h6, if_neg (fun hv => hs (hv.symm.trans h.told))]

theorem off_inv (k : Kind) (v : Dv) (m : Mem) (now t : Tm) (h : Inv k v m now) (ht : now ≤ t) :
    Inv k (directOff k t v) (if 0 = m.told then m else { m with told := 0, since := t }) t := by
  obtain ⟨h1, h2, h3, h4, h5, h6⟩ := off_facts k t v h.shape
  refine cmd_inv k v _ m now t 0 h ht h1 h2 h3 h4 h5 (fun hs _ => ?_) (fun hs _ => ?_)
  · rw [h6, if_pos (h.told.trans hs.symm)]
  · rw [h6, if_neg (fun hv => hs (hv.symm.trans h.told))]

theorem inv_later (k : Kind) (v : Dv) (m : Mem) (now t : Tm) (h : Inv k v m now) (ht : now ≤ t) : Inv k v m t :=
  ⟨h.shape, h.told, h.x, h.y, le_trans' h.le ht, h.start, h.both⟩

theorem set_inv (k : Kind) (v : Dv) (m : Mem) (now t : Tm) (n : Int) (h : Inv k v m now) (ht : now ≤ t)
    (hn : k = .as → n ≠ 2 ∧ n ≠ 3) :
    Inv k (directSet k t n v)
      (if target k m.told n = m.told then m else { m with told := target k m.told n, since := t }) t := by
  have on := on_inv k v m now t h ht
  have off := off_inv k v m now t h ht
  cases k with
  | termOn | termOff | termDi2 =>
    simp only [directSet, target]
    by_cases h0 : n = 0
    · simpa [h0] using off
    · simpa [h0] using on
  | as =>
    obtain ⟨h2, h3⟩ := hn rfl
    simp only [directSet, target, h2, h3, if_false]
    by_cases h0 : n = 0
    · simpa [h0] using off
    · simpa [h0] using on
  | asDi2 =>
    simp only [directSet, target]
    by_cases h23 : n = 2 ∨ n = 3
    · simpa [h23] using inv_later _ v m now t h ht
    · by_cases h0 : n = 0
      · simpa [h0] using off
      · simpa [h0, h23] using on
  | termMix =>
    simp only [directSet, target]
    by_cases h0 : n = 0
    · simpa [h0] using off
    · by_cases h2 : n = 2
      · simp only [h2, show ¬ (2 : Int) = 0 by decide, if_true, if_false]
        exact cmd_inv _ v _ m now t 2 h ht (by simp [Shape]) rfl rfl (by simp [valveState]) rfl (by simp)
          (by simp)
      · by_cases h3 : n = 3
        · simp only [h3, show ¬ (3 : Int) = 0 by decide, show ¬ (3 : Int) = 2 by decide, if_true, if_false]
          exact cmd_inv _ v _ m now t 3 h ht (by simp [Shape]) rfl rfl (by simp [valveState]) rfl (by simp) (by simp)
        · simpa [h0, h2, h3] using on
  | flush =>
    simp only [directSet, target]
    by_cases h0 : n = 0 ∨ n = 2
    · simpa [h0] using off
    · by_cases h3 : n = 3
      · simp only [h3, show ¬ ((3 : Int) = 0 ∨ (3 : Int) = 2) by decide, if_true, if_false]
        have hc : (directOff .flush t v).c = false := by
          obtain ⟨a, b, c, x, y, start, err⟩ := v
          cases a <;> cases c <;> simp [directOff]
        have ha : (directOff .flush t v).a = false := by
          obtain ⟨a, b, c, x, y, start, err⟩ := v
          cases a <;> cases c <;> simp [directOff]
        have hf := off_facts .flush t v h.shape
        rw [if_pos hc]
        refine cmd_inv _ v _ m now t 3 h ht ?_ hf.2.1 hf.2.2.1 ?_ hf.2.2.2.2.1 ?_ ?_
        · exact ⟨hf.1.1, by simp [ha]⟩
        · simp [valveState, ha]
        · rintro h1 (h2 | h2 | h2) <;> simp_all
        · rintro h1 (h2 | h2 | h2) <;> simp_all
      · simpa [h0, h3] using on

theorem getState_after (k : Kind) (link : Fin 3) (t1 t2 : Tm) (pOn pFb : Fl) (b : Bool) (v : Dv) (hs : Shape k v)
    (r : Int × Dv) (h : getState k true link t1 t2 pOn pFb b v = some r) :
    r.2 = if k.term = true ∧ link ≠ 0 then v else after k t1 pFb v := by
  unfold getState at h
  split at h
  · rename_i hc; rw [if_pos hc]; cases h; rfl
  · rename_i hc; rw [if_neg hc]; exact (report_after k t1 t2 pOn pFb b v hs r h).1

theorem ask_inv (k : Kind) (link : Fin 3) (pOn pFb : Fl) (b : Bool) (v : Dv) (m : Mem) (now t : Tm) (r : Int × Dv)
    (h : Inv k v m now) (ht : now ≤ t) (hr : getState k true link t t pOn pFb b v = some r) :
    Inv k r.2 (m.next k pFb (.ask t b link)) t := by
  rw [getState_after k link t t pOn pFb b v h.shape r hr]
  simp only [Mem.next, after]
  have hl := inv_later k v m now t h ht
  rw [h.told, h.x, h.y]
  by_cases hc : (m.told = 0 ∨ m.told = 1) ∧ agrees k m.told m.x m.y = true ∧ pFb.eq (.num 0) = false
  · rw [if_pos hc]
    obtain ⟨h1, h2, h3⟩ := hc
    simp only [h1, h2, h3, true_and]
    have hterm : ∀ k : Kind, k.term = true → k.looks = true := by intro k; cases k <;> simp [Kind.term, Kind.looks]
    cases hk : k.term
    · simp only [Bool.false_eq_true, false_and, if_false, false_implies, and_true]
      cases k <;> simp [Kind.term] at hk <;> simp only [noted, Kind.looks, Bool.false_eq_true, if_false, if_true] <;>
        try exact hl
      refine ⟨h.shape, h.told, h.x, h.y, BitVec.le_refl _, by simp, fun _ => ⟨?_, BitVec.le_refl _, .inr rfl⟩⟩
      exact le_trans' (h.both rfl).1 hl.le
    · simp only [hterm k hk, true_and, forall_const]
      by_cases hz : link = 0
      · simp only [hz, ne_eq, not_true, if_false, if_true]
        have : noted k t v = { v with start := t } := by cases k <;> simp [Kind.term] at hk <;> rfl
        rw [this]
        refine ⟨?_, ?_, h.x, h.y, BitVec.le_refl _, fun _ _ => rfl, ?_⟩
        · have := h.shape; revert this; cases k <;> simp [Shape]
        · rw [← h.told]; cases k <;> simp [valveState]
        · rintro rfl; simp [Kind.term] at hk
      · simp only [hz, ne_eq, not_false_eq_true, if_true, if_false]; exact hl
  · rw [if_neg hc, ite_self, if_neg (by tauto)]
    exact hl

/-- What the memory does. -/
theorem step_inv (k : Kind) (pOn pFb : Fl) (v v' : Dv) (m : Mem) (now : Tm) (e : Ev) (h : Inv k v m now)
    (ht : ∀ t, e.time = some t → now ≤ t) (hn : k = .as → ∀ t n, e = .set t n → n ≠ 2 ∧ n ≠ 3)
    (hv : step k true pOn pFb v e = some v') : Inv k v' (m.next k pFb e) (e.time.getD now) := by
  cases e with
  | on t =>
    simp only [step, Bool.true_eq_false, and_false, if_false, Option.some.injEq] at hv
    subst hv
    exact on_inv k v m now t h (ht t rfl)
  | off t =>
    simp only [step, Bool.true_eq_false, and_false, if_false, Option.some.injEq] at hv
    subst hv
    exact off_inv k v m now t h (ht t rfl)
  | set t n =>
    simp only [step, Bool.true_eq_false, and_false, if_false, Option.some.injEq] at hv
    subst hv
    exact set_inv k v m now t n h (ht t rfl) (fun hk => hn hk t n rfl)
  | inputs x y =>
    simp only [step, Option.some.injEq] at hv
    subst hv
    refine ⟨?_, ?_, rfl, rfl, h.le, h.start, h.both⟩
    · have := h.shape; revert this; cases k <;> simp [Shape]
    · refine Eq.trans ?_ h.told; cases k <;> simp [valveState]
  | ask t b link =>
    simp only [step, Option.map_eq_some_iff] at hv
    obtain ⟨r, hr, rfl⟩ := hv
    exact ask_inv k link pOn pFb b v m now t r h (ht t rfl) hr

theorem run_inv (k : Kind) (pOn pFb : Fl) (es : List Ev) : ∀ (v v' : Dv) (m : Mem) (now t1 : Tm), Inv k v m now →
    ((now :: es.filterMap Ev.time) ++ [t1]).Pairwise (· ≤ ·) → (k = .as → NoSeat es) →
    run k true pOn pFb v es = some v' → Inv k v' (es.foldl (Mem.next k pFb) m) t1 := by
  induction es with
  | nil =>
    intro v v' m now t1 h hc _ hv
    cases hv
    refine inv_later k v m now t1 h ?_
    simpa using hc
  | cons e es ih =>
    intro v v' m now t1 h hc hn hv
    simp only [run, Option.bind_eq_some_iff] at hv
    obtain ⟨w, hw, hv⟩ := hv
    have hstep := step_inv k pOn pFb v w m now e h
      (by
        intro t ht
        simp only [List.cons_append, List.pairwise_cons] at hc
        exact hc.1 t (by simp [ht]))
      (fun hk t n he => hn hk t n (by simp [he])) hw
    refine ih w v' _ _ t1 hstep ?_ (fun hk t n he => hn hk t n (by simp [he])) hv
    cases he : e.time with
    | none => simpa [he] using hc
    | some t =>
      simp only [List.filterMap_cons, he, List.cons_append, List.pairwise_cons] at hc
      simpa using hc.2

theorem mem_inv (k : Kind) (pOn pFb : Fl) (t0 t1 : Tm) (es : List Ev) (v : Dv) (hc : Clock t0 es t1)
    (hn : k = .as → NoSeat es) (hv : run k true pOn pFb { start := t0, err := t0 } es = some v) :
    Inv k v (mem k pFb t0 es) t1 :=
  run_inv k pOn pFb es _ v _ t0 t1 (inv_init k t0) hc hn hv

end Ptusa.ValveMore
