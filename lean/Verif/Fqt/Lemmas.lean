import Verif.Fqt.Spec
import Verif.Debounce.Lemmas
import Verif.Counter.Lemmas
import Mathlib.Data.List.Induction

namespace Ptusa.Fqt

open Valve (Tm)

theorem calc_known (a : Acc) (ha : a.first = false) (n n' : Nat) (hl : a.last = reading n) (h1 : n ≤ n') (h2 : n' ≤ n + 301) :
    (a.calc (reading n')).1 = (n' - n) - (n' / 65536 - n / 65536) := by
  unfold Acc.calc reading at *
  simp only [ha, Bool.false_eq_true, if_false, hl]
  split
  · split
    · omega
    · omega
  · omega

theorem calc_val (a : Acc) (ha : a.first = false) (cur : Nat) (hv : a.val + (a.calc cur).1 ≤ 2 ^ 24) :
    (a.calc cur).2 = { val := a.val + (a.calc cur).1, last := cur, first := false } := by
  unfold Acc.calc at *
  simp only [ha, Bool.false_eq_true, if_false] at *
  generalize (if cur < a.last then
    if 65535 - a.last + cur > 300 ∧ cur < 65535 - a.last + cur then cur else 65535 - a.last + cur
    else cur - a.last) = d at *
  by_cases hd : d > 0
  · rw [if_pos hd, Counter.rnd_small hv]
  · have : d = 0 := by omega
    subst this
    simp

theorem baseState_keeps (i : In) (f : Fq) (r : Int × Fq) (h : f.baseState i = some r) :
    r.2.rel = f.rel ∧ r.2.abs = f.abs ∧ r.2.t1 = f.t1 ∧ r.2.t2 = f.t2 ∧ r.2.t1on = f.t1on ∧ r.2.t2on = f.t2on ∧
      r.2.p1 = f.p1 ∧ r.2.p2 = f.p2 ∧ r.2.day = f.day := by
  unfold Fq.baseState at h
  split at h
  · simp only [Option.some.injEq] at h; subst h; simp
  · simp only [Option.map_eq_some_iff] at h
    obtain ⟨q, _, h⟩ := h
    subst h
    split
    · simp
    · split
      · simp
      · split <;> simp

theorem getState_keeps (i : In) (f : Fq) (r : Int × Fq) (h : f.getState i = some r) :
    r.2.rel = f.rel ∧ r.2.abs = f.abs ∧ r.2.t1 = f.t1 ∧ r.2.t2 = f.t2 ∧ r.2.t1on = f.t1on ∧ r.2.t2on = f.t2on ∧
      r.2.p1 = f.p1 ∧ r.2.p2 = f.p2 ∧ r.2.day = f.day := by
  unfold Fq.getState at h
  split at h
  · simp only [Option.some.injEq] at h; subst h; simp
  · exact baseState_keeps i f r h

theorem eval_abs (i : In) (f g : Fq) (h : f.eval i = some g) : g.abs = (f.abs.calc i.raw).2 := by
  unfold Fq.eval at h
  simp only [Option.map_eq_some_iff] at h
  obtain ⟨⟨s, f'⟩, hs, h⟩ := h
  have hk := getState_keeps i f _ hs
  simp only at hk
  subst h
  simp only
  split <;> split <;> split <;> split <;> simp [hk.2.1]

/-- A call that leaves the absolute value. -/
def KeepsAbs : Ev → Prop
  | .absReset => False
  | _ => True

theorem step_abs (f g : Fq) (e : Ev) (hk : KeepsAbs e) (h : f.step e = some g) :
    g.abs = match e with | .eval i => (f.abs.calc i.raw).2 | _ => f.abs := by
  cases e with
  | eval i => exact eval_abs i f g h
  | ask i =>
    simp only [Fq.step, Option.map_eq_some_iff] at h
    obtain ⟨r, hr, rfl⟩ := h
    exact (getState_keeps i f r hr).2.1
  | pause => simp only [Fq.step, Option.some.injEq] at h; subst h; rfl
  | start raw =>
    simp only [Fq.step, Option.some.injEq] at h
    subst h
    unfold Fq.startIt
    split
    · rfl
    · split <;> rfl
  | reset => simp only [Fq.step, Option.some.injEq] at h; subst h; rfl
  | absReset => exact absurd hk (by simp [KeepsAbs])
  | daily n on => cases n <;> simp only [Fq.step, Option.some.injEq] at h <;> subst h <;> rfl

theorem slow_mono {a : Nat} {l : List Nat} (h : Slow (a :: l)) : a ≤ (a :: l).getLast (by simp) := by
  induction l generalizing a with
  | nil => simp
  | cons b l ih =>
    obtain ⟨h1, _, h3⟩ := h
    have := ih h3
    simp only [List.getLast_cons_cons]
    omega

theorem run_abs (es : List Ev) : ∀ (f g : Fq) (n0 : Nat) (ns : List Nat), (∀ e ∈ es, KeepsAbs e) → f.run es = some g →
    f.abs.first = false → f.abs.last = reading n0 → readings es = ns.map reading → Slow (n0 :: ns) →
    f.abs.val + ((n0 :: ns).getLast (by simp) - n0) ≤ 2 ^ 24 →
    g.abs.val = f.abs.val + (((n0 :: ns).getLast (by simp) - n0) - ((n0 :: ns).getLast (by simp) / 65536 - n0 / 65536)) ∧
    g.abs.first = false ∧ g.abs.last = reading ((n0 :: ns).getLast (by simp)) := by
  induction es with
  | nil =>
    intro f g n0 ns _ hr hf hl hrd hs hv
    simp only [Fq.run, Option.some.injEq] at hr
    subst hr
    have : ns = [] := by
      cases ns with
      | nil => rfl
      | cons a l => simp [readings] at hrd
    subst this
    simp [hf, hl]
  | cons e es ih =>
    intro f g n0 ns hk hr hf hl hrd hs hv
    simp only [Fq.run, Option.bind_eq_some_iff] at hr
    obtain ⟨f', hf', hr⟩ := hr
    have hab := step_abs f f' e (hk e (by simp)) hf'
    have hk' : ∀ e ∈ es, KeepsAbs e := fun x hx => hk x (by simp [hx])
    by_cases hev : ∃ i, e = .eval i
    · obtain ⟨i, rfl⟩ := hev
      cases ns with
      | nil => simp [readings] at hrd
      | cons n1 ns =>
        simp only [readings, List.filterMap_cons, List.map_cons, List.cons.injEq] at hrd
        obtain ⟨hraw, hrd⟩ := hrd
        obtain ⟨hs1, hs2, hs3⟩ := hs
        simp only at hab
        rw [hraw] at hab
        have hd := calc_known f.abs hf n0 n1 hl hs1 hs2
        have hm := slow_mono hs3
        have hlast : (n0 :: n1 :: ns).getLast (by simp) = (n1 :: ns).getLast (by simp) := by simp
        rw [hlast] at hv ⊢
        have hc := calc_val f.abs hf (reading n1) (by rw [hd]; omega)
        rw [hc, hd] at hab
        have := ih f' g n1 ns hk' hr (by rw [hab]) (by rw [hab]) hrd hs3 (by rw [hab]; simp only; omega)
        obtain ⟨r1, r2, r3⟩ := this
        refine ⟨?_, r2, r3⟩
        rw [r1, hab]
        simp only
        generalize (n1 :: ns).getLast (by simp) = z at *
        omega
    · have hab' : f'.abs = f.abs := by
        rw [hab]
        cases e with
        | eval i => exact absurd ⟨i, rfl⟩ hev
        | _ => rfl
      have hrd' : readings es = ns.map reading := by
        rw [← hrd]
        cases e with
        | eval i => exact absurd ⟨i, rfl⟩ hev
        | _ => rfl
      have := ih f' g n0 ns hk' hr (by rw [hab', hf]) (by rw [hab', hl]) hrd' hs (by rw [hab']; exact hv)
      rw [hab'] at this
      exact this

/-! ### Relative value -/

theorem eval_plain (f : Fq) (now : Tm) (raw : Nat) (day : Int) :
    ∃ g, f.eval { now := now, raw := raw, yday := day } = some g ∧ g.state = f.state ∧
      g.rel = if f.state = 1 then (f.rel.calc raw).2 else f.rel := by
  refine ⟨_, rfl, ?_, ?_⟩
  · simp only
    split <;> split <;> split <;> split <;> rfl
  · simp only
    by_cases hs : f.state = 1
    · simp only [hs, if_true]
      split <;> split <;> split <;> rfl
    · simp only [hs, if_false]
      split <;> split <;> split <;> rfl

theorem run_rel (now : Nat → Tm) (day : Nat → Int) (us : List Use) : ∀ (k : Nat) (f : Fq) (w : Bool) (last v : Nat),
    f.state = (if w then 1 else 2) → f.rel.first = false → (w = true → f.rel.last = reading last) → f.rel.val = v →
    Gentle w last us → (∀ a b, us = a ++ b → counted w last v a ≤ 2 ^ 24) →
    ∃ g, f.run (us.mapIdx (fun j u => u.toEv now day (k + j))) = some g ∧ g.rel.val = counted w last v us := by
  induction us with
  | nil =>
    intro k f w last v _ _ _ hv _ _
    exact ⟨f, rfl, hv⟩
  | cons u us ih =>
    intro k f w last v hst hf hl hv hg hb
    have hidx : (u :: us).mapIdx (fun j u => u.toEv now day (k + j)) =
        u.toEv now day k :: us.mapIdx (fun j u => u.toEv now day (k + 1 + j)) := by
      rw [List.mapIdx_cons]
      congr 1
      apply List.ext_getElem
      · simp
      · intro j h1 h2
        simp only [List.getElem_mapIdx]
        congr 1
        omega
    rw [hidx]
    simp only [Fq.run]
    cases u with
    | cycle n =>
      obtain ⟨g, hg1, hg2, hg3⟩ := eval_plain f (now k) (reading n) (day k)
      simp only [Use.toEv, Fq.step, hg1, Option.bind_some]
      obtain ⟨hgen, hrest⟩ := hg
      have hcnt : ∀ a b, us = a ++ b → counted w n (if w then v + (n - last) else v) a ≤ 2 ^ 24 := by
        intro a b hab
        have := hb (.cycle n :: a) b (by rw [hab]; rfl)
        simpa [counted] using this
      have h0 := hcnt [] us rfl
      simp only [counted] at h0
      cases w with
      | true =>
        obtain ⟨hle, hdiv⟩ := hgen rfl
        simp only [if_true] at hst h0
        have hl' := hl rfl
        have hd : (f.rel.calc (reading n)).1 = n - last := by
          unfold Acc.calc reading at *
          simp only [hf, Bool.false_eq_true, if_false, hl']
          split
          · omega
          · omega
        have hc := calc_val f.rel hf (reading n) (by rw [hd, hv]; exact h0)
        rw [if_pos hst, hc, hd, hv] at hg3
        exact ih (k + 1) g true n (v + (n - last)) (by rw [hg2, hst]; rfl) (by rw [hg3]) (fun _ => by rw [hg3])
          (by rw [hg3]) hrest (by simpa using hcnt)
      | false =>
        simp only [Bool.false_eq_true, if_false] at hst
        rw [if_neg (by rw [hst]; decide)] at hg3
        exact ih (k + 1) g false n v (by rw [hg2, hst]; rfl) (by rw [hg3, hf]) (fun h => by simp at h) (by rw [hg3, hv])
          hrest (by simpa using hcnt)
    | pause =>
      simp only [Use.toEv, Fq.step, Option.bind_some]
      exact ih (k + 1) f.pause false last v rfl hf (fun h => by simp at h) hv hg
        (fun a b hab => by have := hb (.pause :: a) b (by rw [hab]; rfl); simpa [counted] using this)
    | start n =>
      simp only [Use.toEv, Fq.step, Option.bind_some]
      cases w with
      | true =>
        simp only [if_true] at hst
        have he : f.startIt (reading n) = f := by
          unfold Fq.startIt
          rw [if_neg (by rw [hst]; decide), if_neg (by rw [hst]; decide)]
        rw [he]
        exact ih (k + 1) f true last v (by rw [hst]; rfl) hf hl hv hg
          (fun a b hab => by have := hb (.start n :: a) b (by rw [hab]; rfl); simpa [counted] using this)
      | false =>
        simp only [Bool.false_eq_true, if_false] at hst
        have he : f.startIt (reading n) =
            { f with state := 1, rel := { f.rel with last := reading n }, start := 0 } := by
          unfold Fq.startIt
          rw [if_pos hst]
        rw [he]
        exact ih (k + 1) _ true n v rfl hf (fun _ => rfl) hv hg
          (fun a b hab => by have := hb (.start n :: a) b (by rw [hab]; rfl); simpa [counted] using this)
    | reset =>
      simp only [Use.toEv, Fq.step, Option.bind_some]
      exact ih (k + 1) f.reset w last 0 hst hf hl rfl hg
        (fun a b hab => by have := hb (.reset :: a) b (by rw [hab]; rfl); simpa [counted] using this)

/-! ### Supervision -/

theorem run_snoc (es : List Ev) : ∀ (f : Fq) (e : Ev), f.run (es ++ [e]) = (f.run es).bind fun g => g.step e := by
  induction es with
  | nil => intro f e; simp [Fq.run]
  | cons a es ih =>
    intro f e
    simp only [List.cons_append, Fq.run]
    cases f.step a with
    | none => rfl
    | some g => simp [ih]

/-- What a look does to the fields of supervision. -/
structure Sup where
  state : Int
  start : BitVec 32
  prev : Nat
  deriving DecidableEq

def sup (f : Fq) : Sup := ⟨f.state, f.start, f.prev⟩

theorem getState_bad (i : In) (f : Fq) (hc : i.chan ≠ 0) : f.getState i = some (i.chan, f) := by
  unfold Fq.getState; rw [if_pos hc]

theorem getState_idle (i : In) (f : Fq) (hc : i.chan = 0) (ha : ¬ Active i) :
    f.getState i = some (f.state, { f with start := 0 }) := by
  unfold Fq.getState Fq.baseState
  rw [if_neg (by simp [hc]), if_pos]
  unfold Active at ha
  by_cases h1 : i.pump = some false
  · left; exact h1
  · right
    by_contra h2
    exact ha ⟨h1, by simpa using h2⟩

theorem getState_active (i : In) (f : Fq) (hc : i.chan = 0) (ha : Active i) :
    f.getState i = f.absQuantity.map fun q =>
      if f.state = 2 ∨ f.start = 0 then (f.state, { f with start := i.now.truncate 32, prev := q })
      else if q ≠ f.prev then (1, { f with start := i.now.truncate 32, prev := q, state := 1 })
      else if (Time.deltaMs i.now (f.start.zeroExtend 64)).toNat < i.dt then (f.state, f)
      else (-10, { f with state := -10 }) := by
  unfold Fq.getState Fq.baseState
  rw [if_neg (by simp [hc]), if_neg]
  intro h
  rcases h with h | h
  · exact ha.1 h
  · rw [ha.2] at h; simp at h

theorem eval_sup (i : In) (f g : Fq) (h : f.eval i = some g) : ∃ r, f.getState i = some r ∧ sup g = sup r.2 := by
  unfold Fq.eval at h
  simp only [Option.map_eq_some_iff] at h
  obtain ⟨⟨s, f'⟩, hs, h⟩ := h
  refine ⟨_, hs, ?_⟩
  subst h
  simp only
  split <;> split <;> split <;> split <;> rfl

/-- A step is a look, or an event of another kind. -/
theorem step_sup (f g : Fq) (e : Ev) (h : f.step e = some g) :
    (∃ i, look e = some i ∧ ∃ r, f.getState i = some r ∧ sup g = sup r.2) ∨
    (look e = none ∧ (sup g = sup f ∨ (e = .pause ∧ sup g = { sup f with state := 2 }) ∨
      (∃ raw, e = .start raw) ∧ (sup g = sup f ∨ sup g = { sup f with state := 1, start := 0 }))) := by
  cases e with
  | eval i =>
    by_cases hc : i.chan = 0
    · left
      exact ⟨i, by simp [look, hc], eval_sup i f g h⟩
    · right
      refine ⟨by simp [look, hc], Or.inl ?_⟩
      obtain ⟨r, hr, hs⟩ := eval_sup i f g h
      rw [getState_bad i f hc, Option.some.injEq] at hr
      rw [hs, ← hr]
  | ask i =>
    simp only [Fq.step, Option.map_eq_some_iff] at h
    obtain ⟨r, hr, rfl⟩ := h
    by_cases hc : i.chan = 0
    · left
      exact ⟨i, by simp [look, hc], r, hr, rfl⟩
    · right
      refine ⟨by simp [look, hc], Or.inl ?_⟩
      rw [getState_bad i f hc, Option.some.injEq] at hr
      rw [← hr]
  | pause =>
    right
    simp only [Fq.step, Option.some.injEq] at h
    subst h
    exact ⟨rfl, Or.inr (Or.inl ⟨rfl, rfl⟩)⟩
  | start raw =>
    right
    simp only [Fq.step, Option.some.injEq] at h
    subst h
    refine ⟨rfl, Or.inr (Or.inr ⟨⟨raw, rfl⟩, ?_⟩)⟩
    unfold Fq.startIt
    split
    · right; rfl
    · split
      · right; rfl
      · left; rfl
  | reset =>
    right
    simp only [Fq.step, Option.some.injEq] at h
    subst h
    exact ⟨rfl, Or.inl rfl⟩
  | absReset =>
    right
    simp only [Fq.step, Option.some.injEq] at h
    subst h
    exact ⟨rfl, Or.inl rfl⟩
  | daily n on =>
    right
    cases n <;> simp only [Fq.step, Option.some.injEq] at h <;> subst h <;> exact ⟨rfl, Or.inl rfl⟩

theorem absQuantity_some {f : Fq} {q : Nat} (h : f.absQuantity = some q) : f.abs.val = q := by
  unfold Fq.absQuantity at h
  split at h
  · exact Option.some.inj h
  · exact absurd h (by simp)

/-- Since the look `i0` after `pre`, every look was active and saw the value kept. -/
def Since (f0 : Fq) (pre : List Ev) (i0 : In) (e0 : Ev) (post : List Ev) (q : Nat) : Prop :=
  look e0 = some i0 ∧ Active i0 ∧ absAfter f0 pre = some q ∧
    ∀ a x b i, post = a ++ x :: b → look x = some i → Active i ∧ absAfter f0 (pre ++ e0 :: a) = some q

theorem since_snoc {f0 : Fq} {pre : List Ev} {i0 : In} {e0 : Ev} {post : List Ev} {q : Nat}
    (h : Since f0 pre i0 e0 post q) (e : Ev)
    (he : ∀ i, look e = some i → Active i ∧ absAfter f0 (pre ++ e0 :: post) = some q) :
    Since f0 pre i0 e0 (post ++ [e]) q := by
  obtain ⟨h1, h2, h3, h4⟩ := h
  refine ⟨h1, h2, h3, ?_⟩
  intro a x b i heq hl
  rcases List.eq_nil_or_concat b with rfl | ⟨b', y, rfl⟩
  · have := List.append_inj' heq rfl
    obtain ⟨rfl, hx⟩ := this
    simp only [List.cons.injEq, and_true] at hx
    subst hx
    exact he i hl
  · rw [List.concat_eq_append, ← List.cons_append, ← List.append_assoc] at heq
    have := List.append_inj' heq rfl
    exact h4 a x b' i this.1 hl

theorem sup_run (f0 : Fq) (h0 : f0.start = 0) (es : List Ev) : ∀ (f : Fq) (now : Tm), f0.run es = some f → Early es now →
    f.start = 0 ∨ ∃ pre e0 post i0, es = pre ++ e0 :: post ∧ i0.now.toNat = f.start.toNat ∧
      Since f0 pre i0 e0 post f.prev := by
  induction es using List.reverseRecOn with
  | nil =>
    intro f now hr _
    simp only [Fq.run, Option.some.injEq] at hr
    subst hr
    exact Or.inl h0
  | append_singleton es e ih =>
    intro g now hr he
    have hrun := hr
    rw [run_snoc, Option.bind_eq_some_iff] at hr
    obtain ⟨f, hf, hst⟩ := hr
    have hpw := List.pairwise_append.mp he.1
    have hprev := ih f now hf ⟨hpw.1, fun x hx => he.2.1 x (by simp [hx]), he.2.2⟩
    have hnew : ∀ i q, look e = some i → Active i → f.absQuantity = some q → g.start = i.now.truncate 32 → g.prev = q →
        ∃ pre e0 post i0, es ++ [e] = pre ++ e0 :: post ∧ i0.now.toNat = g.start.toNat ∧
          Since f0 pre i0 e0 post g.prev := by
      intro i q hl ha hq hs hp
      refine ⟨es, e, [], i, rfl, ?_, hl, ha, ?_, ?_⟩
      · rw [hs, Debounce.trunc_toNat]
        have := (he.2.1 e (by simp) i hl).2
        have := he.2.2
        omega
      · rw [absAfter, hf, Option.map_some, absQuantity_some hq, hp]
      · intro a x b i heq; simp at heq
    have hold : (∀ i, look e = some i → Active i ∧ f.abs.val = f.prev) → g.start = f.start → g.prev = f.prev →
        g.start = 0 ∨ ∃ pre e0 post i0, es ++ [e] = pre ++ e0 :: post ∧ i0.now.toNat = g.start.toNat ∧
          Since f0 pre i0 e0 post g.prev := by
      intro hl hs hp
      rcases hprev with hz | ⟨pre, e0, post, i0, rfl, ht, hsi⟩
      · left; rw [hs, hz]
      · right
        refine ⟨pre, e0, post ++ [e], i0, by simp, by rw [hs, ht], ?_⟩
        rw [hp]
        refine since_snoc hsi e ?_
        intro i hi
        refine ⟨(hl i hi).1, ?_⟩
        rw [absAfter, hf, Option.map_some, (hl i hi).2]
    have hsup : ∀ a b : Fq, sup a = sup b → a.state = b.state ∧ a.start = b.start ∧ a.prev = b.prev := by
      intro a b hab
      simp only [sup, Sup.mk.injEq] at hab
      exact hab
    rcases step_sup f g e hst with ⟨i, hl, r, hgs, hs⟩ | ⟨hl, hs⟩
    · obtain ⟨_, s2, s3⟩ := hsup _ _ hs
      have hc : i.chan = 0 := by
        cases e <;> simp only [look] at hl
        case eval j => split at hl; · rename_i hj; rw [← Option.some.inj hl]; exact hj
                       · exact absurd hl (by simp)
        case ask j => split at hl; · rename_i hj; rw [← Option.some.inj hl]; exact hj
                      · exact absurd hl (by simp)
        all_goals exact absurd hl (by simp)
      by_cases ha : Active i
      · rw [getState_active i f hc ha, Option.map_eq_some_iff] at hgs
        obtain ⟨q, hq, hr⟩ := hgs
        by_cases h1 : f.state = 2 ∨ f.start = 0
        · rw [if_pos h1] at hr
          right
          exact hnew i q hl ha hq (by rw [s2, ← hr]) (by rw [s3, ← hr])
        · rw [if_neg h1] at hr
          by_cases h2 : q ≠ f.prev
          · rw [if_pos h2] at hr
            right
            exact hnew i q hl ha hq (by rw [s2, ← hr]) (by rw [s3, ← hr])
          · rw [if_neg h2] at hr
            have h2' : q = f.prev := by simpa using h2
            refine hold ?_ ?_ ?_
            · intro j hj
              rw [hl, Option.some.injEq] at hj
              subst hj
              exact ⟨ha, by rw [absQuantity_some hq, h2']⟩
            · rw [s2, ← hr]; split <;> rfl
            · rw [s3, ← hr]; split <;> rfl
      · rw [getState_idle i f hc ha, Option.some.injEq] at hgs
        left
        rw [s2, ← hgs]
    · rcases hs with hs | ⟨_, hs⟩ | ⟨_, hs | hs⟩
      · obtain ⟨_, s2, s3⟩ := hsup _ _ hs
        exact hold (fun i hi => by rw [hl] at hi; exact absurd hi (by simp)) s2 s3
      · have s2 : g.start = f.start := congrArg Sup.start hs
        have s3 : g.prev = f.prev := congrArg Sup.prev hs
        exact hold (fun i hi => by rw [hl] at hi; exact absurd hi (by simp)) s2 s3
      · obtain ⟨_, s2, s3⟩ := hsup _ _ hs
        exact hold (fun i hi => by rw [hl] at hi; exact absurd hi (by simp)) s2 s3
      · left
        exact congrArg Sup.start hs

end Ptusa.Fqt
