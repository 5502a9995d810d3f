import Verif.Cip.Lemmas

/-!
# Invariants of the station
-/
namespace Ptusa.Cip

variable {n : Nat}

/-- An invariant of single lines holds after every history when it holds at the start and all events keep it. -/
theorem run_inv (c : Cfg) (P : Sys n → Ev n → Prop) (Q : Sys n → Prop)
    (hstep : ∀ s e s', P s e → Q s → c.step s e = some s' → Q s') :
    ∀ (es : List (Ev n)) (s s' : Sys n), Along c P s es → Q s → c.run s es = some s' → Q s'
  | [], s, s', _, hq, h => by
    simp only [Cfg.run] at h
    injection h with h
    subst h
    exact hq
  | e :: es, s, s', hp, hq, h => by
    simp only [Cfg.run] at h
    obtain ⟨t, ht, h⟩ := Option.bind_eq_some_iff.1 h
    exact run_inv c P Q hstep es t s' (hp.2 t ht) (hstep s e t hp.1 hq ht) h

theorem Along.true (c : Cfg) : ∀ (es : List (Ev n)) (s : Sys n), Along c (fun _ _ => True) s es
  | [], _ => True.intro
  | _ :: es, _ => ⟨True.intro, fun _ _ => Along.true c es _⟩

theorem Along.and {c : Cfg} {P Q : Sys n → Ev n → Prop} : ∀ {es : List (Ev n)} {s : Sys n}, Along c P s es →
    Along c Q s es → Along c (fun s e => P s e ∧ Q s e) s es
  | [], _, _, _ => True.intro
  | _ :: _, _, hp, hq => ⟨⟨hp.1, hq.1⟩, fun t ht => Along.and (hp.2 t ht) (hq.2 t ht)⟩

theorem Along.append {c : Cfg} {P : Sys n → Ev n → Prop} : ∀ {es fs : List (Ev n)} {s : Sys n}, Along c P s (es ++ fs) →
    Along c P s es ∧ ∀ t, c.run s es = some t → Along c P t fs
  | [], _, s, h => ⟨True.intro, fun t ht => by
      simp only [Cfg.run] at ht
      injection ht with ht
      subst ht
      exact h⟩
  | e :: es, fs, s, h => by
    refine ⟨⟨h.1, fun t ht => (Along.append (h.2 t ht)).1⟩, fun t ht => ?_⟩
    simp only [Cfg.run] at ht
    obtain ⟨u, hu, ht⟩ := Option.bind_eq_some_iff.1 ht
    exact (Along.append (h.2 u hu)).2 t ht

theorem run_append (c : Cfg) : ∀ (es fs : List (Ev n)) (s : Sys n), c.run s (es ++ fs) = (c.run s es).bind (c.run · fs)
  | [], _, _ => rfl
  | e :: es, fs, s => by
    simp only [List.cons_append, Cfg.run]
    cases c.step s e with
    | none => rfl
    | some t => exact run_append c es fs t

/-! ## Single lines -/

structure Wf (l : Line) : Prop where
  known : l.curstep ∈ knownSteps
  zero : l.state = 0 → l.curstep = 0
  lock : l.blocked = true ↔ l.state = lockedState
  acid : l.state = errAcid → l.curstep = 0

theorem code_range (x : StepErr) : x.code < 0 ∧ x.code ≠ lockedState ∧ x.code ≠ errAcid ∧ x.code ≠ errConflict ∧
    x.code ≠ errWrongOs := by
  cases x <;> decide

theorem goTo_known (l : Line) (p : Int) (o : Opt) (h : l.curstep ∈ knownSteps) (h5 : l.curstep ≠ 555) :
    (l.goTo p o).curstep ∈ knownSteps := by
  simp only [Line.goTo]
  split
  next y hy => exact (within_known _ _ _ _ h h5 y hy).1
  next => exact start_known _ _ _

theorem Wf.block {l : Line} (h : Wf l) : Wf l.block := by
  rcases block_cases l with ⟨hb, -⟩ | ⟨-, hb⟩ | ⟨h0, h1, h2, -⟩
  · rw [hb]; exact h
  · rw [hb]
    refine ⟨h.known, fun h0 => ?_, ?_, fun ha => ?_⟩
    · by_cases hc : 0 < l.curstep
      · simp [hc] at h0
      · have hk := h.known
        have : ∀ x ∈ knownSteps, 0 ≤ x := by decide +kernel
        have := this _ hk
        simp only
        omega
    · by_cases hc : 0 < l.curstep <;> simp [hc, lockedState]
    · by_cases hc : 0 < l.curstep <;> simp [hc, errAcid] at ha
  · refine ⟨by rw [h2]; exact h.known, fun hz => ?_, by simp [h0, h1], fun ha => ?_⟩
    · rw [h1] at hz; exact absurd hz (by decide)
    · rw [h1] at ha; exact absurd ha (by decide)

theorem Wf.act {c : Cfg} {s s' : Sys n} {i : Fin n} {e : Env} {l : Line} (h : Wf l) (hb : l.blocked = false)
    (ha : Act c s i e l s') : Wf (s'.line i) ∧ (s'.line i).blocked = false := by
  have hl : l.state ≠ lockedState := fun x => by rw [h.lock.2 x] at hb; cases hb
  have hk := h.known
  cases ha
  case idle => simp only [put_self]; exact ⟨⟨h.known, h.zero, h.lock, h.acid⟩, hb⟩
  case next h1 h2 h3 =>
    simp only [put_self]
    exact ⟨⟨by simpa using goTo_known l 0 e.opt hk h3, by simp, by simp [hb, lockedState], by simp [errAcid]⟩, by simp [hb]⟩
  case pause => exact ⟨⟨by simpa using hk, by simp, by simp [hb, lockedState], by simp [errAcid]⟩, by simp [hb]⟩
  case reset => exact ⟨⟨by simp only [put_self, initStep_curstep]; decide +kernel, by simp, by simp [hb, lockedState], by simp [errAcid]⟩, by simp [hb]⟩
  case forget h1 h2 => simp only [put_self]; exact ⟨⟨h.known, h.zero, h.lock, h.acid⟩, hb⟩
  case wrongOs => exact ⟨⟨by simpa using hk, by simp [errWrongOs], by simp [hb, lockedState, errWrongOs], by simp [errAcid, errWrongOs]⟩, by simp [hb]⟩
  case resume => exact ⟨⟨by simpa using hk, by simp, by simp [hb, lockedState], by simp [errAcid]⟩, by simp [hb]⟩
  case noSwitch => simp only [put_self]; exact ⟨⟨h.known, h.zero, h.lock, h.acid⟩, hb⟩
  case conflict => exact ⟨⟨by simpa using hk, by simp [errConflict], by simp [hb, lockedState, errConflict], by simp [errAcid, errConflict]⟩, by simp [hb]⟩
  case startWrong => exact ⟨⟨by simpa using hk, by simp [errWrongOs], by simp [hb, lockedState, errWrongOs], by simp [errAcid, errWrongOs]⟩, by simp [hb]⟩
  case startAcid ht _ _ _ => exact ⟨⟨by simpa using hk, by simp [errAcid], by simp [hb, lockedState, errAcid], by simpa [errAcid] using h.zero ht.state⟩, by simp [hb]⟩
  case started outs l' ht h1 h2 h3 h4 h5 =>
    have h6 : l'.state = 1 ∧ l'.blocked = false ∧ l'.curstep ∈ knownSteps := by
      rw [h5]
      split
      · exact ⟨rfl, hb, start_known _ _ _⟩
      · exact ⟨rfl, hb, hk⟩
    exact ⟨⟨by simpa using h6.2.2, by simp [h6.1], by simp [h6.1, h6.2.1, lockedState], by simp [h6.1, errAcid]⟩, by simp [h6.2.1]⟩
  case ret b h1 h2 => exact ⟨⟨by simpa using hk, by simpa using h.zero, by simpa using h.lock, by simpa using h.acid⟩, by simp [hb]⟩
  case go => simp only [put_self]; exact ⟨⟨h.known, h.zero, h.lock, h.acid⟩, hb⟩
  case done v p r x l1 l' h1 h2 h3 h4 h5 h6 =>
    have h7 : l'.core = (l1.goTo x e.opt).core := by
      rw [h6]
      split
      · simp
      · rfl
    have e1 : l'.state = l.state := (congrArg Core.state h7).trans (by rw [h5]; simp [Line.core])
    have e2 : l'.blocked = false := (congrArg Core.blocked h7).trans (by rw [h5]; simp [Line.core, hb])
    have e3 : l'.curstep ∈ knownSteps := by
      have : l'.curstep = (l1.goTo x e.opt).curstep := congrArg Core.curstep h7
      rw [this]
      exact goTo_known l1 x e.opt (by rw [h5]; exact hk) (by rw [h5]; exact h3)
    simp only [put_self]
    exact ⟨⟨e3, fun z => by omega, by rw [e2, e1]; simp [hl], fun z => by rw [e1] at z; rw [z] at h2; exact absurd h2 (by decide)⟩, e2⟩
  case fail v p r x h1 h2 h3 =>
    have := code_range x
    exact ⟨⟨by simpa using hk, by simp; omega, by simp [hb, this.2.1], by simp [this.2.2.1]⟩, by simp [hb]⟩
  case finish outs h1 h2 h3 h4 =>
    exact ⟨⟨by simp only [put_self]; decide +kernel, by simp, by simp [hb, lockedState], by simp [errAcid]⟩, by simp [hb]⟩
  case auto => exact ⟨⟨by simpa using hk, by simp, by simp [hb, lockedState], by simp [errAcid]⟩, by simp [hb]⟩

/-- Events of a line leave the other ones alone. -/
theorem Act.other {c : Cfg} {s s' : Sys n} {i j : Fin n} {e : Env} {l : Line} (ha : Act c s i e l s') (h : j ≠ i) :
    s'.line j = s.line j := by
  cases ha <;> simp [h]

/-- The line of an event. -/
def Ev.line : Ev n → Fin n
  | .cmd i _ | .cycle i _ | .select i _ | .program i _ | .edit i _ _ _ => i

theorem step_other {c : Cfg} {s s' : Sys n} {e : Ev n} (h : c.step s e = some s') {j : Fin n} (hj : j ≠ e.line) :
    s'.line j = s.line j := by
  cases e with
  | cmd i x => simp only [Cfg.step, Option.some.injEq] at h; subst h; exact put_ne _ _ hj
  | cycle i e =>
    rcases evaluate_act c s s' i e h with ⟨-, rfl⟩ | ⟨-, ha⟩
    · exact put_ne _ _ hj
    · exact ha.other hj
  | select i r =>
    simp only [Cfg.step] at h
    split at h
    · injection h with h; subst h; rfl
    · split at h
      · injection h with h; subst h; exact put_ne _ _ hj
      · cases h
  | program i p => simp only [Cfg.step, Option.some.injEq] at h; subst h; exact put_ne _ _ hj
  | edit i r k v => simp only [Cfg.step, Option.some.injEq] at h; subst h; exact put_ne _ _ hj

theorem Wf.step {c : Cfg} {s s' : Sys n} {e : Ev n} (hw : ∀ i, Wf (s.line i)) (h : c.step s e = some s') :
    ∀ i, Wf (s'.line i) := by
  intro j
  by_cases hj : j = e.line
  · subst hj
    have hl := hw e.line
    cases e with
    | cmd i x => simp only [Cfg.step, Option.some.injEq] at h; subst h; rw [Ev.line, put_self]; exact ⟨hl.known, hl.zero, hl.lock, hl.acid⟩
    | cycle i e =>
      rcases evaluate_act c s s' i e h with ⟨-, rfl⟩ | ⟨hb, ha⟩
      · rw [Ev.line, put_self]; exact hl.block
      · exact (hl.block.act hb ha).1
    | select i r =>
      simp only [Cfg.step] at h
      split at h
      · injection h with h; subst h; exact hl
      · split at h
        · injection h with h; subst h; rw [Ev.line, put_self]; exact ⟨hl.known, hl.zero, hl.lock, hl.acid⟩
        · cases h
    | program i p => simp only [Cfg.step, Option.some.injEq] at h; subst h; rw [Ev.line, put_self]; exact ⟨hl.known, hl.zero, hl.lock, hl.acid⟩
    | edit i r k v => simp only [Cfg.step, Option.some.injEq] at h; subst h; rw [Ev.line, put_self]; exact ⟨hl.known, hl.zero, hl.lock, hl.acid⟩
  · rw [step_other h hj]; exact hw j

theorem wf_initial (vals : Fin n → Nat → Nat → Rat) (outs : Nat → Bool) (i : Fin n) : Wf ((initial vals outs).line i) :=
  ⟨by simp only [initial]; decide +kernel, fun _ => rfl, by simp [initial, lockedState], by simp [initial]⟩

end Ptusa.Cip
