import Verif.Cip.Visit

/-!
# Lemmas on self-cleaning and on the acid wash
-/
namespace Ptusa.Cip

variable {n : Nat}

/-! ## Steps of a part -/

theorem nextBit_test (p : Nat) : ∀ k j : Nat, nextBit p k = j → p.testBit j = true
  | 0, j, h => by
    simp only [nextBit] at h
    split at h
    next hb => obtain rfl : j = 0 := by omega
               exact hb
    next => omega
  | k + 1, j, h => by
    simp only [nextBit] at h
    split at h
    next hb => obtain rfl : j = k + 1 := by omega
               exact hb
    next => exact nextBit_test p k j h

theorem nextPrg_test (b : Int) (p j : Nat) (h : nextPrg b p = j) : p.testBit j = true := by
  simp only [nextPrg] at h
  generalize (if b < 0 then 15 else b - 1 : Int) = t at h
  split at h
  · exact nextBit_test _ _ _ h
  · omega

theorem start_self (b : Int) (p : Nat) (o : Opt) (h : b ≠ 11) : startStep b p o ∉ List.map (Int.ofNat) (List.range' 151 38) := by
  have : startStep b p o ∈ ([5, 10, 22, 42, 61, 71, 91, 83, 81, 105, 115, 300, 555] : List Int) := by
    unfold startStep
    rw [if_neg h]
    repeat' apply ite_mem
    all_goals decide +kernel
  revert this
  generalize startStep b p o = x
  intro hx
  revert x
  decide +kernel

theorem start_caustic (b : Int) (p : Nat) (o : Opt) (h : b ≠ 5) (h' : b ≠ 3) : ¬ (22 ≤ startStep b p o ∧ startStep b p o ≤ 40) := by
  have : startStep b p o ∈ ([5, 10, 42, 61, 71, 91, 83, 81, 105, 115, 151, 300, 555] : List Int) := by
    unfold startStep
    rw [if_neg h, if_neg h']
    repeat' apply ite_mem
    all_goals decide +kernel
  revert this
  generalize startStep b p o = x
  intro hx
  revert x
  decide +kernel

theorem succ_self : ∀ x ∈ knownSteps, ∀ q : Bool, x ≠ 555 → ∀ y ∈ (succ x q).toList,
    (151 ≤ y ∧ y ≤ 188 → 151 ≤ x ∧ x ≤ 188) ∧ (22 ≤ y ∧ y ≤ 40 → 22 ≤ x ∧ x ≤ 40) := by
  decide +kernel

/-- The step belongs to a part of the program. -/
structure Belongs (l : Line) : Prop where
  self : 151 ≤ l.curstep ∧ l.curstep ≤ 188 → l.prog.testBit 11 = true
  caustic : 22 ≤ l.curstep ∧ l.curstep ≤ 40 → l.prog.testBit 5 = true ∨ l.prog.testBit 3 = true

theorem load_belongs (l : Line) (o : Opt) : Belongs (l.load o) := by
  constructor
  · intro h
    by_contra hb
    have h11 : nextPrg l.curprg l.prog ≠ 11 := fun z => hb (nextPrg_test l.curprg l.prog 11 z)
    refine start_self _ l.prog o h11 ?_
    simp only [List.mem_map, List.mem_range'_1]
    exact ⟨(startStep (nextPrg l.curprg l.prog) l.prog o).toNat, by simp only [Line.load] at h; omega,
      by simp only [Line.load] at h; simp; omega⟩
  · intro h
    by_contra hb
    rw [not_or] at hb
    exact start_caustic _ l.prog o (fun z => hb.1 (nextPrg_test l.curprg l.prog 5 z))
      (fun z => hb.2 (nextPrg_test l.curprg l.prog 3 z)) h

theorem goTo_belongs (l : Line) (q : Int) (o : Opt) (hk : l.curstep ∈ knownSteps) (h5 : l.curstep ≠ 555) (h : Belongs l) :
    Belongs (l.goTo q o) := by
  simp only [Line.goTo, within]
  split
  next y hy =>
    obtain ⟨a, b⟩ := succ_self _ hk _ h5 y (by rw [hy]; simp)
    exact ⟨fun z => h.self (a z), fun z => h.caustic (b z)⟩
  next => exact load_belongs l o

theorem belongs_of {l l' : Line} (h : Belongs l) (h1 : l'.curstep = l.curstep) (h2 : l'.prog = l.prog) : Belongs l' :=
  ⟨by rw [h1, h2]; exact h.self, by rw [h1, h2]; exact h.caustic⟩

theorem belongs_zero {l : Line} (h : l.curstep = 0) : Belongs l := ⟨fun z => by omega, fun z => by omega⟩

theorem Belongs.act {c : Cfg} {s s' : Sys n} {i : Fin n} {e : Env} {l : Line} (hw : Wf l) (h : Belongs l)
    (ha : Act c s i e l s') : Belongs (s'.line i) := by
  cases ha
  case next h1 h2 h3 =>
    rw [put_self]
    exact belongs_of (goTo_belongs l 0 e.opt hw.known h3 h) (by simp) (by simp)
  case reset => rw [put_self]; exact ⟨fun z => by simp at z, fun z => by simp at z⟩
  case forget h1 h2 => rw [put_self]; exact belongs_zero (hw.zero h2)
  case started outs l' ht h1 h2 h3 h4 h5 =>
    have : Belongs l' := by
      rw [h5]
      split
      · exact load_belongs _ _
      · exact belongs_of h rfl rfl
    simp only [put_self]
    exact belongs_of this (by simp) (by simp)
  case done v q r x l1 l' h1 h2 h3 h4 h5 h6 =>
    have h7 : l'.core = (l1.goTo x e.opt).core := by
      rw [h6]
      split
      · simp
      · rfl
    rw [put_self]
    refine belongs_of (goTo_belongs l1 x e.opt (by rw [h5]; exact h4) (by rw [h5]; exact h3) ?_) (congrArg Core.curstep h7)
      (congrArg Core.prog h7)
    rw [h5]
    exact belongs_of h rfl rfl
  case finish => simp only [put_self]; exact belongs_zero rfl
  all_goals
    simp only [put_self]
    exact belongs_of h (by simp) (by simp)

/-! ## Events of one line -/

theorem step_line {c : Cfg} {s s' : Sys n} {ev : Ev n} (hs : c.step s ev = some s') :
    (∃ i e, ev = .cycle i e ∧ (((s.line i).block.blocked = true ∧ s' = s.put i (s.line i).block) ∨
      ((s.line i).block.blocked = false ∧ Act c s i e (s.line i).block s'))) ∨
    (∃ i p, ev = .program i p ∧ s' = s.put i { s.line i with prog := p }) ∨
    ∃ l, s' = s.put ev.line l ∧ l.state = (s.line ev.line).state ∧ l.curstep = (s.line ev.line).curstep ∧
      l.prog = (s.line ev.line).prog ∧ l.blocked = (s.line ev.line).blocked ∧ l.conflict = (s.line ev.line).conflict := by
  cases ev with
  | cmd i x =>
    simp only [Cfg.step, Option.some.injEq] at hs; subst hs
    exact Or.inr (Or.inr ⟨_, rfl, rfl, rfl, rfl, rfl, rfl⟩)
  | cycle i e =>
    refine Or.inl ⟨i, e, rfl, ?_⟩
    rcases evaluate_act c s s' i e hs with ⟨hb, rfl⟩ | ⟨hb, ha⟩
    · exact Or.inl ⟨hb, rfl⟩
    · exact Or.inr ⟨hb, ha⟩
  | select i r =>
    simp only [Cfg.step] at hs
    refine Or.inr (Or.inr ?_)
    split at hs
    · injection hs with hs; subst hs
      exact ⟨s.line i, by simp [Sys.put, Ev.line], rfl, rfl, rfl, rfl, rfl⟩
    · split at hs
      · injection hs with hs; subst hs; exact ⟨_, rfl, rfl, rfl, rfl, rfl, rfl⟩
      · cases hs
  | program i p =>
    simp only [Cfg.step, Option.some.injEq] at hs; subst hs
    exact Or.inr (Or.inl ⟨i, p, rfl, rfl⟩)
  | edit i r k v =>
    simp only [Cfg.step, Option.some.injEq] at hs; subst hs
    exact Or.inr (Or.inr ⟨_, rfl, rfl, rfl, rfl, rfl, rfl⟩)

theorem Belongs.step {c : Cfg} {s s' : Sys n} {e : Ev n} (h : ∀ i, Wf (s.line i) ∧ Belongs (s.line i)) (hn : NoReprogram s e)
    (hs : c.step s e = some s') : ∀ i, Wf (s'.line i) ∧ Belongs (s'.line i) := by
  intro j
  refine ⟨Wf.step (fun i => (h i).1) hs j, ?_⟩
  rcases step_line hs with ⟨i, e, rfl, hx⟩ | ⟨i, p, rfl, rfl⟩ | ⟨l, rfl, h1, h2, h3, h4, h5⟩
  · by_cases hj : j = i
    · subst hj
      obtain ⟨k1, k2, k3, k4, k5, k6⟩ := block_keep (s.line j)
      have hb : Belongs (s.line j).block := belongs_of (h j).2 k1 k4
      rcases hx with ⟨-, rfl⟩ | ⟨-, ha⟩
      · rw [put_self]; exact hb
      · exact hb.act (h j).1.block ha
    · rw [step_other hs hj]; exact (h j).2
  · by_cases hj : j = i
    · subst hj; rw [put_self]; exact belongs_zero ((h j).1.zero hn)
    · rw [put_ne _ _ hj]; exact (h j).2
  · by_cases hj : j = e.line
    · subst hj; rw [put_self]; exact belongs_of (h _).2 h2 h3
    · rw [put_ne _ _ hj]; exact (h j).2

/-! ## The programs of lines -/

theorem act_prog {c : Cfg} {s s' : Sys n} {i : Fin n} {e : Env} {l : Line} (ha : Act c s i e l s') :
    (s'.line i).prog = l.prog ∨ (s'.line i).prog = 0 := by
  cases ha
  case started outs l' ht h1 h2 h3 h4 h5 =>
    left
    simp only [put_self, initStep_prog, h5]
    split <;> simp
  case done v q r x l1 l' h1 h2 h3 h4 h5 h6 =>
    left
    rw [put_self, h6, h5]
    split <;> simp
  all_goals simp

theorem sel_step {c : Cfg} {s s' : Sys n} {e : Ev n} (h : ∀ i, (s.line i).prog ∈ selectable) (hn : Selectable s e)
    (hs : c.step s e = some s') : ∀ i, (s'.line i).prog ∈ selectable := by
  intro j
  rcases step_line hs with ⟨i, e, rfl, hx⟩ | ⟨i, p, rfl, rfl⟩ | ⟨l, rfl, h1, h2, h3, h4, h5⟩
  · by_cases hj : j = i
    · subst hj
      obtain ⟨k1, k2, k3, k4, k5, k6⟩ := block_keep (s.line j)
      rcases hx with ⟨-, rfl⟩ | ⟨-, ha⟩
      · rw [put_self, k4]; exact h j
      · rcases act_prog ha with x | x <;> rw [x]
        · rw [k4]; exact h j
        · decide
    · rw [step_other hs hj]; exact h j
  · by_cases hj : j = i
    · subst hj; rw [put_self]; exact hn
    · rw [put_ne _ _ hj]; exact h j
  · by_cases hj : j = e.line
    · subst hj; rw [put_self, h3]; exact h _
    · rw [put_ne _ _ hj]; exact h j

theorem sel_self : ∀ p ∈ selectable, (p.testBit 11 = true → p = 2048) ∧ p.testBit 3 = false := by decide +kernel

/-! ## Self-cleaning -/

structure Solo (s : Sys n) : Prop where
  wf : ∀ i, Wf (s.line i)
  own : ∀ i, (s.line i).prog = 2048 → ¬ (s.line i).AtRest → s.scline = i + 1
  alone : ∀ i : Fin n, s.scline = i + 1 → ∀ j, j ≠ i → (s.line j).AtRest

theorem Line.AtRest.block {l : Line} (h : l.AtRest) : l.block.AtRest := by
  obtain ⟨k1, -⟩ := block_keep l
  refine ⟨k1.trans h.1, ?_⟩
  rcases block_cases l with ⟨x, -⟩ | ⟨-, x⟩ | ⟨-, x, -⟩
  · rw [x]; exact h.2
  · rw [x]; simp [h.1]
  · exact Or.inr x

/-- A line at rest stays so unless it is started. -/
theorem Line.AtRest.act {c : Cfg} {s s' : Sys n} {i : Fin n} {e : Env} {l : Line} (hw : Wf l) (hb : l.blocked = false)
    (h : l.AtRest) (ha : Act c s i e l s') : Try c s i l ∨ (s'.line i).AtRest := by
  have h0 : l.state = 0 := by
    rcases h.2 with x | x
    · exact x
    · rw [hw.lock.2 x] at hb; cases hb
  cases ha
  case idle => right; simpa [Line.AtRest] using h
  case forget => right; simpa [Line.AtRest] using h
  case noSwitch ht _ => exact Or.inl ht
  case conflict ht _ => exact Or.inl ht
  case startWrong ht _ _ => exact Or.inl ht
  case startAcid ht _ _ _ => exact Or.inl ht
  case started ht _ _ _ _ _ => exact Or.inl ht
  all_goals omega

/-- What a cycle does with `scline`. -/
theorem act_sc {c : Cfg} {s s' : Sys n} {i : Fin n} {e : Env} {l : Line} (ha : Act c s i e l s') :
    (Try c s i l ∧ s'.scline = c.sc s i l ∧ (s'.line i).prog = l.prog) ∨ (¬ Try c s i l ∧ s'.scline = s.scline) ∨
      (Try c s i l ∧ s'.line i = { l with ncmd := 0 } ∧ s'.scline = s.scline) ∨
      ((s'.line i).AtRest ∧ s'.scline = if c.scEnabled ∧ s.scline = i + 1 then 0 else s.scline) := by
  have hn : ∀ {X : Prop}, l.ncmd ≠ cmdEvaluate ∨ l.state ≠ 0 → (¬ Try c s i l ∧ X ↔ X) := fun h => by
    constructor
    · exact fun z => z.2
    · refine fun z => ⟨fun t => ?_, z⟩
      rcases h with h | h
      · exact h t.cmd
      · exact h t.state
  cases ha
  case idle =>
    by_cases ht : Try c s i l
    · exact Or.inr (Or.inr (Or.inl ⟨ht, by simp, rfl⟩))
    · exact Or.inr (Or.inl ⟨ht, rfl⟩)
  case noSwitch ht _ => exact Or.inl ⟨ht, rfl, by simp⟩
  case conflict ht _ => exact Or.inl ⟨ht, rfl, by simp⟩
  case startWrong ht _ _ => exact Or.inl ⟨ht, rfl, by simp⟩
  case startAcid ht _ _ _ => exact Or.inl ⟨ht, rfl, by simp⟩
  case started outs l' ht h1 h2 h3 h4 h5 =>
    refine Or.inl ⟨ht, rfl, ?_⟩
    simp only [put_self, initStep_prog, h5]
    split <;> simp
  case finish => exact Or.inr (Or.inr (Or.inr ⟨by simp [Line.AtRest], rfl⟩))
  case forget h1 h2 => exact Or.inr (Or.inl ((hn (Or.inl (by rw [h1]; decide))).2 rfl))
  all_goals exact Or.inr (Or.inl ((hn (Or.inr (by omega))).2 rfl))

theorem Solo.act {c : Cfg} (hc : c.scEnabled = true) {s s' : Sys n} {i : Fin n} {e : Env} (h : Solo s)
    (hb : (s.line i).block.blocked = false) (ho : ∀ j, j ≠ i → s'.line j = s.line j)
    (hw' : ∀ j, Wf (s'.line j)) (ha : Act c s i e (s.line i).block s') : Solo s' := by
  obtain ⟨k1, k2, k3, k4, k5, k6⟩ := block_keep (s.line i)
  have hwb := (h.wf i).block
  have hrest : (s.line i).AtRest → ¬ Try c s i (s.line i).block → (s'.line i).AtRest := fun hr ht => by
    rcases hr.block.act hwb hb ha with x | x
    · exact absurd x ht
    · exact x
  have plain : s'.scline = s.scline → ((s.line i).AtRest → (s'.line i).AtRest) → Solo s' := fun hsc hr => by
    refine ⟨hw', fun k hp hk => ?_, fun k hk j hj => ?_⟩
    · rw [hsc]
      by_cases hki : k = i
      · subst hki
        refine h.own k ?_ (fun z => hk (hr z))
        rcases act_prog ha with x | x
        · rw [x, k4] at hp; exact hp
        · rw [x] at hp; exact absurd hp (by decide)
      · rw [ho k hki] at hp hk; exact h.own k hp hk
    · rw [hsc] at hk
      have := h.alone k hk j hj
      by_cases hji : j = i
      · subst hji; exact hr this
      · rw [ho j hji]; exact this
  rcases act_sc ha with ⟨ht, hsc, hp'⟩ | ⟨ht, hsc⟩ | ⟨ht, hl, hsc⟩ | ⟨hr, hsc⟩
  · refine ⟨hw', fun k hp hk => ?_, fun k hk j hj => ?_⟩
    · by_cases hki : k = i
      · subst hki
        rw [hsc, Cfg.sc, if_pos ⟨hc, by rw [← hp']; exact hp⟩]
      · rw [ho k hki] at hp hk
        have := h.own k hp hk
        have h2 := ht.other hc (by omega)
        exact absurd (Fin.ext (by omega)) hki
    · by_cases hki : k = i
      · subst hki
        rw [ho j hj]
        by_cases hs0 : s.scline = 0
        · rw [hsc, Cfg.sc] at hk
          split at hk
          next hx =>
            have := ht.alone hc hs0 hx.2 j hj
            exact ⟨(h.wf j).zero this, Or.inl this⟩
          next => omega
        · exact h.alone k (ht.other hc (by omega)) j hj
      · exfalso
        rw [hsc, Cfg.sc] at hk
        split at hk
        · exact hki (Fin.ext (by omega))
        · have h2 := ht.other hc (by omega)
          exact hki (Fin.ext (by omega))
  · exact plain hsc fun hr => hrest hr ht
  · refine plain hsc fun hr => ?_
    rw [hl]
    exact hr.block
  · refine ⟨hw', fun k hp hk => ?_, fun k hk j hj => ?_⟩
    · by_cases hki : k = i
      · subst hki; exact absurd hr hk
      · rw [ho k hki] at hp hk
        have := h.own k hp hk
        rw [hsc, if_neg]
        · exact this
        · rintro ⟨-, z⟩; exact hki (Fin.ext (by omega))
    · by_cases hji : j = i
      · subst hji; exact hr
      · rw [ho j hji]
        rw [hsc] at hk
        split at hk
        · omega
        · exact h.alone k hk j hj

theorem Solo.step {c : Cfg} (hc : c.scEnabled = true) {s s' : Sys n} {e : Ev n} (h : Solo s) (hn : NoReprogram s e)
    (hs : c.step s e = some s') : Solo s' := by
  have hw' := Wf.step h.wf hs
  have plain : ∀ i, (∀ j, j ≠ i → s'.line j = s.line j) → s'.scline = s.scline → ((s.line i).AtRest → (s'.line i).AtRest) →
      ((s'.line i).prog = 2048 → ¬ (s'.line i).AtRest → (s.line i).prog = 2048) → Solo s' := fun i ho hsc hr hp' => by
    refine ⟨hw', fun k hp hk => ?_, fun k hk j hj => ?_⟩
    · rw [hsc]
      by_cases hki : k = i
      · subst hki; exact h.own k (hp' hp hk) fun z => hk (hr z)
      · rw [ho k hki] at hp hk; exact h.own k hp hk
    · rw [hsc] at hk
      have := h.alone k hk j hj
      by_cases hji : j = i
      · subst hji; exact hr this
      · rw [ho j hji]; exact this
  rcases step_line hs with ⟨i, e, rfl, ⟨-, rfl⟩ | ⟨hb, ha⟩⟩ | ⟨i, p, rfl, rfl⟩ | ⟨l, rfl, h1, h2, h3, h4, h5⟩
  · obtain ⟨k1, k2, k3, k4, k5, k6⟩ := block_keep (s.line i)
    exact plain i (fun j hj => put_ne _ _ hj) rfl (fun hr => by rw [put_self]; exact hr.block)
      (fun hp _ => by rw [put_self, k4] at hp; exact hp)
  · exact h.act hc hb (fun j hj => step_other hs hj) hw' ha
  · have h0 : (s.line i).curstep = 0 := (h.wf i).zero hn
    exact plain i (fun j hj => put_ne _ _ hj) rfl (fun hr => by rw [put_self]; exact hr)
      (fun _ hk => absurd (by rw [put_self]; exact ⟨h0, Or.inl hn⟩) hk)
  · exact plain e.line (fun j hj => put_ne _ _ hj) rfl (fun hr => by rw [put_self]; exact ⟨h2.trans hr.1, by rw [h1]; exact hr.2⟩)
      (fun hp _ => by rw [put_self, h3] at hp; exact hp)

theorem solo_initial (vals : Fin n → Nat → Nat → Rat) (outs : Nat → Bool) : Solo (initial vals outs) :=
  ⟨wf_initial vals outs, fun i hp => by simp [initial] at hp, fun i hi => by simp [initial] at hi⟩

/-! ## The acid wash -/

/-- A line whose program has caustic but no acid does not get beyond the start. -/
def Waits (l : Line) : Prop :=
  l.prog.testBit 5 = true → l.prog.testBit 4 = false →
    (l.curstep = 0 ∧ (l.state = 0 ∨ l.state = errConflict ∧ l.conflict = true ∨ l.state = errAcid ∨ l.state = lockedState) ∨
      l.curstep = 555 ∧ l.state ≠ errConflict)

theorem Waits.block {l : Line} (h : Waits l) : Waits l.block := by
  obtain ⟨k1, k2, k3, k4, k5, k6⟩ := block_keep l
  intro h5 h4
  rw [k4] at h5 h4
  have := h h5 h4
  rcases block_cases l with ⟨x, -⟩ | ⟨-, x⟩ | ⟨-, x, -⟩
  · rw [x]; exact this
  · rw [x]
    rcases this with ⟨a, -⟩ | ⟨a, -⟩
    · left; simp [a]
    · right; simp [a, errConflict]
  · rw [k1, x]
    rcases this with ⟨a, -⟩ | ⟨a, -⟩
    · exact Or.inl ⟨a, Or.inr (Or.inr (Or.inr rfl))⟩
    · exact Or.inr ⟨a, by decide⟩

theorem Waits.act {c : Cfg} {s s' : Sys n} {i : Fin n} {e : Env} {l : Line} (hw : Wf l) (hb : l.blocked = false)
    (h : Waits l) (hskip : l.ncmd = cmdNext → l.state ∉ [errWrongOs, errConflict, errAcid]) (hobj : e.objErr = false)
    (hdue : e.acidDue = true) (ha : Act c s i e l s') : Waits (s'.line i) := by
  have hl : l.state ≠ lockedState := fun z => by rw [hw.lock.2 z] at hb; cases hb
  have keep : ∀ x : Line, x.prog = l.prog → x.curstep = l.curstep → x.state = l.state → x.conflict = l.conflict → Waits x :=
    fun x a1 a2 a3 a4 => by
      unfold Waits at h ⊢
      rw [a1, a2, a3, a4]
      exact h
  have late : ∀ x : Line, x.prog = l.prog → 0 < l.state → l.curstep ≠ 555 → Waits x := fun x a1 a2 a3 b5 b4 => by
    rw [a1] at b5 b4
    rcases h b5 b4 with ⟨-, z | ⟨z, -⟩ | z | z⟩ | ⟨z, -⟩
    all_goals simp only [errConflict, errAcid, lockedState] at *
    all_goals omega
  cases ha
  case next h1 h2 h3 =>
    intro b5 b4
    rw [put_self] at b5 b4
    have := hskip h1
    simp only [List.mem_cons, List.not_mem_nil, or_false, not_or] at this
    rcases h (by simpa using b5) (by simpa using b4) with ⟨-, z | ⟨z, -⟩ | z | z⟩ | ⟨z, -⟩
    · exact absurd z h2
    · exact absurd z this.2.1
    · exact absurd z this.2.2
    · exact absurd z hl
    · exact absurd z h3
  case pause h1 h2 h3 => exact late _ (by simp) h2 h3
  case reset => rw [put_self]; exact fun _ _ => Or.inr (by simp [errConflict])
  case forget => rw [put_self]; exact fun b5 => by simp at b5
  case wrongOs h1 h2 h3 h4 => rw [hobj] at h4; cases h4
  case resume h1 h2 h3 h4 h5 =>
    intro b5 b4
    rw [put_self] at b5 b4 ⊢
    right
    rcases h (by simpa using b5) (by simpa using b4) with ⟨-, z | ⟨-, z⟩ | z | z⟩ | ⟨z, -⟩
    · omega
    · rw [h3] at z; cases z
    · exact absurd z h5
    · exact absurd z hl
    · simp [z, errConflict]
  case conflict ht _ =>
    intro b5 b4
    left
    simp [hw.zero ht.state]
  case startWrong ht _ h2 => rw [hobj] at h2; cases h2
  case startAcid ht _ _ _ =>
    intro b5 b4
    left
    simp [hw.zero ht.state]
  case started outs l' ht h1 h2 h3 h4 h5 =>
    intro b5 b4
    have hp : l'.prog = l.prog := by rw [h5]; split <;> rfl
    simp only [put_self, initStep_prog, hp] at b5 b4
    exact absurd ⟨hdue, b4, b5⟩ h3
  case done v q r x l1 l' h1 h2 h3 h4 h5 h6 =>
    rw [put_self]
    refine late _ ?_ h2 h3
    rw [h6, h5]
    split <;> simp
  case go h1 h2 h3 => rw [put_self]; exact late _ rfl h2 h3
  case fail h1 h2 h3 => rw [put_self]; exact late _ (by simp) h2 h3
  case finish => simp only [put_self]; exact fun b5 => by simp at b5
  case auto h1 h2 h3 =>
    intro b5 b4
    rw [put_self] at b5 b4 ⊢
    right
    rcases h (by simpa using b5) (by simpa using b4) with ⟨-, z | ⟨z, -⟩ | z | z⟩ | ⟨z, -⟩
    all_goals simp only [errConflict, errAcid, lockedState] at *
    all_goals first | omega | simp [z]
  all_goals
    simp only [put_self]
    exact keep _ (by simp) (by simp) (by simp) (by simp)

theorem Waits.step {c : Cfg} {s s' : Sys n} {e : Ev n} {j : Fin n} (hw : ∀ i, Wf (s.line i)) (h : Waits (s.line j))
    (h1 : NoReprogram s e) (h2 : NoSkip s e) (h3 : ObjectsOk s e) (h4 : AcidDue j s e) (hs : c.step s e = some s') :
    Waits (s'.line j) := by
  rcases step_line hs with ⟨i, e, rfl, hx⟩ | ⟨i, p, rfl, rfl⟩ | ⟨l, rfl, a1, a2, a3, a4, a5⟩
  · by_cases hj : j = i
    · subst hj
      rcases hx with ⟨-, rfl⟩ | ⟨hb, ha⟩
      · rw [put_self]; exact h.block
      · refine h.block.act (hw j).block hb (fun z => ?_) h3 (h4 rfl) ha
        rcases block_cases (s.line j) with ⟨x, -⟩ | ⟨-, x⟩ | ⟨-, -, -, -, -, -, -, -, x, -⟩
        · rw [x] at z ⊢; exact h2 z
        · rw [x] at z; exact absurd z (by simp [cmdNext])
        · rw [x] at z; exact absurd z (by decide)
    · rw [step_other hs hj]; exact h
  · by_cases hj : j = i
    · subst hj; rw [put_self]; exact fun _ _ => Or.inl ⟨(hw j).zero h1, Or.inl h1⟩
    · rw [put_ne _ _ hj]; exact h
  · by_cases hj : j = e.line
    · subst hj
      rw [put_self]
      unfold Waits at h ⊢
      rw [a1, a2, a3, a5]
      exact h
    · rw [put_ne _ _ hj]; exact h

end Ptusa.Cip
