import Verif.Cip.Inv

/-!
# Lines that use the same valves
-/
namespace Ptusa.Cip

variable {n : Nat}

theorem mem_onIdx (k : Nat) : k ∈ onIdx ↔ 105 ≤ k ∧ k ≤ 114 := by
  simp only [onIdx, List.mem_range'_1]; omega

theorem mem_offIdx (k : Nat) : k ∈ offIdx ↔ 115 ≤ k ∧ k ≤ 119 := by
  simp only [offIdx, List.mem_range'_1]; omega

theorem clash_iff (a b : Nat → Rat) : clash a b = true ↔ Clash a b := by
  simp only [clash, Bool.or_eq_true, List.any_eq_true, Bool.and_eq_true, bne_iff_ne, ne_eq, beq_iff_eq,
    decide_eq_true_eq, List.mem_append, mem_onIdx, mem_offIdx]
  constructor
  · rintro (⟨i, hi, h0, k, hk, he, hl⟩ | ⟨i, hi, h0, k, hk, he, hl⟩)
    · refine ⟨a i, h0, hl, Or.inl ⟨⟨i, hi.1, hi.2, rfl⟩, ?_⟩⟩
      rcases hk with hk | hk
      · exact Or.inl ⟨k, hk.1, hk.2, he.symm⟩
      · exact Or.inr ⟨k, hk.1, hk.2, he.symm⟩
    · exact ⟨a i, h0, hl, Or.inr ⟨⟨i, hi.1, hi.2, rfl⟩, ⟨k, hk.1, hk.2, he.symm⟩⟩⟩
  · rintro ⟨v, h0, hl, ⟨⟨i, hi1, hi2, rfl⟩, hk⟩ | ⟨⟨i, hi1, hi2, rfl⟩, ⟨k, hk1, hk2, he⟩⟩⟩
    · refine Or.inl ⟨i, ⟨hi1, hi2⟩, h0, ?_⟩
      rcases hk with ⟨k, hk1, hk2, he⟩ | ⟨k, hk1, hk2, he⟩
      · exact ⟨k, Or.inl ⟨hk1, hk2⟩, he.symm, hl⟩
      · exact ⟨k, Or.inr ⟨hk1, hk2⟩, he.symm, hl⟩
    · exact Or.inr ⟨i, ⟨hi1, hi2⟩, h0, k, ⟨hk1, hk2⟩, he.symm, hl⟩

theorem Clash.symm {a b : Nat → Rat} : Clash a b → Clash b a := by
  rintro ⟨v, h0, hl, ⟨ha, hb | hb⟩ | ⟨ha, hb⟩⟩
  · exact ⟨v, h0, hl, Or.inl ⟨hb, Or.inl ha⟩⟩
  · exact ⟨v, h0, hl, Or.inr ⟨hb, ha⟩⟩
  · exact ⟨v, h0, hl, Or.inl ⟨hb, Or.inr ha⟩⟩

/-- The check of the valves finds a line that is not idle and needs the same valves. -/
theorem conflict_iff (s : Sys n) (i : Fin n) (l : Line) (r : Nat) (hr : l.recipe = some r) (x : Bool)
    (h : (s.put i l).valvesConflict i = some x) :
    x = true ↔ ∃ j, j ≠ i ∧ (s.line j).state ≠ 0 ∧ ∃ r', (s.line j).recipe = some r' ∧ Clash (l.val r) ((s.line j).val r') := by
  simp only [Sys.valvesConflict, put_self, hr, Option.some.injEq] at h
  rw [← h, List.any_eq_true]
  constructor
  · rintro ⟨j, -, hj⟩
    simp only [Bool.and_eq_true, bne_iff_ne, ne_eq] at hj
    obtain ⟨⟨h1, h2⟩, h3⟩ := hj
    rw [put_ne _ _ h1] at h2 h3
    refine ⟨j, h1, h2, ?_⟩
    cases hq : (s.line j).recipe with
    | none => rw [hq] at h3; cases h3
    | some r' => rw [hq] at h3; exact ⟨r', rfl, (clash_iff _ _).1 h3⟩
  · rintro ⟨j, h1, h2, r', h3, h4⟩
    refine ⟨j, List.mem_finRange j, ?_⟩
    simp only [Bool.and_eq_true, bne_iff_ne, ne_eq]
    rw [put_ne _ _ h1]
    exact ⟨⟨h1, h2⟩, by rw [h3]; exact (clash_iff _ _).2 h4⟩

/-- A line that keeps the valves of its recipe. -/
structure Held (l : Line) : Prop where
  state : l.state ≠ 0
  free : l.conflict = false
  begun : l.state = lockedState → 0 < l.curstep

theorem held_of_block {l : Line} (hw : Wf l) (hb : l.block.blocked = false) (hs : l.block.state ≠ 0)
    (hc : l.conflict = false) : Held l := by
  rcases block_cases l with ⟨h, hb', -⟩ | ⟨-, h⟩ | ⟨h, -⟩
  · rw [h] at hs
    exact ⟨hs, hc, fun z => by rw [hw.lock.2 z] at hb'; cases hb'⟩
  · rw [h] at hs
    by_cases h0 : 0 < l.curstep
    · exact ⟨fun z => by rw [hw.zero z] at h0; exact absurd h0 (by decide), hc, fun _ => h0⟩
    · simp [h0] at hs
  · rw [h] at hb; cases hb

/-- A line that keeps valves after a cycle kept them before it, or it was compared with all the others. -/
theorem held_act {c : Cfg} {s s' : Sys n} {i : Fin n} {e : Env} {l0 : Line} (hw : Wf l0) (hb : l0.block.blocked = false)
    (ha : Act c s i e l0.block s') (hh : Held (s'.line i)) :
    (s'.line i).recipe = l0.recipe ∧ (s'.line i).val = l0.val ∧
      (Held l0 ∨ (s.put i l0.block).valvesConflict i = some false) := by
  obtain ⟨k1, k2, k3, k4, k5, k6⟩ := block_keep l0
  have hl := held_of_block hw hb
  have hs := hh.state
  have hf := hh.free
  cases ha
  case idle => simp only [put_self] at hs hf ⊢; exact ⟨k3, k6, Or.inl (hl hs (k5 ▸ hf))⟩
  case next h1 h2 h3 => simp only [put_self, initStep_recipe, initStep_val, initStep_conflict, goTo_recipe, goTo_val, goTo_conflict] at hf ⊢; exact ⟨k3, k6, Or.inl (hl h2 (k5 ▸ hf))⟩
  case pause h1 h2 h3 => simp only [put_self, stop_recipe, stop_val, stop_conflict] at hf ⊢; exact ⟨k3, k6, Or.inl (hl (by omega) (k5 ▸ hf))⟩
  case reset h1 h2 => simp only [put_self, initStep_recipe, initStep_val, initStep_conflict, stop_recipe, stop_val, stop_conflict] at hf ⊢; exact ⟨k3, k6, Or.inl (hl h2 (k5 ▸ hf))⟩
  case forget h1 h2 => simp only [put_self] at hs; exact absurd h2 hs
  case wrongOs h1 h2 h3 h4 => simp only [put_self]; exact ⟨k3, k6, Or.inl (hl (by omega) (k5 ▸ h3))⟩
  case resume h1 h2 h3 h4 h5 => simp only [put_self, initStep_recipe, initStep_val]; exact ⟨k3, k6, Or.inl (hl (by omega) (k5 ▸ h3))⟩
  case noSwitch ht _ => simp only [put_self] at hs; exact absurd ht.state hs
  case conflict => simp only [put_self] at hf; cases hf
  case startWrong ht h1 h2 => simp only [put_self]; exact ⟨k3, k6, Or.inr h1⟩
  case startAcid ht h1 h2 h3 => simp only [put_self]; exact ⟨k3, k6, Or.inr h1⟩
  case started outs l' ht h1 h2 h3 h4 h5 =>
    simp only [put_self, initStep_recipe, initStep_val]
    have : l'.recipe = l0.block.recipe ∧ l'.val = l0.block.val := by rw [h5]; split <;> exact ⟨rfl, rfl⟩
    exact ⟨this.1.trans k3, this.2.trans k6, Or.inr h1⟩
  case ret b h1 h2 => simp only [put_self, setRet_recipe, setRet_val, setRet_conflict] at hf ⊢; exact ⟨k3, k6, Or.inl (hl h2 (k5 ▸ hf))⟩
  case go h1 h2 h3 => simp only [put_self] at hf ⊢; exact ⟨k3, k6, Or.inl (hl (by omega) (k5 ▸ hf))⟩
  case done v p r x l1 l' h1 h2 h3 h4 h5 h6 =>
    have h7 : l'.core = (l1.goTo x e.opt).core := by
      rw [h6]
      split
      · simp
      · rfl
    have e1 : l'.recipe = l0.block.recipe := (congrArg Core.recipe h7).trans (by rw [h5]; simp [Line.core])
    have e2 : l'.val = l0.block.val := (congrArg Core.val h7).trans (by rw [h5]; simp [Line.core])
    have e3 : l'.conflict = l0.block.conflict := (congrArg Core.conflict h7).trans (by rw [h5]; simp [Line.core])
    simp only [put_self] at hf ⊢
    rw [e3] at hf
    exact ⟨e1.trans k3, e2.trans k6, Or.inl (hl (by omega) (k5 ▸ hf))⟩
  case fail v p r x h1 h2 h3 => simp only [put_self, stop_recipe, stop_val, stop_conflict] at hf ⊢; exact ⟨k3, k6, Or.inl (hl (by omega) (k5 ▸ hf))⟩
  case finish outs h1 h2 h3 h4 => simp at hs
  case auto h1 h2 h3 => simp only [put_self, initStep_recipe, initStep_val, initStep_conflict] at hf ⊢; exact ⟨k3, k6, Or.inl (hl (by omega) (k5 ▸ hf))⟩

/-- The lines that keep valves do not need the same ones. -/
structure Excl (s : Sys n) : Prop where
  wf : ∀ i, Wf (s.line i)
  free : ∀ i j, i ≠ j → Held (s.line i) → Held (s.line j) → ∀ r r', (s.line i).recipe = some r →
    (s.line j).recipe = some r' → ¬ Clash ((s.line i).val r) ((s.line j).val r')

/-- Events that only concern the recipes of one line. -/
theorem excl_of {s s' : Sys n} (h : Excl s) (i : Fin n) (hw : ∀ j, Wf (s'.line j)) (ho : ∀ j, j ≠ i → s'.line j = s.line j)
    (hi : Held (s'.line i) → ∀ r, (s'.line i).recipe = some r → ∀ j, j ≠ i → Held (s.line j) → ∀ r',
      (s.line j).recipe = some r' → ¬ Clash ((s'.line i).val r) ((s.line j).val r')) : Excl s' := by
  refine ⟨hw, fun a b hab hA hB r r' hr hr' => ?_⟩
  by_cases ha : a = i
  · subst ha
    have hb : b ≠ a := fun x => hab x.symm
    rw [ho b hb] at hB hr' ⊢
    exact hi hA r hr b hb hB r' hr'
  · rw [ho a ha] at hA hr ⊢
    by_cases hb : b = i
    · subst hb
      exact fun x => hi hB r' hr' a ha hA r hr x.symm
    · rw [ho b hb] at hB hr' ⊢
      exact h.free a b hab hA hB r r' hr hr'

theorem Excl.keep {s s' : Sys n} (h : Excl s) (i : Fin n) (hw : ∀ j, Wf (s'.line j)) (ho : ∀ j, j ≠ i → s'.line j = s.line j)
    (hi : Held (s'.line i) → Held (s.line i) ∧ (s'.line i).recipe = (s.line i).recipe ∧
      ∀ r, (s.line i).recipe = some r → (s'.line i).val r = (s.line i).val r) : Excl s' := by
  refine excl_of h i hw ho fun hA r hr j hj hB r' hr' => ?_
  obtain ⟨h1, h2, h3⟩ := hi hA
  rw [h2] at hr
  rw [h3 r hr]
  exact h.free i j (fun x => hj x.symm) h1 hB r r' hr hr'

theorem Excl.step {c : Cfg} {s s' : Sys n} {e : Ev n} (h : Excl s) (hp : NoChange s e) (hs : c.step s e = some s') :
    Excl s' := by
  have hw := Wf.step h.wf hs
  have ho : ∀ j, j ≠ e.line → s'.line j = s.line j := fun j hj => step_other hs hj
  cases e with
  | cmd i x =>
    refine h.keep i hw ho fun hA => ?_
    simp only [Cfg.step, Option.some.injEq] at hs; subst hs
    rw [put_self] at hA ⊢
    exact ⟨⟨hA.state, hA.free, hA.begun⟩, rfl, fun _ _ => rfl⟩
  | cycle i e =>
    rcases evaluate_act c s s' i e hs with ⟨hb, rfl⟩ | ⟨hb, ha⟩
    · refine h.keep i hw ho fun hA => ?_
      obtain ⟨k1, k2, k3, k4, k5, k6⟩ := block_keep (s.line i)
      rw [put_self] at hA ⊢
      have hl := (h.wf i).block.lock.1 hb
      have hc := hA.begun hl
      rw [k1] at hc
      refine ⟨⟨fun z => ?_, k5 ▸ hA.free, fun _ => hc⟩, k3, fun _ _ => by rw [k6]⟩
      rw [(h.wf i).zero z] at hc
      exact absurd hc (by decide)
    · refine excl_of h i hw ho fun hA r hr j hj hB r' hr' => ?_
      obtain ⟨h1, h2, h3⟩ := held_act (h.wf i) hb ha hA
      rw [h1] at hr
      rw [h2]
      rcases h3 with h3 | h3
      · exact h.free i j (fun x => hj x.symm) h3 hB r r' hr hr'
      · intro hcl
        obtain ⟨k1, k2, k3, k4, k5, k6⟩ := block_keep (s.line i)
        have := (conflict_iff s i (s.line i).block r (by rw [k3, hr]) false h3).2
          ⟨j, hj, hB.state, r', hr', by rw [k6]; exact hcl⟩
        cases this
  | select i r =>
    simp only [Cfg.step] at hs
    split at hs
    · injection hs with hs; subst hs; exact h
    · split at hs
      · injection hs with hs
        refine h.keep i hw ho fun hA => ?_
        subst hs
        rw [put_self] at hA
        exact absurd hp hA.state
      · cases hs
  | program i p =>
    refine h.keep i hw ho fun hA => ?_
    simp only [Cfg.step, Option.some.injEq] at hs; subst hs
    rw [put_self] at hA ⊢
    exact ⟨⟨hA.state, hA.free, hA.begun⟩, rfl, fun _ _ => rfl⟩
  | edit i r k v =>
    refine h.keep i hw ho fun hA => ?_
    simp only [Cfg.step, Option.some.injEq] at hs; subst hs
    rw [put_self] at hA ⊢
    refine ⟨⟨hA.state, hA.free, hA.begun⟩, rfl, fun q hq => ?_⟩
    have : q ≠ r := fun x => hp hA.state (by rw [hq, x])
    simp only
    funext k'
    simp [this]

theorem excl_initial (vals : Fin n → Nat → Nat → Rat) (outs : Nat → Bool) : Excl (initial vals outs) :=
  ⟨wf_initial vals outs, fun _ _ _ h => absurd rfl h.state⟩

/-- A conflict is only remembered by a line that does not wash. -/
def Refused (l : Line) : Prop :=
  l.conflict = true → l.curstep = 0 ∧ (l.state = 0 ∨ l.state = errConflict ∨ l.state = lockedState) ∨ l.curstep = 555

theorem Refused.act {c : Cfg} {s s' : Sys n} {i : Fin n} {e : Env} {l : Line} (hw : Wf l) (hb : l.blocked = false)
    (h : Refused l) (hn : l.ncmd = cmdNext → l.state ≠ errConflict) (ha : Act c s i e l s') : Refused (s'.line i) := by
  have hl : l.state ≠ lockedState := fun x => by rw [hw.lock.2 x] at hb; cases hb
  have key : l.state ≠ 0 → l.state ≠ errConflict → l.curstep ≠ 555 → l.conflict = true → False := fun a b d x => by
    rcases h x with ⟨-, h | h | h⟩ | h
    · exact a h
    · exact b h
    · exact hl h
    · exact d h
  have pos : 0 < l.state → l.curstep ≠ 555 → l.conflict = true → False := fun a b x =>
    key (by omega) (fun z => by rw [z] at a; exact absurd a (by decide)) b x
  unfold Refused at *
  cases ha
  case idle => simpa only [put_self] using h
  case next h1 h2 h3 => intro x; simp at x; exact (key h2 (hn h1) h3 x).elim
  case pause h1 h2 h3 => intro x; simp at x; exact (pos h2 h3 x).elim
  case reset h1 h2 => intro x; simp
  case forget h1 h2 => intro x; simp [h2, hw.zero h2]
  case wrongOs h1 h2 h3 h4 => intro x; simp [h3] at x
  case resume h1 h2 h3 h4 h5 => intro x; simp [h3] at x
  case noSwitch ht _ => intro x; simp [ht.state, hw.zero ht.state]
  case conflict ht _ => intro x; simp [hw.zero ht.state]
  case startWrong ht h1 h2 => intro x; simp at x
  case startAcid ht h1 h2 h3 => intro x; simp at x
  case started outs l' ht h1 h2 h3 h4 h5 =>
    intro x
    have : l'.conflict = false := by rw [h5]; split <;> rfl
    simp [this] at x
  case ret b h1 h2 => intro x; simp at x ⊢; exact h x
  case go h1 h2 h3 => intro x; simp at x; exact (pos h2 h3 x).elim
  case done v p r x l1 l' h1 h2 h3 h4 h5 h6 =>
    have h7 : l'.core = (l1.goTo x e.opt).core := by
      rw [h6]
      split
      · simp
      · rfl
    have e3 : l'.conflict = l.conflict := (congrArg Core.conflict h7).trans (by rw [h5]; simp [Line.core])
    intro x
    simp only [put_self] at x
    exact (pos h2 h3 (e3 ▸ x)).elim
  case fail v p r x h1 h2 h3 => intro x; simp at x; exact (pos h2 h3 x).elim
  case finish outs h1 h2 h3 h4 => intro x; simp at x
  case auto h1 h2 h3 =>
    intro x
    simp at x
    simp only [put_self, initStep_curstep]
    rcases h x with ⟨-, h | h | h⟩ | h
    · omega
    · rcases h3 with h3 | h3 <;> rw [h3] at h <;> exact absurd h (by decide)
    · exact absurd h hl
    · exact Or.inr h

theorem Refused.block {l : Line} (h : Refused l) : Refused l.block := by
  unfold Refused at *
  rcases block_cases l with ⟨hb, -⟩ | ⟨-, hb⟩ | ⟨-, h1, h2, -, -, -, h3, -⟩
  · rw [hb]; exact h
  · rw [hb]
    intro x
    simp only at x ⊢
    rcases h x with ⟨h, -⟩ | h
    · simp [h]
    · exact Or.inr h
  · intro x
    rw [h3] at x
    rw [h1, h2]
    rcases h x with ⟨h, -⟩ | h
    · exact Or.inl ⟨h, Or.inr (Or.inr rfl)⟩
    · exact Or.inr h

/-- With whole lines: what a history without skipped refusals keeps. -/
theorem Refused.step {c : Cfg} {s s' : Sys n} {e : Ev n} (hw : ∀ i, Wf (s.line i)) (h : ∀ i, Refused (s.line i))
    (hp : NoSkip s e) (hs : c.step s e = some s') : ∀ i, Refused (s'.line i) := by
  intro j
  by_cases hj : j = e.line
  · subst hj
    have hl := h e.line
    cases e with
    | cmd i x => simp only [Cfg.step, Option.some.injEq] at hs; subst hs; rw [Ev.line, put_self]; exact hl
    | cycle i e =>
      rcases evaluate_act c s s' i e hs with ⟨-, rfl⟩ | ⟨hb, ha⟩
      · rw [Ev.line, put_self]; exact hl.block
      · refine Refused.act (hw i).block hb hl.block (fun hn => ?_) ha
        rcases block_cases (s.line i) with ⟨he, -⟩ | ⟨-, he⟩ | ⟨he, -⟩
        · rw [he] at hn ⊢
          have := hp hn
          simp at this
          exact this.2.1
        · rw [he] at hn; exact absurd hn (by simp [cmdNext])
        · rw [he] at hb; cases hb
    | select i r =>
      simp only [Cfg.step] at hs
      split at hs
      · injection hs with hs; subst hs; exact hl
      · split at hs
        · injection hs with hs; subst hs; rw [Ev.line, put_self]; exact hl
        · cases hs
    | program i p => simp only [Cfg.step, Option.some.injEq] at hs; subst hs; rw [Ev.line, put_self]; exact hl
    | edit i r k v => simp only [Cfg.step, Option.some.injEq] at hs; subst hs; rw [Ev.line, put_self]; exact hl
  · rw [step_other hs hj]; exact h j

theorem washing_held {l : Line} (h : Refused l) (hl : l.Washing) : Held l := by
  refine ⟨fun z => by have := hl.1; omega, ?_, fun z => by have := hl.1; rw [z] at this; exact absurd this (by decide)⟩
  by_contra x
  rcases h (by simpa using x) with ⟨-, h | h | h⟩ | h
  · have := hl.1; omega
  · have := hl.1; rw [h] at this; exact absurd this (by decide)
  · have := hl.1; rw [h] at this; exact absurd this (by decide)
  · exact hl.2 h

/-! ## Positions of the valves -/

/-- The values of all recipes are whole numbers. -/
def AllWhole (s : Sys n) : Prop := ∀ i r k, Whole ((s.line i).val r k)

theorem devNo_whole (m : Nat) (h : m < 2 ^ 32) : devNo (m : Rat) = some m := by
  have h1 : (-1 : Rat) < m := lt_of_lt_of_le (by norm_num) (Nat.cast_nonneg m)
  have h2 : (m : Rat) < 2 ^ 64 := by
    have : m < 2 ^ 64 := lt_trans h (by norm_num)
    exact_mod_cast this
  have hf : (m : Rat).floor = m := by
    have := Rat.floor_intCast (m : Int)
    simpa using this
  simp only [devNo, if_pos (And.intro h1 h2), hf, Int.toNat_natCast, Nat.mod_eq_of_lt h]

/-- The numbers of the valves a whole recipe opens or closes. -/
theorem mapM_devNo (a : Nat → Rat) (h : ∀ k, Whole (a k)) : ∀ ks : List Nat,
    ∃ ms : List Nat, (ks.mapM fun k => devNo (a k)) = some ms ∧ ∀ m, m ∈ ms ↔ ∃ k ∈ ks, a k = (m : Rat)
  | [] => ⟨[], rfl, by simp⟩
  | k :: ks => by
    obtain ⟨ms, h1, h2⟩ := mapM_devNo a h ks
    obtain ⟨m, hm, hlt⟩ := h k
    refine ⟨m :: ms, ?_, fun x => ?_⟩
    · rw [List.mapM_cons, h1, hm, devNo_whole m hlt]
      rfl
    · rw [List.mem_cons, h2]
      constructor
      · rintro (rfl | ⟨k', hk', he⟩)
        · exact ⟨k, List.mem_cons_self .., hm⟩
        · exact ⟨k', List.mem_cons_of_mem _ hk', he⟩
      · rintro ⟨k', hk', he⟩
        rcases List.mem_cons.1 hk' with rfl | hk'
        · left
          rw [hm] at he
          exact_mod_cast he.symm
        · exact Or.inr ⟨k', hk', he⟩

theorem mem_targets (c : Cfg) (l : Nat) (ms : List Nat) (d : Nat) :
    d ∈ c.targets l ms ↔ ∃ m ∈ ms, 0 < m ∧ c.find l m = some d := by
  simp only [Cfg.targets, List.mem_filterMap, List.mem_filter, decide_eq_true_eq]
  constructor
  · rintro ⟨m, ⟨h1, h2⟩, h3⟩; exact ⟨m, h1, h2, h3⟩
  · rintro ⟨m, h1, h2, h3⟩; exact ⟨m, ⟨h1, h2⟩, h3⟩

theorem find_pos (c : Cfg) (l m d : Nat) (h : c.find l m = some d) : 0 < d := by
  simp only [Cfg.find] at h
  split at h
  next hp => injection h with h; omega
  next =>
    split at h
    next hp => injection h with h; omega
    next => cases h

/-- What opening the valves of a recipe does with a device. -/
theorem onRecipe_spec (c : Cfg) (l r : Nat) (val : Nat → Nat → Rat) (h : ∀ k, Whole (val r k)) (outs outs' : Nat → Bool)
    (ho : c.onRecipe l (some r) val outs = some outs') (d : Nat) :
    ((∃ m : Nat, 0 < m ∧ Closes (val r) m ∧ c.find l m = some d) → outs' d = false) ∧
    ((¬ ∃ m : Nat, 0 < m ∧ Closes (val r) m ∧ c.find l m = some d) →
      ((∃ m : Nat, 0 < m ∧ Opens (val r) m ∧ c.find l m = some d) → outs' d = true) ∧
      ((¬ ∃ m : Nat, 0 < m ∧ Opens (val r) m ∧ c.find l m = some d) → outs' d = outs d)) := by
  obtain ⟨on, h1, h2⟩ := mapM_devNo (val r) h onIdx
  obtain ⟨off, h3, h4⟩ := mapM_devNo (val r) h offIdx
  simp only [Cfg.onRecipe, h1, h3, Option.bind_some, Option.map_some, Option.some.injEq] at ho
  subst ho
  have e1 : d ∈ c.targets l off ↔ ∃ m : Nat, 0 < m ∧ Closes (val r) m ∧ c.find l m = some d := by
    rw [mem_targets]
    constructor
    · rintro ⟨m, hm, hp, hf⟩
      obtain ⟨k, hk, he⟩ := (h4 m).1 hm
      exact ⟨m, hp, ⟨k, ((mem_offIdx k).1 hk).1, ((mem_offIdx k).1 hk).2, he⟩, hf⟩
    · rintro ⟨m, hp, ⟨k, hk1, hk2, he⟩, hf⟩
      exact ⟨m, (h4 m).2 ⟨k, (mem_offIdx k).2 ⟨hk1, hk2⟩, he⟩, hp, hf⟩
  have e2 : d ∈ c.targets l on ↔ ∃ m : Nat, 0 < m ∧ Opens (val r) m ∧ c.find l m = some d := by
    rw [mem_targets]
    constructor
    · rintro ⟨m, hm, hp, hf⟩
      obtain ⟨k, hk, he⟩ := (h2 m).1 hm
      exact ⟨m, hp, ⟨k, ((mem_onIdx k).1 hk).1, ((mem_onIdx k).1 hk).2, he⟩, hf⟩
    · rintro ⟨m, hp, ⟨k, hk1, hk2, he⟩, hf⟩
      exact ⟨m, (h2 m).2 ⟨k, (mem_onIdx k).2 ⟨hk1, hk2⟩, he⟩, hp, hf⟩
  rw [← e1, ← e2]
  simp only [setAll]
  refine ⟨fun x => if_pos x, fun x => ?_⟩
  rw [if_neg x]
  exact ⟨fun y => if_pos y, fun y => if_neg y⟩

theorem offRecipe_spec (c : Cfg) (l r : Nat) (val : Nat → Nat → Rat) (h : ∀ k, Whole (val r k)) (outs outs' : Nat → Bool)
    (ho : c.offRecipe l (some r) val outs = some outs') (d : Nat) :
    ((∃ m : Nat, 0 < m ∧ Opens (val r) m ∧ c.find l m = some d) → outs' d = false) ∧
    ((¬ ∃ m : Nat, 0 < m ∧ Opens (val r) m ∧ c.find l m = some d) → outs' d = outs d) := by
  obtain ⟨on, h1, h2⟩ := mapM_devNo (val r) h onIdx
  simp only [Cfg.offRecipe, h1, Option.map_some, Option.some.injEq] at ho
  subst ho
  have e2 : d ∈ c.targets l on ↔ ∃ m : Nat, 0 < m ∧ Opens (val r) m ∧ c.find l m = some d := by
    rw [mem_targets]
    constructor
    · rintro ⟨m, hm, hp, hf⟩
      obtain ⟨k, hk, he⟩ := (h2 m).1 hm
      exact ⟨m, hp, ⟨k, ((mem_onIdx k).1 hk).1, ((mem_onIdx k).1 hk).2, he⟩, hf⟩
    · rintro ⟨m, hp, ⟨k, hk1, hk2, he⟩, hf⟩
      exact ⟨m, (h2 m).2 ⟨k, (mem_onIdx k).2 ⟨hk1, hk2⟩, he⟩, hp, hf⟩
  rw [← e2]
  exact ⟨fun y => if_pos y, fun y => if_neg y⟩

/-- Closing the valves of a line leaves a device alone that has a number below 1000. -/
theorem closeLine_keep (c : Cfg) (hd : c.Distinct) (l l' m d : Nat) (hm : m < 1000) (hf : c.find l' m = some d)
    (outs : Nat → Bool) : c.closeLine l outs d = outs d := by
  unfold Cfg.closeLine setAll
  rw [if_neg]
  intro h
  simp only [List.mem_filter, List.mem_map, List.mem_range'_1, decide_eq_true_eq] at h
  obtain ⟨⟨k, hk, he⟩, hp⟩ := h
  have : c.find l k = some d := by
    simp only [Cfg.find]
    rw [if_pos (by omega), he]
  have := hd l l' k m d this hf
  omega

theorem closeLine_off (c : Cfg) (l d : Nat) (outs : Nat → Bool) (h : outs d = false) : c.closeLine l outs d = false := by
  unfold Cfg.closeLine setAll
  split
  · rfl
  · exact h

/-- The valves of a line stand as its recipe says. -/
structure Set (c : Cfg) (outs : Nat → Bool) (i : Nat) (a : Nat → Rat) : Prop where
  on : ∀ m d : Nat, 0 < m → m < 1000 → Opens a m → ¬ Closes a m → c.find (i + 1) m = some d → outs d = true
  off : ∀ m d : Nat, 0 < m → m < 1000 → Closes a m → c.find (i + 1) m = some d → outs d = false

/-- A line that began to wash. -/
structure Begun (l : Line) : Prop where
  held : Held l
  acid : l.state ≠ errAcid
  going : l.curstep ≠ 555

structure Right (c : Cfg) (s : Sys n) : Prop where
  excl : Excl s
  refused : ∀ i, Refused (s.line i)
  whole : AllWhole s
  noErr : ∀ i, (s.line i).state ≠ errWrongOs
  set : ∀ i, Begun (s.line i) → ∀ r, (s.line i).recipe = some r → Set c s.outs i ((s.line i).val r)

theorem Set.started {c : Cfg} (hd : c.Distinct) {i l r : Nat} {val : Nat → Nat → Rat} (hv : ∀ k, Whole (val r k))
    {outs outs' : Nat → Bool} (ho : c.onRecipe l (some r) val (c.closeLine l outs) = some outs') {a : Nat → Rat}
    (hc : ¬ Clash (val r) a) (h : Set c outs i a) : Set c outs' i a := by
  constructor
  · intro m d h0 h1 h2 h3 h4
    obtain ⟨s1, s2⟩ := onRecipe_spec c l r val hv _ _ ho d
    have n1 : ¬ ∃ m : Nat, 0 < m ∧ Closes (val r) m ∧ c.find l m = some d := by
      rintro ⟨m', -, hc', hf'⟩
      have := hd _ _ _ _ _ hf' h4
      subst this
      exact hc ⟨m', by exact_mod_cast h0.ne', by exact_mod_cast h1, Or.inr ⟨hc', h2⟩⟩
    have n2 : ¬ ∃ m : Nat, 0 < m ∧ Opens (val r) m ∧ c.find l m = some d := by
      rintro ⟨m', -, hc', hf'⟩
      have := hd _ _ _ _ _ hf' h4
      subst this
      exact hc ⟨m', by exact_mod_cast h0.ne', by exact_mod_cast h1, Or.inl ⟨hc', Or.inl h2⟩⟩
    rw [(s2 n1).2 n2, closeLine_keep c hd l (i + 1) m d h1 h4]
    exact h.on m d h0 h1 h2 h3 h4
  · intro m d h0 h1 h2 h4
    obtain ⟨s1, s2⟩ := onRecipe_spec c l r val hv _ _ ho d
    by_cases n1 : ∃ m : Nat, 0 < m ∧ Closes (val r) m ∧ c.find l m = some d
    · exact s1 n1
    have n2 : ¬ ∃ m : Nat, 0 < m ∧ Opens (val r) m ∧ c.find l m = some d := by
      rintro ⟨m', -, hc', hf'⟩
      have := hd _ _ _ _ _ hf' h4
      subst this
      exact hc ⟨m', by exact_mod_cast h0.ne', by exact_mod_cast h1, Or.inl ⟨hc', Or.inr h2⟩⟩
    rw [(s2 n1).2 n2, closeLine_keep c hd l (i + 1) m d h1 h4]
    exact h.off m d h0 h1 h2 h4

theorem Set.own {c : Cfg} (hd : c.Distinct) {i r : Nat} {val : Nat → Nat → Rat} (hv : ∀ k, Whole (val r k))
    {outs outs' : Nat → Bool} (ho : c.onRecipe (i + 1) (some r) val outs = some outs') : Set c outs' i (val r) := by
  constructor
  · intro m d h0 h1 h2 h3 h4
    obtain ⟨s1, s2⟩ := onRecipe_spec c _ r val hv _ _ ho d
    have n1 : ¬ ∃ m : Nat, 0 < m ∧ Closes (val r) m ∧ c.find (i + 1) m = some d := by
      rintro ⟨m', -, hc', hf'⟩
      have := hd _ _ _ _ _ hf' h4
      subst this
      exact h3 hc'
    exact (s2 n1).1 ⟨m, h0, h2, h4⟩
  · intro m d h0 h1 h2 h4
    exact (onRecipe_spec c _ r val hv _ _ ho d).1 ⟨m, h0, h2, h4⟩

theorem Set.finished {c : Cfg} (hd : c.Distinct) {i l : Nat} {rr : Option Nat} {val : Nat → Nat → Rat}
    (hv : ∀ r k, Whole (val r k)) {outs outs' : Nat → Bool}
    (ho : (c.offRecipe l rr val outs).map (c.closeLine l) = some outs') {a : Nat → Rat}
    (hc : ∀ r, rr = some r → ¬ Clash (val r) a) (h : Set c outs i a) : Set c outs' i a := by
  obtain ⟨o1, h1, h2⟩ := Option.map_eq_some_iff.1 ho
  subst h2
  cases rr with
  | none =>
    simp only [Cfg.offRecipe, Option.some.injEq] at h1
    subst h1
    exact ⟨fun m d h0 h1 h2 h3 h4 => by rw [closeLine_keep c hd l (i + 1) m d h1 h4]; exact h.on m d h0 h1 h2 h3 h4,
      fun m d h0 h1 h2 h4 => by rw [closeLine_keep c hd l (i + 1) m d h1 h4]; exact h.off m d h0 h1 h2 h4⟩
  | some r =>
    have hc := hc r rfl
    constructor
    · intro m d h0 hm h2 h3 h4
      rw [closeLine_keep c hd l (i + 1) m d hm h4]
      rw [(offRecipe_spec c l r val (hv r) _ _ h1 d).2]
      · exact h.on m d h0 hm h2 h3 h4
      · rintro ⟨m', -, hc', hf'⟩
        have := hd _ _ _ _ _ hf' h4
        subst this
        exact hc ⟨m', by exact_mod_cast h0.ne', by exact_mod_cast hm, Or.inl ⟨hc', Or.inl h2⟩⟩
    · intro m d h0 hm h2 h4
      apply closeLine_off
      by_cases hx : ∃ m : Nat, 0 < m ∧ Opens (val r) m ∧ c.find l m = some d
      · exact (offRecipe_spec c l r val (hv r) _ _ h1 d).1 hx
      · rw [(offRecipe_spec c l r val (hv r) _ _ h1 d).2 hx]
        exact h.off m d h0 hm h2 h4

end Ptusa.Cip
