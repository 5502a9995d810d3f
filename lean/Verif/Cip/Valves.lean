import Verif.Cip.Excl

/-!
# Positions of the valves of the recipes
-/
namespace Ptusa.Cip

variable {n : Nat}

theorem begun_of_block {l : Line} (hw : Wf l) (hb : l.block.blocked = false) (hs : l.block.state ≠ 0)
    (hc : l.block.conflict = false) (ha : l.block.state ≠ errAcid) (h5 : l.block.curstep ≠ 555) : Begun l := by
  obtain ⟨k1, k2, k3, k4, k5, k6⟩ := block_keep l
  have hh := held_of_block hw hb hs (k5 ▸ hc)
  refine ⟨hh, fun z => ?_, k1 ▸ h5⟩
  have h0 := hw.acid z
  rcases block_cases l with ⟨h, -⟩ | ⟨-, h⟩ | ⟨h, -⟩
  · rw [h] at ha; exact ha z
  · rw [h] at hs; simp [h0] at hs
  · rw [h] at hb; cases hb

/-- A line that has begun after a cycle had begun before, or was started. -/
theorem begun_act {c : Cfg} {s s' : Sys n} {i : Fin n} {e : Env} {l0 : Line} (hw : Wf l0) (hb : l0.block.blocked = false)
    (ho : e.objErr = false) (hn : l0.block.ncmd = cmdNext → l0.block.state ≠ errAcid)
    (ha : Act c s i e l0.block s') (hh : Begun (s'.line i)) :
    (s'.line i).recipe = l0.recipe ∧ (s'.line i).val = l0.val ∧
      (Begun l0 ∧ s'.outs = s.outs ∨
        (s.put i l0.block).valvesConflict i = some false ∧
          c.onRecipe (i + 1) l0.recipe l0.val (c.closeLine (i + 1) s.outs) = some s'.outs) := by
  obtain ⟨k1, k2, k3, k4, k5, k6⟩ := block_keep l0
  have hl := begun_of_block hw hb
  have hs := hh.held.state
  have hf := hh.held.free
  have hA := hh.acid
  have h5 := hh.going
  refine ⟨(held_act hw hb ha hh.held).1, (held_act hw hb ha hh.held).2.1, ?_⟩
  have pos : 0 < l0.block.state → l0.block.state ≠ errAcid := fun h z => by rw [z] at h; exact absurd h (by decide)
  cases ha
  case idle => simp only [put_self] at hs hf hA h5; exact Or.inl ⟨hl hs hf hA h5, rfl⟩
  case next h1 h2 h3 =>
    simp only [put_self, initStep_conflict, goTo_conflict] at hf
    exact Or.inl ⟨hl h2 hf (hn h1) h3, rfl⟩
  case pause h1 h2 h3 =>
    simp only [put_self, stop_conflict] at hf
    exact Or.inl ⟨hl (by omega) hf (pos h2) h3, rfl⟩
  case reset h1 h2 => simp at h5
  case forget h1 h2 => simp only [put_self] at hs; exact absurd h2 hs
  case wrongOs h1 h2 h3 h4 => rw [ho] at h4; cases h4
  case resume h1 h2 h3 h4 h6 =>
    simp only [put_self, initStep_curstep] at h5
    exact Or.inl ⟨hl (by omega) h3 h6 h5, rfl⟩
  case noSwitch ht _ => simp only [put_self] at hs; exact absurd ht.state hs
  case conflict => simp only [put_self] at hf; cases hf
  case startWrong ht h1 h2 => rw [ho] at h2; cases h2
  case startAcid ht h1 h2 h3 => simp only [put_self] at hA; exact absurd rfl hA
  case started outs l' ht h1 h2 h3 h4 h5 =>
    rw [k3, k6] at h4
    exact Or.inr ⟨h1, h4⟩
  case ret b h1 h2 =>
    simp only [put_self, setRet_conflict, setRet_state, setRet_curstep] at hf hA h5
    exact Or.inl ⟨hl h2 hf hA h5, rfl⟩
  case go h1 h2 h3 =>
    simp only [put_self] at hf
    exact Or.inl ⟨hl (by omega) hf (pos h2) h3, rfl⟩
  case done v p r x l1 l' h1 h2 h3 h4 hd h6 =>
    have h7 : l'.core = (l1.goTo x e.opt).core := by
      rw [h6]
      split
      · simp
      · rfl
    have e3 : l'.conflict = l0.block.conflict := (congrArg Core.conflict h7).trans (by rw [hd]; simp [Line.core])
    simp only [put_self] at hf
    rw [e3] at hf
    exact Or.inl ⟨hl (by omega) hf (pos h2) h3, rfl⟩
  case fail v p r x h1 h2 h3 =>
    simp only [put_self, stop_conflict] at hf
    exact Or.inl ⟨hl (by omega) hf (pos h2) h3, rfl⟩
  case finish outs h1 h2 h3 h4 => simp at hs
  case auto h1 h2 h3 =>
    simp only [put_self, initStep_conflict, initStep_curstep] at hf h5
    refine Or.inl ⟨hl (by omega) hf ?_ h5, rfl⟩
    rcases h3 with h3 | h3 <;> rw [h3] <;> decide

/-- What a cycle does with the devices of the recipes. -/
theorem outs_act {c : Cfg} {s s' : Sys n} {i : Fin n} {e : Env} {l0 : Line} (hw : Wf l0) (hb : l0.block.blocked = false)
    (ha : Act c s i e l0.block s') :
    s'.outs = s.outs ∨
      ((s.put i l0.block).valvesConflict i = some false ∧
          c.onRecipe (i + 1) l0.recipe l0.val (c.closeLine (i + 1) s.outs) = some s'.outs) ∨
      (Held l0 ∧ (c.offRecipe (i + 1) l0.recipe l0.val s.outs).map (c.closeLine (i + 1)) = some s'.outs) := by
  obtain ⟨k1, k2, k3, k4, k5, k6⟩ := block_keep l0
  cases ha
  case started outs l' ht h1 h2 h3 h4 h5 =>
    rw [k3, k6] at h4
    exact Or.inr (Or.inl ⟨h1, h4⟩)
  case finish outs h1 h2 h3 h4 =>
    rw [k3, k6, k5] at h4
    by_cases hc : l0.conflict = true
    · rw [if_pos hc] at h4
      injection h4 with h4
      exact Or.inl h4.symm
    · rw [if_neg hc] at h4
      exact Or.inr (Or.inr ⟨held_of_block hw hb (by omega) (by simpa using hc), h4⟩)
  all_goals exact Or.inl rfl

theorem noErr_act {c : Cfg} {s s' : Sys n} {i : Fin n} {e : Env} {l : Line} (ho : e.objErr = false)
    (h : l.state ≠ errWrongOs) (ha : Act c s i e l s') : (s'.line i).state ≠ errWrongOs := by
  cases ha
  case wrongOs h1 h2 h3 h4 => rw [ho] at h4; cases h4
  case startWrong ht h1 h2 => rw [ho] at h2; cases h2
  case done v p r x l1 l' h1 h2 h3 h4 h5 h6 =>
    have h7 : l'.core = (l1.goTo x e.opt).core := by
      rw [h6]
      split
      · simp
      · rfl
    have e1 : l'.state = l.state := (congrArg Core.state h7).trans (by rw [h5]; simp [Line.core])
    simp only [put_self]
    rw [e1]; exact h
  case fail v p r x h1 h2 h3 => simp only [put_self]; exact (code_range x).2.2.2.2
  case started outs l' ht h1 h2 h3 h4 h5 =>
    simp only [put_self, initStep_state]
    have : l'.state = 1 := by rw [h5]; split <;> rfl
    rw [this]; decide
  all_goals simp [errWrongOs, errConflict, errAcid] <;> exact h

theorem noErr_block {l : Line} (h : l.state ≠ errWrongOs) : l.block.state ≠ errWrongOs := by
  rcases block_cases l with ⟨hb, -⟩ | ⟨-, hb⟩ | ⟨-, h1, -⟩
  · rw [hb]; exact h
  · rw [hb]; simp only; split <;> decide
  · rw [h1]; decide

theorem act_val {c : Cfg} {s s' : Sys n} {i : Fin n} {e : Env} {l : Line} (ha : Act c s i e l s') :
    (s'.line i).val = l.val := by
  cases ha
  case done v p r x l1 l' h1 h2 h3 h4 h5 h6 =>
    have h7 : l'.core = (l1.goTo x e.opt).core := by
      rw [h6]
      split
      · simp
      · rfl
    simp only [put_self]
    exact (congrArg Core.val h7).trans (by rw [h5]; simp [Line.core])
  case started outs l' ht h1 h2 h3 h4 h5 =>
    simp only [put_self, initStep_val]
    rw [h5]; split <;> rfl
  all_goals simp

/-- The ways of working under which the valves are right. -/
def Good (s : Sys n) (e : Ev n) : Prop := NoSkip s e ∧ NoChange s e ∧ ObjectsOk s e ∧ WholeEdits s e

theorem Right.step {c : Cfg} (hd : c.Distinct) {s s' : Sys n} {e : Ev n} (h : Right c s) (hg : Good s e)
    (hs : c.step s e = some s') : Right c s' := by
  obtain ⟨g1, g2, g3, g4⟩ := hg
  refine ⟨h.excl.step g2 hs, Refused.step h.excl.wf h.refused g1 hs, ?_, ?_, ?_⟩
  · intro j r k
    by_cases hj : j = e.line
    · subst hj
      cases e with
      | cmd i x => simp only [Cfg.step, Option.some.injEq] at hs; subst hs; rw [Ev.line, put_self]; exact h.whole i r k
      | cycle i e =>
        obtain ⟨k1, k2, k3, k4, k5, k6⟩ := block_keep (s.line i)
        rcases evaluate_act c s s' i e hs with ⟨hb, rfl⟩ | ⟨hb, ha⟩
        · rw [Ev.line, put_self, k6]; exact h.whole i r k
        · rw [Ev.line, act_val ha, k6]; exact h.whole i r k
      | select i r' =>
        simp only [Cfg.step] at hs
        split at hs
        · injection hs with hs; subst hs; exact h.whole i r k
        · split at hs
          · injection hs with hs; subst hs; rw [Ev.line, put_self]; exact h.whole i r k
          · cases hs
      | program i p => simp only [Cfg.step, Option.some.injEq] at hs; subst hs; rw [Ev.line, put_self]; exact h.whole i r k
      | edit i r' k' v =>
        simp only [Cfg.step, Option.some.injEq] at hs; subst hs; rw [Ev.line, put_self]
        simp only
        split
        · exact g4
        · exact h.whole i r k
    · rw [step_other hs hj]; exact h.whole j r k
  · intro j
    by_cases hj : j = e.line
    · subst hj
      cases e with
      | cmd i x => simp only [Cfg.step, Option.some.injEq] at hs; subst hs; rw [Ev.line, put_self]; exact h.noErr i
      | cycle i e =>
        rcases evaluate_act c s s' i e hs with ⟨hb, rfl⟩ | ⟨hb, ha⟩
        · rw [Ev.line, put_self]; exact noErr_block (h.noErr i)
        · exact noErr_act g3 (noErr_block (h.noErr i)) ha
      | select i r' =>
        simp only [Cfg.step] at hs
        split at hs
        · injection hs with hs; subst hs; exact h.noErr i
        · split at hs
          · injection hs with hs; subst hs; rw [Ev.line, put_self]; exact h.noErr i
          · cases hs
      | program i p => simp only [Cfg.step, Option.some.injEq] at hs; subst hs; rw [Ev.line, put_self]; exact h.noErr i
      | edit i r' k' v => simp only [Cfg.step, Option.some.injEq] at hs; subst hs; rw [Ev.line, put_self]; exact h.noErr i
    · rw [step_other hs hj]; exact h.noErr j
  · intro j hB r hr
    cases e with
    | cmd i x =>
      simp only [Cfg.step, Option.some.injEq] at hs; subst hs
      rw [put_line] at hB hr ⊢
      split at hB
      next hj =>
        subst hj
        rw [if_pos rfl] at hr ⊢
        exact h.set j ⟨⟨hB.held.state, hB.held.free, hB.held.begun⟩, hB.acid, hB.going⟩ r hr
      next hj => rw [if_neg hj] at hr ⊢; exact h.set j hB r hr
    | program i x =>
      simp only [Cfg.step, Option.some.injEq] at hs; subst hs
      rw [put_line] at hB hr ⊢
      split at hB
      next hj =>
        subst hj
        rw [if_pos rfl] at hr ⊢
        exact h.set j ⟨⟨hB.held.state, hB.held.free, hB.held.begun⟩, hB.acid, hB.going⟩ r hr
      next hj => rw [if_neg hj] at hr ⊢; exact h.set j hB r hr
    | edit i r' k' v =>
      simp only [Cfg.step, Option.some.injEq] at hs; subst hs
      rw [put_line] at hB hr ⊢
      split at hB
      next hj =>
        subst hj
        rw [if_pos rfl] at hr ⊢
        have h1 := h.set j ⟨⟨hB.held.state, hB.held.free, hB.held.begun⟩, hB.acid, hB.going⟩ r hr
        have h2 : r ≠ r' := fun z => g2 hB.held.state (by simp only at hr; rw [hr, z])
        have h3 : (fun k'' => if r = r' ∧ k'' = k' then v else (s.line j).val r k'') = (s.line j).val r := by
          funext k''
          rw [if_neg (fun x => h2 x.1)]
        simp only [put_outs]
        rw [h3]
        exact h1
      next hj => rw [if_neg hj] at hr ⊢; exact h.set j hB r hr
    | select i r' =>
      simp only [Cfg.step] at hs
      split at hs
      · injection hs with hs; subst hs; exact h.set j hB r hr
      · split at hs
        · injection hs with hs; subst hs
          rw [put_line] at hB hr ⊢
          split at hB
          next hj => subst hj; exact absurd g2 hB.held.state
          next hj => rw [if_neg hj] at hr ⊢; exact h.set j hB r hr
        · cases hs
    | cycle i e =>
      obtain ⟨k1, k2, k3, k4, k5, k6⟩ := block_keep (s.line i)
      rcases evaluate_act c s s' i e hs with ⟨hb, rfl⟩ | ⟨hb, ha⟩
      · rw [put_line] at hB hr ⊢
        split at hB
        next hj =>
          subst hj
          rw [if_pos rfl] at hr ⊢
          rw [k3] at hr
          rw [k6]
          have hl := (h.excl.wf j).block.lock.1 hb
          have hc := hB.held.begun hl
          rw [k1] at hc
          refine h.set j ⟨⟨fun z => ?_, k5 ▸ hB.held.free, fun _ => hc⟩, fun z => ?_, k1 ▸ hB.going⟩ r hr
          · rw [(h.excl.wf j).zero z] at hc; exact absurd hc (by decide)
          · rw [(h.excl.wf j).acid z] at hc; exact absurd hc (by decide)
        next hj => rw [if_neg hj] at hr ⊢; exact h.set j hB r hr
      · by_cases hj : j = i
        · subst hj
          have hn : (s.line j).block.ncmd = cmdNext → (s.line j).block.state ≠ errAcid := by
            intro hn
            rcases block_cases (s.line j) with ⟨he, -⟩ | ⟨-, he⟩ | ⟨he, -⟩
            · rw [he] at hn ⊢
              have := g1 hn
              simp at this
              exact this.2.2
            · rw [he] at hn; exact absurd hn (by simp [cmdNext])
            · rw [he] at hb; cases hb
          obtain ⟨a1, a2, a3⟩ := begun_act (h.excl.wf j) hb g3 hn ha hB
          rw [a1] at hr
          rw [a2]
          rcases a3 with ⟨a3, a4⟩ | ⟨a3, a4⟩
          · rw [a4]; exact h.set j a3 r hr
          · rw [hr] at a4
            exact Set.own hd (fun k => h.whole j r k) a4
        · rw [ha.other hj] at hB hr ⊢
          have h0 := h.set j hB r hr
          rcases outs_act (h.excl.wf i) hb ha with a | ⟨a, b⟩ | ⟨a, b⟩
          · rw [a]; exact h0
          · cases hq : (s.line i).recipe with
            | none => simp [Sys.valvesConflict, k3, hq] at a
            | some q =>
              rw [hq] at b
              refine Set.started hd (fun k => h.whole i q k) b (fun hcl => ?_) h0
              have := (conflict_iff s i (s.line i).block q (by rw [k3, hq]) false a).2
                ⟨j, hj, hB.held.state, r, hr, by rw [k6]; exact hcl⟩
              cases this
          · refine Set.finished hd (fun r k => h.whole i r k) b (fun q hq hcl => ?_) h0
            exact h.excl.free i j (fun z => hj z.symm) a hB.held q r hq hr hcl

theorem right_initial (c : Cfg) (vals : Fin n → Nat → Nat → Rat) (hv : ∀ i r k, Whole (vals i r k)) (outs : Nat → Bool) :
    Right c (initial vals outs) :=
  ⟨excl_initial vals outs, fun i x => by simp [initial] at x, hv, fun i => by simp [initial, errWrongOs],
    fun i hB => absurd rfl hB.held.state⟩

/-! ## The end of a wash -/

/-- Line `i` is busy with the recipe `r` whose values are `a`. -/
structure With (r : Nat) (a : Nat → Rat) (l : Line) : Prop where
  wf : Wf l
  whole : ∀ k, Whole (a k)
  busy : l.state ≠ 0
  free : l.conflict = false
  recipe : l.recipe = some r
  val : l.val r = a

/-- The valves the recipe opens are off. -/
def Off (c : Cfg) (outs : Nat → Bool) (i : Nat) (a : Nat → Rat) : Prop :=
  ∀ m d : Nat, 0 < m → Opens a m → c.find (i + 1) m = some d → outs d = false

theorem with_act {c : Cfg} {s s' : Sys n} {i : Fin n} {e : Env} {l : Line} {r : Nat} {a : Nat → Rat} (h : With r a l)
    (hb : l.blocked = false) (ha : Act c s i e l s') : With r a (s'.line i) ∨ (s'.line i).state = 0 ∧ Off c s'.outs i a := by
  have hw := (h.wf.act hb ha).1
  have hl := h.val
  have hr := h.recipe
  have hf := h.free
  have hv := act_val ha
  have hq : ∀ x : Line, x.state ≠ 0 → x.conflict = false → x.recipe = some r → x.val = l.val → Wf x → With r a x :=
    fun x a1 a2 a3 a4 a5 => ⟨a5, h.whole, a1, a2, a3, by rw [a4]; exact hl⟩
  cases ha
  case finish outs h1 h2 h3 h4 =>
    right
    rw [hf, hr] at h4
    simp only [Bool.false_eq_true, if_false] at h4
    obtain ⟨o1, h5, h6⟩ := Option.map_eq_some_iff.1 h4
    subst h6
    refine ⟨by simp, fun m d hm ho hd => ?_⟩
    apply closeLine_off
    exact (offRecipe_spec c _ r l.val (by rw [hl]; exact h.whole) _ _ h5 d).1 ⟨m, hm, by rw [hl]; exact ho, hd⟩
  case forget h1 h2 => exact absurd h2 h.busy
  case noSwitch ht _ => exact absurd ht.state h.busy
  case conflict ht _ => exact absurd ht.state h.busy
  case startWrong ht _ _ => exact absurd ht.state h.busy
  case startAcid ht _ _ _ => exact absurd ht.state h.busy
  case started ht _ _ _ _ _ => exact absurd ht.state h.busy
  case done v p r x l1 l' h1 h2 h3 h4 h5 h6 =>
    have h7 : l'.core = (l1.goTo x e.opt).core := by
      rw [h6]
      split
      · simp
      · rfl
    have e1 : l'.state = l.state := (congrArg Core.state h7).trans (by rw [h5]; simp [Line.core])
    have e2 : l'.recipe = l.recipe := (congrArg Core.recipe h7).trans (by rw [h5]; simp [Line.core])
    have e3 : l'.conflict = l.conflict := (congrArg Core.conflict h7).trans (by rw [h5]; simp [Line.core])
    left
    refine hq _ ?_ ?_ ?_ hv hw
    · simp only [put_self]; rw [e1]; exact h.busy
    · simp only [put_self]; rw [e3]; exact hf
    · simp only [put_self]; rw [e2]; exact hr
  case fail v p q x h1 h2 h3 =>
    left
    refine hq _ ?_ ?_ ?_ hv hw
    · simp only [put_self]; have := (code_range x).1; omega
    · simpa using hf
    · simpa using hr
  all_goals
    left
    refine hq _ ?_ ?_ ?_ hv hw
    · first | (simp; done) | simpa using h.busy | simp [errWrongOs]
    · simpa using hf
    · simpa using hr

theorem with_step {c : Cfg} {s s' : Sys n} {i : Fin n} {e : Ev n} {r : Nat} {a : Nat → Rat} (h : With r a (s.line i))
    (hc : NoChange s e) (hu : NoEarlyUnlock i s e) (hs : c.step s e = some s') :
    With r a (s'.line i) ∨ (s'.line i).state = 0 ∧ Off c s'.outs i a := by
  by_cases hi : i = e.line
  · subst hi
    cases e with
    | cmd i x =>
      simp only [Cfg.step, Option.some.injEq] at hs; subst hs; rw [Ev.line, put_self]
      exact Or.inl ⟨⟨h.wf.known, h.wf.zero, h.wf.lock, h.wf.acid⟩, h.whole, h.busy, h.free, h.recipe, h.val⟩
    | cycle i e =>
      have hb' : With r a (s.line i).block := by
        obtain ⟨k1, k2, k3, k4, k5, k6⟩ := block_keep (s.line i)
        refine ⟨h.wf.block, h.whole, ?_, k5.trans h.free, k3.trans h.recipe, by rw [k6]; exact h.val⟩
        rcases block_cases (s.line i) with ⟨he, -⟩ | ⟨hx, he⟩ | ⟨-, he, -⟩
        · rw [he]; exact h.busy
        · rw [he]
          have := hu rfl hx
          simp [this]
        · rw [he]; decide
      rcases evaluate_act c s s' i e hs with ⟨-, rfl⟩ | ⟨hb, ha⟩
      · rw [Ev.line, put_self]; exact Or.inl hb'
      · exact with_act hb' hb ha
    | select i r' => exact absurd hc h.busy
    | program i p =>
      simp only [Cfg.step, Option.some.injEq] at hs; subst hs; rw [Ev.line, put_self]
      exact Or.inl ⟨⟨h.wf.known, h.wf.zero, h.wf.lock, h.wf.acid⟩, h.whole, h.busy, h.free, h.recipe, h.val⟩
    | edit i r' k v =>
      simp only [Cfg.step, Option.some.injEq] at hs; subst hs; rw [Ev.line, put_self]
      have h2 : r ≠ r' := fun z => hc h.busy (by rw [← z]; exact h.recipe)
      refine Or.inl ⟨⟨h.wf.known, h.wf.zero, h.wf.lock, h.wf.acid⟩, h.whole, h.busy, h.free, h.recipe, ?_⟩
      funext k'
      simp only
      rw [if_neg (fun x => h2 x.1)]
      exact congrFun h.val k'
  · rw [step_other hs hi]; exact Or.inl h

end Ptusa.Cip
