import Verif.Operation.Spec

/-!
# Helper lemmas about operations
-/
namespace Ptusa.Operation

theorem inUse_snoc (l : List Call) (x : Call) (i : Option Nat) :
    inUse (l ++ [x]) i = match x with
      | .init j => if j = i then true else inUse l i
      | .fin j => if j = i then false else inUse l i
      | .eval _ => inUse l i := by
  simp only [inUse, List.foldl_append, List.foldl_cons, List.foldl_nil]
  cases x <;> rfl

/-- Invariant of one state. -/
structure Basic (c : SCfg) (r : OpState) : Prop where
  len : r.act.length = c.steps
  main : ∀ m, r.main = some m → m < c.steps
  extra : ∀ k ∈ r.extra, 1 ≤ k ∧ k ≤ c.steps
  saved : ∀ k ∈ r.saved, 1 ≤ k ∧ k ≤ c.steps
  logged : ∀ i, i < c.steps → r.act[i]? = some (inUse r.log (some i))
  modeLogged : r.mode = inUse r.log none

/-- Every step in use is the active step or an active extra step. -/
def Cover (r : OpState) : Prop :=
  ∀ i, r.act[i]? = some true → r.main = some i ∨ i + 1 ∈ r.extra

namespace OpState

@[simp] theorem initStep_main (r : OpState) (i : Nat) : (r.initStep i).main = r.main := rfl
@[simp] theorem initStep_extra (r : OpState) (i : Nat) : (r.initStep i).extra = r.extra := rfl
@[simp] theorem initStep_saved (r : OpState) (i : Nat) : (r.initStep i).saved = r.saved := rfl
@[simp] theorem initStep_nextN (r : OpState) (i : Nat) : (r.initStep i).nextN = r.nextN := rfl
@[simp] theorem evalStep_main (r : OpState) (i : Nat) : (r.evalStep i).main = r.main := rfl
@[simp] theorem evalStep_extra (r : OpState) (i : Nat) : (r.evalStep i).extra = r.extra := rfl
@[simp] theorem evalStep_saved (r : OpState) (i : Nat) : (r.evalStep i).saved = r.saved := rfl
@[simp] theorem evalStep_act (r : OpState) (i : Nat) : (r.evalStep i).act = r.act := rfl
@[simp] theorem finStep_main (r : OpState) (i : Nat) : (r.finStep i).main = r.main := rfl
@[simp] theorem finStep_extra (r : OpState) (i : Nat) : (r.finStep i).extra = r.extra := rfl
@[simp] theorem finStep_mode (r : OpState) (i : Nat) : (r.finStep i).mode = r.mode := rfl
@[simp] theorem finStep_saved (r : OpState) (i : Nat) : (r.finStep i).saved = r.saved := rfl

end OpState

theorem Basic.initStep {c : SCfg} {r : OpState} (h : Basic c r) (i : Nat) :
    Basic c (r.initStep i) := by
  refine ⟨by simp [OpState.initStep, h.len], h.main, h.extra, h.saved, ?_, ?_⟩
  · intro j hj
    simp only [OpState.initStep, List.getElem?_set, inUse_snoc, h.len, Option.some.injEq]
    by_cases hij : i = j
    · subst hij; simp [hj]
    · simp [hij, h.logged j hj]
  · simp only [OpState.initStep, inUse_snoc, reduceCtorEq, if_false]
    exact h.modeLogged

theorem Basic.finStep {c : SCfg} {r : OpState} (h : Basic c r) (i : Nat) :
    Basic c (r.finStep i) := by
  refine ⟨by simp [OpState.finStep, h.len], h.main, h.extra, h.saved, ?_, ?_⟩
  · intro j hj
    simp only [OpState.finStep, List.getElem?_set, inUse_snoc, h.len, Option.some.injEq]
    by_cases hij : i = j
    · subst hij; simp [hj]
    · simp [hij, h.logged j hj]
  · simp only [OpState.finStep, inUse_snoc, reduceCtorEq, if_false]
    exact h.modeLogged

theorem Basic.evalStep {c : SCfg} {r : OpState} (h : Basic c r) (i : Nat) :
    Basic c (r.evalStep i) := by
  refine ⟨h.len, h.main, h.extra, h.saved, ?_, ?_⟩
  · intro j hj
    simp only [OpState.evalStep, inUse_snoc]
    exact h.logged j hj
  · simp only [OpState.evalStep, inUse_snoc]
    exact h.modeLogged

theorem Basic.finMain {c : SCfg} {r : OpState} (h : Basic c r) : Basic c r.finMain := by
  unfold OpState.finMain
  split
  · exact h.finStep _
  · exact h

@[simp] theorem finMain_extra (r : OpState) : r.finMain.extra = r.extra := by
  unfold OpState.finMain; split <;> rfl
@[simp] theorem finMain_saved (r : OpState) : r.finMain.saved = r.saved := by
  unfold OpState.finMain; split <;> rfl
@[simp] theorem finMain_main (r : OpState) : r.finMain.main = r.main := by
  unfold OpState.finMain; split <;> rfl

theorem finMain_act (r : OpState) (i : Nat) :
    r.finMain.act[i]? = some true ↔ r.act[i]? = some true ∧ r.main ≠ some i := by
  unfold OpState.finMain
  cases hm : r.main with
  | none => simp
  | some m =>
    simp only [OpState.finStep, List.getElem?_set]
    by_cases hmi : m = i
    · subst hmi
      simp only [if_true]
      split <;> simp
    · simp [hmi]

/-- Setting the active step. -/
theorem Basic.setMain {c : SCfg} {r : OpState} (h : Basic c r) (o : Option Nat) (n : Int)
    (ho : ∀ m, o = some m → m < c.steps) : Basic c { r with main := o, nextN := n } :=
  ⟨h.len, ho, h.extra, h.saved, h.logged, h.modeLogged⟩

theorem Basic.clearMain {c : SCfg} {r : OpState} (h : Basic c r) :
    Basic c { r with main := none } :=
  ⟨h.len, by simp, h.extra, h.saved, h.logged, h.modeLogged⟩

theorem Basic.setExtra {c : SCfg} {r : OpState} (h : Basic c r) (l : List Nat)
    (hl : ∀ k ∈ l, 1 ≤ k ∧ k ≤ c.steps) : Basic c { r with extra := l } :=
  ⟨h.len, h.main, hl, h.saved, h.logged, h.modeLogged⟩

theorem Basic.toStep {c : SCfg} {r : OpState} (h : Basic c r) (e : Env) (k : Int) :
    Basic c (r.toStep c e k) := by
  unfold OpState.toStep
  split
  · exact h
  · rename_i hk
    have hi : k.toNat - 1 < c.steps := by omega
    have h2 := h.finMain.setMain (some (k.toNat - 1)) (c.next (k.toNat - 1))
      (by intro m hm; cases hm; exact hi)
    dsimp only
    split
    · exact h2
    · exact (h2.initStep _).evalStep _

theorem toStep_extra (c : SCfg) (e : Env) (k : Int) (r : OpState) :
    (r.toStep c e k).extra = r.extra := by
  unfold OpState.toStep
  split
  · rfl
  · dsimp only
    split <;> simp

theorem toStep_saved (c : SCfg) (e : Env) (k : Int) (r : OpState) :
    (r.toStep c e k).saved = r.saved := by
  unfold OpState.toStep
  split
  · rfl
  · dsimp only
    split <;> simp

theorem act_set_true (l : List Bool) (i j : Nat) (h : (l.set i true)[j]? = some true) :
    j = i ∨ l[j]? = some true := by
  rw [List.getElem?_set] at h
  by_cases hij : i = j
  · exact .inl hij.symm
  · simp only [hij, if_false] at h; exact .inr h

theorem act_set_false (l : List Bool) (i j : Nat) (h : (l.set i false)[j]? = some true) :
    j ≠ i ∧ l[j]? = some true := by
  rw [List.getElem?_set] at h
  by_cases hij : i = j
  · subst hij
    simp only [if_true] at h
    split at h <;> simp at h
  · simp only [hij, if_false] at h; exact ⟨fun h => hij h.symm, h⟩

theorem Cover.toStep {c : SCfg} {r : OpState} (h : Cover r) (e : Env) (k : Int) :
    Cover (r.toStep c e k) := by
  unfold OpState.toStep
  split
  · exact h
  · dsimp only
    split
    · intro j hj
      have hj' := (finMain_act r j).mp hj
      rcases h j hj'.1 with hm | he
      · exact absurd hm hj'.2
      · right; simpa using he
    · intro j hj
      rcases act_set_true _ _ _ hj with rfl | hj
      · left; rfl
      · have hj' := (finMain_act r j).mp hj
        rcases h j hj'.1 with hm | he
        · exact absurd hm hj'.2
        · right; simpa using he

/-! ### Folds over the extra steps -/

theorem foldInit_frame (l : List Nat) : ∀ r : OpState,
    (l.foldl (fun r k => r.initStep (k - 1)) r).main = r.main ∧
    (l.foldl (fun r k => r.initStep (k - 1)) r).extra = r.extra ∧
    (l.foldl (fun r k => r.initStep (k - 1)) r).saved = r.saved := by
  induction l with
  | nil => intro r; exact ⟨rfl, rfl, rfl⟩
  | cons a l ih => intro r; simpa using ih (r.initStep (a - 1))

theorem foldInit_basic {c : SCfg} (l : List Nat) : ∀ r : OpState, Basic c r →
    Basic c (l.foldl (fun r k => r.initStep (k - 1)) r) := by
  induction l with
  | nil => intro r h; exact h
  | cons a l ih => intro r h; exact ih _ (h.initStep _)

theorem foldInit_cover (l : List Nat) : ∀ r : OpState, Cover r →
    (∀ k ∈ l, 1 ≤ k ∧ k ∈ r.extra) → Cover (l.foldl (fun r k => r.initStep (k - 1)) r) := by
  induction l with
  | nil => intro r h _; exact h
  | cons a l ih =>
    intro r h hl
    refine ih _ ?_ ?_
    · intro j hj
      rcases act_set_true _ _ _ hj with rfl | hj
      · have := hl a (by simp)
        right
        simp only [OpState.initStep_extra]
        have e : a - 1 + 1 = a := by omega
        rw [e]; exact this.2
      · exact h j hj
    · intro k hk
      exact hl k (by simp [hk])

theorem foldFin_frame (l : List Nat) : ∀ r : OpState,
    (l.foldl (fun r k => r.finStep (k - 1)) r).main = r.main ∧
    (l.foldl (fun r k => r.finStep (k - 1)) r).extra = r.extra ∧
    (l.foldl (fun r k => r.finStep (k - 1)) r).saved = r.saved ∧
    (l.foldl (fun r k => r.finStep (k - 1)) r).mode = r.mode := by
  induction l with
  | nil => intro r; exact ⟨rfl, rfl, rfl, rfl⟩
  | cons a l ih => intro r; simpa using ih (r.finStep (a - 1))

theorem foldFin_basic {c : SCfg} (l : List Nat) : ∀ r : OpState, Basic c r →
    Basic c (l.foldl (fun r k => r.finStep (k - 1)) r) := by
  induction l with
  | nil => intro r h; exact h
  | cons a l ih => intro r h; exact ih _ (h.finStep _)

theorem foldFin_act (l : List Nat) : ∀ (r : OpState) (i : Nat), (∀ k ∈ l, 1 ≤ k) →
    (l.foldl (fun r k => r.finStep (k - 1)) r).act[i]? = some true →
    r.act[i]? = some true ∧ i + 1 ∉ l := by
  induction l with
  | nil => intro r i _ h; exact ⟨h, by simp⟩
  | cons a l ih =>
    intro r i hl h
    have h1 := ih (r.finStep (a - 1)) i (fun k hk => hl k (by simp [hk])) h
    have h2 := act_set_false _ _ _ h1.1
    have := hl a (by simp)
    refine ⟨h2.2, ?_⟩
    simp only [List.mem_cons, not_or]
    exact ⟨by omega, h1.2⟩

/-! ### `init`, `finalize` -/

theorem Basic.modeOn {c : SCfg} {r : OpState} (h : Basic c r) :
    Basic c { r with mode := true, log := r.log ++ [.init none], main := none } := by
  refine ⟨h.len, by simp, h.extra, h.saved, ?_, ?_⟩
  · intro i hi
    simp only [inUse_snoc, reduceCtorEq, if_false]
    exact h.logged i hi
  · simp [inUse_snoc]

theorem Basic.modeOff {c : SCfg} {r : OpState} (h : Basic c r) :
    Basic c { r with mode := false, log := r.log ++ [.fin none] } := by
  refine ⟨h.len, h.main, h.extra, h.saved, ?_, ?_⟩
  · intro i hi
    simp only [inUse_snoc, reduceCtorEq, if_false]
    exact h.logged i hi
  · simp [inUse_snoc]

theorem Basic.init {c : SCfg} {r : OpState} (h : Basic c r) (e : Env) (k : Int) :
    Basic c (r.init c e k) := by
  unfold OpState.init
  dsimp only
  split
  · exact h.modeOn
  · exact foldInit_basic _ _ (h.modeOn.toStep e k)

theorem Cover.init {c : SCfg} {r : OpState} (hb : Basic c r) (h : Cover r) (hm : r.main = none)
    (e : Env) (k : Int) : Cover (r.init c e k) := by
  have h1 : Cover { r with mode := true, log := r.log ++ [.init none], main := none } := by
    intro i hi
    rcases h i hi with h' | h'
    · rw [hm] at h'; cases h'
    · exact .inr h'
  unfold OpState.init
  dsimp only
  split
  · exact h1
  · refine foldInit_cover _ _ (h1.toStep e k) ?_
    intro j hj
    refine ⟨?_, hj⟩
    rw [toStep_extra] at hj
    exact (hb.extra j hj).1

theorem Basic.finalize {c : SCfg} {r : OpState} (h : Basic c r) : Basic c r.finalize := by
  unfold OpState.finalize
  dsimp only
  exact (foldFin_basic _ _ h.modeOff.finMain.clearMain).setExtra [] (by simp)

theorem finalize_quiet {c : SCfg} {r : OpState} (hb : Basic c r) (h : Cover r) :
    Quiet r.finalize := by
  unfold OpState.finalize
  dsimp only
  refine ⟨?_, ?_, rfl, ?_⟩
  · rw [(foldFin_frame _ _).2.2.2]
    unfold OpState.finMain
    split <;> rfl
  · rw [(foldFin_frame _ _).1]
  · intro b hbm
    obtain ⟨i, hi⟩ := List.getElem?_of_mem hbm
    cases b with
    | false => rfl
    | true =>
      exfalso
      have h1 := foldFin_act _ _ i (by
        intro k hk
        simp only [finMain_extra] at hk
        exact (hb.extra k hk).1) hi
      have h2 := (finMain_act { r with mode := false, log := r.log ++ [.fin none] } i).mp h1.1
      rcases h i h2.1 with h3 | h3
      · exact h2.2 h3
      · apply h1.2
        simpa using h3

theorem finalize_saved (r : OpState) : r.finalize.saved = r.saved := by
  unfold OpState.finalize
  dsimp only
  rw [(foldFin_frame _ _).2.2.1]
  simp

theorem finalize_main (r : OpState) : r.finalize.main = none := by
  unfold OpState.finalize
  dsimp only
  rw [(foldFin_frame _ _).1]

theorem Quiet.cover {r : OpState} (h : Quiet r) : Cover r := by
  intro i hi
  have := h.act true (List.mem_of_getElem? hi)
  cases this

/-! ### Extra steps -/

theorem Basic.offExtra {c : SCfg} {r : OpState} (h : Basic c r) (k : Int) :
    Basic c (r.offExtra c k) := by
  unfold OpState.offExtra
  split
  · exact h
  · split
    · refine (h.finStep _).setExtra _ ?_
      intro j hj
      exact h.extra j (List.mem_of_mem_erase hj)
    · exact h

theorem Cover.offExtra {c : SCfg} {r : OpState} (hb : Basic c r) (h : Cover r) (k : Int) :
    Cover (r.offExtra c k) := by
  unfold OpState.offExtra
  split
  · exact h
  · split
    · rename_i hk
      intro i hi
      have hi' := act_set_false _ _ _ hi
      rcases h i hi'.2 with h1 | h1
      · exact .inl h1
      · right
        have hk1 := (hb.extra _ hk).1
        have : i + 1 ≠ k.toNat := by
          have := hi'.1
          omega
        exact (List.mem_erase_of_ne this).mpr h1
    · exact h

theorem Basic.onExtraPos {c : SCfg} {r : OpState} (h : Basic c r) (e : Env) (k : Nat)
    (hk : 1 ≤ k) : Basic c (r.onExtraPos c e k).1 := by
  unfold OpState.onExtraPos
  split
  · exact h
  · split
    · exact h
    · split
      · exact h
      · have h1 : Basic c { r with extra := r.extra ++ [k] } := h.setExtra _ (by
          intro j hj
          rcases List.mem_append.mp hj with hj | hj
          · exact h.extra j hj
          · simp only [List.mem_singleton] at hj
            omega)
        dsimp only
        split
        · exact (h1.initStep _).evalStep _
        · exact h1

theorem Cover.onExtraPos {c : SCfg} {r : OpState} (h : Cover r) (e : Env) (k : Nat)
    (hk : 1 ≤ k) : Cover (r.onExtraPos c e k).1 := by
  unfold OpState.onExtraPos
  split
  · exact h
  · split
    · exact h
    · split
      · exact h
      · have h1 : Cover { r with extra := r.extra ++ [k] } := by
          intro i hi
          rcases h i hi with h2 | h2
          · exact .inl h2
          · right; exact List.mem_append_left _ h2
        dsimp only
        split
        · intro i hi
          rcases act_set_true _ _ _ hi with rfl | hi
          · right
            have : k - 1 + 1 = k := by omega
            simp [this]
          · exact h1 i hi
        · exact h1

theorem onExtra_some {c : SCfg} {e : Env} {k : Int} {r : OpState} {x : OpState × Nat}
    (h : r.onExtra c e k = some x) :
    x.1 = r ∨ (1 ≤ k ∧ x = r.onExtraPos c e k.toNat) := by
  unfold OpState.onExtra at h
  split at h
  · cases h; exact .inl rfl
  · split at h
    · split at h
      · cases h; exact .inl rfl
      · cases h
    · cases h; exact .inr ⟨by omega, rfl⟩

theorem mem_of_mem_replace {l : List Nat} {a b x : Nat} (h : x ∈ l.replace a b) :
    x = b ∨ x ∈ l := by
  induction l with
  | nil => simp at h
  | cons y l ih =>
    rw [List.replace_cons] at h
    by_cases hy : a = y
    · subst hy
      simp only [beq_self_eq_true, List.mem_cons] at h
      rcases h with h | h
      · exact .inl h
      · exact .inr (by simp [h])
    · have : (a == y) = false := by simpa using hy
      simp only [this, List.mem_cons] at h
      rcases h with h | h
      · exact .inr (by simp [h])
      · rcases ih h with h | h
        · exact .inl h
        · exact .inr (by simp [h])

theorem mem_replace_self {l : List Nat} {a b : Nat} (h : a ∈ l) : b ∈ l.replace a b := by
  induction l with
  | nil => simp at h
  | cons y l ih =>
    rw [List.replace_cons]
    by_cases hy : y = a
    · subst hy; simp
    · have : (a == y) = false := by simpa using fun h => hy h.symm
      simp only [this, List.mem_cons]
      right
      apply ih
      simp only [List.mem_cons] at h
      rcases h with h | h
      · exact absurd h.symm hy
      · exact h

theorem mem_replace_of_ne {l : List Nat} {a b x : Nat} (h : x ∈ l) (hx : x ≠ a) :
    x ∈ l.replace a b := by
  induction l with
  | nil => simp at h
  | cons y l ih =>
    rw [List.replace_cons]
    simp only [List.mem_cons] at h
    by_cases hy : y = a
    · subst hy
      rcases h with h | h
      · exact absurd h hx
      · simp [h]
    · have : (a == y) = false := by simpa using fun h => hy h.symm
      simp only [this, List.mem_cons]
      rcases h with h | h
      · exact .inl h
      · exact .inr (ih h)

theorem Basic.switchExtra {c : SCfg} {r : OpState} (h : Basic c r) {off on : Int}
    {x : OpState × Nat} (hx : r.switchExtra c off on = some x) : Basic c x.1 := by
  unfold OpState.switchExtra at hx
  split at hx
  · cases hx; exact h
  · split at hx
    · cases hx; exact h
    · split at hx
      · split at hx
        · cases hx
        · cases hx
          have h1 := ((h.finStep (off.toNat - 1)).initStep (on.toNat - 1)).evalStep (on.toNat - 1)
          refine h1.setExtra _ ?_
          intro j hj
          have hj' : j = on.toNat ∨ j ∈ r.extra := mem_of_mem_replace hj
          rcases hj' with rfl | hj'
          · omega
          · exact h.extra j hj'
      · cases hx; exact h

theorem Cover.switchExtra {c : SCfg} {r : OpState} (hb : Basic c r) (h : Cover r) {off on : Int}
    {x : OpState × Nat} (hx : r.switchExtra c off on = some x) : Cover x.1 := by
  unfold OpState.switchExtra at hx
  split at hx
  · cases hx; exact h
  · split at hx
    · cases hx; exact h
    · split at hx
      · rename_i hoff
        split at hx
        · cases hx
        · cases hx
          intro i hi
          rcases act_set_true _ _ _ hi with rfl | hi
          · right
            have e : on.toNat - 1 + 1 = on.toNat := by omega
            rw [e]
            exact mem_replace_self hoff.2
          · have hi' := act_set_false _ _ _ hi
            rcases h i hi'.2 with h1 | h1
            · exact .inl h1
            · right
              refine mem_replace_of_ne h1 ?_
              have := hi'.1
              have := (hb.extra _ hoff.2).1
              omega
      · cases hx; exact h

/-! ### `evaluate` -/

theorem Basic.extraBody {c : SCfg} {r : OpState} (h : Basic c r) (e : Env) (k : Nat) :
    Basic c (r.extraBody c e k) := by
  unfold OpState.extraBody
  split
  · dsimp only
    split
    · exact (h.evalStep _).offExtra _
    · exact h.evalStep _
  · exact h

theorem Cover.extraBody {c : SCfg} {r : OpState} (hb : Basic c r) (h : Cover r) (e : Env)
    (k : Nat) : Cover (r.extraBody c e k) := by
  have h1 : Cover (r.evalStep (k - 1)) := h
  unfold OpState.extraBody
  split
  · dsimp only
    split
    · exact Cover.offExtra (hb.evalStep _) h1 _
    · exact h1
  · exact h

theorem loop_inv {c : SCfg} (e : Env) : ∀ (fuel idx : Nat) (r : OpState), Basic c r →
    Basic c (r.extraLoop c e fuel idx) ∧ (Cover r → Cover (r.extraLoop c e fuel idx)) := by
  intro fuel
  induction fuel with
  | zero => intro idx r h; exact ⟨h, fun h => h⟩
  | succ f ih =>
    intro idx r h
    unfold OpState.extraLoop
    split
    · exact ⟨h, fun h => h⟩
    · rename_i k _
      have := ih (idx + 1) (r.extraBody c e k) (h.extraBody e k)
      exact ⟨this.1, fun hc => this.2 (hc.extraBody h e k)⟩

theorem enable_fold_inv {c : SCfg} (e : Env) (l : List Nat) : ∀ (r : OpState), Basic c r →
    Basic c (l.foldl (fun r i =>
      if i + 1 ∈ r.extra then r
      else if e.onSig i then (r.onExtraPos c e (i + 1)).1 else r) r) ∧
    (Cover r → Cover (l.foldl (fun r i =>
      if i + 1 ∈ r.extra then r
      else if e.onSig i then (r.onExtraPos c e (i + 1)).1 else r) r)) := by
  induction l with
  | nil => intro r h; exact ⟨h, fun h => h⟩
  | cons a l ih =>
    intro r h
    rw [List.foldl_cons]
    split
    · exact ih r h
    · split
      · have := ih _ (h.onExtraPos e (a + 1) (by omega))
        exact ⟨this.1, fun hc => this.2 (hc.onExtraPos e (a + 1) (by omega))⟩
      · exact ih r h

theorem Basic.evalMain {c : SCfg} {r : OpState} (h : Basic c r) (e : Env) :
    Basic c (r.evalMain c e).1 := by
  unfold OpState.evalMain
  split
  · exact h
  · split
    · split
      · exact h
      · exact h.toStep _ _
    · dsimp only
      split
      · split
        · exact (h.toStep _ _).evalStep _
        · exact h.evalStep _
      · split
        · exact h.toStep _ _
        · exact h

theorem Cover.evalMain {c : SCfg} {r : OpState} (h : Cover r) (e : Env) :
    Cover (r.evalMain c e).1 := by
  unfold OpState.evalMain
  split
  · exact h
  · split
    · split
      · exact h
      · exact h.toStep _ _
    · dsimp only
      split
      · split
        · exact h.toStep _ _
        · exact h
      · split
        · exact h.toStep _ _
        · exact h

theorem Basic.evalMode {c : SCfg} {r : OpState} (h : Basic c r) :
    Basic c { r with log := r.log ++ [.eval none] } := by
  refine ⟨h.len, h.main, h.extra, h.saved, ?_, ?_⟩
  · intro i hi
    simp only [inUse_snoc]
    exact h.logged i hi
  · simp only [inUse_snoc]
    exact h.modeLogged

theorem Basic.evaluate {c : SCfg} {r : OpState} (h : Basic c r) (e : Env) :
    Basic c (r.evaluate c e).1 := by
  unfold OpState.evaluate OpState.enableLoop
  dsimp only
  exact ((enable_fold_inv e _ _ (loop_inv e _ _ _ h.evalMode).1).1).evalMain e

theorem Cover.evaluate {c : SCfg} {r : OpState} (hb : Basic c r) (h : Cover r) (e : Env) :
    Cover (r.evaluate c e).1 := by
  unfold OpState.evaluate OpState.enableLoop
  dsimp only
  have h0 : Cover { r with log := r.log ++ [.eval none] } := h
  have h1 := loop_inv e r.extra.length 0 _ hb.evalMode
  exact ((enable_fold_inv e _ _ h1.1).2 (h1.2 h0)).evalMain e

theorem Basic.turnOff {c : SCfg} {r : OpState} (h : Basic c r) : Basic c r.turnOff :=
  h.finMain.clearMain

theorem Cover.turnOff {r : OpState} (h : Cover r) : Cover r.turnOff := by
  intro i hi
  have := (finMain_act r i).mp hi
  rcases h i this.1 with h1 | h1
  · exact absurd h1 this.2
  · right
    simpa [OpState.turnOff] using h1

theorem Basic.toNext {c : SCfg} {r : OpState} (h : Basic c r) (e : Env) :
    Basic c (r.toNext c e) := by
  unfold OpState.toNext
  split
  · exact h
  · split <;> exact h.toStep _ _

theorem Cover.toNext {c : SCfg} {r : OpState} (h : Cover r) (e : Env) :
    Cover (r.toNext c e) := by
  unfold OpState.toNext
  split
  · exact h
  · split <;> exact h.toStep _ _

/-! ### The whole operation -/

/-- States to which the invariant applies: the state `unpausing` is left without being finalised. -/
def Tidy (c : St → SCfg) (s : St) : Prop := s ≠ .unpausing ∨ (c .unpausing).empty = true

/-- Invariant between a `finalize` and the next `init`: `x` is the state (if any) that may be
active. -/
structure Inv0 (c : St → SCfg) (x : Option St) (o : Op) : Prop where
  basic : ∀ s, Basic (c s) (o.st s)
  cover : ∀ s, Tidy c s → Cover (o.st s)
  quiet : ∀ s, Tidy c s → x ≠ some s → Quiet (o.st s)

/-- Invariant of an operation. -/
structure Inv (c : St → SCfg) (o : Op) : Prop extends Inv0 c (some o.cur) o where
  noUnp : (c .unpausing).empty = true → o.cur ≠ .unpausing

theorem Inv0.upd {c : St → SCfg} {o : Op} {s : St} (h : Inv0 c (some s) o) {r : OpState}
    (hb : Basic (c s) r) (hc : Tidy c s → Cover r) : Inv0 c (some s) (o.upd s r) := by
  refine ⟨?_, ?_, ?_⟩
  · intro t
    by_cases ht : t = s
    · subst ht; simpa [Op.upd] using hb
    · simpa [Op.upd, ht] using h.basic t
  · intro t hT
    by_cases ht : t = s
    · subst ht; simpa [Op.upd] using hc hT
    · simpa [Op.upd, ht] using h.cover t hT
  · intro t hT hne
    have ht : t ≠ s := fun e => hne (by rw [e])
    simpa [Op.upd, ht] using h.quiet t hT hne

theorem Inv.updCur {c : St → SCfg} {o : Op} (h : Inv c o) {r : OpState}
    (hb : Basic (c o.cur) r) (hc : Tidy c o.cur → Cover r) : Inv c (o.upd o.cur r) :=
  ⟨h.toInv0.upd hb hc, h.noUnp⟩

/-- Finalising the active state. -/
theorem Inv0.fin {c : St → SCfg} {o : Op} {s : St} (h : Inv0 c (some s) o) :
    Inv0 c none (o.fin s) := by
  refine ⟨?_, ?_, ?_⟩
  · intro t
    by_cases ht : t = s
    · subst ht; simpa [Op.fin, Op.upd] using (h.basic t).finalize
    · simpa [Op.fin, Op.upd, ht] using h.basic t
  · intro t hT
    by_cases ht : t = s
    · subst ht
      simpa [Op.fin, Op.upd] using (finalize_quiet (h.basic t) (h.cover t hT)).cover
    · simpa [Op.fin, Op.upd, ht] using h.cover t hT
  · intro t hT _
    by_cases ht : t = s
    · subst ht
      simpa [Op.fin, Op.upd] using finalize_quiet (h.basic t) (h.cover t hT)
    · simpa [Op.fin, Op.upd, ht] using h.quiet t hT (by simpa using fun e => ht e.symm)

/-- Entering a state whose steps are at rest. -/
theorem Inv0.enter {c : St → SCfg} {o : Op} {s : St} (h : Inv0 c (some s) o)
    (hm : Tidy c s → (o.st s).main = none) (e : Env) (k : Int)
    (hu : (c .unpausing).empty = true → s ≠ .unpausing) : Inv c (o.enter c e s k) := by
  have h1 := h.upd ((h.basic s).init e k) (fun hT => (h.cover s hT).init (h.basic s) (hm hT) e k)
  exact ⟨⟨h1.basic, h1.cover, h1.quiet⟩, hu⟩

theorem Inv0.weaken {c : St → SCfg} {o : Op} (h : Inv0 c none o) (s : St) :
    Inv0 c (some s) o :=
  ⟨h.basic, h.cover, fun t hT _ => h.quiet t hT (by simp)⟩

theorem Inv0.enter' {c : St → SCfg} {o : Op} {s : St} (h : Inv0 c none o) (e : Env) (k : Int)
    (hu : (c .unpausing).empty = true → s ≠ .unpausing) : Inv c (o.enter c e s k) :=
  (h.weaken s).enter (fun hT => (h.quiet s hT (by simp)).main) e k hu

theorem Inv.evalCur {c : St → SCfg} {o : Op} (h : Inv c o) (e : Env) : Inv c (o.evalCur c e) :=
  h.updCur ((h.basic _).evaluate e) (fun hT => (h.cover _ hT).evaluate (h.basic _) e)

theorem Inv.finCur {c : St → SCfg} {o : Op} (h : Inv c o) : Inv0 c none (o.fin o.cur) :=
  h.toInv0.fin

/-- Going to the run state when everything else is at rest. -/
theorem Inv0.toRun {c : St → SCfg} {o : Op} (h : Inv0 c none o) (e e2 : Env) (k : Int) :
    Inv c (o.toRun c e e2 k) := by
  unfold Op.toRun
  dsimp only
  have hT : Tidy c .run := .inl (by simp)
  have hq := h.quiet .run hT (by simp)
  have h1 : Inv0 c (some .run) (o.upd .run (o.st .run).load) := by
    refine (h.weaken .run).upd ?_ ?_
    · have hb := h.basic .run
      exact ⟨hb.len, hb.main, hb.saved, hb.saved, hb.logged, hb.modeLogged⟩
    · intro _ i hi
      have := hq.act true (List.mem_of_getElem? hi)
      cases this
  refine Inv.evalCur (h1.enter ?_ e _ (by simp)) e2
  intro _
  simpa [Op.upd, OpState.load] using hq.main

theorem Inv.unpausingQuiet {c : St → SCfg} {o : Op} (h : Inv c o) (hc : o.cur = .unpausing) :
    Inv0 c none o := by
  refine ⟨h.basic, h.cover, ?_⟩
  intro s hT _
  refine h.quiet s hT ?_
  rw [hc]
  intro e
  cases e
  rcases hT with hT | hT
  · exact hT rfl
  · exact h.noUnp hT hc

theorem Inv.start {c : St → SCfg} {o : Op} (h : Inv c o) (e e2 : Env) (k : Int) :
    Inv c (o.start c e e2 k) := by
  unfold Op.start
  split
  · rename_i hc
    have := h.finCur
    rw [hc] at this
    exact this.enter' e 1 (by split <;> simp)
  · rename_i hc
    have := h.finCur
    rw [hc] at this
    split
    · exact this.toRun e e2 k
    · rename_i hne
      exact (this.enter' e 1 (fun hu => absurd hu hne)).evalCur e2
  · rename_i hc
    have := h.finCur
    rw [hc] at this
    exact this.enter' e 1 (by simp)
  · rename_i hc
    exact (h.unpausingQuiet hc).toRun e e2 k
  · exact h

theorem Inv.pause {c : St → SCfg} {o : Op} (h : Inv c o) (e e2 : Env) :
    Inv c (o.pause c e e2) := by
  unfold Op.pause
  split
  · rename_i hc
    dsimp only
    have h0 : Inv0 c (some .run) o := by
      have := h.toInv0
      rwa [hc] at this
    have hb := h0.basic .run
    have h1 : Inv0 c (some .run)
        { o.upd .run (o.st .run).save with runStep := (o.st .run).activeStep } := by
      have := h0.upd (r := (o.st .run).save)
        ⟨hb.len, hb.main, hb.extra, hb.extra, hb.logged, hb.modeLogged⟩
        (fun hT => h0.cover .run hT)
      exact ⟨this.basic, this.cover, this.quiet⟩
    exact (h1.fin.enter' e 1 (by split <;> simp)).evalCur e2
  · rename_i hc
    have := h.finCur
    rw [hc] at this
    exact this.enter' e 1 (by simp)
  · exact h

theorem Inv.stop {c : St → SCfg} {o : Op} (h : Inv c o) (e e2 : Env) :
    Inv c (o.stop c e e2) := by
  unfold Op.stop
  split
  case h_6 =>
    rename_i hc
    have := h.finCur
    rw [hc] at this
    exact (this.enter' e 1 (by simp)).evalCur e2
  case h_7 => exact h
  all_goals exact (h.finCur.enter' e 1 (by split <;> simp)).evalCur e2

theorem Inv.switchOff {c : St → SCfg} {o : Op} (h : Inv c o) (e e2 : Env) :
    Inv c (o.switchOff c e e2) := by
  unfold Op.switchOff
  split
  · exact h
  · exact (h.finCur.enter' e 1 (by simp)).evalCur e2

theorem Inv.finalize {c : St → SCfg} {o : Op} (h : Inv c o) : Inv c o.finalize := by
  unfold Op.finalize
  split
  · exact h
  · have := h.finCur.weaken .idle
    exact ⟨⟨this.basic, this.cover, this.quiet⟩, by simp⟩

theorem Inv.step {c : St → SCfg} {o o' : Op} (h : Inv c o) {ev : Ev}
    (hs : o.step c ev = some o') : Inv c o' := by
  cases ev <;> simp only [Op.step, Option.some.injEq, Option.map_eq_some_iff] at hs
  case start e e2 k => subst hs; exact h.start e e2 k
  case startAgain e e2 => subst hs; exact h.start e e2 _
  case pause e e2 => subst hs; exact h.pause e e2
  case stop e e2 => subst hs; exact h.stop e e2
  case switchOff e e2 => subst hs; exact h.switchOff e e2
  case finalize => subst hs; exact h.finalize
  case evaluate e => subst hs; exact h.evalCur e
  case toStep e k =>
    subst hs; exact h.updCur ((h.basic _).toStep e k) (fun hT => (h.cover _ hT).toStep e k)
  case toNext e =>
    subst hs; exact h.updCur ((h.basic _).toNext e) (fun hT => (h.cover _ hT).toNext e)
  case turnOff =>
    subst hs; exact h.updCur (h.basic _).turnOff (fun hT => (h.cover _ hT).turnOff)
  case onExtra e k =>
    obtain ⟨x, hx, rfl⟩ := hs
    rcases onExtra_some hx with h1 | ⟨hk, h1⟩
    · rw [h1]; exact h.updCur (h.basic _) (h.cover _)
    · rw [h1]
      exact h.updCur ((h.basic _).onExtraPos e _ (by omega))
        (fun hT => (h.cover _ hT).onExtraPos e _ (by omega))
  case offExtra k =>
    subst hs
    exact h.updCur ((h.basic _).offExtra k) (fun hT => (h.cover _ hT).offExtra (h.basic _) k)
  case switchExtra off on =>
    obtain ⟨x, hx, rfl⟩ := hs
    exact h.updCur ((h.basic _).switchExtra hx) (fun hT => (h.cover _ hT).switchExtra (h.basic _) hx)

theorem Inv.runEv {c : St → SCfg} (es : List Ev) : ∀ {o o' : Op}, Inv c o →
    o.runEv c es = some o' → Inv c o' := by
  induction es with
  | nil => intro o o' h hr; cases hr; exact h
  | cons ev es ih =>
    intro o o' h hr
    simp only [Op.runEv, Option.bind_eq_some_iff] at hr
    obtain ⟨o1, h1, h2⟩ := hr
    exact ih (h.step h1) h2

theorem inv_fresh (c : St → SCfg) : Inv c (Op.fresh c) := by
  have hq : ∀ s, Quiet ((Op.fresh c).st s) := by
    intro s
    refine ⟨rfl, rfl, rfl, ?_⟩
    intro b hb
    exact (List.mem_replicate.mp hb).2
  refine ⟨⟨?_, fun s _ => (hq s).cover, fun s _ _ => hq s⟩, by simp [Op.fresh]⟩
  intro s
  refine ⟨by simp [Op.fresh], by simp [Op.fresh], by simp [Op.fresh], by simp [Op.fresh], ?_, rfl⟩
  intro i hi
  simp [Op.fresh, hi, inUse]

/-! ### The current state -/

@[simp] theorem upd_cur (o : Op) (s : St) (r : OpState) : (o.upd s r).cur = o.cur := rfl
@[simp] theorem fin_cur (o : Op) (s : St) : (o.fin s).cur = o.cur := rfl
@[simp] theorem enter_cur (c : St → SCfg) (e : Env) (o : Op) (s : St) (k : Int) :
    (o.enter c e s k).cur = s := rfl
@[simp] theorem evalCur_cur (c : St → SCfg) (e : Env) (o : Op) : (o.evalCur c e).cur = o.cur := rfl
@[simp] theorem toRun_cur (c : St → SCfg) (e e2 : Env) (k : Int) (o : Op) :
    (o.toRun c e e2 k).cur = .run := rfl

theorem start_cur (c : St → SCfg) (e e2 : Env) (k : Int) (o : Op) :
    (o.start c e e2 k).cur = (diagram (fun s => !(c s).empty) .start o.cur).getD o.cur := by
  unfold Op.start
  cases h : o.cur <;> simp [diagram, h] <;> split <;> simp_all

theorem pause_cur (c : St → SCfg) (e e2 : Env) (o : Op) :
    (o.pause c e e2).cur = (diagram (fun s => !(c s).empty) .pause o.cur).getD o.cur := by
  unfold Op.pause
  cases h : o.cur <;> simp [diagram, h]
  split <;> simp_all

theorem stop_cur (c : St → SCfg) (e e2 : Env) (o : Op) :
    (o.stop c e e2).cur = (diagram (fun s => !(c s).empty) .stop o.cur).getD o.cur := by
  unfold Op.stop
  cases h : o.cur <;> simp [diagram, h] <;> split <;> simp_all

theorem switchOff_cur (c : St → SCfg) (e e2 : Env) (o : Op) :
    (o.switchOff c e e2).cur = (diagram (fun s => !(c s).empty) .off o.cur).getD o.cur := by
  unfold Op.switchOff
  cases h : o.cur <;> simp [diagram, h]

theorem finalize_cur (c : St → SCfg) (o : Op) :
    o.finalize.cur = (diagram (fun s => !(c s).empty) .off o.cur).getD o.cur := by
  unfold Op.finalize
  cases h : o.cur <;> simp [diagram, h]

theorem step_cur {c : St → SCfg} {o o' : Op} {ev : Ev} (h : o.step c ev = some o') :
    o'.cur = follow (fun s => !(c s).empty) o.cur ev := by
  cases ev <;> simp only [Op.step, Option.some.injEq, Option.map_eq_some_iff] at h
  case start e e2 k => subst h; exact start_cur ..
  case startAgain e e2 => subst h; exact start_cur ..
  case pause e e2 => subst h; exact pause_cur ..
  case stop e e2 => subst h; exact stop_cur ..
  case switchOff e e2 => subst h; exact switchOff_cur ..
  case finalize => subst h; exact finalize_cur ..
  case onExtra e k => obtain ⟨x, _, rfl⟩ := h; rfl
  case switchExtra off on => obtain ⟨x, _, rfl⟩ := h; rfl
  all_goals subst h; rfl

/-- States other than the current one before and the current one after a call are untouched. -/
theorem step_frame {c : St → SCfg} {o o' : Op} {ev : Ev} (h : o.step c ev = some o') (s : St)
    (h1 : s ≠ o.cur) (h2 : s ≠ o'.cur) : o'.st s = o.st s := by
  have hc := step_cur h
  cases ev <;> simp only [Op.step, Option.some.injEq, Option.map_eq_some_iff] at h
  case start e e2 k =>
    subst h
    unfold Op.start at h2 ⊢
    split <;> rename_i hcur <;>
      simp_all [Op.toRun, Op.enter, Op.fin, Op.upd, Op.evalCur]
    · split <;> simp_all
  case startAgain e e2 =>
    subst h
    unfold Op.start at h2 ⊢
    split <;> rename_i hcur <;>
      simp_all [Op.toRun, Op.enter, Op.fin, Op.upd, Op.evalCur]
    · split <;> simp_all
  case pause e e2 =>
    subst h
    unfold Op.pause at h2 ⊢
    split <;> rename_i hcur <;> simp_all [Op.enter, Op.fin, Op.upd, Op.evalCur]
  case stop e e2 =>
    subst h
    unfold Op.stop at h2 ⊢
    split <;> rename_i hcur <;> simp_all [Op.enter, Op.fin, Op.upd, Op.evalCur]
  case switchOff e e2 =>
    subst h
    unfold Op.switchOff at h2 ⊢
    split <;> rename_i hcur <;> simp_all [Op.enter, Op.fin, Op.upd, Op.evalCur]
  case finalize =>
    subst h
    unfold Op.finalize at h2 ⊢
    split <;> rename_i hcur <;> simp_all [Op.fin, Op.upd]
  case onExtra e k => obtain ⟨x, _, rfl⟩ := h; simp [Op.upd, h1]
  case switchExtra off on => obtain ⟨x, _, rfl⟩ := h; simp [Op.upd, h1]
  all_goals subst h; simp [Op.upd, Op.evalCur, h1]

/-! ### No duplicates among the extra steps -/

/-- No extra step is listed twice. -/
def ND (r : OpState) : Prop := r.extra.Nodup ∧ r.saved.Nodup

theorem ND.of_eq {r r' : OpState} (h : ND r) (h1 : r'.extra = r.extra)
    (h2 : r'.saved = r.saved) : ND r' := by
  unfold ND; rw [h1, h2]; exact h

theorem ND.toStep {r : OpState} (h : ND r) (c : SCfg) (e : Env) (k : Int) :
    ND (r.toStep c e k) := h.of_eq (toStep_extra ..) (toStep_saved ..)

theorem ND.init {r : OpState} (h : ND r) (c : SCfg) (e : Env) (k : Int) : ND (r.init c e k) := by
  unfold OpState.init
  dsimp only
  split
  · exact h
  · refine ND.of_eq (r := r) h ?_ ?_
    · rw [(foldInit_frame _ _).2.1, toStep_extra]
    · rw [(foldInit_frame _ _).2.2, toStep_saved]

theorem ND.finalize {r : OpState} (h : ND r) : ND r.finalize := by
  refine ⟨?_, ?_⟩
  · exact List.nodup_nil
  · rw [finalize_saved]; exact h.2

theorem ND.offExtra {r : OpState} (h : ND r) (c : SCfg) (k : Int) : ND (r.offExtra c k) := by
  unfold OpState.offExtra
  split
  · exact h
  · split
    · exact ⟨h.1.erase _, h.2⟩
    · exact h

theorem ND.onExtraPos {r : OpState} (h : ND r) (c : SCfg) (e : Env) (k : Nat) :
    ND (r.onExtraPos c e k).1 := by
  unfold OpState.onExtraPos
  split
  · exact h
  · split
    · exact h
    · split
      · exact h
      · rename_i hk
        have h1 : (r.extra ++ [k]).Nodup := by
          rw [List.nodup_append]
          refine ⟨h.1, by simp, ?_⟩
          intro a ha b hb
          simp only [List.mem_singleton] at hb
          subst hb
          exact fun e => hk (e ▸ ha)
        dsimp only
        split <;> exact ⟨h1, h.2⟩

theorem ND.evaluate {r : OpState} (h : ND r) (c : SCfg) (e : Env) : ND (r.evaluate c e).1 := by
  have h0 : ND { r with log := r.log ++ [.eval none] } := h
  have h1 : ∀ (fuel idx : Nat) (r : OpState), ND r → ND (r.extraLoop c e fuel idx) := by
    intro fuel
    induction fuel with
    | zero => intro idx r h; exact h
    | succ f ih =>
      intro idx r h
      unfold OpState.extraLoop
      split
      · exact h
      · apply ih
        unfold OpState.extraBody
        split
        · dsimp only
          split
          · refine ND.offExtra ?_ _ _
            exact h
          · exact h
        · exact h
  have h2 : ∀ (l : List Nat) (r : OpState), ND r → ND (l.foldl (fun r i =>
      if i + 1 ∈ r.extra then r
      else if e.onSig i then (r.onExtraPos c e (i + 1)).1 else r) r) := by
    intro l
    induction l with
    | nil => intro r h; exact h
    | cons a l ih =>
      intro r h
      rw [List.foldl_cons]
      apply ih
      split
      · exact h
      · split
        · exact h.onExtraPos c e _
        · exact h
  have h3 : ∀ r : OpState, ND r → ND (r.evalMain c e).1 := by
    intro r h
    unfold OpState.evalMain
    split
    · exact h
    · split
      · split
        · exact h
        · exact h.toStep _ _ _
      · dsimp only
        split
        · split
          · exact h.toStep _ _ _
          · exact h
        · split
          · exact h.toStep _ _ _
          · exact h
  unfold OpState.evaluate OpState.enableLoop
  exact h3 _ (h2 _ _ (h1 _ _ _ h0))

theorem replace_not_mem {l : List Nat} {a b : Nat} (h : a ∉ l) : l.replace a b = l := by
  induction l with
  | nil => rfl
  | cons y l ih =>
    simp only [List.mem_cons, not_or] at h
    have : (a == y) = false := by simpa using h.1
    rw [List.replace_cons, this]
    rw [ih h.2]

theorem replace_nodup {l : List Nat} {a b : Nat} (h : l.Nodup) (hb : b ∉ l) :
    (l.replace a b).Nodup := by
  induction l with
  | nil => simp
  | cons y l ih =>
    rw [List.nodup_cons] at h
    simp only [List.mem_cons, not_or] at hb
    rw [List.replace_cons]
    by_cases hy : a = y
    · subst hy
      simp only [beq_self_eq_true, List.nodup_cons]
      exact ⟨hb.2, h.2⟩
    · have : (a == y) = false := by simpa using hy
      simp only [this, List.nodup_cons]
      refine ⟨?_, ih h.2 hb.2⟩
      intro hm
      rcases mem_of_mem_replace hm with h1 | h1
      · exact hb.1 h1.symm
      · exact h.1 h1

theorem ND.switchExtra {c : SCfg} {r : OpState} (h : ND r) {off on : Int} {x : OpState × Nat}
    (hon : on.toNat ∉ r.extra) (hx : r.switchExtra c off on = some x) : ND x.1 := by
  unfold OpState.switchExtra at hx
  split at hx
  · cases hx; exact h
  · split at hx
    · cases hx; exact h
    · split at hx
      · split at hx
        · cases hx
        · cases hx
          exact ⟨replace_nodup h.1 hon, h.2⟩
      · cases hx; exact h

theorem nd_upd {o : Op} (h : ∀ s, ND (o.st s)) {s : St} {r : OpState} (hr : ND r) :
    ∀ t, ND ((o.upd s r).st t) := by
  intro t
  by_cases ht : t = s
  · subst ht; simpa [Op.upd] using hr
  · simpa [Op.upd, ht] using h t

theorem nd_fin {o : Op} (h : ∀ s, ND (o.st s)) (s : St) : ∀ t, ND ((o.fin s).st t) :=
  nd_upd h (h s).finalize

theorem nd_enter {c : St → SCfg} {o : Op} (h : ∀ s, ND (o.st s)) (e : Env) (s : St) (k : Int) :
    ∀ t, ND ((o.enter c e s k).st t) := nd_upd h ((h s).init _ e k)

theorem nd_eval {c : St → SCfg} {o : Op} (h : ∀ s, ND (o.st s)) (e : Env) :
    ∀ t, ND ((o.evalCur c e).st t) := nd_upd h ((h _).evaluate _ e)

theorem nd_toRun {c : St → SCfg} {o : Op} (h : ∀ s, ND (o.st s)) (e e2 : Env) (k : Int) :
    ∀ t, ND ((o.toRun c e e2 k).st t) :=
  nd_eval (nd_enter (nd_upd (r := (o.st .run).load) h ⟨(h .run).2, (h .run).2⟩) _ _ _) _

theorem nd_start {c : St → SCfg} {o : Op} (h : ∀ s, ND (o.st s)) (e e2 : Env) (k : Int) :
    ∀ t, ND ((o.start c e e2 k).st t) := by
  unfold Op.start
  split
  · exact nd_enter (nd_fin h _) _ _ _
  · split
    · exact nd_toRun (nd_fin h _) _ _ _
    · exact nd_eval (nd_enter (nd_fin h _) _ _ _) _
  · exact nd_enter (nd_fin h _) _ _ _
  · exact nd_toRun h _ _ _
  · exact h

theorem nd_step {c : St → SCfg} {o o' : Op} (h : ∀ s, ND (o.st s)) {ev : Ev}
    (hev : ∀ off on, ev = .switchExtra off on → on.toNat ∉ (o.st o.cur).extra)
    (hs : o.step c ev = some o') : ∀ s, ND (o'.st s) := by
  cases ev <;> simp only [Op.step, Option.some.injEq, Option.map_eq_some_iff] at hs
  case start e e2 k => subst hs; exact nd_start h e e2 k
  case startAgain e e2 => subst hs; exact nd_start h e e2 _
  case pause e e2 =>
    subst hs
    unfold Op.pause
    split
    · have h1 := nd_upd (s := .run) (r := (o.st .run).save) h ⟨(h .run).1, (h .run).1⟩
      exact nd_eval (nd_enter (nd_fin (o := { o.upd .run (o.st .run).save with
        runStep := (o.st .run).activeStep }) h1 .run) _ _ _) _
    · exact nd_enter (nd_fin h _) _ _ _
    · exact h
  case stop e e2 =>
    subst hs
    unfold Op.stop
    split
    case h_7 => exact h
    all_goals exact nd_eval (nd_enter (nd_fin h _) _ _ _) _
  case switchOff e e2 =>
    subst hs
    unfold Op.switchOff
    split
    · exact h
    · exact nd_eval (nd_enter (nd_fin h _) _ _ _) _
  case finalize =>
    subst hs
    unfold Op.finalize
    split
    · exact h
    · exact nd_fin h _
  case evaluate e => subst hs; exact nd_eval h e
  case toStep e k => subst hs; exact nd_upd h ((h _).toStep _ e k)
  case toNext e =>
    subst hs
    refine nd_upd h ?_
    unfold OpState.toNext
    split
    · exact h _
    · split <;> exact (h _).toStep _ _ _
  case turnOff =>
    subst hs
    exact nd_upd h ((h o.cur).of_eq (by simp [OpState.turnOff]) (by simp [OpState.turnOff]))
  case onExtra e k =>
    obtain ⟨x, hx, rfl⟩ := hs
    rcases onExtra_some hx with h1 | ⟨_, h1⟩
    · rw [h1]; exact nd_upd h (h _)
    · rw [h1]; exact nd_upd h ((h _).onExtraPos _ e _)
  case offExtra k => subst hs; exact nd_upd h ((h _).offExtra _ k)
  case switchExtra off on =>
    obtain ⟨x, hx, rfl⟩ := hs
    exact nd_upd h ((h _).switchExtra (hev off on rfl) hx)

/-! ### Which extra steps one cycle evaluates -/

theorem evaluated_append (a b : List Call) : evaluated (a ++ b) = evaluated a ++ evaluated b := by
  simp [evaluated]

theorem offExtra_pos {c : SCfg} {r : OpState} {k : Nat} (hk : k ≤ c.steps) (hm : k ∈ r.extra) :
    r.offExtra c k = { r.finStep (k - 1) with extra := r.extra.erase k } := by
  unfold OpState.offExtra
  have : ¬ ((k : Int) < 0 ∨ (c.steps : Int) < k) := by omega
  rw [if_neg this, if_pos (by simpa using hm)]
  rfl

theorem loop_pass (c : SCfg) (e : Env) : ∀ (suf pre : List Nat) (fuel : Nat) (r : OpState),
    r.extra = pre ++ suf → (pre ++ suf).Nodup → (∀ k ∈ pre ++ suf, 1 ≤ k ∧ k ≤ c.steps) →
    suf.length ≤ fuel →
    evaluated (r.extraLoop c e fuel pre.length).log =
      evaluated r.log ++ (passWithSkip e.offSig suf).1 ∧
    (r.extraLoop c e fuel pre.length).extra = pre ++ (passWithSkip e.offSig suf).2 := by
  intro suf
  induction hl : suf.length using Nat.strongRecOn generalizing suf with
  | _ n ih =>
    intro pre fuel r hr hnd hrange hfuel
    match suf, fuel with
    | [], 0 => simp [OpState.extraLoop, passWithSkip, hr]
    | [], f + 1 =>
      unfold OpState.extraLoop
      simp [passWithSkip, hr]
    | k :: ks, 0 => simp only [List.length_cons] at hl; omega
    | k :: ks, f + 1 =>
      have hk := hrange k (by simp)
      have hget : r.extra[pre.length]? = some k := by rw [hr]; simp
      have hkp : k ∉ pre := by
        intro h
        rw [List.nodup_append] at hnd
        exact hnd.2.2 k h k (by simp) rfl
      have hbody : ∀ s : Bool, e.offSig (k - 1) = s →
          evaluated (r.extraBody c e k).log = evaluated r.log ++ [k] ∧
          (r.extraBody c e k).extra = if s then pre ++ ks else pre ++ k :: ks := by
        intro s hs
        unfold OpState.extraBody
        have h1 : k - 1 < c.steps := by omega
        have hkk : k - 1 + 1 = k := by omega
        simp only [h1, if_true, hs]
        cases s with
        | true =>
          simp only [if_true]
          have hm : k ∈ (r.evalStep (k - 1)).extra := by simp [hr]
          rw [offExtra_pos hk.2 hm]
          refine ⟨?_, ?_⟩
          · simp [OpState.finStep, OpState.evalStep, evaluated, hkk]
          · simp only [OpState.evalStep_extra, hr]
            rw [List.erase_append_right _ hkp]
            simp
        | false =>
          simp only [Bool.false_eq_true, if_false]
          refine ⟨?_, ?_⟩
          · simp [OpState.evalStep, evaluated, hkk]
          · simpa using hr
      unfold OpState.extraLoop
      simp only [hget]
      cases hs : e.offSig (k - 1) with
      | false =>
        have hb := hbody false hs
        simp only [Bool.false_eq_true, if_false] at hb
        have := ih ks.length (by simp only [List.length_cons] at hl; omega) ks rfl (pre ++ [k]) f
          (r.extraBody c e k) (by simp [hb.2]) (by simpa using hnd) (by simpa using hrange)
          (by simp only [List.length_cons] at hl hfuel; omega)
        simp only [List.length_append, List.length_cons, List.length_nil] at this
        rw [Nat.zero_add] at this
        cases ks with
        | nil =>
          simp only [passWithSkip, hs] at this ⊢
          simp [this.1, this.2, hb.1]
        | cons k2 ks2 =>
          rw [this.1, this.2, hb.1]
          simp [passWithSkip, hs]
      | true =>
        have hb := hbody true hs
        simp only [if_true] at hb
        cases ks with
        | nil =>
          have := ih 0 (by simp only [List.length_cons] at hl; omega) [] rfl pre f
            (r.extraBody c e k) (by simp [hb.2]) (by
              have := hnd; rw [List.nodup_append] at this; simpa using this.1)
            (by intro j hj; exact hrange j (by simp at hj; simp [hj])) (by simp)
          have hend : (r.extraBody c e k).extraLoop c e f (pre.length + 1) =
              r.extraBody c e k := by
            cases f with
            | zero => rfl
            | succ f =>
              unfold OpState.extraLoop
              have : (r.extraBody c e k).extra[pre.length + 1]? = none := by
                rw [hb.2]; simp
              simp [this]
          rw [hend, hb.1, hb.2]
          simp [passWithSkip, hs]
        | cons k2 ks2 =>
          have := ih ks2.length (by simp only [List.length_cons] at hl; omega) ks2 rfl
            (pre ++ [k2]) f (r.extraBody c e k) (by simp [hb.2])
            (by
              have h2 : (pre ++ [k2] ++ ks2).Sublist (pre ++ k :: k2 :: ks2) := by
                rw [List.append_assoc]
                exact List.Sublist.append_left (List.sublist_cons_self _ _) _
              exact hnd.sublist h2)
            (by intro j hj; exact hrange j (by simp at hj ⊢; rcases hj with h | h | h <;> simp [h]))
            (by simp only [List.length_cons] at hl hfuel; omega)
          simp only [List.length_append, List.length_cons, List.length_nil, Nat.zero_add] at this
          rw [this.1, this.2, hb.1]
          simp [passWithSkip, hs]

theorem pass_no_off (off : Nat → Bool) (l : List Nat) (h : ∀ k ∈ l, off (k - 1) = false) :
    passWithSkip off l = (l, l) := by
  match l with
  | [] => rfl
  | [k] => simp [passWithSkip, h k (by simp)]
  | k :: k2 :: ks =>
    have ih := pass_no_off off (k2 :: ks) (fun j hj => h j (by simp at hj ⊢; rcases hj with h | h <;> simp [h]))
    simp [passWithSkip, h k (by simp), ih]

theorem enable_log (c : SCfg) (e : Env) (l : List Nat) : ∀ r : OpState, ∃ rest more,
    (l.foldl (fun r i =>
      if i + 1 ∈ r.extra then r
      else if e.onSig i then (r.onExtraPos c e (i + 1)).1 else r) r).log = r.log ++ rest ∧
    (l.foldl (fun r i =>
      if i + 1 ∈ r.extra then r
      else if e.onSig i then (r.onExtraPos c e (i + 1)).1 else r) r).extra = r.extra ++ more := by
  induction l with
  | nil => intro r; exact ⟨[], [], by simp, by simp⟩
  | cons a l ih =>
    intro r
    rw [List.foldl_cons]
    split
    · exact ih r
    · split
      · obtain ⟨rest, more, h1, h2⟩ := ih (r.onExtraPos c e (a + 1)).1
        have : ∃ x y, (r.onExtraPos c e (a + 1)).1.log = r.log ++ x ∧
            (r.onExtraPos c e (a + 1)).1.extra = r.extra ++ y := by
          unfold OpState.onExtraPos
          split
          · exact ⟨[], [], by simp, by simp⟩
          · split
            · exact ⟨[], [], by simp, by simp⟩
            · split
              · exact ⟨[.init (some a), .eval (some a)], [a + 1],
                  by simp [OpState.initStep, OpState.evalStep], by simp⟩
              · exact ⟨[], [a + 1], by simp, by simp⟩
        obtain ⟨x, y, hx, hy⟩ := this
        exact ⟨x ++ rest, y ++ more, by rw [h1, hx]; simp, by rw [h2, hy]; simp⟩
      · exact ih r

theorem toStep_log (c : SCfg) (e : Env) (k : Int) (r : OpState) :
    ∃ rest, (r.toStep c e k).log = r.log ++ rest := by
  have hf : ∃ rest, r.finMain.log = r.log ++ rest := by
    unfold OpState.finMain
    split
    · exact ⟨_, rfl⟩
    · exact ⟨[], by simp⟩
  obtain ⟨x, hx⟩ := hf
  unfold OpState.toStep
  split
  · exact ⟨[], by simp⟩
  · dsimp only
    split
    · exact ⟨x, hx⟩
    · exact ⟨x ++ [.init (some (k.toNat - 1)), .eval (some (k.toNat - 1))],
        by simp [OpState.initStep, OpState.evalStep, hx]⟩

theorem evalMain_log (c : SCfg) (e : Env) (r : OpState) :
    (∃ rest, (r.evalMain c e).1.log = r.log ++ rest) ∧ (r.evalMain c e).1.extra = r.extra := by
  unfold OpState.evalMain
  split
  · exact ⟨⟨[], by simp⟩, rfl⟩
  · split
    · split
      · exact ⟨⟨[], by simp⟩, rfl⟩
      · exact ⟨toStep_log .., toStep_extra ..⟩
    · dsimp only
      split
      · split
        · rename_i m' _ _ k _
          obtain ⟨x, hx⟩ := toStep_log c e k r
          exact ⟨⟨x ++ [.eval (some m')], by simp [OpState.evalStep, hx]⟩, toStep_extra ..⟩
        · exact ⟨⟨_, rfl⟩, rfl⟩
      · split
        · exact ⟨toStep_log .., toStep_extra ..⟩
        · exact ⟨⟨[], by simp⟩, rfl⟩

end Ptusa.Operation
