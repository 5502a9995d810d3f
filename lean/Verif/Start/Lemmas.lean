import Verif.Start.Spec
import Verif.Guard.Lemmas

/-!
# Lemmas: the checks of an operation
-/
namespace Ptusa.Start
open Guard (given addDev emptyGroups group group_adds group_empty)

theorem group_fill (l : List (Nat × Nat × Nat)) (i s : Nat) : group (fill l) i s = given l i s := by
  unfold fill
  rw [group_adds, group_empty, List.nil_append]

/-- The first group has a subgroup. -/
theorem add_head (g : List (List (List Nat))) (dev i s : Nat) (h : ∃ a l r, g = (a :: l) :: r) :
    ∃ a l r, addDev 1 g dev i s = (a :: l) :: r := by
  obtain ⟨a, l, r, rfl⟩ := h
  unfold addDev Guard.grow
  cases i with
  | zero =>
    simp only [List.cons_append, List.getD_cons_zero, List.set_cons_zero]
    cases s with
    | zero => exact ⟨_, _, _, rfl⟩
    | succ n => exact ⟨_, _, _, rfl⟩
  | succ i =>
    simp only [List.cons_append, List.set_cons_succ]
    exact ⟨_, _, _, rfl⟩

theorem fill_head (l : List (Nat × Nat × Nat)) : ∃ a m r, fill l = (a :: m) :: r := by
  unfold fill
  have : ∀ g : List (List (List Nat)), (∃ a m r, g = (a :: m) :: r) →
      ∃ a m r, l.foldl (fun g x => addDev 1 g x.1 x.2.1 x.2.2) g = (a :: m) :: r := by
    induction l with
    | nil => exact fun g h => h
    | cons x l ih => exact fun g h => ih _ (add_head g _ _ _ h)
  exact this _ ⟨[], [], [], rfl⟩

theorem empty_group {g : List (List (List Nat))} (h : isEmpty g = true) (i s : Nat) : group g i s = [] := by
  unfold isEmpty at h
  rw [List.all_eq_true] at h
  unfold group
  rw [List.getD_eq_getElem?_getD, List.getD_eq_getElem?_getD]
  cases hi : g[i]? with
  | none => simp
  | some x =>
    have hx := h x (List.mem_of_getElem? hi)
    rw [List.all_eq_true] at hx
    simp only [Option.getD_some]
    cases hs : x[s]? with
    | none => rfl
    | some y => simpa using hx y (List.mem_of_getElem? hs)

theorem wrong_none {w : Nat → Dev} {ok : Ty → Bool} {l : List (List Nat)} :
    wrongFirst w ok l = none ↔ ∀ k d, (l.getD k []).head? = some d → ok (w d).ty = true := by
  induction l with
  | nil => simp [wrongFirst]
  | cons x l ih =>
    have hs : (∀ k d, ((x :: l).getD k []).head? = some d → ok (w d).ty = true) ↔
        (∀ d, x.head? = some d → ok (w d).ty = true) ∧ ∀ k d, (l.getD k []).head? = some d → ok (w d).ty = true := by
      constructor
      · intro h
        exact ⟨fun d hd => h 0 d (by simpa using hd), fun k d hd => h (k + 1) d (by simpa using hd)⟩
      · intro h k d hd
        cases k with
        | zero => exact h.1 d (by simpa using hd)
        | succ k => exact h.2 k d (by simpa using hd)
    rw [hs, ← ih]
    cases x with
    | nil => simp [wrongFirst]
    | cons d r =>
      simp only [wrongFirst, List.head?_cons, Option.some.injEq, forall_eq']
      cases ok (w d).ty <;> simp

theorem wrong_some {w : Nat → Dev} {ok : Ty → Bool} {l : List (List Nat)} {d : Nat} (h : wrongFirst w ok l = some d) :
    ok (w d).ty = false ∧ ∃ k, (l.getD k []).head? = some d := by
  induction l with
  | nil => simp [wrongFirst] at h
  | cons x l ih =>
    have next : wrongFirst w ok l = some d → ok (w d).ty = false ∧ ∃ k, ((x :: l).getD k []).head? = some d := fun h => by
      obtain ⟨h1, k, h2⟩ := ih h
      exact ⟨h1, k + 1, by simpa using h2⟩
    cases x with
    | nil => exact next h
    | cons e r =>
      simp only [wrongFirst] at h
      cases ho : ok (w e).ty with
      | true => rw [ho] at h; exact next (by simpa using h)
      | false =>
        rw [ho] at h
        have : e = d := by simpa using h
        subst this
        exact ⟨ho, 0, by simp⟩

theorem digital_iff (t : Ty) : isDigital t = true ↔ t ∈ digital := by cases t <;> decide

theorem analog_iff (t : Ty) : isAnalog t = true ↔ t ∈ analog := by cases t <;> decide

theorem main_group (l : List (Nat × Nat × Nat)) (k : Nat) : ((fill l).getD 0 []).getD k [] = given l 0 k := group_fill l 0 k

theorem check_none {w : Nat → Dev} {ok : Ty → Bool} {kinds : List Ty} (hk : ∀ t, ok t = true ↔ t ∈ kinds) {l : List (Nat × Nat × Nat)}
    {kind : Kind} : (if isEmpty (fill l) then none else (wrongFirst w ok ((fill l).getD 0 [])).map (kind, ·)) = none ↔ Inputs w kinds l := by
  have he : ∀ k, ((fill l).getD 0 []).getD k [] = given l 0 k := main_group l
  have hw := wrong_none (w := w) (ok := ok) (l := (fill l).getD 0 [])
  simp only [he, hk] at hw
  split
  · next h =>
    refine ⟨fun _ k d hd => ?_, fun _ => rfl⟩
    rw [← group_fill, empty_group h] at hd
    simp at hd
  · rw [Option.map_eq_none_iff, hw]
    rfl

theorem check_some {w : Nat → Dev} {ok : Ty → Bool} {kinds : List Ty} (hk : ∀ t, ok t = true ↔ t ∈ kinds) {l : List (Nat × Nat × Nat)}
    {kind : Kind} {r : Kind × Nat} (h : (if isEmpty (fill l) then none else (wrongFirst w ok ((fill l).getD 0 [])).map (kind, ·)) = some r) :
    r.1 = kind ∧ (w r.2).ty ∉ kinds ∧ ∃ k, (given l 0 k).head? = some r.2 := by
  split at h
  · simp at h
  · rw [Option.map_eq_some_iff] at h
    obtain ⟨d, h1, rfl⟩ := h
    obtain ⟨h2, k, h3⟩ := wrong_some h1
    refine ⟨rfl, ?_, k, ?_⟩
    · rw [← hk, h2]; simp
    · rw [main_group] at h3; exact h3

theorem required_eq (w : Nat → Dev) (l : List (Nat × Nat × Nat)) :
    requiredCheck w (fill l) = some (((given l 0 0).find? fun d => !(w d).active).map (.noSignal, ·)) := by
  unfold requiredCheck
  split
  · next h => rw [← group_fill, empty_group h]; rfl
  · obtain ⟨a, m, r, h⟩ := fill_head l
    have hg := group_fill l 0 0
    rw [h] at hg ⊢
    rw [← hg]
    rfl

/-- The check of a step. -/
theorem step_none {w : Nat → Dev} {isMode : Bool} {c : Calls} :
    c.step.check w isMode = some none ↔ c.Right w ∧ (isMode = true → ∀ d ∈ given c.required 0 0, (w d).active = true) := by
  unfold Step.check Calls.Right
  have h1 := check_none (w := w) digital_iff (l := c.diDo) (kind := .notDigital)
  have h2 := check_none (w := w) analog_iff (l := c.aiAo) (kind := .notAnalog)
  have h3 := check_none (w := w) digital_iff (l := c.inverted) (kind := .notDigital)
  rw [← h1, ← h2, ← h3]
  simp only [Calls.step, digitalCheck, analogCheck]
  split
  · next h => exact iff_of_false (by simp) fun e => absurd (h.symm.trans e.1.1) (by simp)
  split
  · next h => exact iff_of_false (by simp) fun e => absurd (h.symm.trans e.1.2.1) (by simp)
  split
  · next h => exact iff_of_false (by simp) fun e => absurd (h.symm.trans e.1.2.2) (by simp)
  next _ g1 _ g2 _ g3 =>
  rw [required_eq]
  have : ((if isMode = true then some (((given c.required 0 0).find? fun d => !(w d).active).map (Kind.noSignal, ·))
      else some none) = some none) ↔ (isMode = true → ∀ d ∈ given c.required 0 0, (w d).active = true) := by
    cases isMode
    · simp
    · simp
  exact this.trans ⟨fun h => ⟨⟨g1, g2, g3⟩, h⟩, fun h => h.2⟩

theorem step_some {w : Nat → Dev} {isMode : Bool} {c : Calls} {r : Kind × Nat} (h : c.step.check w isMode = some (some r)) :
    (r.1 = .notDigital ∧ (w r.2).ty ∉ digital ∧ ∃ k, (given c.diDo 0 k).head? = some r.2 ∨ (given c.inverted 0 k).head? = some r.2) ∨
    (r.1 = .notAnalog ∧ (w r.2).ty ∉ analog ∧ ∃ k, (given c.aiAo 0 k).head? = some r.2) ∨
    (isMode = true ∧ r.1 = .noSignal ∧ (w r.2).active = false ∧ r.2 ∈ given c.required 0 0) := by
  unfold Step.check at h
  simp only [Calls.step, digitalCheck, analogCheck] at h
  split at h
  · next x hx =>
    obtain ⟨h1, h2, k, h3⟩ := check_some digital_iff hx
    simp only [Option.some.injEq] at h
    subst h
    exact .inl ⟨h1, h2, k, .inl h3⟩
  split at h
  · next x hx =>
    obtain ⟨h1, h2, k, h3⟩ := check_some analog_iff hx
    simp only [Option.some.injEq] at h
    subst h
    exact .inr (.inl ⟨h1, h2, k, h3⟩)
  split at h
  · next x hx =>
    obtain ⟨h1, h2, k, h3⟩ := check_some digital_iff hx
    simp only [Option.some.injEq] at h
    subst h
    exact .inl ⟨h1, h2, k, .inr h3⟩
  split at h
  · next hm =>
    rw [required_eq, Option.some.injEq, Option.map_eq_some_iff] at h
    obtain ⟨d, h1, rfl⟩ := h
    have h2 := List.find?_some h1
    have h3 := List.mem_of_find?_eq_some h1
    exact .inr (.inr ⟨hm, rfl, by simpa using h2, h3⟩)
  · simp at h

theorem step_defined (w : Nat → Dev) (isMode : Bool) (c : Calls) : c.step.check w isMode ≠ none := by
  unfold Step.check
  split
  · simp
  split
  · simp
  split
  · simp
  split
  · simp only [Calls.step, required_eq]; simp
  · simp

theorem on_none {w : Nat → Dev} {mode : Calls} {steps : List Calls} :
    checkOn w mode.step (steps.map Calls.step) = some none ↔
      (∀ c ∈ steps ++ [mode], c.Right w) ∧ ∀ d ∈ given mode.required 0 0, (w d).active = true := by
  induction steps with
  | nil => simp [checkOn, step_none]
  | cons c l ih =>
    have hs := step_none (w := w) (isMode := false) (c := c)
    simp only [List.map_cons, checkOn]
    cases hc : c.step.check w false with
    | none => exact absurd hc (step_defined w false c)
    | some o =>
      cases o with
      | none =>
        have := (hs.1 hc).1
        simp only [ih]
        simp [this]
      | some r =>
        have : ¬c.Right w := fun hr => by
          have := hs.2 ⟨hr, by simp⟩
          rw [hc] at this
          simp at this
        simp [this]

theorem on_some {w : Nat → Dev} {mode : Calls} {steps : List Calls} {r : Kind × Nat}
    (h : checkOn w mode.step (steps.map Calls.step) = some (some r)) : Truthful w mode steps r := by
  induction steps with
  | nil =>
    simp only [List.map_nil, checkOn] at h
    rcases step_some h with ⟨h1, h2, h3⟩ | ⟨h1, h2, h3⟩ | ⟨_, h1, h2, h3⟩ <;> rcases r with ⟨k, d⟩ <;> simp only at h1 <;> subst h1
    · exact ⟨h2, mode, by simp, h3⟩
    · exact ⟨h2, mode, by simp, h3⟩
    · exact ⟨h2, h3⟩
  | cons c l ih =>
    simp only [List.map_cons, checkOn] at h
    cases hc : c.step.check w false with
    | none => exact absurd hc (step_defined w false c)
    | some o =>
      rw [hc] at h
      cases o with
      | none =>
        have := ih h
        rcases r with ⟨k, d⟩
        cases k with
        | notDigital => exact ⟨this.1, this.2.imp fun x hx => ⟨List.mem_cons_of_mem _ hx.1, hx.2⟩⟩
        | notAnalog => exact ⟨this.1, this.2.imp fun x hx => ⟨List.mem_cons_of_mem _ hx.1, hx.2⟩⟩
        | noSignal => exact this
      | some q =>
        simp only [Option.some.injEq] at h
        subst h
        rcases step_some hc with ⟨h1, h2, h3⟩ | ⟨h1, h2, h3⟩ | ⟨hm, _⟩
        · rcases q with ⟨k, d⟩; simp only at h1; subst h1
          exact ⟨h2, c, by simp, h3⟩
        · rcases q with ⟨k, d⟩; simp only at h1; subst h1
          exact ⟨h2, c, by simp, h3⟩
        · simp at hm

theorem on_defined (w : Nat → Dev) (mode : Calls) (steps : List Calls) : checkOn w mode.step (steps.map Calls.step) ≠ none := by
  induction steps with
  | nil => exact step_defined w true mode
  | cons c l ih =>
    simp only [List.map_cons, checkOn]
    split
    · next h => exact absurd h (step_defined w false c)
    · simp
    · exact ih

end Ptusa.Start
