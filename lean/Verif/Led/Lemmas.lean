import Verif.Led.Spec

/-! # Lemmas about the status lamp -/
namespace Ptusa.Led

open Spec

/-- What one call does once the clock of the lamp runs. -/
theorem show_eq (s : S) (t now : Nat) (e : Bool) (h : s.start = some t) (hs : s.step = 0 ∨ s.step = 1) :
    s.show now e = if t + 500 < now then
      ⟨1 - s.step, some now, (now, if s.step = 0 then some (colour e) else none) :: s.log⟩ else s := by
  obtain ⟨st, sa, log⟩ := s
  subst h
  unfold S.show
  have hd : (500 < now - t) ↔ t + 500 < now := by omega
  by_cases c : t + 500 < now
  · rw [if_pos c]
    have c' := hd.mpr c
    rcases hs with h | h <;> (simp only at h; subst h) <;> cases e <;>
      simp [c', colour]
  · rw [if_neg c]
    have c' : ¬ 500 < now - t := fun h => c (hd.mp h)
    rcases hs with h | h <;> (simp only at h; subst h) <;> cases e <;>
      simp [c']

theorem show_first (now : Nat) (e : Bool) : S.init.show now e = ⟨0, some now, []⟩ := by
  cases e <;> simp [S.show, S.init]

/-- What holds after calls, the last one at `now`: `t0` – the first call, `t` – the last change. -/
structure Inv (t0 t now : Nat) (s : S) : Prop where
  start : s.start = some t
  step : s.step = 0 ∨ s.step = 1
  blinks : Blinks t0 s.log (s.step == 1) t
  le : t ≤ now
  recent : now ≤ t + 500

theorem Inv.first (now : Nat) (e : Bool) : Inv now now now (S.init.show now e) := by
  rw [show_first]
  exact ⟨rfl, Or.inl rfl, .none, Nat.le_refl _, by omega⟩

/-- One call: nothing, or a command. -/
theorem Inv.call {t0 t now : Nat} {s : S} (h : Inv t0 t now s) (n : Nat) (e : Bool) (hn : now ≤ n) :
    (n ≤ t + 500 ∧ s.show n e = s ∧ Inv t0 t n (s.show n e)) ∨
    (t + 500 < n ∧ (s.show n e).log = (n, if s.step = 0 then some (colour e) else none) :: s.log ∧ Inv t0 n n (s.show n e) ∧
      (s.show n e).step = 1 - s.step) := by
  have hle := h.le
  by_cases c : t + 500 < n
  · right
    have hs := show_eq s t n e h.start h.step
    rw [if_pos c] at hs
    refine ⟨c, by rw [hs], ?_, by rw [hs]⟩
    rw [hs]
    rcases h.step with h0 | h0
    · have hb := h.blinks
      rw [h0] at hb ⊢
      exact ⟨rfl, Or.inr rfl, .lit n _ hb c, Nat.le_refl _, by omega⟩
    · have hb := h.blinks
      rw [h0] at hb ⊢
      exact ⟨rfl, Or.inl rfl, .out n hb c, Nat.le_refl _, by omega⟩
  · left
    have hs := show_eq s t n e h.start h.step
    rw [if_neg c] at hs
    refine ⟨by omega, hs, ?_⟩
    rw [hs]
    exact ⟨h.start, h.step, h.blinks, by omega, by omega⟩

theorem Inv.run {t0 : Nat} (cs : List (Nat × Bool)) : ∀ (t now : Nat) (s : S), Inv t0 t now s → Forward now cs →
    ∃ t', Inv t0 t' (endTime now cs) (s.run cs) ∧ t ≤ t' := by
  induction cs with
  | nil => intro t now s h _; exact ⟨t, h, Nat.le_refl _⟩
  | cons c cs ih =>
    intro t now s h hf
    rcases h.call c.1 c.2 hf.1 with ⟨-, -, hi⟩ | ⟨hc, -, hi, -⟩
    · exact ih t c.1 _ hi hf.2
    · obtain ⟨t', h', hle⟩ := ih c.1 c.1 _ hi hf.2
      exact ⟨t', h', by omega⟩

theorem forward_append {t : Nat} {a b : List (Nat × Bool)} (h : Forward t (a ++ b)) :
    Forward t a ∧ Forward (endTime t a) b := by
  induction a generalizing t with
  | nil => exact ⟨True.intro, h⟩
  | cons e a ih => exact ⟨⟨h.1, (ih h.2).1⟩, (ih h.2).2⟩

theorem endTime_snoc (t : Nat) (m : List (Nat × Bool)) (x : Nat) (e : Bool) : endTime t (m ++ [(x, e)]) = x := by
  induction m generalizing t with
  | nil => rfl
  | cons c m ih => exact ih c.1

theorem endTime_le {t : Nat} {m : List (Nat × Bool)} (h : Forward t m) : t ≤ endTime t m := by
  induction m generalizing t with
  | nil => exact Nat.le_refl _
  | cons c m ih => exact Nat.le_trans h.1 (ih h.2)

/-- The commands of a run extend the earlier ones, and those that light the lamp have the colour of a call of the run. -/
theorem run_log {t0 : Nat} (cs : List (Nat × Bool)) : ∀ (t now : Nat) (s : S), Inv t0 t now s → Forward now cs →
    ∃ l, (s.run cs).log = l ++ s.log ∧ ∀ n c, (n, some c) ∈ l → ∃ e, (n, e) ∈ cs ∧ c = colour e := by
  induction cs with
  | nil => intro t now s _ _; exact ⟨[], rfl, fun n c h => absurd h List.not_mem_nil⟩
  | cons c cs ih =>
    intro t now s h hf
    rcases h.call c.1 c.2 hf.1 with ⟨-, hs, hi⟩ | ⟨-, hl, hi, -⟩
    · obtain ⟨l, h1, h2⟩ := ih t c.1 _ hi hf.2
      refine ⟨l, ?_, fun n d hd => ?_⟩
      · show ((s.show c.1 c.2).run cs).log = _
        rw [h1, hs]
      · obtain ⟨e, he, he'⟩ := h2 n d hd
        exact ⟨e, List.mem_cons_of_mem _ he, he'⟩
    · obtain ⟨l, h1, h2⟩ := ih c.1 c.1 _ hi hf.2
      refine ⟨l ++ [(c.1, if s.step = 0 then some (colour c.2) else none)], ?_, fun n d hd => ?_⟩
      · show ((s.show c.1 c.2).run cs).log = _
        rw [h1, hl, List.append_assoc]
        rfl
      · rcases List.mem_append.mp hd with hd | hd
        · obtain ⟨e, he, he'⟩ := h2 n d hd
          exact ⟨e, List.mem_cons_of_mem _ he, he'⟩
        · have hd := List.mem_singleton.mp hd
          by_cases h0 : s.step = 0
          · rw [if_pos h0] at hd
            injection hd with ha hb
            injection hb with hb
            exact ⟨c.2, by rw [ha]; exact List.mem_cons_self, hb⟩
          · rw [if_neg h0] at hd
            injection hd with ha hb
            exact nomatch hb

theorem run_append (s : S) (a b : List (Nat × Bool)) : s.run (a ++ b) = (s.run a).run b := by
  unfold S.run
  rw [List.foldl_append]

/-- The lamp has been lit after `n0` in the colour of `e`, and what is seen is this colour or nothing. -/
def Right (e : Bool) (n0 : Nat) (s : S) : Prop :=
  (∃ n, n0 < n ∧ (n, some (colour e)) ∈ s.log) ∧ (seen s.log = none ∨ seen s.log = some (colour e))

/-- A call keeps that. -/
theorem Right.call {e : Bool} {n0 t0 t now : Nat} {s : S} (h : Right e n0 s) (hi : Inv t0 t now s) (n : Nat) (hn : now ≤ n) :
    Right e n0 (s.show n e) := by
  rcases hi.call n e hn with ⟨-, hs, -⟩ | ⟨-, hl, -, -⟩
  · rw [hs]; exact h
  · unfold Right
    rw [hl]
    obtain ⟨⟨m, h1, h2⟩, -⟩ := h
    refine ⟨⟨m, h1, List.mem_cons_of_mem _ h2⟩, ?_⟩
    show (if s.step = 0 then some (colour e) else none) = none ∨ (if s.step = 0 then some (colour e) else none) = some (colour e)
    by_cases h0 : s.step = 0
    · rw [if_pos h0]; exact Or.inr rfl
    · rw [if_neg h0]; exact Or.inl rfl

/-- Lighting the lamp gives the right colour. -/
theorem right_lit {e : Bool} {n0 t0 t now : Nat} {s : S} (hi : Inv t0 t now s) (n : Nat) (hn : now ≤ n) (hc : t + 500 < n)
    (h0 : s.step = 0) (hn0 : n0 < n) : Right e n0 (s.show n e) := by
  rcases hi.call n e hn with ⟨hx, -, -⟩ | ⟨-, hl, -, -⟩
  · omega
  · unfold Right
    rw [hl, if_pos h0]
    exact ⟨⟨n, hn0, List.mem_cons_self⟩, Or.inr rfl⟩

/-- The calls up to `A`: no change yet, or the lamp was put out, or it is right. -/
theorem phase_first {t0 n0 A : Nat} {e : Bool} (m : List (Nat × Bool)) : ∀ (t now : Nat) (s : S), Inv t0 t now s → Forward now m →
    (∀ c ∈ m, c.2 = e) → n0 ≤ now → endTime now m ≤ A → (t ≤ n0 ∨ (s.step = 0 ∧ seen s.log = none ∧ t ≤ A) ∨ Right e n0 s) →
    ∃ t', Inv t0 t' (endTime now m) (s.run m) ∧
      (t' ≤ n0 ∨ ((s.run m).step = 0 ∧ seen (s.run m).log = none ∧ t' ≤ A) ∨ Right e n0 (s.run m)) := by
  induction m with
  | nil => intro t now s hi _ _ _ _ hp; exact ⟨t, hi, hp⟩
  | cons c m ih =>
    intro t now s hi hf hall hn0 hA hp
    have hce : c.2 = e := hall c List.mem_cons_self
    have hcA : c.1 ≤ A := Nat.le_trans (endTime_le hf.2) hA
    have hall' : ∀ d ∈ m, d.2 = e := fun d hd => hall d (List.mem_cons_of_mem _ hd)
    have hrec := hi.recent
    show ∃ t', Inv t0 t' (endTime c.1 m) ((s.show c.1 c.2).run m) ∧
      (t' ≤ n0 ∨ (((s.show c.1 c.2).run m).step = 0 ∧ seen ((s.show c.1 c.2).run m).log = none ∧ t' ≤ A) ∨ Right e n0 ((s.show c.1 c.2).run m))
    rw [hce]
    rcases hi.call c.1 e hf.1 with ⟨-, hs, hi'⟩ | ⟨hc, hl, hi', hst⟩
    · rw [hs] at hi' ⊢
      exact ih t c.1 s hi' hf.2 hall' (Nat.le_trans hn0 hf.1) hA hp
    · refine ih c.1 c.1 _ hi' hf.2 hall' (Nat.le_trans hn0 hf.1) hA ?_
      rcases hp with hp | ⟨h0, -, hp⟩ | hp
      · rcases hi.step with h0 | h0
        · exact Or.inr (Or.inr (right_lit hi c.1 hf.1 hc h0 (by omega)))
        · refine Or.inr (Or.inl ⟨by rw [hst, h0], ?_, hcA⟩)
          rw [hl, h0]
          rfl
      · exact Or.inr (Or.inr (right_lit hi c.1 hf.1 hc h0 (by omega)))
      · exact Or.inr (Or.inr (hp.call hi c.1 hf.1))

/-- Later calls: the lamp is still out since `A` or before, or it is right. -/
theorem phase_second {t0 n0 A : Nat} {e : Bool} (m : List (Nat × Bool)) : ∀ (t now : Nat) (s : S), Inv t0 t now s → Forward now m →
    (∀ c ∈ m, c.2 = e) → n0 ≤ now → ((s.step = 0 ∧ seen s.log = none ∧ t ≤ A) ∨ Right e n0 s) →
    ∃ t', Inv t0 t' (endTime now m) (s.run m) ∧
      (((s.run m).step = 0 ∧ seen (s.run m).log = none ∧ t' ≤ A) ∨ Right e n0 (s.run m)) := by
  induction m with
  | nil => intro t now s hi _ _ _ hp; exact ⟨t, hi, hp⟩
  | cons c m ih =>
    intro t now s hi hf hall hn0 hp
    have hce : c.2 = e := hall c List.mem_cons_self
    have hall' : ∀ d ∈ m, d.2 = e := fun d hd => hall d (List.mem_cons_of_mem _ hd)
    have hrec := hi.recent
    show ∃ t', Inv t0 t' (endTime c.1 m) ((s.show c.1 c.2).run m) ∧
      ((((s.show c.1 c.2).run m).step = 0 ∧ seen ((s.show c.1 c.2).run m).log = none ∧ t' ≤ A) ∨ Right e n0 ((s.show c.1 c.2).run m))
    rw [hce]
    rcases hi.call c.1 e hf.1 with ⟨-, hs, hi'⟩ | ⟨hc, hl, hi', hst⟩
    · rw [hs] at hi' ⊢
      exact ih t c.1 s hi' hf.2 hall' (Nat.le_trans hn0 hf.1) hp
    · refine ih c.1 c.1 _ hi' hf.2 hall' (Nat.le_trans hn0 hf.1) (Or.inr ?_)
      rcases hp with ⟨h0, -, hp⟩ | hp
      · exact right_lit hi c.1 hf.1 hc h0 (by omega)
      · exact hp.call hi c.1 hf.1

end Ptusa.Led
