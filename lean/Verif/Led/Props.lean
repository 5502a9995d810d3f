import Verif.Led.Lemmas

/-! # C204: the status lamp -/
namespace Ptusa.Led

open Spec

/-- C204: from the first call on the lamp is lit and put out in turns; each change comes more than half a second after the one before, the first one more
than half a second after the first call, and after any call the last change is at most half a second ago. -/
theorem C204_blinks (t0 : Nat) (e0 : Bool) (cs : List (Nat × Bool)) (h : Forward t0 cs) :
    ∃ lit t, Blinks t0 (S.init.run ((t0, e0) :: cs)).log lit t ∧ t ≤ endTime t0 cs ∧ endTime t0 cs ≤ t + 500 := by
  obtain ⟨t, hi, -⟩ := Inv.run cs t0 t0 _ (Inv.first t0 e0) h
  exact ⟨_, t, hi.blinks, hi.le, hi.recent⟩

example : (S.init.run [(0, false), (500, false), (501, false), (900, true), (1002, true), (1503, true)]).log =
    [(1503, some .red), (1002, none), (501, some .green)] := by decide

/-- C204: the lamp is lit in red if there are errors at that moment and in green if there are none. -/
theorem C204_colour (t0 : Nat) (e0 : Bool) (cs : List (Nat × Bool)) (h : Forward t0 cs) (n : Nat) (c : Colour)
    (hc : (n, some c) ∈ (S.init.run ((t0, e0) :: cs)).log) : ∃ e, (n, e) ∈ cs ∧ c = if e then .red else .green := by
  obtain ⟨l, h1, h2⟩ := run_log cs t0 t0 _ (Inv.first t0 e0) h
  have e : S.init.run ((t0, e0) :: cs) = (S.init.show t0 e0).run cs := rfl
  rw [e, h1, show_first] at hc
  simp only [List.append_nil] at hc
  exact h2 n c hc

example : (501, some Colour.red) ∈ (S.init.run [(0, false), (501, true)]).log := by decide

/-- **C204, partial.** Missing: the first second after a change of the errors. There have been errors (or none) in every call for some time –
two of these calls are more than half a second after the calls before and from each other: the lamp has been lit in the right
colour since, and what is seen is this colour or nothing. -/
theorem C204_right_colour_partial (t0 : Nat) (e0 : Bool) (cs m1 m2 m3 : List (Nat × Bool)) (e : Bool) (a b : Nat)
    (h : Forward t0 (cs ++ ((m1 ++ [(a, e)]) ++ ((m2 ++ [(b, e)]) ++ m3))))
    (hall : ∀ c ∈ (m1 ++ [(a, e)]) ++ ((m2 ++ [(b, e)]) ++ m3), c.2 = e)
    (h1 : endTime t0 cs + 500 < a) (h2 : a + 500 < b) :
    let log := (S.init.run ((t0, e0) :: (cs ++ ((m1 ++ [(a, e)]) ++ ((m2 ++ [(b, e)]) ++ m3))))).log
    (∃ n, endTime t0 cs < n ∧ (n, some (if e then .red else .green)) ∈ log) ∧
      (seen log = none ∨ seen log = some (if e then .red else .green)) := by
  intro log
  show Right e (endTime t0 cs) (S.init.run ((t0, e0) :: (cs ++ ((m1 ++ [(a, e)]) ++ ((m2 ++ [(b, e)]) ++ m3)))))
  have e1 : S.init.run ((t0, e0) :: (cs ++ ((m1 ++ [(a, e)]) ++ ((m2 ++ [(b, e)]) ++ m3)))) =
      ((((S.init.show t0 e0).run cs).run (m1 ++ [(a, e)])).run (m2 ++ [(b, e)])).run m3 := by
    rw [← run_append, ← run_append, ← run_append]
    simp only [List.append_assoc]
    rfl
  rw [e1]
  obtain ⟨f1, f2⟩ := forward_append h
  obtain ⟨f3, f4⟩ := forward_append f2
  obtain ⟨f5, f6⟩ := forward_append f4
  obtain ⟨t, hi, -⟩ := Inv.run cs t0 t0 _ (Inv.first t0 e0) f1
  obtain ⟨t1, k1, p1⟩ := phase_first (A := a) (n0 := endTime t0 cs) _ t _ _ hi f3 (fun c hc => hall c (List.mem_append_left _ hc)) (Nat.le_refl _)
    (by rw [endTime_snoc]; exact Nat.le_refl _) (Or.inl hi.le)
  have r1 := k1.recent
  rw [endTime_snoc] at r1
  have q1 := p1.resolve_left (by omega)
  obtain ⟨t2, k2, p2⟩ := phase_second _ t1 _ _ k1 f5 (fun c hc => hall c (List.mem_append_right _ (List.mem_append_left _ hc)))
    (by rw [endTime_snoc]; omega) q1
  have r2 := k2.recent
  rw [endTime_snoc _ m2] at r2
  have q2 := p2.resolve_left (by rintro ⟨-, -, h⟩; omega)
  obtain ⟨t3, k3, p3⟩ := phase_second (A := 0) _ t2 _ _ k2 f6 (fun c hc => hall c (List.mem_append_right _ (List.mem_append_right _ hc)))
    (by rw [endTime_snoc]; omega) (Or.inr q2)
  rcases p3 with ⟨h0, hs, ht⟩ | p3
  · have r3 := k3.recent
    have := endTime_le f6
    rw [endTime_snoc _ m2] at this r3
    omega
  · exact p3

/-- An error comes while the lamp is green: it is put out and lit again in red. -/
example : (S.init.run [(0, false), (501, false), (600, true), (1102, true), (1700, true), (1800, true)]).log =
    [(1700, some .red), (1102, none), (501, some .green)] := by decide

/-- C204 is violated for half a second and longer: errors which come while the lamp is green leave it green until the end of this phase. -/
theorem C204_late_violated (cs : List (Nat × Bool)) (h : Forward 501 cs) (hl : endTime 501 cs ≤ 1001) :
    (S.init.run ((0, false) :: (501, false) :: cs)).log = [(501, some .green)] := by
  have key : ∀ (cs : List (Nat × Bool)) (now : Nat) (s : S), Inv 0 501 now s → Forward now cs → endTime now cs ≤ 1001 →
      s.run cs = s := by
    intro cs
    induction cs with
    | nil => intro _ _ _ _ _; rfl
    | cons c cs ih =>
      intro now s hi hf he
      have hc : c.1 ≤ 1001 := Nat.le_trans (endTime_le hf.2) he
      rcases hi.call c.1 c.2 hf.1 with ⟨-, hs, hi'⟩ | ⟨hx, -, -, -⟩
      · show (s.show c.1 c.2).run cs = s
        rw [hs] at hi' ⊢
        exact ih c.1 s hi' hf.2 he
      · omega
  have hi : Inv 0 501 501 ⟨1, some 501, [(501, some .green)]⟩ :=
    ⟨rfl, Or.inr rfl, .lit 501 .green .none (by omega), Nat.le_refl _, by omega⟩
  have := key cs 501 _ hi h hl
  show (S.run ⟨1, some 501, [(501, some .green)]⟩ cs).log = _
  rw [this]

/-- C204 is violated: errors which come and go while the lamp is lit or out are never shown. -/
theorem C204_missed_violated : (S.init.run [(0, false), (501, false), (502, true), (1000, true), (1002, true), (1502, true), (1503, false)]).log =
    [(1503, some .green), (1002, none), (501, some .green)] := by decide

/-- C204: the lamp of the PFC200 gets one event for each command to the status lamp, a different one for each colour; the other
lamps do not change it (switching all off does). -/
theorem C204_lamp : (∀ c, (pfcOn .status c).length = 1) ∧ (∀ c d, pfcOn .status c = pfcOn .status d → c = d) ∧
    pfcOff .status = [.userOff] ∧ pfcOff .all = [.userOff] ∧ (∀ c, pfcOn .status c ≠ [.userOff]) ∧
    pfcOn .status .red = [.userRed] ∧ pfcOn .status .green = [.userGreen] ∧
    ∀ l, l ≠ .status → (∀ c, pfcOn l c = []) ∧ (l ≠ .all → pfcOff l = []) := by
  refine ⟨?_, ?_, rfl, rfl, ?_, rfl, rfl, ?_⟩
  · intro c; cases c <;> rfl
  · intro c d; cases c <;> cases d <;> decide
  · intro c; cases c <;> decide
  · intro l hl
    cases l with
    | status => exact absurd rfl hl
    | all => exact ⟨fun c => rfl, fun h => absurd rfl h⟩
    | service => exact ⟨fun c => rfl, fun _ => rfl⟩
    | user => exact ⟨fun c => rfl, fun _ => rfl⟩

example : pfcOn .status .yellow = [.userYellow] := rfl

end Ptusa.Led
