import Verif.Motor.Lemmas

/-!
# C54, C55: commands and supervision of motors
-/
namespace Ptusa.Motor

open Valve (Tm)

/-- C54: after any history of a motor that was off, a motor with two direction outputs has not both on. -/
theorem C54_exclusive (s : Sub) (hk : s.kind = .rev2 ∨ s.kind = .rev2err) (pOn : Fl) (t0 : Tm) (h : List (Tm × Ev)) :
    outputs (run s pOn { start := t0 } h) ≠ (true, true) := by
  have hf := fits_run s pOn { start := t0 } (by simp [Fits]) h
  generalize run s pOn { start := t0 } h = m at hf
  obtain ⟨o, r, i, sp, st⟩ := m
  cases o <;> cases r <;> rcases hk with hk | hk <;> simp_all [Fits, outputs]

example : outputs (run ⟨.rev2, false⟩ (.num 3000) {} [(5, .on), (10, .set 2), (12, .set 1)]) = (true, false) := by decide

/-- C54: whatever happened before, a command sets the outputs to those of its state: 0 is off, 2 is reverse, anything else
forward; off also clears the frequency. -/
theorem C54_command (s : Sub) (pOn : Fl) (t0 now : Tm) (h : List (Tm × Ev)) (n : Int) :
    outputs (run s pOn { start := t0 } (h ++ [(now, .set n)])) = wanted s.kind n ∧
    outputs (run s pOn { start := t0 } (h ++ [(now, .on)])) = wanted s.kind 1 ∧
    outputs (run s pOn { start := t0 } (h ++ [(now, .off)])) = wanted s.kind 0 ∧
    (s.freq = true → (run s pOn { start := t0 } (h ++ [(now, .set 0)])).speed = 0 ∧
      (run s pOn { start := t0 } (h ++ [(now, .off)])).speed = 0) := by
  have hf := fits_run s pOn { start := t0 } (by simp [Fits]) h
  simp only [run_snoc]
  generalize run s pOn { start := t0 } h = m at hf
  obtain ⟨o, r, i, sp, st⟩ := m
  obtain ⟨k, f⟩ := s
  refine ⟨?_, ?_, ?_, ?_⟩
  · by_cases hn : n = 2
    · subst hn; cases k <;> cases o <;> cases r <;> simp_all [step, directSet, directOn, outputs, Fits, wanted]
    · by_cases hz : n = 0
      · subst hz
        cases k <;> cases f <;> cases o <;> cases r <;>
          simp_all [step, directSet, directOff, setValue, outputs, Fits, wanted]
      · cases k <;> cases o <;> cases r <;> simp_all [step, directSet, directOn, outputs, Fits, wanted]
  · cases k <;> cases o <;> cases r <;> simp_all [step, directOn, outputs, Fits, wanted]
  · cases k <;> cases f <;> cases o <;> cases r <;> simp_all [step, directOff, setValue, outputs, Fits, wanted]
  · intro hfr
    cases k <;> cases o <;> cases r <;> simp_all [step, directSet, directOff, setValue, Fits]

example : wanted .rev 2 = (true, true) ∧ wanted .rev2 2 = (false, true) ∧ wanted .one 2 = (true, false) := by decide

/-- C54: nothing but a command changes the outputs. -/
theorem C54_only_commands (s : Sub) (pOn : Fl) (m : Mt) (now : Tm) (v : Rat) (b : Bool) :
    outputs (step s pOn m (now, .ask)) = outputs m ∧ outputs (step s pOn m (now, .input b)) = outputs m ∧
    outputs (step s pOn m (now, .speed v)) = outputs m := by
  obtain ⟨o, r, i, sp, st⟩ := m
  obtain ⟨k, f⟩ := s
  refine ⟨?_, rfl, ?_⟩
  · cases k <;> cases o <;> cases r <;> cases i <;> simp [step, getState, outputs] <;> split <;> simp
  · cases f <;> simp [step, setValue, outputs]

/-- C54: once the feedback agrees, the state shown is the one commanded. -/
theorem C54_shown (s : Sub) (pOn : Fl) (t0 now : Tm) (h post : List (Tm × Ev)) (n : Int) (t : Tm)
    (hpost : ∀ e ∈ post, ∃ b, e.2 = .input b)
    (ha : agrees s.kind (run s pOn { start := t0 } (h ++ [(t, .set n)] ++ post)) = true) :
    (getState s now pOn (run s pOn { start := t0 } (h ++ [(t, .set n)] ++ post))).1 =
      if n = 0 then 0 else if n = 2 ∧ s.kind ≠ .one then 2 else 1 := by
  have hw := (C54_command s pOn t0 t h n).1
  have hsame : ∀ post : List (Tm × Ev), (∀ e ∈ post, ∃ b, e.2 = .input b) →
      outputs (run s pOn { start := t0 } (h ++ [(t, .set n)] ++ post)) = wanted s.kind n := by
    intro post
    induction post using List.reverseRecOn with
    | nil => intro _; simpa using hw
    | append_singleton post e ih =>
      intro hp
      obtain ⟨b, hb⟩ := hp e (by simp)
      rw [← List.append_assoc, run_snoc]
      obtain ⟨te, ev⟩ := e
      simp only at hb
      subst hb
      rw [(C54_only_commands s pOn _ te 0 b).2.1]
      exact ih (fun x hx => hp x (by simp [hx]))
  have hout := hsame post hpost
  generalize run s pOn { start := t0 } (h ++ [(t, .set n)] ++ post) = m at ha hout
  obtain ⟨o, r, i, sp, st⟩ := m
  obtain ⟨k, f⟩ := s
  simp only [outputs, wanted] at hout
  by_cases hn : n = 2
  · subst hn
    cases k <;> cases o <;> cases r <;> cases i <;> simp_all [agrees, getState]
  · by_cases hz : n = 0
    · subst hz
      cases k <;> cases o <;> cases r <;> cases i <;> simp_all [agrees, getState]
    · cases k <;> cases o <;> cases r <;> cases i <;> simp_all [agrees, getState]

example : (getState ⟨.rev2, true⟩ 60 (.num 3000)
    (run ⟨.rev2, true⟩ (.num 3000) {} ([(5, .on)] ++ [(10, .set 2)] ++ [(50, .input true)]))).1 = 2 := by decide +kernel

/-- C55, an error has a reason: if after any history an error is shown, the feedback disagrees with the outputs, and no
event of the last `P_ON_TIME` milliseconds changed the outputs or saw them agree.  (For `P_ON_TIME` from 0 to 2^24 ms,
4.6 hours; `t0` is the time the motor was created.) -/
theorem C55_error_only (s : Sub) (q : Rat) (h0 : 0 ≤ q) (h1 : q < 2 ^ 24) (t0 now : Tm) (h : List (Tm × Ev))
    (ht : t0.toNat ≤ now.toNat) (ho : InOrder t0 h now)
    (he : (getState s now (.num q) (run s (.num q) { start := t0 } h)).1 = -1) :
    agrees s.kind (run s (.num q) { start := t0 } h) = false ∧
    (t0.toNat : Rat) + q < now.toNat ∧
    ∀ pre e post, h = pre ++ e :: post → Renews s (.num q) { start := t0 } pre e → (e.1.toNat : Rat) + q < now.toNat := by
  have hf0 : Fits s { start := t0 } := by simp [Fits]
  have hf := fits_run s (.num q) { start := t0 } hf0 h
  have hsl := start_le s (.num q) { start := t0 } hf0 h now ht (fun e he => (ho.2 e he).2)
  obtain ⟨ha, hl⟩ := (getState_spec s now (.num q) _ hf).mp he
  rw [late_iff _ _ (by rw [BitVec.le_def]; exact hsl) q h0 h1, Nat.cast_sub hsl] at hl
  have hge : t0.toNat ≤ (run s (.num q) { start := t0 } h).start.toNat := by
    have : ∀ h : List (Tm × Ev), (∀ e ∈ h, t0.toNat ≤ e.1.toNat) →
        t0.toNat ≤ (run s (.num q) { start := t0 } h).start.toNat := by
      intro h
      induction h using List.reverseRecOn with
      | nil => intro _; exact Nat.le_refl _
      | append_singleton h e ih =>
        intro hh
        rw [run_snoc, start_step s _ _ (fits_run s _ _ hf0 h)]
        split
        · exact hh e (by simp)
        · exact ih (fun x hx => hh x (by simp [hx]))
    exact this h (fun e he => (ho.2 e he).1)
  refine ⟨ha, ?_, ?_⟩
  · have : (t0.toNat : Rat) ≤ (run s (.num q) { start := t0 } h).start.toNat := by exact_mod_cast hge
    linarith
  · intro pre e post heq hr
    have := start_last s (.num q) { start := t0 } hf0 h ho.1 pre e post heq hr
    have : (e.1.toNat : Rat) ≤ (run s (.num q) { start := t0 } h).start.toNat := by exact_mod_cast this
    linarith

/-- C55, a motor that does not obey is reported: if since `t` no event changed the outputs or saw them agree, and they
disagree still when more than `P_ON_TIME` has passed, an error is shown; repeated commands do not put it off. -/
theorem C55_reported (s : Sub) (q : Rat) (h0 : 0 ≤ q) (h1 : q < 2 ^ 24) (t0 t now : Tm)
    (pre post : List (Tm × Ev)) (ht0 : t0.toNat ≤ t.toNat) (hpre : ∀ e ∈ pre, e.1.toNat ≤ t.toNat)
    (hq : ∀ a e b, post = a ++ e :: b → ¬ Renews s (.num q) { start := t0 } (pre ++ a) e)
    (ha : agrees s.kind (run s (.num q) { start := t0 } (pre ++ post)) = false)
    (hlate : (t.toNat : Rat) + q < now.toNat) :
    (getState s now (.num q) (run s (.num q) { start := t0 } (pre ++ post))).1 = -1 := by
  have hf0 : Fits s { start := t0 } := by simp [Fits]
  have hf := fits_run s (.num q) { start := t0 } hf0 (pre ++ post)
  have hk := start_kept s (.num q) { start := t0 } hf0 pre post hq
  have hsl := start_le s (.num q) { start := t0 } hf0 pre t ht0 hpre
  have htn : t.toNat ≤ now.toNat := by
    have : (t.toNat : Rat) ≤ now.toNat := by linarith
    exact_mod_cast this
  rw [getState_spec s now (.num q) _ hf]
  refine ⟨ha, ?_⟩
  rw [hk, late_iff _ _ (by rw [BitVec.le_def]; omega) q h0 h1, Nat.cast_sub (by omega)]
  have : ((run s (.num q) { start := t0 } pre).start.toNat : Rat) ≤ t.toNat := by exact_mod_cast hsl
  linarith

-- A motor told to run at 10 that gives no feedback: `P_ON_TIME` 100; told again at 60 and 100; error at 111, not at 110.
example : (getState ⟨.rev2, true⟩ 111 (.num 100)
      (run ⟨.rev2, true⟩ (.num 100) {} ([(10, .on)] ++ [(60, .set 1), (90, .ask), (100, .on)]))).1 = -1 ∧
    (getState ⟨.rev2, true⟩ 110 (.num 100)
      (run ⟨.rev2, true⟩ (.num 100) {} ([(10, .on)] ++ [(60, .set 1), (90, .ask), (100, .on)]))).1 = 0 ∧
    agrees .rev2 (run ⟨.rev2, true⟩ (.num 100) {} ([(10, .on)] ++ [(60, .set 1), (90, .ask), (100, .on)])) = false := by
  decide +kernel

end Ptusa.Motor
