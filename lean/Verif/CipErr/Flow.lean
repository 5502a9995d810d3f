import Verif.CipErr.Lemmas
import Mathlib.Tactic.Positivity

namespace Ptusa.CipErr

open Timer (Tm Tmr delta_eq)

theorem setTime_spec {t t' : Tmr} {x : Fl} (h : setTime t x = some t') :
    t'.state = t.state ∧ t'.last = t.last ∧ t'.work = t.work ∧
      ∃ T : Rat, x = .num T ∧ (0 ≤ T → (t'.countdown.toNat : Rat) ≤ T * 1000) ∧
        (0 ≤ T → T < 2 ^ 54 → (T - 1) * 1000 < (t'.countdown.toNat : Rat)) := by
  unfold setTime at h
  split at h
  · rename_i he
    simp only [Option.some.injEq] at h
    subst h
    refine ⟨rfl, rfl, rfl, ?_⟩
    cases x with
    | nan =>
      have : Fl.nan * Fl.num 1000 = Fl.nan := rfl
      rw [this] at he
      simp at he
    | num T =>
      rw [Fl.mul_num, Fl.eq_num, decide_eq_true_eq] at he
      exact ⟨T, rfl, fun _ => by linarith, fun _ _ => by linarith⟩
  · rw [Option.map_eq_some_iff] at h
    obtain ⟨k, hk, rfl⟩ := h
    refine ⟨rfl, rfl, rfl, ?_⟩
    obtain ⟨q, rfl, h1, h2, e⟩ := toUlong_some hk
    have hcd : (t.setCountdown (k * 1000)).countdown.toNat = (q.floor.toNat * 1000) % 2 ^ 64 := by
      show (k * 1000).toNat = _
      rw [BitVec.toNat_mul, e]; rfl
    refine ⟨q, rfl, fun h0 => ?_, fun h0 hb => ?_⟩
    · rw [hcd]
      have hle : (q.floor.toNat * 1000) % 2 ^ 64 ≤ q.floor.toNat * 1000 := Nat.mod_le _ _
      have hfl : (q.floor.toNat : Rat) ≤ q := by
        have hn : 0 ≤ q.floor := Int.floor_nonneg.mpr h0
        have : ((q.floor.toNat : Int) : Rat) ≤ q := by
          rw [Int.toNat_of_nonneg hn]; exact Int.floor_le q
        exact_mod_cast this
      refine le_trans (b := ((q.floor.toNat * 1000 : Nat) : Rat)) (by exact_mod_cast hle) ?_
      push_cast
      linarith
    · rw [hcd]
      have hn : 0 ≤ q.floor := Int.floor_nonneg.mpr h0
      have hlt : q.floor < 2 ^ 54 := by
        have : ⌊q⌋ < 2 ^ 54 := Int.floor_lt.mpr (by exact_mod_cast hb)
        exact this
      rw [Nat.mod_eq_of_lt (by omega)]
      have hfl : q - 1 < (q.floor.toNat : Rat) := by
        have : q - 1 < ((q.floor.toNat : Int) : Rat) := by
          rw [Int.toNat_of_nonneg hn]; exact Int.sub_one_lt_floor q
        exact_mod_cast this
      push_cast
      linarith

/-- What a check does with the timer: nothing, or the countdown is set and the flow is looked at. -/
theorem check_flow {s : St} {now : Tm} {i : Inp} {s' : St} {r : Option Err} (hc : check s now i = some (s', r)) :
    (s'.flow = s.flow ∧ (r = none → i.step = 555) ∧ r ≠ some .noFlow) ∨
      (i.step ≠ 555 ∧ ∃ t, setTime s.flow i.flowTime = some t ∧ s'.flow = (flowCheck t now i).1 ∧
        r = if (flowCheck t now i).2 then some .noFlow else none) := by
  have pc : (pumpCheck s now i).1.flow = s.flow := by
    unfold pumpCheck; split
    · dsimp only; split <;> rfl
    · rfl
  have lc : ∀ flags, (levelCheck (pumpCheck s now i).1 now i flags).1.flow = s.flow := by
    intro flags; unfold levelCheck; split <;> exact pc
  obtain ⟨flags, hf, ⟨h5, rfl, rfl⟩ | ⟨h5, h⟩⟩ := check_cases hc
  · exact .inl ⟨rfl, fun _ => h5, by simp⟩
  rcases h with ⟨_, rfl, rfl⟩ | ⟨_, h⟩
  · exact .inl ⟨pc, by simp, by simp⟩
  rcases h with ⟨e, he, rfl, rfl⟩ | ⟨_, h⟩
  · refine .inl ⟨pc, by simp, ?_⟩
    rintro ⟨⟩
    exact (object_fault he).2 trivial
  rcases h with ⟨_, rfl, rfl⟩ | ⟨_, h⟩
  · exact .inl ⟨lc _, by simp, by simp⟩
  rcases h with ⟨e, he, rfl, rfl⟩ | ⟨_, t, ht, rfl, hr⟩
  · refine .inl ⟨lc _, by simp, ?_⟩
    rintro ⟨⟩
    exact (sensor_fault hf he).2 trivial
  · rw [lc] at ht
    exact .inr ⟨h5, t, ht, rfl, hr⟩

theorem noFlowSince_snoc {h : List (Tm × Ev)} {now t : Tm} {e : Ev} (hs : NoFlowSince (h ++ [(now, e)]) t) :
    ∃ k, e = .check k none ∧ k.step ≠ 555 ∧ NoFlow k ∧ (NoFlowSince h t ∨ t = now) := by
  obtain ⟨h1, j, h2, he, ha⟩ := hs
  rcases h2.eq_nil_or_concat with rfl | ⟨h3, x, rfl⟩
  · have := List.append_inj_right' he rfl
    simp only [List.cons.injEq, and_true, Prod.mk.injEq] at this
    obtain ⟨rfl, rfl⟩ := this
    obtain ⟨k, hk, h5, hn⟩ := ha (now, .check j none) (by simp)
    exact ⟨k, hk, h5, hn, .inr rfl⟩
  · have he' : h ++ [(now, e)] = (h1 ++ (t, .check j none) :: h3) ++ [x] := by simpa using he
    have h1' := List.append_inj_left' he' rfl
    have h2' := List.append_inj_right' he' rfl
    simp only [List.cons.injEq, and_true] at h2'
    subst h2'
    obtain ⟨k, hk, h5, hn⟩ := ha (now, e) (by simp)
    exact ⟨k, hk, h5, hn, .inl ⟨h1, j, h3, h1', fun y hy => ha y (by simp at hy ⊢; tauto)⟩⟩

theorem noFlowSeen_snoc {h : List (Tm × Ev)} {now t : Tm} {i : Inp} {r : Option Err} (hs : NoFlowSeen h t)
    (hi : r = none → i.step ≠ 555 → i.np = 1 → NoFlow i) : NoFlowSeen (h ++ [(now, .check i r)]) t := by
  obtain ⟨h1, j, r2, h2, rfl, hj, ha⟩ := hs
  refine ⟨h1, j, r2, h2 ++ [(now, .check i r)], by simp, hj, ?_⟩
  intro x hx
  simp only [List.mem_append, List.mem_singleton] at hx
  rcases hx with hx | rfl
  · exact ha x hx
  · refine ⟨by simp, ?_⟩
    intro k hk h5 hn
    cases hk
    exact hi rfl h5 hn

/-- The timer of the flow. -/
theorem flow_inv {t0 : Tm} {h : List (Tm × Ev)} {s : St} (hr : Reach t0 h s) :
    s.flow.work = 0 ∧ s.flow.state ≠ .pause ∧
      (s.flow.state = .work → NoFlowSeen h s.flow.last) ∧
      (∀ x ∈ h, x.2 = .init → s.flow.state = .work → x.1.toNat ≤ s.flow.last.toNat) ∧
      (s.flow.state = .work → ∀ now : Tm, (∀ x ∈ h, x.1.toNat ≤ now.toNat) → s.flow.last.toNat ≤ now.toNat) ∧
      (∀ t, NoFlowSince h t → s.flow.state = .work ∧ s.flow.last.toNat ≤ t.toNat) := by
  induction hr with
  | start =>
    refine ⟨rfl, by simp [initial], by simp [initial], by simp, by simp [initial], ?_⟩
    rintro t ⟨h1, j, h2, he, _⟩
    simp at he
  | init now hr h0 hord ih =>
    refine ⟨rfl, by simp [Tmr.reset], by simp [Tmr.reset], by simp [Tmr.reset], by simp [Tmr.reset], ?_⟩
    intro t ht
    obtain ⟨k, hk, _⟩ := noFlowSince_snoc ht
    cases hk
  | @check h s s' i r now hr h0 hord hc ih =>
    obtain ⟨i1, i2, i3, i4, i5, i6⟩ := ih
    rcases check_flow hc with ⟨e, hn, hne⟩ | ⟨h5, t, ht, e, hres⟩
    · rw [e]
      refine ⟨i1, i2, fun hw => noFlowSeen_snoc (i3 hw) fun hr h5 => absurd (hn hr) h5, ?_, ?_, ?_⟩
      · intro x hx hi hw
        simp only [List.mem_append, List.mem_singleton] at hx
        rcases hx with hx | rfl
        · exact i4 x hx hi hw
        · cases hi
      · intro hw n hx
        exact i5 hw n fun x h => hx x (by simp [h])
      · intro u hu
        obtain ⟨k, hk, h5, _⟩ := noFlowSince_snoc hu
        cases hk
        exact absurd (hn rfl) h5
    · obtain ⟨s1, s2, s3, _⟩ := setTime_spec ht
      have hinit : ∀ x ∈ h ++ [(now, Ev.check i r)], x.2 = .init → x ∈ h := by
        intro x hx hi
        simp only [List.mem_append, List.mem_singleton] at hx
        rcases hx with hx | rfl
        · exact hx
        · cases hi
      rw [e]
      unfold flowCheck
      by_cases hp : i.np = 1
      · rw [if_pos hp]
        by_cases hl : i.flow.le i.flowMin = true
        · rw [if_pos hl]
          have hnf : NoFlow i := ⟨hp, hl⟩
          dsimp only
          cases hst : s.flow.state with
          | pause => exact absurd hst i2
          | work =>
            have hs : t.start now = t := by
              simp [Tmr.start, s1, hst]
            rw [hs, s1, s2, s3, hst]
            refine ⟨i1, by simp, fun _ => noFlowSeen_snoc (i3 hst) fun _ _ _ => hnf, ?_, ?_, ?_⟩
            · intro x hx hi _; exact i4 x (hinit x hx hi) hi hst
            · intro _ n hx; exact i5 hst n fun x h => hx x (by simp [h])
            · intro u hu
              obtain ⟨k, hk, _, _, hu | rfl⟩ := noFlowSince_snoc hu
              · exact ⟨rfl, (i6 u hu).2⟩
              · exact ⟨rfl, i5 hst _ hord⟩
          | stop =>
            have hs : t.start now = { t with work := 0, state := .work, last := now } := by
              simp [Tmr.start, s1, hst]
            rw [hs]
            refine ⟨rfl, by simp, fun _ => ⟨h, i, r, [], rfl, hnf, by simp⟩, ?_, ?_, ?_⟩
            · intro x hx hi _; exact hord x (hinit x hx hi)
            · intro _ n hx; exact hx (now, .check i r) (by simp)
            · intro u hu
              obtain ⟨k, hk, _, _, hu | rfl⟩ := noFlowSince_snoc hu
              · have := (i6 u hu).1
                rw [hst] at this
                cases this
              · exact ⟨rfl, le_refl _⟩
        · rw [if_neg hl]
          refine ⟨rfl, by simp [Tmr.reset], by simp [Tmr.reset], by simp [Tmr.reset], by simp [Tmr.reset], ?_⟩
          intro u hu
          obtain ⟨k, hk, _, hnf, _⟩ := noFlowSince_snoc hu
          cases hk
          exact absurd hnf.2 hl
      · rw [if_neg hp]
        dsimp only
        rw [s1, s2, s3]
        refine ⟨i1, i2, fun hw => noFlowSeen_snoc (i3 hw) fun _ _ h => absurd h hp, ?_, ?_, ?_⟩
        · intro x hx hi hw; exact i4 x (hinit x hx hi) hi hw
        · intro hw n hx; exact i5 hw n fun x h => hx x (by simp [h])
        · intro u hu
          obtain ⟨k, hk, _, hnf, _⟩ := noFlowSince_snoc hu
          cases hk
          exact absurd hnf.1 hp

/-- The time is up. -/
theorem timeUp_iff (t : Tmr) (now : Tm) (hw : t.work = 0) (hs : t.state = .work) (hle : t.last.toNat ≤ now.toNat) :
    t.isTimeUp now = true ↔ t.countdown.toNat < (now.toNat - t.last.toNat) % 2 ^ 32 := by
  unfold Tmr.isTimeUp
  rw [if_pos hs, hw]
  simp only [BitVec.le_def]
  have : (((0 + Time.deltaMs now t.last).truncate 32).zeroExtend 64).toNat = (now.toNat - t.last.toNat) % 2 ^ 32 := by
    rw [← delta_eq hle]
    simp
    omega
  rw [this]
  split
  · simp; omega
  · simp; omega

end Ptusa.CipErr
