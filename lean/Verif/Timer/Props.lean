import Verif.Timer.Lemmas

/-!
# C52: timers of the control program
-/
namespace Ptusa.Timer

/-- C52, working time: after any calls made in the order of time, the working time shown is the number of milliseconds
the timer ran since its last reset. -/
theorem C52_work_time (h : List (Tm × Cmd)) (now : Tm) (hord : InOrder h now) :
    ((Tmr.run {} h).getWorkTime now).toNat = worked h now.toNat :=
  workTime_run h now hord

example : InOrder [(5, .start), (20, .pause), (100, .start)] 130 ∧
    worked [(5, .start), (20, .pause), (100, .start)] 130 = 45 := by
  refine ⟨⟨by decide, by decide⟩, by decide +kernel⟩

/-- C52, end of the countdown, while the timer runs and as long as it has worked less than 2^32 milliseconds (missing:
later, and a timer that is paused, where it is false): the time is up exactly when the timer has worked longer than the
countdown set. -/
theorem C52_time_up_partial (h : List (Tm × Cmd)) (now : Tm) (hord : InOrder h now)
    (hrun : running h now.toNat = true) (hshort : worked h now.toNat < 2 ^ 32) :
    (Tmr.run {} h).isTimeUp now = decide (countdownOf h < worked h now.toNat) := by
  have hst := (inv_run h now hord).1.mpr hrun
  have hw := workTime_run h now hord
  have hc := countdown_run h
  unfold Tmr.getWorkTime at hw
  unfold Tmr.isTimeUp
  rw [if_pos hst] at hw
  rw [if_pos hst]
  simp only [BitVec.le_def]
  have : ((((Tmr.run {} h).work + Time.deltaMs now (Tmr.run {} h).last).truncate 32).zeroExtend 64).toNat =
      worked h now.toNat := by
    rw [← hw]
    rw [← hw] at hshort
    simp
    simp at hshort
    omega
  rw [this, hc]
  by_cases hle : worked h now.toNat ≤ countdownOf h
  · have : ¬ countdownOf h < worked h now.toNat := by omega
    simp [hle, this]
  · have : countdownOf h < worked h now.toNat := by omega
    simp [hle, this]

example : InOrder [(0, .countdown 10), (5, .start)] 30 ∧ running [(0, .countdown 10), (5, .start)] 30 = true ∧
    worked [(0, .countdown 10), (5, .start)] 30 < 2 ^ 32 ∧ countdownOf [(0, .countdown 10), (5, .start)] <
      worked [(0, .countdown 10), (5, .start)] 30 := by
  refine ⟨⟨by decide, by decide⟩, by decide, by decide +kernel, by decide +kernel⟩

/-- C52 is false of the code for a countdown of 2^32 milliseconds or more: it never ends, whatever the calls. -/
theorem C52_long_countdown_violated (h : List (Tm × Cmd)) (hc : 2 ^ 32 - 1 ≤ countdownOf h) (now : Tm) :
    (Tmr.run {} h).isTimeUp now = false := by
  have hcd := countdown_run h
  unfold Tmr.isTimeUp
  split
  · have hle : (((Tmr.run {} h).work + Time.deltaMs now (Tmr.run {} h).last).truncate 32).zeroExtend 64 ≤
        (Tmr.run {} h).countdown := by
      rw [BitVec.le_def, hcd]
      have := (((Tmr.run {} h).work + Time.deltaMs now (Tmr.run {} h).last).truncate 32).isLt
      have he : ((((Tmr.run {} h).work + Time.deltaMs now (Tmr.run {} h).last).truncate 32).zeroExtend 64 : BitVec 64).toNat
          = (((Tmr.run {} h).work + Time.deltaMs now (Tmr.run {} h).last).truncate 32).toNat := by
        simp
        omega
      rw [he]
      omega
    simp only [hle, if_true]
  · rfl

example : 2 ^ 32 - 1 ≤ countdownOf [(0, .countdown 4294967296)] := by decide

/-- C52 is false of the code for a timer that runs on: 2^32 milliseconds (49.7 days) after its start, a countdown of ten
milliseconds has again not ended. -/
theorem C52_time_up_violated :
    ¬ ∀ (h : List (Tm × Cmd)) (now : Tm), InOrder h now → running h now.toNat = true →
      countdownOf h < worked h now.toNat → (Tmr.run {} h).isTimeUp now = true := by
  intro hall
  have hord : InOrder [(0, Cmd.countdown 10), (0, .start)] 4294967296 := ⟨by decide, by decide⟩
  have hrun : running [(0, Cmd.countdown 10), (0, .start)] (4294967296 : Tm).toNat = true := by decide
  have hw : countdownOf [(0, Cmd.countdown 10), (0, .start)] <
      worked [(0, Cmd.countdown 10), (0, .start)] (4294967296 : Tm).toNat := by
    rw [← C52_work_time _ _ hord]
    decide
  have := hall _ _ hord hrun hw
  revert this
  decide

/-- C52 is false of the code for a timer paused after its countdown has ended: whatever happened before, a paused (or
stopped) timer says that its time is not up. -/
theorem C52_paused_violated (h : List (Tm × Cmd)) (now now' : Tm) :
    (Tmr.run {} (h ++ [(now, .pause)])).isTimeUp now' = false := by
  rw [run_append]
  simp only [Tmr.step, Tmr.pause, Tmr.isTimeUp]
  simp

example : (Tmr.run {} [(0, .countdown 10), (5, .start)]).isTimeUp 30 = true ∧
    (Tmr.run {} ([(0, .countdown 10), (5, .start)] ++ [(30, .pause)])).isTimeUp 31 = false := by decide

/-- C52, groups of timers: the indices 1 to n are n different timers, every other index is the stub, and a call on one
index leaves all timers of other indices as they were. -/
theorem C52_group (m : Mgr) (i j : BitVec 32) (e : Tm × Cmd) (hn : m.timers.length < 2 ^ 32) :
    (m.pick i = none ↔ i.toNat = 0 ∨ m.timers.length < i.toNat) ∧
    (∀ k, m.pick i = some k → m.pick j = some k → i = j) ∧
    ((m.step i e).get i = (m.get i).step e) ∧
    (m.pick i ≠ m.pick j → (m.step i e).get j = m.get j) := by
  have hi := i.isLt
  have hj := j.isLt
  have hsub : ∀ x : BitVec 32, (x - 1).toNat = if x.toNat = 0 then 2 ^ 32 - 1 else x.toNat - 1 := by
    intro x
    have := x.isLt
    rw [BitVec.toNat_sub]
    split
    · rename_i h0; rw [h0]; decide
    · have : (1 : BitVec 32).toNat = 1 := by decide
      rw [this]; omega
  have hlen : ∀ (k : Nat), (m.timers.modify k (·.step e)).length = m.timers.length := fun k => by simp
  refine ⟨?_, ?_, ?_, ?_⟩
  · simp only [Mgr.pick, hsub]
    split
    · split
      · simp; omega
      · simp; omega
    · split
      · simp; omega
      · simp; omega
  · intro k h1 h2
    simp only [Mgr.pick] at h1 h2
    split at h1
    · split at h2
      · have h3 : (i - 1).toNat = (j - 1).toNat := by
          rw [Option.some.inj h1, Option.some.inj h2]
        have h4 : i - 1 = j - 1 := BitVec.eq_of_toNat_eq h3
        have := congrArg (· + 1) h4
        simpa using this
      · exact absurd h2 (by simp)
    · exact absurd h1 (by simp)
  · cases hp : m.pick i with
    | some k =>
      have hk : k < m.timers.length := by
        simp only [Mgr.pick] at hp
        split at hp
        · rename_i hlt; rw [← Option.some.inj hp]; exact hlt
        · exact absurd hp (by simp)
      have hp' : (m.step i e).pick i = some k := by
        simp only [Mgr.step, hp]
        rw [← hp]
        simp only [Mgr.pick, hlen]
      simp only [Mgr.get, hp, hp']
      simp only [Mgr.step, hp]
      simp [List.getD, hk]
    | none =>
      have hp' : (m.step i e).pick i = none := by
        simp only [Mgr.step, hp]
        rw [← hp]
        rfl
      simp only [Mgr.get, hp, hp']
      simp only [Mgr.step, hp]
  · intro hne
    cases hp : m.pick i with
    | some k =>
      have hp' : (m.step i e).pick j = m.pick j := by
        simp only [Mgr.step, hp]
        simp only [Mgr.pick, hlen]
      rw [hp] at hne
      simp only [Mgr.get, hp']
      cases hq : m.pick j with
      | some l =>
        have hkl : k ≠ l := fun h => hne (by rw [hq, h])
        simp only [Mgr.step, hp]
        simp [List.getD, hkl]
      | none => simp only [Mgr.step, hp]
    | none =>
      have hp' : (m.step i e).pick j = m.pick j := by
        simp only [Mgr.step, hp]
        rfl
      rw [hp] at hne
      simp only [Mgr.get, hp']
      cases hq : m.pick j with
      | some l =>
        have hl : l < m.timers.length := by
          simp only [Mgr.pick] at hq
          split at hq
          · rename_i hlt; rw [← Option.some.inj hq]; exact hlt
          · exact absurd hq (by simp)
        simp only [Mgr.step, hp]
        simp [List.getD, hl]
      | none => exact absurd hq.symm hne

example : (⟨[{}, {}], {}⟩ : Mgr).pick 0 = none ∧ (⟨[{}, {}], {}⟩ : Mgr).pick 2 = some 1 := by decide

end Ptusa.Timer
