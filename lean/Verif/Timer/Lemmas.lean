import Verif.Timer.Spec
import Mathlib.Data.List.Induction

namespace Ptusa.Timer

theorem delta_eq {now t : Tm} (h : t.toNat ≤ now.toNat) : (Time.deltaMs now t).toNat = now.toNat - t.toNat := by
  have h1 : ¬ now < t := by rw [BitVec.lt_def]; omega
  have h2 : t ≤ now := by rw [BitVec.le_def]; omega
  simp only [Time.deltaMs, h1, h2, if_false, if_true]
  rw [BitVec.toNat_sub]
  have := now.isLt
  have := t.isLt
  omega

theorem running_append_lt (h : List (Tm × Cmd)) (e : Tm × Cmd) (t : Nat) (ht : t < e.1.toNat) :
    running (h ++ [e]) t = running h t := by
  have : ¬ e.1.toNat ≤ t := by omega
  simp [running, List.filter_append, this]

theorem running_append_ge (h : List (Tm × Cmd)) (e : Tm × Cmd) (t : Nat) (ht : e.1.toNat ≤ t) (hm : IsMove e = true) :
    running (h ++ [e]) t = decide (e.2 = .start) := by
  simp [running, List.filter_append, ht, hm]

theorem running_append_countdown (h : List (Tm × Cmd)) (e : Tm × Cmd) (t : Nat) (hm : IsMove e = false) :
    running (h ++ [e]) t = running h t := by
  simp [running, List.filter_append, hm]

/-- After the last call nothing changes. -/
theorem running_const (h : List (Tm × Cmd)) (a t : Nat) (ha : ∀ e ∈ h, e.1.toNat ≤ a) (ht : a ≤ t) :
    running h t = running h a := by
  have : h.filter (fun e => IsMove e && decide (e.1.toNat ≤ t)) =
      h.filter (fun e => IsMove e && decide (e.1.toNat ≤ a)) := by
    apply List.filter_congr
    intro e he
    have := ha e he
    have h2 : e.1.toNat ≤ t := by omega
    simp [this, h2]
  simp only [running, this]

theorem lastReset_append (h : List (Tm × Cmd)) (e : Tm × Cmd) :
    lastReset (h ++ [e]) = if e.2 = .reset then e.1.toNat else lastReset h := by
  by_cases he : e.2 = .reset
  · simp [lastReset, List.filter_append, he]
  · simp [lastReset, List.filter_append, he]

theorem lastReset_le (h : List (Tm × Cmd)) (a : Nat) (ha : ∀ e ∈ h, e.1.toNat ≤ a) : lastReset h ≤ a := by
  unfold lastReset
  split
  · rename_i e he
    have := List.mem_of_getLast? he
    exact ha e (List.mem_filter.mp this).1
  · omega

theorem worked_le (h : List (Tm × Cmd)) (now : Nat) : worked h now ≤ now := by
  have := List.countP_le_length (p := fun t => decide (lastReset h ≤ t) && running h t) (l := List.range now)
  simpa [worked] using this

/-- Time passes with no call. -/
theorem worked_later (h : List (Tm × Cmd)) (a now : Nat) (ha : ∀ e ∈ h, e.1.toNat ≤ a) (hn : a ≤ now) :
    worked h now = worked h a + if running h a then now - a else 0 := by
  obtain ⟨d, rfl⟩ := Nat.exists_eq_add_of_le hn
  unfold worked
  rw [List.range_add, List.countP_append, List.countP_map]
  congr 1
  have hr := lastReset_le h a ha
  have hall : ∀ t ∈ List.range d,
      ((fun t => decide (lastReset h ≤ t) && running h t) ∘ (fun x => a + x)) t = running h a := by
    intro t _
    have h1 : lastReset h ≤ a + t := by omega
    simp [h1, running_const h a (a + t) ha (by omega)]
  by_cases hb : running h a
  · rw [if_pos hb]
    rw [List.countP_eq_length.mpr (fun t ht => by rw [hall t ht]; exact hb)]
    simp
  · rw [if_neg hb]
    exact List.countP_eq_zero.mpr (fun t ht => by rw [hall t ht]; exact hb)

/-- A call does not change the time worked before it, but a reset clears it. -/
theorem worked_append (h : List (Tm × Cmd)) (e : Tm × Cmd) :
    worked (h ++ [e]) e.1.toNat = if e.2 = .reset then 0 else worked h e.1.toNat := by
  unfold worked
  rw [lastReset_append]
  by_cases he : e.2 = .reset
  · rw [if_pos he, if_pos he]
    apply List.countP_eq_zero.mpr
    intro t ht
    have := List.mem_range.mp ht
    have h2 : ¬ e.1.toNat ≤ t := by omega
    simp [h2]
  · rw [if_neg he, if_neg he]
    apply List.countP_congr
    intro t ht
    have := List.mem_range.mp ht
    rw [running_append_lt h e t this]

theorem run_append (t : Tmr) (h : List (Tm × Cmd)) (e : Tm × Cmd) : t.run (h ++ [e]) = (t.run h).step e := by
  simp [Tmr.run]

theorem running_nil (t : Nat) : running [] t = false := by simp [running]

theorem worked_nil (now : Nat) : worked [] now = 0 := by
  simp [worked, running_nil]

/-- The state of the timer describes its history. -/
def Inv (h : List (Tm × Cmd)) (t : Tmr) (now : Nat) : Prop :=
  (t.state = .work ↔ running h now = true) ∧
  (t.state = .work → t.last.toNat ≤ now) ∧
  worked h now = t.work.toNat + (if t.state = .work then now - t.last.toNat else 0) ∧
  (t.state = .stop → t.work = 0)

theorem inv_later {h : List (Tm × Cmd)} {t : Tmr} {a now : Nat} (ha : ∀ e ∈ h, e.1.toNat ≤ a) (hn : a ≤ now)
    (hi : Inv h t a) : Inv h t now := by
  obtain ⟨h1, h2, h3, h4⟩ := hi
  have hr := running_const h a now ha hn
  refine ⟨by rw [h1, hr], fun hw => Nat.le_trans (h2 hw) hn, ?_, h4⟩
  rw [worked_later h a now ha hn, h3]
  by_cases hw : t.state = .work
  · have := h2 hw
    rw [if_pos hw, if_pos hw, if_pos (h1.mp hw)]
    omega
  · have hb : ¬ running h a = true := fun hb => hw (h1.mpr hb)
    rw [if_neg hw, if_neg hw, if_neg hb]

theorem inv_run (h : List (Tm × Cmd)) : ∀ now : Tm, InOrder h now → Inv h (Tmr.run {} h) now.toNat := by
  induction h using List.reverseRecOn with
  | nil =>
    intro now _
    refine ⟨?_, ?_, ?_, ?_⟩
    · simp [Tmr.run, running_nil]
    · simp [Tmr.run]
    · simp [Tmr.run, worked_nil]
    · simp [Tmr.run]
  | append_singleton h e ih =>
    intro now hord
    have hpw := List.pairwise_append.mp hord.1
    have hle : e.1.toNat ≤ now.toNat := hord.2 e (by simp)
    have hprev : ∀ x ∈ h, x.1.toNat ≤ e.1.toNat := fun x hx => hpw.2.2 x hx e (by simp)
    have hi := ih e.1 ⟨hpw.1, hprev⟩
    have hall : ∀ x ∈ h ++ [e], x.1.toNat ≤ e.1.toNat := by
      intro x hx
      rcases List.mem_append.mp hx with hx | hx
      · exact hprev x hx
      · simp at hx; subst hx; omega
    refine inv_later hall hle ?_
    have hwl := worked_le h e.1.toNat
    have hlt := e.1.isLt
    rw [run_append]
    obtain ⟨at', cmd⟩ := e
    obtain ⟨h1, h2, h3, h4⟩ := hi
    simp only at *
    generalize Tmr.run {} h = t at *
    obtain ⟨last, work, st, cd⟩ := t
    simp only at h1 h2 h3 h4
    have hw := worked_append h (at', cmd)
    simp only at hw
    cases cmd with
    | countdown c =>
      have hr := running_append_countdown h (at', .countdown c) at'.toNat rfl
      simp only [Inv, Tmr.step, Tmr.setCountdown, hr, hw]
      refine ⟨h1, h2, ?_, h4⟩
      rw [if_neg (by simp)]
      exact h3
    | reset =>
      have hr := running_append_ge h (at', .reset) at'.toNat (Nat.le_refl _) rfl
      simp only [Inv, Tmr.step, Tmr.reset, hr, hw]
      simp
    | start =>
      have hr := running_append_ge h (at', .start) at'.toNat (Nat.le_refl _) rfl
      simp only [Inv, Tmr.step, Tmr.start, hr, hw]
      cases st with
      | stop => simp at h3 h4 ⊢; simp [h3, h4]
      | work => simp at h2 h3 ⊢; exact ⟨h2, h3⟩
      | pause => simp at h3 ⊢; exact h3
    | pause =>
      have hr := running_append_ge h (at', .pause) at'.toNat (Nat.le_refl _) rfl
      simp only [Inv, Tmr.step, Tmr.pause, hr, hw]
      cases st with
      | stop => simp at h3 ⊢; exact h3
      | work =>
        simp at h2 h3 ⊢
        rw [delta_eq h2, h3]
        omega
      | pause => simp at h3 ⊢; exact h3

theorem countdown_run (h : List (Tm × Cmd)) : (Tmr.run {} h).countdown.toNat = countdownOf h := by
  induction h using List.reverseRecOn with
  | nil => simp [Tmr.run, countdownOf]
  | append_singleton h e ih =>
    rw [run_append]
    obtain ⟨at', cmd⟩ := e
    cases cmd with
    | countdown c => simp [Tmr.step, Tmr.setCountdown, countdownOf, List.filterMap_append]
    | reset =>
      rw [show ((Tmr.run {} h).step (at', .reset)).countdown = (Tmr.run {} h).countdown from rfl, ih]
      simp [countdownOf, List.filterMap_append]
    | start =>
      have : ((Tmr.run {} h).step (at', .start)).countdown = (Tmr.run {} h).countdown := by
        simp only [Tmr.step, Tmr.start]
        split <;> split <;> rfl
      rw [this, ih]
      simp [countdownOf, List.filterMap_append]
    | pause =>
      have : ((Tmr.run {} h).step (at', .pause)).countdown = (Tmr.run {} h).countdown := by
        simp only [Tmr.step, Tmr.pause]
        split <;> rfl
      rw [this, ih]
      simp [countdownOf, List.filterMap_append]

theorem workTime_run (h : List (Tm × Cmd)) (now : Tm) (hord : InOrder h now) :
    ((Tmr.run {} h).getWorkTime now).toNat = worked h now.toNat := by
  obtain ⟨h1, h2, h3, h4⟩ := inv_run h now hord
  have hwl := worked_le h now.toNat
  have hlt := now.isLt
  unfold Tmr.getWorkTime
  by_cases hw : (Tmr.run {} h).state = .work
  · rw [if_pos hw] at h3 ⊢
    rw [BitVec.toNat_add, delta_eq (h2 hw), h3]
    omega
  · rw [if_neg hw] at h3 ⊢
    omega

end Ptusa.Timer
