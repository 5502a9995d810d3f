import Verif.PacInfo.Spec

/-!
# Lemmas about the system information
-/
namespace Ptusa.PacInfo

theorem delta_eq (now t : Nat) (h : t ≤ now) (hn : now < 2 ^ 64) : delta now t = now - t := by
  unfold delta Time.deltaMs
  have e1 : (BitVec.ofNat 64 now).toNat = now := by simp; omega
  have e2 : (BitVec.ofNat 64 t).toNat = t := by simp; omega
  have h1 : ¬ BitVec.ofNat 64 now < BitVec.ofNat 64 t := by rw [BitVec.lt_def]; omega
  have h2 : BitVec.ofNat 64 t ≤ BitVec.ofNat 64 now := by rw [BitVec.le_def]; omega
  simp only [h1, h2, if_false, if_true]
  rw [BitVec.toNat_sub, e1, e2]
  omega

/-- The invariant of the uptime: `start` the time of the start; `p`, `prev` the beginning and the end of the last
evaluation; `acc` the end of the last evaluation that was accounted; `lost` the time not accounted; `k` the time spent
inside evaluations. -/
structure UpInv (i : Info) (start p prev acc lost k : Nat) : Prop where
  last : i.last = u32 acc
  le : acc ≤ prev
  near : p ≤ acc + 1000
  sum : start + uptime i + lost = acc
  lostK : lost ≤ k
  lag : prev ≤ start + uptime i + 1000 + k
  msec : i.msec < 86400000
  pub : Published i

theorem evalMode_up (i : Info) (now : Nat) :
    (evalMode i now).days = i.days ∧ (evalMode i now).hours = i.hours ∧ (evalMode i now).mins = i.mins ∧
    (evalMode i now).secs = i.secs ∧ (evalMode i now).msec = i.msec ∧ (evalMode i now).last = i.last := by
  unfold evalMode
  split <;> exact ⟨rfl, rfl, rfl, rfl, rfl, rfl⟩

theorem published_of_msec (d ms : Nat) (h : ms < 86400000) :
    ms / 3600000 < 24 ∧ ms / 60000 % 60 < 60 ∧ ms / 1000 % 60 < 60 ∧
    d * 86400 + ms / 3600000 * 3600 + ms / 60000 % 60 * 60 + ms / 1000 % 60 =
      (d * 86400000 + ms) / 1000 := by
  omega

/-- One evaluation keeps the invariant. -/
theorem upInv_step (i : Info) (start p prev acc lost k : Nat) (h : UpInv i start p prev acc lost k)
    (c : Clock) (ha : c.After prev) (hg : c.t2 ≤ p + 86399000) :
    ∃ acc' lost', UpInv (eval i c) start c.t1 c.t3 acc' lost' (k + (c.t3 - c.t1)) := by
  obtain ⟨h1, h2, h3, h4, h5, h6, h7, h8⟩ := h
  obtain ⟨a0, a1, a2, a3, a4⟩ := ha
  unfold eval
  obtain ⟨m1, m2, m3, m4, m5, m6⟩ := evalMode_up i c.t0
  generalize evalMode i c.t0 = j at m1 m2 m3 m4 m5 m6
  have hu : u32 acc ≤ acc := Nat.mod_le _ _
  unfold uptime at h4 h6
  have d1 : delta c.t1 j.last = c.t1 - u32 acc := by
    rw [m6, h1]; exact delta_eq _ _ (by omega) (by omega)
  have d2 : delta c.t2 j.last = c.t2 - u32 acc := by
    rw [m6, h1]; exact delta_eq _ _ (by omega) (by omega)
  unfold evalTime
  rw [d1]
  by_cases hc : c.t1 - u32 acc > 1000
  · rw [if_pos hc]
    refine ⟨c.t3, lost + (c.t3 - c.t2), ?_⟩
    have hs : u32 (j.msec + delta c.t2 j.last) = i.msec + (c.t2 - acc) := by
      rw [d2, m5]
      unfold u32 at hu ⊢
      omega
    dsimp only
    rw [hs]
    by_cases hd : i.msec + (c.t2 - acc) ≥ msecInDay
    · rw [if_pos hd]
      unfold msecInDay at hd ⊢
      dsimp only
      have hmod : (i.msec + (c.t2 - acc)) % 86400000 = i.msec + (c.t2 - acc) - 86400000 := by omega
      have hdays : u32 (j.days + 1) = i.days + 1 := by
        rw [m1]
        have hb : i.days + 1 < 4294967296 := by omega
        exact Nat.mod_eq_of_lt hb
      have hpub := published_of_msec (i.days + 1) (i.msec + (c.t2 - acc) - 86400000) (by omega)
      refine ⟨rfl, by omega, by omega, ?_, by omega, ?_, ?_, ?_⟩
      · simp only [uptime, hmod, hdays, Nat.add_mul, Nat.one_mul]
        have hx : 86400000 + (i.msec + (c.t2 - acc) - 86400000) = i.msec + (c.t2 - acc) := by omega
        rw [Nat.add_assoc (i.days * 86400000), hx]
        omega
      · simp only [uptime, hmod, hdays, Nat.add_mul, Nat.one_mul]; omega
      · simp only [hmod]; omega
      · simp only [Published, uptime, hmod, hdays]
        exact hpub
    · rw [if_neg hd]
      unfold msecInDay at hd
      dsimp only
      have hpub := published_of_msec i.days (i.msec + (c.t2 - acc)) (by omega)
      refine ⟨rfl, by omega, by omega, ?_, by omega, ?_, ?_, ?_⟩
      · simp only [uptime, m1]; omega
      · simp only [uptime, m1]; omega
      · show i.msec + (c.t2 - acc) < 86400000
        omega
      · simp only [Published, uptime, m1]
        exact hpub
  · rw [if_neg hc]
    refine ⟨acc, lost, by rw [m6, h1], by omega, by omega, ?_, by omega, ?_, by omega, ?_⟩
    · simp only [uptime, m1, m5]; omega
    · simp only [uptime, m1, m5]; omega
    · simp only [Published, uptime, m1, m2, m3, m4, m5]
      exact h8

/-- A history of evaluations. -/
theorem upInv_run (cs : List Clock) (i : Info) (start p prev acc lost k : Nat)
    (h : UpInv i start p prev acc lost k) (hs : Schedule p prev cs) :
    ∃ p' acc' lost', UpInv (cs.foldl eval i) start p' (lastReading prev cs) acc' lost' (k + inside cs) := by
  induction cs generalizing i p prev acc lost k with
  | nil => exact ⟨p, acc, lost, h⟩
  | cons c cs ih =>
    obtain ⟨h1, h2, h3⟩ := hs
    obtain ⟨acc', lost', h4⟩ := upInv_step i start p prev acc lost k h c h1 h2
    obtain ⟨p'', acc'', lost'', h5⟩ := ih _ _ _ _ _ _ h4 h3
    refine ⟨p'', acc'', lost'', ?_⟩
    have e1 : k + inside (c :: cs) = k + (c.t3 - c.t1) + inside cs := by
      simp [inside]; omega
    have e2 : lastReading prev (c :: cs) = lastReading c.t3 cs := by
      cases cs with
      | nil => rfl
      | cons c' cs =>
        simp only [lastReading]
        rw [List.getLast?_cons_cons]
        rw [List.getLast?_eq_some_getLast (by simp)]
        rfl
    rw [e1, e2]
    exact h5

/-! ### The semi-automatic mode -/

theorem evalTime_mode (i : Info) (c : Clock) :
    (evalTime i c).mode = i.mode ∧ (evalTime i c).offTime = i.offTime ∧
    (evalTime i c).manualTime = i.manualTime := by
  unfold evalTime
  split
  · dsimp only
    split <;> exact ⟨rfl, rfl, rfl⟩
  · exact ⟨rfl, rfl, rfl⟩

end Ptusa.PacInfo
