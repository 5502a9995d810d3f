import Verif.PacInfo.Lemmas

/-!
# C32, C33: uptime, semi-automatic restrictions
-/
namespace Ptusa.PacInfo

/-- **C32** After any sequence of evaluations that are less than a day less a second apart, at any uptime (also
beyond the range of the 32-bit fields), hours, minutes and seconds are in range and with the days make up the uptime
in whole seconds; the uptime never runs ahead of the clock and lags at most one second and the time spent inside the
evaluations themselves. -/
theorem C32_uptime (j : Info) (start : Nat) (cs : List Clock)
    (hs : Schedule start start cs) :
    Published (cs.foldl eval (restart j start)) ∧
    start + uptime (cs.foldl eval (restart j start)) ≤ lastReading start cs ∧
    lastReading start cs ≤ start + uptime (cs.foldl eval (restart j start)) + 1000 + inside cs := by
  have h0 : UpInv (restart j start) start start start start 0 0 :=
    ⟨rfl, Nat.le_refl _, Nat.le_add_right _ _, by simp [uptime, restart], Nat.le_refl _,
      by simp only [Nat.add_assoc]; exact Nat.le_add_right _ _,
      by simp [restart], by simp [Published, uptime, restart]⟩
  obtain ⟨p, acc, lost, h⟩ := upInv_run cs _ _ _ _ _ _ _ h0 hs
  refine ⟨h.pub, ?_, ?_⟩
  · have := h.sum; have := h.le; omega
  · have := h.lag; omega

/-- Two evaluations a minute apart after 60 days on the clock. -/
example : Schedule 5184000000 5184000000 [⟨5184060000, 5184060000, 5184060001, 5184060002⟩,
    ⟨5184120000, 5184120000, 5184120000, 5184120000⟩] := by
  unfold Schedule Schedule Schedule Clock.After; decide

example : (([⟨5184060000, 5184060000, 5184060001, 5184060002⟩,
    ⟨5184120000, 5184120000, 5184120000, 5184120000⟩] : List Clock).foldl eval
      (restart { last := 0 } 5184000000)).mins = 1 := by decide

/-- The bound on the gap is needed: two days without an evaluation count as one. -/
example : (([⟨172800000, 172800000, 172800000, 172800000⟩] : List Clock).foldl eval
      (restart { last := 0 } 0)).days = 1 := by decide

/-! ### C33 -/

/-- The override set at `t` is running or over. -/
def Running (t : Nat) (i : Info) : Prop := (i.mode = 2 ∧ i.offTime = t) ∨ i.mode = 0

theorem running_step (t : Nat) (i i' : Info) (h : Running t i) (e : Ev) (he : e.quiet)
    (hs : step i e = some i') : Running t i' := by
  cases e with
  | eval c =>
    simp only [step, Option.some.injEq] at hs
    subst hs
    unfold Running eval
    obtain ⟨h1, h2, _⟩ := evalTime_mode (evalMode i c.t0) c
    rw [h1, h2]
    unfold evalMode
    split
    · exact .inr rfl
    · exact h
  | mode v now => exact absurd he (by simp [Ev.quiet])
  | time v =>
    simp only [step, setTime, Option.map_eq_some_iff] at hs
    obtain ⟨n, _, hn⟩ := hs
    subst hn
    exact h
  | reset =>
    simp only [step, Option.some.injEq] at hs
    subst hs
    exact .inr rfl
  | restart now => exact absurd he (by simp [Ev.quiet])

theorem running_run (t : Nat) (es : List Ev) (i i' : Info) (h : Running t i) (he : ∀ e ∈ es, e.quiet)
    (hs : run es i = some i') : Running t i' := by
  induction es generalizing i with
  | nil =>
    simp only [run, Option.some.injEq] at hs
    subst hs; exact h
  | cons e es ih =>
    simp only [run] at hs
    cases h1 : step i e with
    | none => simp [h1] at hs
    | some j =>
      rw [h1] at hs
      exact ih j (running_step t i j h e (he e (List.mem_cons_self ..)) h1)
        (fun x hx => he x (List.mem_cons_of_mem _ hx)) hs

/-- **C33** (part: no restart, the override is set in the first 2^32 ms of the clock, not at its very first
millisecond) Whatever happens after the override has been set – evaluations at any times, changes of the configured
time, resets of the parameters –, the first evaluation after the configured time makes the restrictions active
again. -/
theorem C33_expires_partial (i i1 i2 : Info) (t : Nat) (ht : 0 < t) (ht2 : t < 2 ^ 32)
    (h1 : setMode i ⟨2000⟩ t = some i1) (es : List Ev) (hq : ∀ e ∈ es, e.quiet)
    (h2 : run es i1 = some i2) (c : Clock) (hc : c.t0 < 2 ^ 64) (hd : c.t0 > t + i2.manualTime) :
    restricted (eval i2 c) = true := by
  have hr : Running t i1 := by
    simp only [setMode, Option.map_eq_some_iff] at h1
    obtain ⟨n, hn, h1⟩ := h1
    have : n = 2 := by
      simp only [Val.toU] at hn
      simpa using hn.symm
    subst h1
    subst this
    refine .inl ⟨rfl, ?_⟩
    simp only [if_true, u32]
    omega
  have hr2 := running_run t es i1 i2 hr hq h2
  unfold restricted eval
  rw [(evalTime_mode _ _).1]
  unfold evalMode
  rcases hr2 with ⟨e1, e2⟩ | e1
  · rw [if_pos]
    · rfl
    · rw [e2, delta_eq _ _ (by omega) hc]
      omega
  · split
    · rfl
    · rw [e1]; rfl

/-- **C33** (part, as above) The override is not ended early: evaluations within the configured time leave it. -/
theorem C33_not_early_partial (i i1 : Info) (t : Nat) (ht2 : t < 2 ^ 32)
    (h1 : setMode i ⟨2000⟩ t = some i1) (cs : List Clock)
    (hc : ∀ c ∈ cs, t ≤ c.t0 ∧ c.t0 ≤ t + i.manualTime ∧ c.t0 < 2 ^ 64) :
    (cs.foldl eval i1).mode = 2 := by
  have key : ∀ cs : List Clock, (∀ c ∈ cs, t ≤ c.t0 ∧ c.t0 ≤ t + i.manualTime ∧ c.t0 < 2 ^ 64) →
      ∀ j : Info, j.mode = 2 → j.manualTime = i.manualTime → (j.offTime = t ∨ j.offTime = 0) →
      (cs.foldl eval j).mode = 2 := by
    intro cs
    induction cs with
    | nil => intro _ j h _ _; exact h
    | cons c cs ih =>
      intro hc j hm ht ho
      rw [List.foldl_cons]
      have hcc := hc c (List.mem_cons_self ..)
      have hno : evalMode j c.t0 = j := by
        unfold evalMode
        rw [if_neg]
        rintro ⟨h3, h4⟩
        rcases ho with ho | ho
        · rw [ho, delta_eq _ _ hcc.1 hcc.2.2, ht] at h4
          omega
        · exact h3 ho
      obtain ⟨e1, e2, e3⟩ := evalTime_mode j c
      apply ih (fun x hx => hc x (List.mem_cons_of_mem _ hx))
      · unfold eval; rw [hno, e1, hm]
      · unfold eval; rw [hno, e3, ht]
      · unfold eval; rw [hno, e2]; exact ho
  simp only [setMode, Option.map_eq_some_iff] at h1
  obtain ⟨n, hn, h1⟩ := h1
  have h2 : n = 2 := by
    simp only [Val.toU] at hn
    simpa using hn.symm
  subst h1
  refine key cs hc _ h2 rfl (.inl ?_)
  show u32 t = t
  unfold u32; omega

/-- Set at 5 s, two minutes, over at the evaluation at 130 s. -/
example : (run [.mode ⟨2000⟩ 5000, .eval ⟨60000, 60000, 60000, 60000⟩] { last := 0 }).map
    (fun i => (i.mode, (eval i ⟨130000, 130000, 130000, 130000⟩).mode)) = some (2, 0) := by decide

/-- No timer is running: evaluations never change the mode. -/
theorem no_timer (cs : List Clock) (i : Info) (h : i.offTime = 0) :
    (cs.foldl eval i).mode = i.mode := by
  induction cs generalizing i with
  | nil => rfl
  | cons c cs ih =>
    rw [List.foldl_cons]
    have hno : evalMode i c.t0 = i := by
      unfold evalMode
      rw [if_neg (by simp [h])]
    obtain ⟨e1, e2, _⟩ := evalTime_mode i c
    rw [ih _ (by unfold eval; rw [hno, e2, h])]
    unfold eval; rw [hno, e1]

/-- **C33 is false of the code**: after a restart the override never expires, whatever evaluations follow – also when
it had expired before the restart, since the expiry is not saved. -/
theorem C33_restart_violated (i i1 : Info) (t : Nat) (h1 : setMode i ⟨2000⟩ t = some i1)
    (before after : List Clock) (now : Nat) :
    restricted (after.foldl eval (restart (before.foldl eval i1) now)) = false := by
  have hnv : ∀ (cs : List Clock) (j : Info), (cs.foldl eval j).nvMode = j.nvMode := by
    intro cs
    induction cs with
    | nil => intro j; rfl
    | cons c cs ih =>
      intro j
      rw [List.foldl_cons, ih]
      unfold eval evalTime
      have : (evalMode j c.t0).nvMode = j.nvMode := by unfold evalMode; split <;> rfl
      split
      · dsimp only
        split <;> exact this
      · exact this
  simp only [setMode, Option.map_eq_some_iff] at h1
  obtain ⟨n, hn, h1⟩ := h1
  have h2 : n = 2 := by
    simp only [Val.toU] at hn
    simpa using hn.symm
  unfold restricted
  rw [no_timer _ _ rfl]
  simp only [restart, hnv]
  subst h1
  simp [h2]

/-- **C33**: an override set when the low 32 bits of the clock are zero never expires. -/
theorem C33_zero_violated (i i1 : Info) (t : Nat) (ht : t % 2 ^ 32 = 0) (h1 : setMode i ⟨2000⟩ t = some i1)
    (cs : List Clock) : restricted (cs.foldl eval i1) = false := by
  simp only [setMode, Option.map_eq_some_iff] at h1
  obtain ⟨n, hn, h1⟩ := h1
  have h2 : n = 2 := by
    simp only [Val.toU] at hn
    simpa using hn.symm
  subst h1
  unfold restricted
  rw [no_timer _ _ (by simp only [if_true, u32]; exact ht)]
  simp [h2]

/-- **C33**: the value 2.5 is stored as mode 2, but no time is started. -/
theorem C33_fraction_violated (i : Info) (t : Nat) (cs : List Clock) :
    ∃ i1, setMode i ⟨2500⟩ t = some i1 ∧ i1.mode = 2 ∧ restricted (cs.foldl eval i1) = false := by
  refine ⟨_, rfl, rfl, ?_⟩
  unfold restricted
  rw [no_timer _ _ rfl]
  rfl

/-- **C33**: set after 2^32 ms of uptime (49.7 days) the override is over at the next evaluation, whatever the
configured time. -/
theorem C33_late_violated (i i1 : Info) (t : Nat) (ht : 2 ^ 32 ≤ t) (hz : t % 2 ^ 32 ≠ 0)
    (hm : i.manualTime < 2 ^ 32) (h1 : setMode i ⟨2000⟩ t = some i1) (c : Clock) (hc : t ≤ c.t0)
    (hc2 : c.t0 < 2 ^ 64) : restricted (eval i1 c) = true := by
  simp only [setMode, Option.map_eq_some_iff] at h1
  obtain ⟨n, hn, h1⟩ := h1
  subst h1
  unfold restricted eval
  rw [(evalTime_mode _ _).1]
  unfold evalMode
  have hle : u32 t ≤ t := Nat.mod_le _ _
  rw [if_pos]
  · rfl
  · simp only [if_true]
    rw [delta_eq _ _ (by omega) hc2]
    unfold u32 at hle ⊢
    omega

/-- The hypotheses are met after 50 days. -/
example : ∃ i1, setMode { last := 0 } ⟨2000⟩ 4320000000 = some i1 ∧ i1.offTime = 25032704 := ⟨_, rfl, by decide⟩

end Ptusa.PacInfo
