import Verif.PbInit.Lemmas

namespace Ptusa.PbInit.Props

open PbInit Spec Lemmas

/-! ### C210: the PROFIBUS slave keeps to the protocol of the library -/

/-- After a start that succeeded, whatever the calls of the cycles return and however many cycles there are, data are exchanged only with the
slave of the list, which was opened and configured with the address and the sizes of the project, and the watchdog is triggered only after
it was started. -/
theorem C210_started_partial (cfg : Cfg) (l : Lib) (n : Nat) (hs : (start cfg l).2.1 = true) :
    OnlyOpened (program cfg l n) ∧ OnlyStarted (program cfg l n) ∧
      ∃ d, Slave l.devices d ∧ (Call.configure d cfg.address (cfg.outSize * 8) (cfg.inSize * 8), true) ∈ program cfg l n ∧
        ∀ c r d', (c, r) ∈ program cfg l n → exchanges c = some d' → d' = d := by
  obtain ⟨h1, h2, h3, h4⟩ := start_ok cfg l hs
  obtain ⟨u, hu, hm⟩ := cycles_mem l (start cfg l).2.2 n (start cfg l).1
  have hp : ∃ r1 r2 r3, program cfg l n = good cfg (start cfg l).2.2 ++ (u ++ [(.stopWatchdog, r1), (.exit, r2), (.exit, r3)]) := by
    unfold program close
    rw [if_neg (by simp [h1])]
    unfold call
    simp only [hu]
    rw [h4]
    exact ⟨_, _, _, by simp only [List.append_assoc]; rfl⟩
  obtain ⟨r1, r2, r3, hp⟩ := hp
  have hw : ∀ x ∈ u ++ [(Call.stopWatchdog, r1), (.exit, r2), (.exit, r3)],
      ∀ d, exchanges x.1 = some d → d = (start cfg l).2.2 := by
    intro x hx d hd
    rcases List.mem_append.1 hx with hx | hx
    · rcases hm x hx with e | e
      · rw [e] at hd; exact absurd hd (by simp [exchanges])
      · rw [e] at hd; exact (Option.some.inj hd).symm
    · simp only [List.mem_cons, List.not_mem_nil, or_false] at hx
      rcases hx with e | e | e <;> rw [e] at hd <;> exact absurd hd (by simp [exchanges])
  have hg : ∀ x ∈ good cfg (start cfg l).2.2, exchanges x.1 = none ∧ x.1 ≠ .trigger := by
    intro x hx
    unfold good at hx
    simp only [List.mem_cons, List.not_mem_nil, or_false] at hx
    rcases hx with e | e | e | e | e | e | e | e <;> rw [e] <;> simp [exchanges]
  -- a position of the trace which is not in the start comes after the whole start
  have hpos : ∀ (a : Trace) (x : Call × Bool) (b : Trace), program cfg l n = a ++ x :: b →
      (exchanges x.1 ≠ none ∨ x.1 = .trigger) → ∃ a', a = good cfg (start cfg l).2.2 ++ a' := by
    intro a x b he hx
    rw [hp] at he
    rcases List.append_eq_append_iff.1 he with ⟨a', e1, e2⟩ | ⟨a', e1, e2⟩
    · exact ⟨a', e1⟩
    · cases a' with
      | nil => exact ⟨[], by simpa using e1.symm⟩
      | cons y a' =>
        have : x = y := by simpa using (List.cons.inj e2).1
        have hmem : x ∈ good cfg (start cfg l).2.2 := by rw [e1, this]; simp
        obtain ⟨q1, q2⟩ := hg x hmem
        rcases hx with hx | hx
        · exact absurd q1 hx
        · exact absurd hx q2
  refine ⟨?_, ?_, (start cfg l).2.2, h2, ?_, ?_⟩
  · intro a c r b d he hd
    obtain ⟨a', ha⟩ := hpos a (c, r) b he (.inl (by simp [hd]))
    have hmem : (c, r) ∈ program cfg l n := by rw [he]; simp
    rw [hp] at hmem
    have hdd : d = (start cfg l).2.2 := by
      rcases List.mem_append.1 hmem with h | h
      · have := (hg _ h).1; rw [show exchanges (c, r).1 = some d from hd] at this; exact absurd this (by simp)
      · exact hw _ h d hd
    rw [ha, hdd]
    exact ⟨by simp [good], cfg.address, cfg.outSize * 8, cfg.inSize * 8, by simp [good]⟩
  · intro a r b he
    obtain ⟨a', ha⟩ := hpos a (.trigger, r) b he (.inr rfl)
    rw [ha]; exact ⟨by simp [good], by simp [good]⟩
  · rw [hp]; simp [good]
  · intro c r d' hmem hd
    rw [hp] at hmem
    rcases List.mem_append.1 hmem with h | h
    · have := (hg _ h).1; rw [show exchanges (c, r).1 = some d' from hd] at this; exact absurd this (by simp)
    · exact hw _ h d' hd

/-- A start reports success exactly when the interface is there, the list has the slave with a number other than -1 and none of its calls
fails; after a call that fails nothing follows but the question for the error. -/
theorem C210_start (cfg : Cfg) (l : Lib) :
    StopsAtFailure (start cfg l).1 ∧
    ((start cfg l).2.1 = true ↔ l.adi = true ∧ (∃ d, Slave l.devices d ∧ d ≠ -1) ∧ ∀ x ∈ (start cfg l).1, x.2 = true) := by
  cases h : (start cfg l).2.1 with
  | true =>
    obtain ⟨h1, h2, h3, h4⟩ := start_ok cfg l h
    have hall : ∀ x ∈ (start cfg l).1, x.2 = true := by
      rw [h4]; intro x hx
      unfold good at hx
      simp only [List.mem_cons, List.not_mem_nil, or_false] at hx
      rcases hx with e | e | e | e | e | e | e | e <;> rw [e]
    refine ⟨fun a c b he => ?_, fun _ => ⟨h1, ⟨_, h2, h3⟩, hall⟩, fun _ => rfl⟩
    have := hall (c, false) (by rw [he]; simp)
    exact absurd this (by simp)
  | false =>
    refine ⟨(start_fail cfg l h).1, fun h' => absurd h' (by simp), ?_⟩
    rintro ⟨a1, ⟨d, a2, a3⟩, a4⟩
    have hd := slave_unique _ _ a2
    unfold start at h a4
    rw [if_neg (by simp [a1])] at h a4
    simp only at h a4
    cases e2 : (calls l [] [.init, .scan, .list]).2 with
    | false =>
      rw [if_pos e2] at a4
      obtain ⟨p, c, q, _, g⟩ := (calls_spec l [] _).2 e2
      exact absurd (a4 (c, false) (by show _ ∈ (calls l [] _).1; rw [g]; simp)) (by simp)
    | true =>
      rw [if_neg (by simp [e2]), hd, if_neg a3] at h a4
      cases e4 : l.ok (calls l [] [.init, .scan, .list]).1.length (.open d) with
      | false =>
        rw [if_neg (by simp [e4])] at a4
        refine absurd (a4 (.open d, false) ?_) (by simp)
        show _ ∈ call l (call l _ _) _
        unfold call; rw [e4]; simp
      | true =>
        rw [if_pos e4] at h a4
        obtain ⟨p, c, q, _, g⟩ := (calls_spec l _ _).2 h
        exact absurd (a4 (c, false) (by show _ ∈ (calls l _ _).1; rw [g]; simp)) (by simp)

/-- A library where everything succeeds, with two devices. -/
def allOk : Lib := { adi := true, devices := [("libpackbus", 0), ("libdps", 3)], ok := fun _ _ => true }

example : (start { address := 5, outSize := 8, inSize := 16 } allOk) =
    ([(.init, true), (.scan, true), (.list, true), (.open 3, true), (.setWatchdog, true), (.configure 3 5 64 128, true), (.running, true),
      (.startWatchdog, true)], true, 3) := by decide +kernel

/-- The device cannot be opened. -/
example : (start {} { allOk with ok := fun n _ => n ≠ 3 }).2.1 = false := by decide +kernel

/-- **Violated**: the result of the start is not looked at.  Whenever the start fails although the interface is there, the first cycle triggers a
watchdog that was not started. -/
theorem C210_failed_start_violated (cfg : Cfg) (l : Lib) (n : Nat) (ha : l.adi = true) (hs : (start cfg l).2.1 = false) (hn : 0 < n) :
    ¬ OnlyStarted (program cfg l n) := by
  intro hO
  obtain ⟨_, h2, h3⟩ := start_fail cfg l hs
  obtain ⟨m, rfl⟩ : ∃ m, n = m + 1 := ⟨n - 1, by omega⟩
  have hc : ∃ r w, cycle l (start cfg l).2.2 (start cfg l).1 = (start cfg l).1 ++ (Call.trigger, r) :: w := by
    unfold cycle
    rw [if_neg (by simp [ha])]
    unfold calls
    cases e : l.ok (start cfg l).1.length .trigger with
    | true =>
      rw [if_pos rfl]
      obtain ⟨u, hu, _⟩ := calls_mem l (call l (start cfg l).1 .trigger)
        [.readStart (start cfg l).2.2, .readBytes (start cfg l).2.2, .readEnd (start cfg l).2.2, .writeStart (start cfg l).2.2,
          .writeBytes (start cfg l).2.2, .writeEnd (start cfg l).2.2]
      refine ⟨true, u, ?_⟩
      rw [hu]; unfold call; rw [e]; simp
    | false =>
      rw [if_neg (by simp)]
      exact ⟨false, [], by unfold call; rw [e]⟩
  obtain ⟨r, w, hc⟩ := hc
  obtain ⟨u, hu, _⟩ := cycles_mem l (start cfg l).2.2 m (cycle l (start cfg l).2.2 (start cfg l).1)
  have hp : ∃ b, program cfg l (m + 1) = (start cfg l).1 ++ (Call.trigger, r) :: b := by
    unfold program close
    rw [if_neg (by simp [ha])]
    show ∃ b, call l (call l (call l (cycles l _ (cycle l _ _) m) _) _) _ = _
    unfold call
    rw [hu, hc]
    simp only [List.append_assoc, List.cons_append]
    exact ⟨_, rfl⟩
  obtain ⟨b, hp⟩ := hp
  exact h2 (hO _ r b hp).2

/-- **Violated**: at the end the interface is left twice and the device is never closed, whatever happened before. -/
theorem C210_close_violated (cfg : Cfg) (l : Lib) (n : Nat) (ha : l.adi = true) :
    (∀ d r, (Call.closeDevice d, r) ∉ program cfg l n) ∧ ∃ t r1 r2, program cfg l n = t ++ [(Call.exit, r1), (Call.exit, r2)] := by
  constructor
  · intro d r hmem
    obtain ⟨u, hu, hm⟩ := cycles_mem l (start cfg l).2.2 n (start cfg l).1
    have hst : (Call.closeDevice d, r) ∉ (start cfg l).1 := by
      intro h
      unfold start at h
      rw [if_neg (by simp [ha])] at h
      simp only at h
      obtain ⟨v, hv, hvm⟩ := calls_mem l [] [.init, .scan, .list]
      have h0 : (Call.closeDevice d, r) ∉ (calls l [] [.init, .scan, .list]).1 := by
        rw [hv]; intro h; exact absurd (hvm _ h) (by simp)
      by_cases e2 : (calls l [] [.init, .scan, .list]).2 = false
      · rw [if_pos e2] at h; exact h0 h
      rw [if_neg e2] at h
      by_cases e3 : deviceId l.devices = -1
      · rw [if_pos e3] at h; exact h0 h
      rw [if_neg e3] at h
      cases e4 : l.ok (calls l [] [.init, .scan, .list]).1.length (.open (deviceId l.devices)) with
      | true =>
        rw [if_pos e4] at h
        obtain ⟨w, hw, hwm⟩ := calls_mem l (call l (calls l [] [.init, .scan, .list]).1 (.open (deviceId l.devices)))
          [.setWatchdog, .configure (deviceId l.devices) cfg.address (cfg.outSize * 8) (cfg.inSize * 8), .running, .startWatchdog]
        have h : (Call.closeDevice d, r) ∈ (calls l _ _).1 := h
        rw [hw] at h
        rcases List.mem_append.1 h with h | h
        · unfold call at h
          rcases List.mem_append.1 h with h | h
          · exact h0 h
          · simp at h
        · exact absurd (hwm _ h) (by simp)
      | false =>
        rw [if_neg (by simp [e4])] at h
        have h : (Call.closeDevice d, r) ∈ call l (call l _ _) _ := h
        unfold call at h
        rcases List.mem_append.1 h with h | h
        · rcases List.mem_append.1 h with h | h
          · exact h0 h
          · simp at h
        · simp at h
    unfold program close at hmem
    rw [if_neg (by simp [ha])] at hmem
    unfold call at hmem
    simp only [hu] at hmem
    rcases List.mem_append.1 hmem with h | h
    · rcases List.mem_append.1 h with h | h
      · rcases List.mem_append.1 h with h | h
        · rcases List.mem_append.1 h with h | h
          · exact hst h
          · rcases hm _ h with e | e
            · exact absurd e (by simp)
            · exact absurd e (by simp [exchanges])
        · simp at h
      · simp at h
    · simp at h
  · unfold program close
    rw [if_neg (by simp [ha])]
    unfold call
    exact ⟨_, _, _, by rw [List.append_assoc]; rfl⟩

end Ptusa.PbInit.Props
