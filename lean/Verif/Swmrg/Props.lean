import Verif.Swmrg.Lemmas

/-!
# C181, C182: the guard of readers and writers

* C181: a writer has access alone; nobody waits for ever while others go on.
* C182: nobody is passed over for ever.
-/
namespace Ptusa.Swmrg

/-- A history for the examples: thread 0 writes, 1 and 2 wait to read, 3 waits to write. -/
def busy : List (Nat × Act) := [(0, .askW), (1, .askR), (2, .askR), (3, .askW)]

/-! ## C181 -/

/-- A writer has access alone. -/
theorem C181_alone (n : Nat) (s : St) (h : Reached n s) (i j : Nat) (hi : s.Writes i) (hij : i ≠ j) : ¬s.Reads j ∧ ¬s.Writes j := by
  have inv := inv_reached h
  have h1 := tot_ge cW _ _ _ hi
  simp only [cW] at h1
  refine ⟨fun hj => ?_, fun hj => ?_⟩
  · have h2 := tot_ge cR _ _ _ hj
    simp only [cR] at h2
    rcases inv.act with ⟨_, _, h⟩ | ⟨_, h, _⟩ <;> omega
  · have h2 := tot_two cW _ _ _ _ _ hij hi hj
    simp only [cW] at h2
    rcases inv.act with ⟨_, _, h⟩ | ⟨_, _, h⟩ <;> omega

example : ∃ s, run (start 4) busy = some s ∧ s.Writes 0 ∧ s.Waits 1 ∧ ¬s.Reads 1 :=
  ⟨_, rfl, rfl, .inl rfl, (C181_alone 4 _ ⟨busy, rfl⟩ 0 1 rfl (by decide)).1⟩

/-- If the threads only finish what they have begun, this takes at most three steps for each of them, and it ends only when all
are outside: whoever waits gets access. -/
theorem C181_served (n : Nat) (s : St) (h : Reached n s) (l : List (Nat × Act)) (s' : St) (hl : ∀ x ∈ l, x.2.Finishes)
    (hr : run s l = some s') : l.length ≤ 3 * n ∧
      ((∀ i a m, a.Finishes → step s' i a ≠ some m) → ∀ i < n, s'.ths[i]? = some .out) := by
  have key : ∀ (l : List (Nat × Act)) (s : St), (∀ x ∈ l, x.2.Finishes) → run s l = some s' →
      l.length + tot rest s'.ths ≤ tot rest s.ths := by
    intro l
    induction l with
    | nil =>
      intro s _ hr
      injection hr with hr
      subst hr
      simp
    | cons x l ih =>
      intro s hl hr
      obtain ⟨i, a⟩ := x
      cases hs : step s i a with
      | none => simp [run, hs] at hr
      | some m =>
        have h1 := ih m (fun y hy => hl y (by simp [hy])) (by simpa [run, hs] using hr)
        have h2 := rest_step hs (hl (i, a) (by simp))
        simp only [List.length_cons]
        omega
  have hle : tot rest s.ths ≤ 3 * n := by
    rw [← len_reached h]
    exact tot_le rest 3 (fun t => by cases t <;> simp [rest]) _
  refine ⟨by have := key l s hl hr; omega, fun hstop i hi => ?_⟩
  have inv := inv_run (inv_reached h) hr
  have hlen : i < s'.ths.length := by rw [len_run hr, len_reached h]; exact hi
  have hg : s'.ths[i]? = some s'.ths[i] := List.getElem?_eq_getElem hlen
  by_cases ho : s'.ths[i] = .out
  · rw [hg, ho]
  · obtain ⟨j, a, m, hf, hm⟩ := go_on inv i _ hg ho
    exact absurd hm (hstop j a m hf)

/-- The history of the example can be finished, in nine steps: the writers one after another, then both readers. -/
def finish : List (Nat × Act) :=
  [(0, .done), (0, .free), (3, .wake), (3, .done), (3, .free), (1, .wake), (2, .wake), (2, .done), (1, .done)]

example : ∃ s s', run (start 4) busy = some s ∧ run s finish = some s' ∧ s'.ths = List.replicate 4 .out ∧ finish.length ≤ 3 * 4 :=
  ⟨_, _, rfl, rfl, by decide, (C181_served 4 _ ⟨busy, rfl⟩ finish _ (by unfold Act.Finishes finish; decide) rfl).1⟩

/-- Nobody waits without a reason: a reader gets access at once if nobody writes or waits to write, a writer if nobody has
access or waits. -/
theorem C181_at_once (n : Nat) (s : St) (h : Reached n s) (i : Nat) (hi : s.ths[i]? = some .out) :
    ((∀ j, ¬s.Writes j ∧ s.ths[j]? ≠ some .waitW) → ∃ s', step s i .askR = some s' ∧ s'.Reads i) ∧
    ((∀ j, ¬s.Writes j ∧ ¬s.Reads j ∧ ¬s.Waits j) → ∃ s', step s i .askW = some s' ∧ s'.Writes i) := by
  have inv := inv_reached h
  have hlen : i < s.ths.length := by
    rcases Nat.lt_or_ge i s.ths.length with h | h
    · exact h
    · rw [List.getElem?_eq_none h] at hi; cases hi
  have noW : (∀ j, ¬s.Writes j) → tot cW s.ths = 0 := by
    intro h
    rcases Nat.eq_zero_or_pos (tot cW s.ths) with h0 | h0
    · exact h0
    · obtain ⟨j, b, hj, hb⟩ := tot_pos _ _ h0
      cases b <;> simp [cW] at hb
      exact absurd hj (h j)
  have noWW : (∀ j : Nat, s.ths[j]? ≠ some Th.waitW) → tot cWaitW s.ths = 0 := by
    intro h
    rcases Nat.eq_zero_or_pos (tot cWaitW s.ths) with h0 | h0
    · exact h0
    · obtain ⟨j, b, hj, hb⟩ := tot_pos _ _ h0
      cases b <;> simp [cWaitW] at hb
      exact absurd hj (h j)
  have noR : (∀ j, ¬s.Reads j) → tot cR s.ths = 0 := by
    intro h
    rcases Nat.eq_zero_or_pos (tot cR s.ths) with h0 | h0
    · exact h0
    · obtain ⟨j, b, hj, hb⟩ := tot_pos _ _ h0
      cases b <;> simp [cR] at hb
      exact absurd hj (h j)
  have noWR : (∀ j : Nat, s.ths[j]? ≠ some Th.waitR) → tot cWaitR s.ths = 0 := by
    intro h
    rcases Nat.eq_zero_or_pos (tot cWaitR s.ths) with h0 | h0
    · exact h0
    · obtain ⟨j, b, hj, hb⟩ := tot_pos _ _ h0
      cases b <;> simp [cWaitR] at hb
      exact absurd hj (h j)
  obtain ⟨r, w, act, q, z⟩ := inv
  refine ⟨fun hh => ?_, fun hh => ?_⟩
  · have h1 := noW fun j => (hh j).1
    have h2 := noWW fun j => (hh j).2
    refine ⟨_, by unfold step; rw [hi], ?_⟩
    unfold askR
    rw [if_neg (by omega)]
    simp [St.Reads, St.put, hlen]
  · have h1 := noW fun j => (hh j).1
    have h2 := noWW fun j h => (hh j).2.2 (.inr h)
    have h3 := noR fun j => (hh j).2.1
    have h4 := noWR fun j h => (hh j).2.2 (.inl h)
    refine ⟨_, by unfold step; rw [hi], ?_⟩
    unfold askW
    rw [if_neg (by omega)]
    simp [St.Writes, St.put, hlen]

example : ∃ s', step (start 2) 1 .askW = some s' ∧ s'.Writes 1 := by
  refine (C181_at_once 2 (start 2) ⟨[], rfl⟩ 1 rfl).2 fun j => ?_
  have : ∀ t : Th, t ≠ .out → (start 2).ths[j]? ≠ some t := by
    intro t ht h
    exact ht (List.eq_of_mem_replicate (List.mem_of_getElem? h))
  exact ⟨this _ (by decide), this _ (by decide), fun h => h.elim (this _ (by decide)) (this _ (by decide))⟩

/-! ## C182 -/

theorem readings_le (w : Nat) (s : St) (hi : Inv s) (l : List (Nat × Act)) (hw : WaitsAlong w s l) : readings s l ≤ may s := by
  induction l generalizing s with
  | nil => exact Nat.zero_le _
  | cons x l ih =>
    obtain ⟨i, a⟩ := x
    obtain ⟨h1, h2⟩ := hw
    unfold readings
    cases hs : step s i a with
    | none => exact Nat.zero_le _
    | some m =>
      have := may_step hi hs w h1
      have := ih m (inv_step hi hs) (h2 m hs)
      dsimp only
      omega

/-- While a writer waits, fewer readings begin than there are threads, however many readers ask and however long it waits. -/
theorem C182_writer_partial (n : Nat) (s : St) (h : Reached n s) (w : Nat) (l : List (Nat × Act)) (hw : WaitsAlong w s l) :
    readings s l < n := by
  have inv := inv_reached h
  have h1 := readings_le w s inv l hw
  have hww : s.ths[w]? = some .waitW := by
    cases l with
    | nil => exact hw
    | cons x l => exact hw.1
  have h2 : tot cWaitR s.ths + tot cWaitW s.ths ≤ s.ths.length := by
    generalize s.ths = ths
    induction ths with
    | nil => simp [tot]
    | cons x l ih => cases x <;> simp [tot, cWaitR, cWaitW] at ih ⊢ <;> omega
  have h3 := tot_ge cWaitW _ _ _ hww
  simp only [cWaitW] at h3
  rw [len_reached h] at h2
  have := inv.r
  unfold may at h1
  omega

/-- Thread 2 takes the unit that was meant for thread 1, in front of the writer 3 that came before it. -/
example : ∃ s, run (start 4) [(0, .askW), (1, .askR)] = some s ∧
    ∃ s', run s [(0, .done), (0, .free), (3, .askW), (2, .askR)] = some s' ∧ readings s' [(2, .wake)] = 1 ∧ 1 < 4 :=
  ⟨_, rfl, _, rfl, rfl, C182_writer_partial 4 _ ⟨[(0, .askW), (1, .askR), (0, .done), (0, .free), (3, .askW), (2, .askR)], rfl⟩ 3
    [(2, .wake)] ⟨rfl, fun s' h => by injection h with h; subst h; rfl⟩⟩

/-- Two writers can take turns for ever while a reader waits. -/
def round : List (Nat × Act) :=
  [(2, .askW), (1, .done), (1, .free), (2, .wake), (1, .askW), (2, .done), (2, .free), (1, .wake)]

theorem C182_reader_violated (k : Nat) : ∃ s, run (start 3) [(1, .askW), (0, .askR)] = some s ∧ s.ths[0]? = some .waitR ∧ s.Writes 1 ∧
    (∀ m, m <+: (List.replicate k round).flatten → ∃ s', run s m = some s' ∧ s'.ths[0]? = some .waitR) ∧
    (List.replicate k round).flatten.length = 8 * k ∧ ((List.replicate k round).flatten.filter (·.2 = .done)).length = 2 * k := by
  have app : ∀ (a b : List (Nat × Act)) (s m : St), run s a = some m → run s (a ++ b) = run m b := by
    intro a
    induction a with
    | nil =>
      intro b s m h
      injection h with h
      rw [h]
      rfl
    | cons x a ih =>
      intro b s m h
      obtain ⟨i, c⟩ := x
      cases hs : step s i c with
      | none => simp [run, hs] at h
      | some t =>
        have := ih b t m (by simpa [run, hs] using h)
        simpa [run, hs] using this
  let s0 : St := { waitingReaders := 1, active := -1, ths := [.waitR, .writes, .out] }
  refine ⟨s0, rfl, rfl, rfl, ?_, ?_, ?_⟩
  · induction k with
    | zero =>
      intro m hm
      have : m = [] := by simpa using hm
      subst this
      exact ⟨s0, rfl, rfl⟩
    | succ k ih =>
      intro m hm
      rw [List.replicate_succ, List.flatten_cons] at hm
      by_cases hlen : m.length ≤ 8
      · obtain ⟨j, hj, rfl⟩ : ∃ j, j ≤ 8 ∧ m = round.take j := by
          refine ⟨m.length, hlen, ?_⟩
          have := List.prefix_iff_eq_take.1 hm
          rw [List.take_append_of_le_length (by simpa [round] using hlen)] at this
          exact this
        have : ∀ j ≤ 8, ∃ s', run s0 (round.take j) = some s' ∧ s'.ths[0]? = some .waitR := by
          intro j hj
          have hc : j = 0 ∨ j = 1 ∨ j = 2 ∨ j = 3 ∨ j = 4 ∨ j = 5 ∨ j = 6 ∨ j = 7 ∨ j = 8 := by omega
          rcases hc with rfl | rfl | rfl | rfl | rfl | rfl | rfl | rfl | rfl <;> exact ⟨_, rfl, rfl⟩
        exact this j hj
      · have he := List.prefix_iff_eq_take.1 hm
        rw [List.take_append] at he
        have ht : round.take m.length = round := List.take_of_length_le (by simp [round]; omega)
        rw [ht] at he
        rw [he]
        obtain ⟨s', h1, h2⟩ := ih _ (List.take_prefix (m.length - round.length) _)
        exact ⟨s', (app round _ s0 s0 rfl).trans h1, h2⟩
  · induction k with
    | zero => rfl
    | succ k ih =>
      rw [List.replicate_succ, List.flatten_cons, List.length_append, ih]
      simp [round]
      omega
  · induction k with
    | zero => rfl
    | succ k ih =>
      rw [List.replicate_succ, List.flatten_cons, List.filter_append, List.length_append, ih]
      simp [round, List.filter]
      omega

end Ptusa.Swmrg
