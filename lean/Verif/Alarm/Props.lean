import Verif.Alarm.Lemmas

/-!
# C10, C11, C12, C22: alarms and messages
-/
namespace Ptusa.Alarm

/-! ### C10 -/

/-- C10.  Whatever the controller and the operator do (`es`, in order), the alarm of a device
registered at position `i` is in the state that the history of that device prescribes:
active while the device is in error and the error has not been accepted, accepted while it is in
error and has been, returned when it has recovered without having been accepted, and gone
otherwise (`alarmState` in `Spec.lean`).  The device addressed by a command is found by its key,
hence the keys must differ. -/
theorem C10_alarm_follows_history (m : Mgr) (hk : m.keys.Nodup) (i : Nat) (k : Nat × Nat)
    (p : BitVec 32) (hi : m.items[i]? = some (k, .dev ⟨.normal, p⟩)) (es : List Ev) :
    ∃ p', (m.run es).items[i]? =
      some (k, .dev ⟨alarmState ((es.map (project i k)).reverse), p'⟩) := by
  suffices H : ∀ (h : List Ev), ∃ p', (m.run h.reverse).items[i]? =
      some (k, .dev ⟨alarmState (h.map (project i k)), p'⟩) by
    have := H es.reverse
    simpa [List.map_reverse] using this
  intro h
  induction h with
  | nil => exact ⟨p, by simpa [Mgr.run, alarmState, nowBad, everBad] using hi⟩
  | cons e h ih =>
    obtain ⟨p1, hp⟩ := ih
    rw [List.reverse_cons, run_snoc, List.map_cons]
    have hk' : ((m.run h.reverse).items.map (·.1)).Nodup := by
      have := keys_run m h.reverse
      unfold Mgr.keys at this hk
      rw [this]
      exact hk
    cases e with
    | eval neg =>
      refine ⟨p1, ?_⟩
      simp only [Mgr.step]
      rw [evaluate_get, hp]
      simp only [Option.map_some, Item.after, project]
      rw [state_looked]
    | post a t =>
      refine ⟨p1, ?_⟩
      simp only [Mgr.step]
      rw [post_get, hp]
      simp only [Option.map_some, project, state_other]
      split <;> rfl
    | cmd c key n =>
      simp only [Mgr.step, Mgr.setCmd]
      rw [cmdItems_get c key n _ i hk', hp]
      simp only [Option.map_some, project]
      by_cases hkey : k = key
      · subst hkey
        simp only [if_true, Item.commanded, true_and]
        by_cases hc : c = 100
        · subst hc
          exact ⟨p1, by rw [state_accepted]; simp⟩
        · simp only [hc, if_false, state_other]
          refine ⟨((Dev.mk (alarmState (h.map (project i k))) p1).setCmd c).1.par, ?_⟩
          have := setCmd_not_accept ⟨alarmState (h.map (project i k)), p1⟩ c hc
          generalize (Dev.mk (alarmState (h.map (project i k))) p1).setCmd c = r at this ⊢
          obtain ⟨⟨st, par⟩, code⟩ := r
          simp only at this ⊢
          rw [this]
      · have hkey' : ¬ (key = k ∧ c = 100) := fun h => hkey h.1.symm
        simp only [hkey, hkey', if_false, state_other]
        exact ⟨p1, rfl⟩

/-- Two devices; the first fails, recovers unnoticed, is accepted, fails again. -/
example : ∃ m : Mgr, m.keys.Nodup ∧ m.items[0]? = some ((1, 1), .dev ⟨.normal, 0⟩) ∧
    alarmState ([Ev.eval (fun _ => true), .eval (fun _ => false)].map (project 0 (1, 1))).reverse
      = .ret ∧
    alarmState ([Ev.eval (fun _ => true), .eval (fun _ => false), .cmd 100 (1, 1) 0].map
      (project 0 (1, 1))).reverse = .normal :=
  ⟨⟨[((1, 1), .dev ⟨.normal, 0⟩), ((1, 2), .dev ⟨.normal, 0⟩)], Flags.clear, 0, 0⟩,
    by decide, rfl, by decide, by decide⟩

/-- C10, corollary in plain words: an alarm that is not visible has never been raised, or the
device is all right and its last error was accepted by the operator. -/
theorem C10_never_dropped (m : Mgr) (hk : m.keys.Nodup) (i : Nat) (k : Nat × Nat)
    (p p' : BitVec 32) (hi : m.items[i]? = some (k, .dev ⟨.normal, p⟩)) (es : List Ev)
    (hn : (m.run es).items[i]? = some (k, .dev ⟨.normal, p'⟩)) :
    nowBad ((es.map (project i k)).reverse) = false ∧
      (everBad ((es.map (project i k)).reverse) = false ∨
        acknowledged ((es.map (project i k)).reverse) = true) := by
  obtain ⟨p1, h1⟩ := C10_alarm_follows_history m hk i k p hi es
  rw [hn] at h1
  simp only [Option.some.injEq, Prod.mk.injEq, Item.dev.injEq, Dev.mk.injEq, true_and] at h1
  have h2 := h1.1
  revert h2
  generalize (es.map (project i k)).reverse = h
  cases hb : nowBad h <;> cases ha : acknowledged h <;> cases he : everBad h <;>
    simp [alarmState, hb, ha, he]

/-! ### C11 -/

/-- C11 is false of the code: two devices are in error, the one registered later is suppressed,
and the controller reports that there is no error and nothing to acknowledge. -/
theorem C11_suppressed_hides_others_violated :
    ∃ (m : Mgr) (neg : Nat → Bool),
      (∃ i, Erring m neg i false) ∧ (∃ i, Unacked m neg i false) ∧
      (m.evaluate neg).flags.anyError = false ∧ (m.evaluate neg).flags.anyNoAck = false :=
  ⟨⟨[((1, 1), .dev ⟨.normal, 0⟩), ((1, 2), .dev ⟨.normal, 4⟩)], Flags.clear, 0, 0⟩, fun _ => true,
    ⟨0, (1, 1), ⟨.normal, 0⟩, rfl, rfl, rfl⟩,
    ⟨0, (1, 1), ⟨.normal, 0⟩, rfl, rfl, rfl, by decide⟩, by decide, by decide⟩

/-- C11, what the "there is an error" flag means exactly, for every list of devices: some
unsuppressed device is in error and no suppressed device registered after it is. -/
theorem C11_error_flag_partial (m : Mgr) (neg : Nat → Bool) :
    (m.evaluate neg).flags.anyError = true ↔
      ∃ i, Erring m neg i false ∧ ∀ j, i < j → ¬ Erring m neg j true := by
  have := flags_error neg m.items 0 Flags.clear
  simp only [Nat.zero_add] at this
  simp only [Mgr.evaluate]
  rw [this]
  simp only [Flags.clear, Bool.false_eq_true, false_and, or_false]
  constructor
  · rintro ⟨a, k, d, h1, h2, h3, h4⟩
    refine ⟨a, ⟨k, d, h1, h2, h3⟩, ?_⟩
    rintro j hj ⟨k', d', g1, g2, g3⟩
    rw [h4 j k' d' hj g1 g2] at g3
    cases g3
  · rintro ⟨a, ⟨k, d, h1, h2, h3⟩, h4⟩
    refine ⟨a, k, d, h1, h2, h3, ?_⟩
    intro b k' d' hb g1 g2
    cases hs : isSuppressed d'.par with
    | false => rfl
    | true => exact absurd ⟨k', d', g1, g2, hs⟩ (h4 b hb)

/-- C11, the same for the "unacknowledged" flag. -/
theorem C11_noack_flag_partial (m : Mgr) (neg : Nat → Bool) :
    (m.evaluate neg).flags.anyNoAck = true ↔
      ∃ i, Unacked m neg i false ∧ ∀ j, i < j → ¬ Erring m neg j true := by
  have := flags_noack neg m.items 0 Flags.clear
  simp only [Nat.zero_add] at this
  simp only [Mgr.evaluate]
  rw [this]
  simp only [Flags.clear, Bool.false_eq_true, false_and, or_false]
  constructor
  · rintro ⟨a, k, d, h1, h2, h3, hst, h4⟩
    refine ⟨a, ⟨k, d, h1, h2, h3, hst⟩, ?_⟩
    rintro j hj ⟨k', d', g1, g2, g3⟩
    rw [h4 j k' d' hj g1 g2] at g3
    cases g3
  · rintro ⟨a, ⟨k, d, h1, h2, h3, hst⟩, h4⟩
    refine ⟨a, k, d, h1, h2, h3, hst, ?_⟩
    intro b k' d' hb g1 g2
    cases hs : isSuppressed d'.par with
    | false => rfl
    | true => exact absurd ⟨k', d', g1, g2, hs⟩ (h4 b hb)

/-- C11 as stated, when no suppressed device is in error (missing: the other case, where it is
false). -/
theorem C11_flags_partial (m : Mgr) (neg : Nat → Bool) (hs : ∀ i, ¬ Erring m neg i true) :
    ((m.evaluate neg).flags.anyError = true ↔ ∃ i, Erring m neg i false) ∧
    ((m.evaluate neg).flags.anyNoAck = true ↔ ∃ i, Unacked m neg i false) := by
  rw [C11_error_flag_partial, C11_noack_flag_partial]
  exact ⟨⟨fun ⟨i, h, _⟩ => ⟨i, h⟩, fun ⟨i, h⟩ => ⟨i, h, fun j _ => hs j⟩⟩,
    ⟨fun ⟨i, h, _⟩ => ⟨i, h⟩, fun ⟨i, h⟩ => ⟨i, h, fun j _ => hs j⟩⟩⟩

/-- Two devices in error, none suppressed, one accepted. -/
example : ∃ m : Mgr, (∀ i, ¬ Erring m (fun _ => true) i true) ∧
    Erring m (fun _ => true) 1 false ∧ Unacked m (fun _ => true) 1 false := by
  refine ⟨⟨[((1, 1), .dev ⟨.accept, 0⟩), ((1, 2), .dev ⟨.normal, 3⟩)], Flags.clear, 0, 0⟩, ?_,
    ⟨(1, 2), ⟨.normal, 3⟩, rfl, rfl, rfl⟩, ⟨(1, 2), ⟨.normal, 3⟩, rfl, rfl, rfl, by decide⟩⟩
  rintro i ⟨k, d, h, -, hs⟩
  match i with
  | 0 => simp at h; rw [← h.2] at hs; exact absurd hs (by decide)
  | 1 => simp at h; rw [← h.2] at hs; exact absurd hs (by decide)
  | i + 2 => simp at h

/-! ### C12 -/

/-- C12 for the alarm states, suppression marks and messages (missing: the error texts and a
reset of all parameters, for which it is false, see below).  Take the list as it is after an
evaluation, let anything happen (evaluations, commands, postings, in any order), evaluate again:
if the list now shows something else, the id was incremented at least once and at most once per
event. -/
theorem C12_changed_list_changes_id_partial (m : Mgr) (neg neg' : Nat → Bool) (es : List Ev) :
    (((m.evaluate neg).run es).evaluate neg').shown ≠ (m.evaluate neg).shown →
    ∃ n, 1 ≤ n ∧ n ≤ es.length + 1 ∧
      (((m.evaluate neg).run es).evaluate neg').id = (m.evaluate neg).id + BitVec.ofNat 16 n := by
  intro hne
  have hstill : ∀ x ∈ (m.evaluate neg).items, Still x.2 := evalItems_still neg _ _ _
  have hg := grown_refl _ hstill
  have hrun : ((m.evaluate neg).run es).evaluate neg' = (m.evaluate neg).run (es ++ [.eval neg']) := by
    rw [run_snoc]; rfl
  rcases run_id (m.evaluate neg).items (m.evaluate neg) (es ++ [.eval neg']) hg with ⟨n, h1, h2, h3⟩ | ⟨_, h⟩
  · exact ⟨n, h1, by simpa using h2, by rw [hrun]; exact h3⟩
  · exfalso
    apply hne
    rw [hrun]
    refine grown_still _ _ h ?_
    rw [← hrun]
    exact evalItems_still neg' _ _ _

/-- C12, in particular the id really differs while fewer than 65535 events happen in between. -/
theorem C12_id_differs_partial (m : Mgr) (neg neg' : Nat → Bool) (es : List Ev)
    (hlen : es.length < 65535)
    (hne : (((m.evaluate neg).run es).evaluate neg').shown ≠ (m.evaluate neg).shown) :
    (((m.evaluate neg).run es).evaluate neg').id ≠ (m.evaluate neg).id := by
  obtain ⟨n, h1, h2, h3⟩ := C12_changed_list_changes_id_partial m neg neg' es hne
  rw [h3]
  intro h
  have := congrArg BitVec.toNat h
  rw [BitVec.toNat_add, BitVec.toNat_ofNat] at this
  have hlt := (m.evaluate neg).id.isLt
  omega

/-- One message removed and another posted between two evaluations: the list has the same
length, but differs. -/
example : ∃ (m : Mgr) (es : List Ev),
    (((m.evaluate fun _ => false).run es).evaluate fun _ => false).shown ≠
      (m.evaluate fun _ => false).shown ∧ es.length = 2 :=
  ⟨⟨[((9, 1), .obj ⟨[⟨1, 5⟩], 1, false⟩)], Flags.clear, 0, 1⟩, [.cmd 0 (9, 1) 1, .post 0 6],
    by decide, rfl⟩

/-- C12, single commands: an operator command that changes the shown list changes the id. -/
theorem C12_command_changes_id (m : Mgr) (c : Nat) (key : Nat × Nat) (n : Int)
    (hne : (m.setCmd c key n).shown ≠ m.shown) : (m.setCmd c key n).id ≠ m.id := by
  by_cases h : (cmdItems c key n m.items).2 = 0
  · simp only [Mgr.setCmd, h, if_true]
    intro he
    have := congrArg BitVec.toNat he
    have hlt := m.id.isLt
    rw [BitVec.toNat_add] at this
    simp at this
    omega
  · exfalso
    apply hne
    simp only [Mgr.shown, Mgr.setCmd]
    rw [grown_cmd c key n _ h]

example : ∃ m : Mgr, (m.setCmd 100 (1, 1) 0).shown ≠ m.shown :=
  ⟨⟨[((1, 1), .dev ⟨.alarm, 0⟩)], Flags.clear, 0, 0⟩, by decide⟩

/-- C12 is false of a reset of the parameters: it clears the suppression mark of a shown alarm
and the id stays, also after the next evaluation. -/
theorem C12_parameter_reset_violated :
    ∃ (m : Mgr) (neg : Nat → Bool),
      (m.resetParams.evaluate neg).shown ≠ (m.evaluate neg).shown ∧
      (m.resetParams.evaluate neg).id = (m.evaluate neg).id ∧ (m.evaluate neg).id = m.id :=
  ⟨⟨[((1, 1), .dev ⟨.alarm, 4⟩)], Flags.clear, 0, 0⟩, fun _ => true, by decide, by decide, by decide⟩

/-- C12 is false of the error texts: a counter whose error changes from "pulse count" to "flow
channel" between two evaluations shows another text under the same id. -/
theorem C12_error_text_violated :
    ∃ (m : Mgr) (s s' : Int), s < 0 ∧ s' < 0 ∧
      let m1 := m.evaluate fun _ => decide (s < 0)
      let m2 := m1.evaluate fun _ => decide (s' < 0)
      m2.shownText (fun _ => counterText s') ≠ m1.shownText (fun _ => counterText s) ∧
      m2.id = m1.id :=
  ⟨⟨[((1, 1), .dev ⟨.normal, 0⟩)], Flags.clear, 0, 0⟩, -10, -12, by decide, by decide,
    by decide, by decide⟩

/-! ### C22 -/

/-- C22.  Starting from any set of objects without messages, after any history no object holds
more than 10 messages and no two messages, of the same or of different objects, have the same
number. -/
theorem C22_bounded_unique (m : Mgr) (hm : ∀ i, msgsAt m i = []) (es : List Ev) :
    (∀ i, (msgsAt (m.run es) i).length ≤ 10) ∧
    (∀ i, ((msgsAt (m.run es) i).map (·.n)).Nodup) ∧
    (∀ i j x y, x ∈ msgsAt (m.run es) i → y ∈ msgsAt (m.run es) j → x.n = y.n → i = j) :=
  have h := msgInv_run m es (msgInv_init m hm)
  ⟨h.len, h.nd, h.cross⟩

example : ∃ m : Mgr, (∀ i, msgsAt m i = []) ∧
    (msgsAt (m.run [.post 0 7, .post 1 8, .post 0 9, .eval fun _ => true]) 0).length = 2 := by
  refine ⟨⟨[((9, 1), .obj ⟨[], 0, false⟩), ((9, 2), .obj ⟨[], 0, false⟩)], Flags.clear, 0, 0⟩, ?_,
    by decide⟩
  intro i
  match i with
  | 0 => rfl
  | 1 => rfl
  | i + 2 => rfl

/-- C22, numbers are never used again: a message posted after `es ++ fs` has a number greater
than that of every message that existed after `es`, whether or not it was deleted since. -/
theorem C22_numbers_never_reused (m : Mgr) (hm : ∀ i, msgsAt m i = []) (es fs : List Ev)
    (i j t : Nat) (x y : Msg) (hx : x ∈ msgsAt (m.run es) i)
    (hy : y ∈ msgsAt ((m.run (es ++ fs)).post j t) j)
    (hnew : y ∉ msgsAt (m.run (es ++ fs)) j) : x.n < y.n := by
  have h1 := (msgInv_run m es (msgInv_init m hm)).le i x hx
  have h2 : (m.run es).counter ≤ (m.run (es ++ fs)).counter := by
    rw [run_append]; exact counter_run _ fs
  rcases msgsAt_post (m.run (es ++ fs)) j t with h | ⟨h, _⟩
  · rw [h] at hy; exact absurd hy hnew
  · rw [h, List.mem_append] at hy
    rcases hy with hy | hy
    · exact absurd hy hnew
    · rw [List.mem_singleton] at hy
      rw [hy]
      show x.n < (m.run (es ++ fs)).counter + 1
      omega

/-- C22, posting: the object gets the message at the end of its list if it has fewer than 10,
otherwise nothing changes; other objects keep theirs. -/
theorem C22_post (m : Mgr) (i t : Nat) (k : Nat × Nat) (o : Obj)
    (hi : m.items[i]? = some (k, .obj o)) :
    (∃ n, msgsAt (m.post i t) i =
      if (msgsAt m i).length < 10 then msgsAt m i ++ [⟨n, t⟩] else msgsAt m i) ∧
    ∀ j, j ≠ i → msgsAt (m.post i t) j = msgsAt m j := by
  refine ⟨⟨m.counter + 1, ?_⟩, fun j hj => msgsAt_post_other m i t j hj⟩
  rw [msgsAt_eq, msgsAt_eq, post_get, hi]
  simp only [Option.map_some, if_true, Item.posted, Item.msgs, maxMsgs]
  by_cases hl : o.msgs.length < 10 <;> simp [hl]

/-- C22, deleting: after any history, the command with number `n` addressed to an object removes
exactly the message with that number; the order of the others and all other objects are kept. -/
theorem C22_delete (m : Mgr) (hk : m.keys.Nodup) (hm : ∀ i, msgsAt m i = []) (es : List Ev)
    (i c : Nat) (k : Nat × Nat) (o : Obj) (n : Int)
    (hi : (m.run es).items[i]? = some (k, .obj o)) :
    msgsAt ((m.run es).setCmd c k n) i =
      (msgsAt (m.run es) i).filter (fun x => decide (x.n ≠ n)) ∧
    ∀ j, j ≠ i → msgsAt ((m.run es).setCmd c k n) j = msgsAt (m.run es) j := by
  have hinv := msgInv_run m es (msgInv_init m hm)
  have hk' : ((m.run es).items.map (·.1)).Nodup := by
    have := keys_run m es
    unfold Mgr.keys at this hk
    rw [this]
    exact hk
  have hget := fun j => cmdItems_get c k n (m.run es).items j hk'
  constructor
  · have hnd := hinv.nd i
    rw [msgsAt_eq, hi] at hnd
    rw [msgsAt_eq, msgsAt_eq]
    simp only [Mgr.setCmd]
    rw [hget, hi]
    simp only [Option.map_some, if_true, Item.commanded, Item.msgs, Obj.setCmd] at hnd ⊢
    rw [← eraseP_filter n o.msgs hnd]
    split
    · rfl
    · rename_i h
      simp only [List.any_eq_true, not_exists, not_and] at h
      exact (List.eraseP_of_forall_not h).symm
  · intro j hj
    rw [msgsAt_eq, msgsAt_eq]
    simp only [Mgr.setCmd]
    rw [hget]
    cases hjj : (m.run es).items[j]? with
    | none => rfl
    | some it =>
      have : it.1 ≠ k := by
        intro he
        apply hj
        have e1 : ((m.run es).items.map (·.1))[j]? = some k := by
          rw [List.getElem?_map, hjj]; simp [he]
        have e2 : ((m.run es).items.map (·.1))[i]? = some k := by
          rw [List.getElem?_map, hi]; simp
        have l1 := (List.getElem?_eq_some_iff.1 e1).1
        exact (List.getElem?_inj l1 hk').1 (e1.trans e2.symm)
      simp [this]

example : ∃ m : Mgr, m.keys.Nodup ∧
    (msgsAt ((m.run [.post 0 7, .post 0 8, .post 0 9]).setCmd 0 (9, 1) 2) 0).map (·.text) = [7, 9] :=
  ⟨⟨[((9, 1), .obj ⟨[], 0, false⟩), ((9, 2), .obj ⟨[], 0, false⟩)], Flags.clear, 0, 0⟩,
    by decide, by decide⟩

end Ptusa.Alarm
