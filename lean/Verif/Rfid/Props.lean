import Verif.Rfid.Lemmas

/-!
# C159 tags in the field of a reader, C160 the error of a reader
-/
namespace Ptusa.Rfid

/-- C159 (part).  As long as the driver reports what the class is made for, nothing undefined happens, and at any time the numbers 1 to n give
exactly the tags that came and did not go since the connection was made, in the order in which they came; larger numbers give nothing. -/
theorem C159_tags_partial (h : List Ev) (hf : Fits {} h) : ∃ r o, run {} h = some (r, o) ∧ r.tags.length = (field h).tags.length ∧
    (∀ i (hi : i < (field h).tags.length), getInfo r (i + 1) = some (some (shown (field h).tags[i]))) ∧
    ∀ idx : Int, (field h).tags.length < idx → getInfo r idx = some none := by
  obtain ⟨r, o, h1, h2⟩ := run_agree h {} {} ⟨rfl, rfl, rfl, by simp, List.Pairwise.nil⟩ hf
  obtain ⟨_, _, h3, _⟩ := h2
  have ht : r.tags = (field h).tags.map shown := h3
  refine ⟨r, o, h1, by rw [ht, List.length_map], ?_, ?_⟩
  · intro i hi
    simp only [getInfo, ht, List.length_map]
    rw [if_pos (by omega), if_pos (by omega), show ((i : Int) + 1 - 1).toNat = i by omega, List.getElem?_map, List.getElem?_eq_getElem hi]
    rfl
  · intro idx hi
    simp only [getInfo, ht, List.length_map]
    rw [if_neg (by omega)]

/-- Tags of the example. -/
def tagA : Tag := ⟨[0x0001, 0xE280], 1, 70⟩

/-- Another tag, at two antennas. -/
def tagB (port : Nat) : Tag := ⟨[0x0002, 0xE280], port, 50⟩

/-- Three come, one goes. -/
def demo : List Ev := [.evaluate true 7 .ok .ok, .report 7 .coming [tagA, tagB 1], .report 8 .coming [tagA], .report 7 .coming [tagB 2], .report 7 .going [tagB 1]]

theorem demo_fits : Fits {} demo := by decide +kernel

example : (run {} demo).map (fun x => (x.1.tags, x.2)) =
    some ([⟨"E2800001".toList, 1, 70⟩, ⟨"E2800002".toList, 2, 50⟩], []) := by decide +kernel

example : (run {} (demo ++ List.replicate 4 (.evaluate true 7 .timeout .ok))).map (fun x => (x.1.handle, x.1.tags, x.2)) = some (0, [], [.setError]) := by
  decide +kernel

/-- C159 does not hold for more than ten tags: one more is written beyond the array. -/
theorem C159_eleven_violated (r : Reader) (h10 : r.tags.length = 10) (t : Tag) (ts : List Tag) : step r (.report r.handle .coming (t :: ts)) = none := by
  simp [step, report, coming, h10]

/-- Eleven different tags. -/
def eleven : List Tag := (List.range 11).map fun i => ⟨[i], 1, 0⟩

example : run {} [.evaluate true 7 .ok .ok, .report 7 .coming eleven] = none ∧ eleven.Nodup := by decide +kernel

/-- C159 does not hold for long codes: one with ten words or more, which the standard allows, is written beyond the text. -/
theorem C159_long_violated (r : Reader) (t : Tag) (ts : List Tag) (h : 10 ≤ t.words.length) :
    step r (.report r.handle .coming (t :: ts)) = none ∧ step r (.report r.handle .going (t :: ts)) = none := by
  simp [step, report, coming, going, epcText_long _ h]

example : run {} [.evaluate true 7 .ok .ok, .report 7 .coming [⟨List.replicate 10 1, 1, 0⟩]] = none := by decide +kernel

/-- C159 does not hold if the driver reports the same tag twice: it is shown twice, and after it is gone it is still shown once. -/
theorem C159_twice_violated (t : Tag) (h9 : t.words.length ≤ 9) : ∃ r, run {} [.evaluate true 7 .ok .ok, .report 7 .coming [t, t], .report 7 .going [t]] =
    some (r, []) ∧ r.tags = [shown t] := by
  have hg : deleteFrom (t.words.reverse.flatMap wordText) t.port [shown t, shown t] 0 = [shown t] := by
    have h0 := deleteFrom_eq (t.words.reverse.flatMap wordText) t.port [shown t, shown t] []
    simp only [List.nil_append, List.length_nil] at h0
    rw [h0]
    simp [sweep, shown]
  refine ⟨{ handle := 7, tags := [shown t], going := true }, ?_, rfl⟩
  simp only [run, step, evaluate, link, readAny, setFlag, supervise, if_true]
  simp only [reduceCtorEq, if_false, if_true, Option.bind_some, ne_eq, Bool.false_eq_true, show ¬ (7 : Nat) = 0 by omega, not_false_eq_true]
  simp only [report, coming, going, epcText_ok _ h9, Option.map_some, Option.bind_some, List.length_nil, List.nil_append, List.length_cons,
    List.cons_append, if_true, show (0 : Nat) < 10 by omega, show (0 + 1 : Nat) < 10 by omega]
  rw [show ([⟨t.words.reverse.flatMap wordText, t.port, t.rssi⟩, ⟨t.words.reverse.flatMap wordText, t.port, t.rssi⟩] : List Entry) = [shown t, shown t] from rfl, hg]

example : (run {} [.evaluate true 7 .ok .ok, .report 7 .coming [tagA, tagA], .report 7 .going [tagA]]).map (fun x => x.1.tags.length) = some 1 := by
  decide +kernel

/-- C159 does not hold for numbers below 1: they are not checked. -/
theorem C159_index_violated (r : Reader) (idx : Int) (h : idx ≤ 0) : getInfo r idx = none := by
  simp only [getInfo]
  rw [if_pos (by omega), if_neg (by omega)]

example : getInfo {} 0 = none := C159_index_violated _ _ (by omega)

/-- C160.  After any history with an evaluation the error of the reader is shown exactly when there is no connection; it is set and reset in turn,
never twice. -/
theorem C160_error (h : List Ev) (he : ∃ e ∈ h, e.isEval) (r : Reader) (o : List Out) (hr : run {} h = some (r, o)) :
    Alternate false o ∧ (Shown o ↔ r.handle = 0) := by
  have ho := run_outs h {} r o hr
  refine ⟨ho.1, ?_⟩
  have hi : ∀ (h : List Ev) (r r' : Reader) (o : List Out), ((∃ e ∈ h, e.isEval) ∨ r.err = decide (r.handle = 0)) → run r h = some (r', o) →
      r'.err = decide (r'.handle = 0) := by
    intro h
    induction h with
    | nil =>
      intro r r' o hc hr
      simp only [run, Option.some.injEq, Prod.mk.injEq] at hr
      rcases hc with ⟨e, h1, _⟩ | hc
      · simp at h1
      · rw [← hr.1]; exact hc
    | cons e h ih =>
      intro r r' o hc hr
      simp only [run, Option.bind_eq_some_iff, Option.map_eq_some_iff] at hr
      obtain ⟨⟨r1, o1⟩, h1, ⟨r2, o2⟩, h2, h3⟩ := hr
      simp only [Prod.mk.injEq] at h3
      obtain ⟨rfl, rfl⟩ := h3
      refine ih r1 r2 o2 ?_ h2
      cases e with
      | evaluate a b c d =>
        right
        simp only [step, Option.some.injEq] at h1
        have : r1 = (evaluate r a b c d).1 := by rw [h1]
        rw [this]
        exact supervise_err _
      | report n flag ts =>
        have hc2 : (∃ e ∈ h, e.isEval) ∨ r.err = decide (r.handle = 0) := by
          rcases hc with ⟨e, h4, h5⟩ | hc
          · rcases List.mem_cons.mp h4 with rfl | h4
            · exact absurd h5 (by simp [Ev.isEval])
            · exact Or.inl ⟨e, h4, h5⟩
          · exact Or.inr hc
        rcases hc2 with hc | hc
        · exact Or.inl hc
        · right
          simp only [step] at h1
          split at h1
          · simp only [Option.map_eq_some_iff, Prod.mk.injEq] at h1
            obtain ⟨l, _, rfl, rfl⟩ := h1
            exact hc
          · simp only [Option.some.injEq, Prod.mk.injEq] at h1
            obtain ⟨rfl, rfl⟩ := h1
            exact hc
  have h1 := hi h {} r o (Or.inl he) hr
  rw [ho.2] at h1
  simp only [last, Shown] at *
  cases hl : o.getLast? with
  | none =>
    rw [hl] at h1
    simp only [Option.map_none, Option.getD_none] at h1
    have : r.handle ≠ 0 := by
      intro hc
      rw [hc] at h1
      exact absurd h1 (by decide)
    simp [this]
  | some x =>
    rw [hl] at h1
    simp only [Option.map_some, Option.getD_some, decide_eq_decide] at h1
    simpa using h1

/-- C160 (part).  The connection is that of the specification: made when the reader is reachable, given up with the fourth failure since the last
success (and, after that, with the first one until there is a success). -/
theorem C160_connection (h : List Ev) (hf : Fits {} h) (r : Reader) (o : List Out) (hr : run {} h = some (r, o)) :
    r.handle = (field h).handle ∧ r.retr = (field h).failures := by
  obtain ⟨r', o', h1, h2⟩ := run_agree h {} {} ⟨rfl, rfl, rfl, by simp, List.Pairwise.nil⟩ hf
  rw [h1] at hr
  simp only [Option.some.injEq, Prod.mk.injEq] at hr
  obtain ⟨rfl, rfl⟩ := hr
  exact ⟨h2.1, h2.2.1⟩

/-- C160 (part), for every state.  With a connection, two commands that succeed start the reading of tags, and it stays started while the connection lasts. -/
theorem C160_reading (r : Reader) (a : Bool) (n : Nat) (f rd : Cmd) :
    ((evaluate r a n .ok .ok).1.handle ≠ 0 → (evaluate r a n .ok .ok).1.going = true) ∧
    (r.handle ≠ 0 → r.going = true → (evaluate r a n f rd).1.handle ≠ 0 → (evaluate r a n f rd).1.going = true) := by
  obtain ⟨a1, b, c, d, e⟩ := r
  constructor
  · by_cases h : a1 = 0 <;> by_cases h2 : n = 0 <;> cases a <;> cases d <;> cases e <;> simp [evaluate, link, h, h2, readAny, setFlag, supervise]
  · intro h1 h2
    simp only at h1 h2
    subst h2
    cases f <;> cases e <;> by_cases h4 : 3 < c + 1 <;> simp [evaluate, link, h1, h4, readAny, setFlag, failed, disconnect, supervise]

example : (run {} [.evaluate false 0 .ok .ok, .evaluate false 0 .ok .ok, .evaluate true 3 .ok .ok, .evaluate true 3 .timeout .ok]).map
    (fun x => (x.1.handle, x.1.going, x.1.retr, x.2)) = some (3, true, 1, [.setError, .resetError]) := by decide +kernel

end Ptusa.Rfid
