import Verif.SyncCl.Spec

/-! # Lemmas about the connection -/
namespace Ptusa.SyncCl

open Spec
open MbClient (Byte Req)

/-- No function expects an answer without bytes. -/
theorem expected_ne (r : Req) : r.expected ≠ 0 := by
  intro h
  have h2 := congrArg BitVec.toNat h
  cases r <;> simp only [Req.expected] at h2
  case coil => simp at h2
  case writeCoils => simp at h2
  case writeRegs => simp at h2
  case mask => simp at h2
  case discrete a q =>
    have := q.isLt
    split at h2 <;> simp at h2 <;> omega
  case coils a q =>
    have := q.isLt
    split at h2 <;> simp at h2 <;> omega
  case holding a q => simp [BitVec.toNat_add, BitVec.toNat_mul] at h2; omega
  case input a q => simp [BitVec.toNat_add, BitVec.toNat_mul] at h2; omega
  case readWrite a q _ _ => simp [BitVec.toNat_add, BitVec.toNat_mul] at h2; omega

theorem run_append (s : Conn) (a b : List Ev) :
    run s (a ++ b) = ((run s a).1 ++ (run (run s a).2 b).1, (run (run s a).2 b).2) := by
  induction a generalizing s with
  | nil => rfl
  | cons e es ih => simp [run, ih]

theorem run_length (s : Conn) (a : List Ev) : (run s a).1.length = a.length := by
  induction a generalizing s with
  | nil => rfl
  | cons e es ih => simp [run, ih]

/-- A connection that is not there has no bytes. -/
def Clean (s : Conn) : Prop := s.connected = false → s.queue = []

theorem call_clean {s : Conn} (h : Clean s) (e : Ev) : Clean (call s e).2 := by
  simp only [call, communicate]
  split
  · exact h
  · split
    · exact fun _ => rfl
    · cases e.got <;> simp [Clean]

theorem run_clean {s : Conn} (h : Clean s) (es : List Ev) : Clean (run s es).2 := by
  induction es generalizing s with
  | nil => exact h
  | cons e es ih => exact ih (call_clean h e)

theorem call_broken {s : Conn} (h : Clean s) (e : Ev) (hb : Broken e) : (call s e).2 = {} := by
  simp only [call, communicate]
  split
  · rename_i hc
    obtain ⟨c, q⟩ := s
    have := h hc.1
    simp only at this hc
    rw [this, hc.1]
  · rcases hb with hb | hb
    · rw [if_pos hb]
    · split
      · rfl
      · rw [hb]

/-- Nothing is waiting on the connection. -/
theorem call_whole {s : Conn} (h : s.queue = []) (e : Ev) (hw : Whole e) :
    (∀ a, (call s e).1 = some a → a = e.answer) ∧ (call s e).2.queue = [] := by
  have h0 : BitVec.ofNat 32 ([] : List Byte).length ≠ e.req.expected := fun h => expected_ne e.req h.symm
  have none : ∀ a, (if BitVec.ofNat 32 ([] : List Byte).length = e.req.expected then some ([] : List Byte) else none) = some a →
      a = e.answer := by
    intro a ha; rw [if_neg h0] at ha; cases ha
  simp only [call, communicate]
  by_cases h1 : s.connected = false ∧ e.connects = false
  · rw [if_pos h1]; exact ⟨none, h⟩
  · rw [if_neg h1]
    by_cases h2 : e.sends = false
    · rw [if_pos h2]; exact ⟨none, rfl⟩
    · rw [if_neg h2]
      cases hg : e.got with
      | failed => exact ⟨none, rfl⟩
      | closed => exact ⟨none, rfl⟩
      | arrived k =>
        have hq : (if s.connected = true then s.queue else []) = [] := by split <;> simp [h]
        have hl := hw.2 k hg
        have hn : min (min k buffSize) e.answer.length = e.answer.length := by
          have := hw.1
          simp only [buffSize]; omega
        simp only [hq, List.nil_append, hn, List.take_length, List.drop_length, and_true]
        intro a ha
        split at ha
        · exact (Option.some.inj ha).symm
        · cases ha

theorem run_whole {s : Conn} (h : s.queue = []) (es : List Ev) (hw : ∀ e ∈ es, Whole e) : Own es (run s es).1 := by
  induction es generalizing s with
  | nil => trivial
  | cons e es ih =>
    have h1 := call_whole h e (hw e (by simp))
    exact ⟨h1.1, ih h1.2 fun e he => hw e (by simp [he])⟩

theorem communicate_works (s : Conn) (e : Ev) (k : Nat) (h1 : s.connected = true ∨ e.connects = true) (h2 : e.sends = true)
    (h3 : e.got = .arrived k) (q : List Byte) (hq : (if s.connected = true then s.queue else []) = q) :
    communicate s e = ((q ++ e.answer).take (min (min k buffSize) (q ++ e.answer).length),
      ⟨true, (q ++ e.answer).drop (min (min k buffSize) (q ++ e.answer).length)⟩) := by
  unfold communicate
  rw [if_neg (by rintro ⟨a, b⟩; rcases h1 with h | h <;> simp_all), if_neg (by simp [h2]), h3]
  simp only [hq]

/-- A call on a working connection takes its bytes from the front of those waiting. -/
theorem call_works (s : Conn) (hs : Clean s) (e : Ev) (hw : Works e) :
    ∃ t, s.queue ++ e.answer = t ++ (call s e).2.queue ∧ (call s e).2.connected = true ∧
      ((call s e).1 = none ∨ (call s e).1 = some t) := by
  obtain ⟨h1, h2, k, h3⟩ := hw
  have hq : (if s.connected = true then s.queue else []) = s.queue := by
    by_cases hc : s.connected = true
    · rw [if_pos hc]
    · rw [if_neg hc, hs (by simpa using hc)]
  have hc := communicate_works s e k (Or.inr h1) h2 h3 _ hq
  simp only [call, hc]
  refine ⟨(s.queue ++ e.answer).take (min (min k buffSize) (s.queue ++ e.answer).length), ?_, ?_, ?_⟩
  · rw [List.take_append_drop]
  · trivial
  · by_cases hx : BitVec.ofNat 32 ((s.queue ++ e.answer).take (min (min k buffSize) (s.queue ++ e.answer).length)).length =
        e.req.expected
    · exact Or.inr (if_pos hx)
    · exact Or.inl (if_neg hx)

theorem parts_gap {as : List (List Byte)} {l : List Byte} (h : Parts as l) (g : List Byte) : Parts as (g ++ l) := by
  cases h with
  | nil => exact .nil _
  | cons gap a rest as h =>
    have := Parts.cons (g ++ gap) a rest as h
    simpa [List.append_assoc] using this

theorem run_works (s : Conn) (hs : Clean s) (es : List Ev) (hw : ∀ e ∈ es, Works e) :
    Parts (returned (run s es).1) (s.queue ++ sentBack es) := by
  induction es generalizing s with
  | nil => exact .nil _
  | cons e es ih =>
    obtain ⟨t, ht, hc, hr⟩ := call_works s hs e (hw e (by simp))
    have ih' := ih (call s e).2 (call_clean hs e) fun e he => hw e (by simp [he])
    have e1 : s.queue ++ sentBack (e :: es) = t ++ ((call s e).2.queue ++ sentBack es) := by
      rw [sentBack, List.flatMap_cons, ← List.append_assoc, ht, List.append_assoc]; rfl
    rw [e1]
    simp only [run]
    rcases hr with hr | hr
    · rw [hr]
      exact parts_gap ih' t
    · rw [hr]
      exact Parts.cons [] t _ _ ih'

/-- A connection on which one answer too many is waiting. -/
theorem run_behind (n : Nat) (hn : n ≤ 256) (w : List Byte) (hw : w.length = n) (es : List Ev)
    (h : ∀ e ∈ es, Works e ∧ e.answer.length = n ∧ e.got = .arrived n ∧ e.req.expected = BitVec.ofNat 32 n) :
    (run ⟨true, w⟩ es).1 = ((w :: es.map Ev.answer).dropLast).map some := by
  induction es generalizing w with
  | nil => rfl
  | cons e es ih =>
    obtain ⟨⟨h1, h2, _⟩, h3, h4, h5⟩ := h e (by simp)
    have hc : call ⟨true, w⟩ e = (some w, ⟨true, e.answer⟩) := by
      have hm : min (min n buffSize) (w ++ e.answer).length = w.length := by
        simp only [buffSize, List.length_append]; omega
      have hx := communicate_works ⟨true, w⟩ e n (Or.inl rfl) h2 h4 w rfl
      rw [hm, List.take_left, List.drop_left] at hx
      simp only [call, hx]
      rw [if_pos (by rw [h5, hw])]
    show (call ⟨true, w⟩ e).1 :: (run (call ⟨true, w⟩ e).2 es).1 = _
    rw [hc]
    simp only
    rw [ih e.answer h3 fun e he => h e (by simp [he])]
    rfl

end Ptusa.SyncCl
