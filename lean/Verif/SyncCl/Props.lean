import Verif.SyncCl.Lemmas

/-! # C197: the Modbus client returns the answer to the request -/
namespace Ptusa.SyncCl

open Spec
open MbClient (Byte Req)

/-- C197 (part).  As long as every answer has arrived completely when it is read, and whatever else fails, each call that
returns 1 has the answer to its own request. -/
theorem C197_own_partial (h : List Ev) (hw : ∀ e ∈ h, Whole e) : Own h (run {} h).1 := run_whole rfl h hw

/-- Two registers are read, then the connection fails, then two coils. -/
example : (run {} [⟨.holding 0 1, true, true, [0, 0, 0, 0, 0, 5, 1, 3, 2, 7, 8], .arrived 11⟩,
    ⟨.holding 0 1, true, true, [], .failed⟩, ⟨.holding 0 1, false, true, [], .failed⟩,
    ⟨.coils 0 2, true, true, [0, 0, 0, 0, 0, 4, 1, 1, 1, 3], .arrived 200⟩]).1 =
    [some [0, 0, 0, 0, 0, 5, 1, 3, 2, 7, 8], none, none, some [0, 0, 0, 0, 0, 4, 1, 1, 1, 3]] := by decide +kernel

/-- C197: after a request that could not be sent, or to which nothing was received, the client works like a new one, whatever was
before: no byte of an earlier connection is ever taken for an answer. -/
theorem C197_fresh (h1 h2 : List Ev) (e : Ev) (hb : Broken e) :
    (run {} (h1 ++ e :: h2)).1.drop (h1.length + 1) = (run {} h2).1 := by
  have hc : Clean (run {} h1).2 := run_clean (fun _ => rfl) h1
  rw [run_append]
  show List.drop _ ((run {} h1).1 ++ (call (run {} h1).2 e).1 :: (run (call (run {} h1).2 e).2 h2).1) = _
  rw [call_broken hc e hb]
  have hl : (run {} h1).1.length = h1.length := run_length {} h1
  rw [List.drop_append, hl, List.drop_eq_nil_of_le (by omega), show h1.length + 1 - h1.length = 1 by omega]
  rfl

/-- Half an answer, a failure, then a whole answer. -/
example : Broken ⟨.holding 1 1, true, true, [], .failed⟩ ∧
    (run {} [⟨.holding 1 1, true, true, [0, 0, 0, 0, 0, 5, 1, 3, 2, 0, 1], .arrived 7⟩, ⟨.holding 1 1, true, true, [], .failed⟩,
      ⟨.holding 2 1, true, true, [0, 0, 0, 0, 0, 5, 1, 3, 2, 0, 2], .arrived 11⟩]).1 =
    [none, none, some [0, 0, 0, 0, 0, 5, 1, 3, 2, 0, 2]] := ⟨Or.inr rfl, by decide +kernel⟩

/-- C197: on one connection nothing is lost, returned twice or exchanged: the answers that calls return are parts of what the device
sent, one behind the other. -/
theorem C197_stream (h : List Ev) (hw : ∀ e ∈ h, Works e) : Parts (returned (run {} h).1) (sentBack h) :=
  run_works {} (fun _ => rfl) h hw

example : Works ⟨.holding 1 1, true, true, [1, 2, 3], .arrived 2⟩ ∧ ¬ Parts [[1, 2], [2, 3]] [1, 2, 3] := by
  refine ⟨⟨rfl, rfl, 2, rfl⟩, ?_⟩
  intro h
  generalize hl : ([1, 2, 3] : List Byte) = l at h
  cases h with
  | cons gap a rest as h =>
    cases h with
    | cons gap' a' rest' as' h' =>
      have := congrArg List.length hl
      simp at this
      omega

/-- C197 does not hold when an answer arrives in two parts.  The call that gets the first part and the call that gets the second
part return 0.  From then on every call returns 1 with the answer to the request *before* it, as long as requests of the
same size are made and the connection works: the numbers of the requests are always 0 and are not compared. -/
theorem C197_behind_violated (n k : Nat) (h0 : 0 < k) (hk : k < n) (hn : n ≤ 256) (e1 e2 : Ev) (es : List Ev)
    (h1 : Works e1 ∧ e1.answer.length = n ∧ e1.got = .arrived k ∧ e1.req.expected = BitVec.ofNat 32 n)
    (h2 : Works e2 ∧ e2.answer.length = n ∧ e2.got = .arrived (n - k) ∧ e2.req.expected = BitVec.ofNat 32 n)
    (h : ∀ e ∈ es, Works e ∧ e.answer.length = n ∧ e.got = .arrived n ∧ e.req.expected = BitVec.ofNat 32 n) :
    (run {} (e1 :: e2 :: es)).1 = none :: none :: ((e2.answer :: es.map Ev.answer).dropLast).map some := by
  obtain ⟨⟨a1, a2, _⟩, a3, a4, a5⟩ := h1
  obtain ⟨⟨b1, b2, _⟩, b3, b4, b5⟩ := h2
  have c1 : call {} e1 = (none, ⟨true, e1.answer.drop k⟩) := by
    have hm : min (min k buffSize) e1.answer.length = k := by simp only [buffSize]; omega
    have hx := communicate_works {} e1 k (Or.inr a1) a2 a4 [] rfl
    rw [List.nil_append, hm] at hx
    simp only [call, hx]
    rw [if_neg]
    rw [a5, List.length_take, a3]
    intro hx
    have := congrArg BitVec.toNat hx
    simp at this
    omega
  have c2 : call ⟨true, e1.answer.drop k⟩ e2 = (none, ⟨true, e2.answer⟩) := by
    have hl : (e1.answer.drop k).length = n - k := by rw [List.length_drop, a3]
    have hm : min (min (n - k) buffSize) (e1.answer.drop k ++ e2.answer).length = (e1.answer.drop k).length := by
      rw [List.length_append, hl]; simp only [buffSize]; omega
    have hx := communicate_works ⟨true, e1.answer.drop k⟩ e2 (n - k) (Or.inl rfl) b2 b4 _ rfl
    simp only [if_true] at hx
    rw [hm, List.take_left, List.drop_left] at hx
    simp only [call, hx]
    rw [if_neg]
    rw [b5, hl]
    intro hx
    have := congrArg BitVec.toNat hx
    simp at this
    omega
  show (call {} e1).1 :: (call (call {} e1).2 e2).1 :: (run (call (call {} e1).2 e2).2 es).1 = _
  rw [c1]
  simp only
  rw [c2]
  simp only
  rw [run_behind n hn e2.answer b3 es h]

/-- Registers with the values 1, 2, 3, 4 are read one after another; the first answer arrives in two parts. -/
example : (run {} [⟨.holding 1 1, true, true, [0, 0, 0, 0, 0, 5, 1, 3, 2, 0, 1], .arrived 7⟩,
    ⟨.holding 2 1, true, true, [0, 0, 0, 0, 0, 5, 1, 3, 2, 0, 2], .arrived 4⟩,
    ⟨.holding 3 1, true, true, [0, 0, 0, 0, 0, 5, 1, 3, 2, 0, 3], .arrived 11⟩,
    ⟨.holding 4 1, true, true, [0, 0, 0, 0, 0, 5, 1, 3, 2, 0, 4], .arrived 11⟩]).1 =
    [none, none, some [0, 0, 0, 0, 0, 5, 1, 3, 2, 0, 2], some [0, 0, 0, 0, 0, 5, 1, 3, 2, 0, 3]] := by decide +kernel

/-- A connection that the device has closed is not given up: the call returns 0, and the next call does not connect again (it does not
depend on whether that would work). -/
theorem C197_closed_violated (h : List Ev) (e e' : Ev) (hc : e.connects = true) (hs : e.sends = true) (hg : e.got = .closed) :
    (run {} (h ++ [e])).1.getLast? = some none ∧
    ∀ c, run {} (h ++ [e, { e' with connects := c }]) = run {} (h ++ [e, e']) := by
  have hx : call (run {} h).2 e = (none, ⟨true, []⟩) := by
    have hx : communicate (run {} h).2 e = ([], ⟨true, []⟩) := by
      unfold communicate
      rw [if_neg (by simp [hc]), if_neg (by simp [hs]), hg]
    simp only [call, hx]
    rw [if_neg (fun h => expected_ne e.req h.symm)]
  constructor
  · rw [run_append]
    simp [run, hx]
  · intro c
    rw [run_append, run_append]
    have hy : call ⟨true, []⟩ { e' with connects := c } = call ⟨true, []⟩ e' := by simp [call, communicate]
    simp [run, hx, hy]

example : (run {} [⟨.holding 1 1, true, true, [], .closed⟩, ⟨.holding 2 1, true, true, [1, 2], .closed⟩]).1 = [none, none] := by
  decide +kernel

end Ptusa.SyncCl
