import Verif.MbClient.LemmasAsync

/-!
# C96: calls of the Modbus client that do not wait

Not proved: programs that ask for different requests in turn (the answer to one is given to another, see
`C96_other_violated`), and registers set over the head of a request while a connection is being made.
-/
namespace Ptusa.MbClient
open Spec

/-- A call returns 1 exactly when the answer to the request that went out last is there, has the right length and was not
reported before; −1 only for a read/write that is answered by 9 bytes (a refusal); otherwise 0. -/
theorem C96_result_partial {r : Req} (hl : Legal r) (hf : Fits r) {h : List (Ev × Out)} {s : St} (hr : Reach r h s)
    (hc : Clean r h) (n1 n2 : Net) :
    ∃ f x s', s.call r n1 n2 = some (f, x, s') ∧
      (x = 1 ↔ ∃ l, answer h = some l ∧ (l.take 256).length = answerLen r) ∧
      (x = -1 ↔ ∃ l, answer h = some l ∧ (l.take 256).length = 9 ∧ ∃ a b c d, r = .readWrite a b c d) ∧
      (x = 1 ∨ x = -1 ∨ x = 0) := by
  have hi := inv_reach hl hf hr hc
  obtain ⟨f, x, s', h1, -, h2, h3⟩ := call_spec hl hf hi n1 n2
  refine ⟨f, x, s', h1, ?_⟩
  have hlen := legal_len r hl
  cases ho : outstanding h with
  | true =>
    obtain ⟨-, rfl, -⟩ := h2 ho
    have ha : answer h = none := by
      cases e : answer h with
      | none => rfl
      | some l =>
        have := (hi.some l e).1
        have h1 := (hi.out ho).1
        omega
    simp [ha]
  | false =>
    obtain ⟨k1, k2, k3⟩ := h3 ho
    by_cases g1 : ∃ l, answer h = some l ∧ (l.take size).length = answerLen r
    · obtain ⟨l, hl', hg⟩ := g1
      obtain ⟨-, rfl, -⟩ := k1 l hl' hg
      refine ⟨⟨fun _ => ⟨l, hl', hg⟩, fun _ => rfl⟩, ⟨by simp, ?_⟩, by simp⟩
      rintro ⟨l', hl2, h9, -⟩
      rw [hl'] at hl2; cases hl2
      simp only [size] at hg; omega
    · by_cases g2 : ∃ l, answer h = some l ∧ (l.take size).length = 9 ∧ ∃ a b c d, r = .readWrite a b c d
      · obtain ⟨l, hl', hg, hrw⟩ := g2
        obtain ⟨-, rfl, -⟩ := k2 l hl' hg hrw
        exact ⟨⟨by simp, fun hx => absurd hx g1⟩, ⟨fun _ => ⟨l, hl', hg, hrw⟩, fun _ => rfl⟩, by simp⟩
      · obtain ⟨rfl, -⟩ := k3 fun l hl' => ⟨fun e => g1 ⟨l, hl', e⟩, fun hrw e => g2 ⟨l, hl', e, hrw⟩⟩
        exact ⟨⟨by simp, fun hx => absurd hx g1⟩, ⟨by simp, fun hx => absurd hx g2⟩, by simp⟩

example : ∃ s h, Reach (.holding 7 1) h s ∧ Clean (.holding 7 1) h ∧ answer h = some (regAnswer 1 3 [0x1234]) ∧
    (regAnswer 1 3 [0x1234]).length = answerLen (.holding 7 1) := by
  obtain ⟨s, f, x, h⟩ := exchange (.holding 7 1) (by simp [Legal]) trivial (regAnswer 1 3 [0x1234])
  exact ⟨s, _, h, trivial, by rfl, rfl⟩

/-- Every frame that goes out is the request; and none goes out while the answer to the last one may still come. -/
theorem C96_frame_partial {r : Req} (hl : Legal r) (hf : Fits r) {h : List (Ev × Out)} {s : St} (hr : Reach r h s)
    (hc : Clean r h) {n1 n2 : Net} {f : List Byte} {x : Int} {s' : St} (hcall : s.call r n1 n2 = some (some f, x, s')) :
    (∃ d, d.length = dataLen r ∧ f = adu s.cl.station (pdu d r)) ∧ x = 0 ∧ outstanding h = false := by
  have hi := inv_reach hl hf hr hc
  obtain ⟨f', x', s1, h1, -, h2, h3⟩ := call_spec hl hf hi n1 n2
  rw [h1] at hcall
  cases hcall
  cases ho : outstanding h with
  | true => exact absurd (h2 ho).1 (by simp)
  | false =>
    obtain ⟨k1, k2, k3⟩ := h3 ho
    by_cases g1 : ∃ l, answer h = some l ∧ (l.take size).length = answerLen r
    · obtain ⟨l, hl', hg⟩ := g1
      exact absurd (k1 l hl' hg).1 (by simp)
    · by_cases g2 : ∃ l, answer h = some l ∧ (l.take size).length = 9 ∧ ∃ a b c d, r = .readWrite a b c d
      · obtain ⟨l, hl', hg, hrw⟩ := g2
        exact absurd (k2 l hl' hg hrw).1 (by simp)
      · obtain ⟨rfl, h4, -⟩ := k3 fun l hl' => ⟨fun e => g1 ⟨l, hl', e⟩, fun hrw e => g2 ⟨l, hl', e, hrw⟩⟩
        rcases h4 with ⟨-, -, -, -, he⟩ | ⟨he, -⟩ | ⟨he, -⟩
        · exact ⟨⟨_, dat_length .., by simpa using he⟩, rfl, rfl⟩
        · simp at he
        · simp at he

example : ∃ s n1 n2 f x s', Reach (.holding 7 1) [] s ∧ s.call (.holding 7 1) n1 n2 = some (some f, x, s') := by
  have h0 := Reach.start (r := .holding 7 1) (fun _ => 0) 1
  have hl : Legal (.holding 7 1) := by simp [Legal]
  obtain ⟨f, x, s', h1, -, -, h3⟩ := call_spec hl trivial (inv_reach hl trivial h0 trivial) ⟨.on, true⟩ ⟨.on, true⟩
  obtain ⟨-, -, k3⟩ := h3 rfl
  obtain ⟨-, -, k⟩ := k3 (by simp [answer])
  obtain ⟨f', rfl⟩ := Option.isSome_iff_exists.mp (k (by simp) (Or.inr rfl) rfl)
  exact ⟨_, _, _, f', x, s', h0, h1⟩

/-- The client never gets stuck: when no answer is awaited, no good answer is there and no connection is being made, a call
sends the request again as soon as there is a connection. -/
theorem C96_again_partial {r : Req} (hl : Legal r) (hf : Fits r) {h : List (Ev × Out)} {s : St} (hr : Reach r h s)
    (hc : Clean r h) (ho : outstanding h = false) (hb : s.link ≠ .busy)
    (hn : ∀ l, answer h = some l → (l.take 256).length ≠ answerLen r ∧ (l.take 256).length ≠ 9) {n1 n2 : Net}
    (hon : s.link = .on ∨ n2.link = .on) (hs : n2.sent = true) :
    ∃ f x s', s.call r n1 n2 = some (some f, x, s') := by
  have hi := inv_reach hl hf hr hc
  obtain ⟨f', x', s1, h1, -, -, h3⟩ := call_spec hl hf hi n1 n2
  obtain ⟨-, -, k3⟩ := h3 ho
  obtain ⟨-, -, k⟩ := k3 fun l hl' => ⟨(hn l hl').1, fun _ => (hn l hl').2⟩
  obtain ⟨f, rfl⟩ := Option.isSome_iff_exists.mp (k hb hon hs)
  exact ⟨f, _, _, h1⟩

/-- A connection that is lost, or a wrong answer: the request goes out again. -/
example : ∃ s h, Reach (.holding 7 1) h s ∧ Clean (.holding 7 1) h ∧ outstanding h = false ∧
    (∀ l, answer h = some l → (l.take 256).length ≠ answerLen (.holding 7 1) ∧ (l.take 256).length ≠ 9) ∧ h ≠ [] := by
  obtain ⟨s, f, x, h⟩ := exchange (.holding 7 1) (by simp [Legal]) trivial [1, 2, 3]
  refine ⟨s, _, h, trivial, rfl, ?_, by simp⟩
  intro l hl
  have : l = [1, 2, 3] := by simpa [answer, outstanding] using hl.symm
  subst this
  decide

/-- Another request takes the answer: when the answer to `r` is there and the program asks for anything else, that call
returns 1 at once; its own request never goes out. -/
theorem C96_other_violated {r : Req} (hl : Legal r) (hf : Fits r) {h : List (Ev × Out)} {s : St} (hr : Reach r h s)
    (hc : Clean r h) {l : List Byte} (ha : answer h = some l) (hlen : (l.take 256).length = answerLen r) (r' : Req)
    (n1 n2 : Net) : ∃ s', s.call r' n1 n2 = some (none, 1, s') := by
  have hi := inv_reach hl hf hr hc
  obtain ⟨a1, a2, -, a4⟩ := hi.some l ha
  have hexp := expected_toInt r hl
  have hle := legal_len r hl
  have hlen' : (l.take size).length = answerLen r := hlen
  have hp : s.poll n1 = some (none, s) := by rw [St.poll, if_neg (by rw [a4]; simp)]
  have he : s.expected.toInt = s.result := by rw [a2, hexp, a1, hlen']
  have ht : r'.takes s.expected s.result = true := by
    have : 0 < s.result := by rw [a1, hlen']; omega
    simp [Req.takes, he, this]
  have hne : ¬ s.result = -1 := by rw [a1]; omega
  exact ⟨{ s with result := 0 }, by simp only [St.call, hp, Option.bind_some, if_neg hne, ht, if_true, he]⟩

end Ptusa.MbClient
