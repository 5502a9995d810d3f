import Verif.MbClient.Lemmas
import Verif.MbClient.SpecAsync

/-!
# Helper lemmas about calls that do not wait
-/
namespace Ptusa.MbClient
open Spec

theorem expected_toInt (r : Req) (h : Legal r) : r.expected.toInt = (answerLen r : Int) := by
  have h1 := expected_toNat r h
  have h2 := legal_len r h
  rw [BitVec.toInt_eq_toNat_of_lt (by omega), h1]

/-- The head of the request is in the buffer. -/
def HasHead (r : Req) (c : Cl) : Prop := put 0 (r.head c.station) c.buf = c.buf

theorem hasHead_put (r : Req) (c : Cl) :
    HasHead r { c with buf := put 0 (r.head c.station) c.buf } := by
  funext i
  simp only [put]
  split <;> rfl

theorem hasHead_frame {r : Req} {c : Cl} (h : HasHead r c) (hf : Fits r) :
    frame r.sent c.buf = some (adu c.station (pdu (dat c.buf (dataAt r) (dataLen r)) r)) := by
  rw [← frame_eq c r hf, h]

theorem head_length_st (r : Req) (a b : Byte) : (r.head a).length = (r.head b).length := by
  rw [head_length, head_length]

theorem hasHead_set {r : Req} {c : Cl} (h : HasHead r c) {k : UInt} (hk : (r.head 0).length ≤ 13 + 2 * k.toNat)
    (h31 : k.toNat < 2 ^ 31) (v : BitVec 16) : HasHead r (c.setInt2 k v) := by
  rw [Cl.setInt2, addr_toNat h31]
  split
  · exact h
  · funext i
    have hi := congrFun h i
    by_cases hl : i < (r.head c.station).length
    · have hl2 : i < 13 + 2 * k.toNat := by rw [head_length_st r c.station 0] at hl; omega
      simp only
      rw [put_out [v.extractLsb' 8 8, v.extractLsb' 0 8] _ (Or.inl hl2), put_get _ _ hl]
      rw [put_get _ _ hl] at hi
      exact hi
    · rw [put_out _ _ (Or.inr (by simpa using hl))]

theorem dat_head (r : Req) (st : Byte) (b : Buf) :
    dat (put 0 (r.head st) b) (dataAt r) (dataLen r) = dat b (dataAt r) (dataLen r) := by
  rcases dataAt_eq r st with h | h
  · simp [h, dat]
  · simp only [dat]
    apply List.map_congr_left
    intro i _
    rw [put_out _ _ (Or.inr (by omega))]

/-- What holds of a client that is only asked for `r`. -/
structure Inv (r : Req) (h : List (Ev × Out)) (s : St) : Prop where
  waits : s.waits = outstanding h
  out : outstanding h = true → s.result = -1 ∧ s.link = .on ∧ s.expected = r.expected
  some : ∀ l, answer h = some l → s.result = (l.take size).length ∧ s.expected = r.expected ∧ l ≠ [] ∧ s.link = .on
  none : answer h = none → s.result ≤ 0
  busy : s.link = .busy → s.bytes = r.sent ∧ HasHead r s.cl ∧ s.result = -1 ∧ s.expected = r.expected
  stuck : s.result = -1 → outstanding h = true ∨ s.link = .busy

theorem send_spec {r : Req} (hf : Fits r) {s : St} (hh : HasHead r s.cl) (net : Net) (hw : s.waits = false) :
    ∃ f s', s.send r.sent net = Option.some (f, s') ∧ s'.cl = s.cl ∧ s'.expected = s.expected ∧
      ((f = Option.some (adu s.cl.station (pdu (dat s.cl.buf (dataAt r) (dataLen r)) r)) ∧ s'.result = -1 ∧ s'.link = .on ∧
          s'.waits = true ∧ (s.link = .on ∨ net.link = .on) ∧ net.sent = true) ∨
       (f = Option.none ∧ s'.waits = false ∧ s'.result = -3 ∧ s'.link = .off ∧
          ¬ ((s.link = .on ∨ net.link = .on) ∧ net.sent = true)) ∨
       (f = Option.none ∧ s'.waits = false ∧ s'.result = -1 ∧ s'.link = .busy ∧ s'.bytes = r.sent ∧ s.link ≠ .on ∧
          net.link = .busy)) := by
  have hfr := hasHead_frame hh hf
  simp only [St.send]
  by_cases hon : s.link = .on
  · simp only [hon, if_true, hfr, Option.map_some]
    by_cases hs : net.sent = true
    · simp only [hs, if_true]
      exact ⟨_, _, rfl, rfl, rfl, Or.inl ⟨rfl, rfl, rfl, rfl, Or.inl trivial, trivial⟩⟩
    · simp only [hs]
      exact ⟨_, _, rfl, rfl, rfl, Or.inr (Or.inl ⟨rfl, hw, rfl, rfl, by simp⟩)⟩
  · simp only [if_neg hon]
    cases hl : net.link with
    | off => exact ⟨_, _, rfl, rfl, rfl, Or.inr (Or.inl ⟨rfl, hw, rfl, rfl, by simp [hon]⟩)⟩
    | busy => exact ⟨_, _, rfl, rfl, rfl, Or.inr (Or.inr ⟨rfl, hw, rfl, rfl, rfl, hon, rfl⟩)⟩
    | on =>
      simp only [hfr, Option.map_some]
      by_cases hs : net.sent = true
      · simp only [hs, if_true]
        exact ⟨_, _, rfl, rfl, rfl, Or.inl ⟨rfl, rfl, rfl, rfl, Or.inr trivial, trivial⟩⟩
      · simp only [hs]
        exact ⟨_, _, rfl, rfl, rfl, Or.inr (Or.inl ⟨rfl, hw, rfl, rfl, by simp⟩)⟩

/-- A request that is built and sent. -/
theorem build_spec {r : Req} (hf : Fits r) (s : St) (net : Net) (hw : s.waits = false) :
    ∃ f s', ({ s with cl := { s.cl with buf := put 0 (r.head s.cl.station) s.cl.buf } } : St).send r.sent net =
        Option.some (f, s') ∧ s'.cl.station = s.cl.station ∧
      ((s'.result = -1 ∧ s'.link = .on ∧ s'.waits = true ∧
          f = Option.some (adu s.cl.station (pdu (dat s.cl.buf (dataAt r) (dataLen r)) r))) ∨
       (f = Option.none ∧ s'.waits = false ∧ s'.result = -3 ∧ s'.link = .off) ∨
       (f = Option.none ∧ s'.waits = false ∧ s'.result = -1 ∧ s'.link = .busy ∧ s'.bytes = r.sent ∧ HasHead r s'.cl)) ∧
      (∀ i, (r.head 0).length ≤ i → s'.cl.buf i = s.cl.buf i) ∧
      ((s.link = .on ∨ net.link = .on) → net.sent = true → f.isSome = true) := by
  have hh := hasHead_put r s.cl
  obtain ⟨f, s', h1, h2, h3, h4⟩ := send_spec hf
    (s := ({ s with cl := { s.cl with buf := put 0 (r.head s.cl.station) s.cl.buf } } : St)) hh net hw
  refine ⟨f, s', h1, by rw [h2], ?_, ?_, ?_⟩
  · rcases h4 with ⟨rfl, a, b, c, -, -⟩ | ⟨rfl, a, b, c, -⟩ | ⟨rfl, a, b, c, d, -, -⟩
    · exact Or.inl ⟨a, b, c, by rw [← dat_head r s.cl.station s.cl.buf]⟩
    · exact Or.inr (Or.inl ⟨rfl, a, b, c⟩)
    · exact Or.inr (Or.inr ⟨rfl, a, b, c, d, by rw [h2]; exact hh⟩)
  · intro i hi
    rw [h2]
    exact put_out _ _ (Or.inr (by rw [head_length_st r _ 0]; omega))
  · intro ho hs
    rcases h4 with ⟨rfl, -⟩ | ⟨-, -, -, -, hn⟩ | ⟨-, -, -, -, -, hn, hb⟩
    · rfl
    · exact absurd ⟨ho, hs⟩ hn
    · rcases ho with ho | ho
      · exact absurd ho hn
      · rw [hb] at ho; cases ho

theorem takes_false {r : Req} {e : UInt} {ar : Int} (h : ar ≤ 0) : r.takes e ar = false := by
  simp only [Req.takes, show ¬ 0 < ar by omega, decide_false, Bool.false_and]

/-- What a call comes to. -/
theorem call_spec {r : Req} (hl : Legal r) (hf : Fits r) {h : List (Ev × Out)} {s : St} (hi : Inv r h s) (n1 n2 : Net) :
    ∃ f x s', s.call r n1 n2 = Option.some (f, x, s') ∧
      (s'.cl.station = s.cl.station ∧ ∀ i, (r.head 0).length ≤ i → s'.cl.buf i = s.cl.buf i) ∧
      (outstanding h = true → f = Option.none ∧ x = 0 ∧ s' = s) ∧
      (outstanding h = false →
        (∀ l, answer h = Option.some l → (l.take size).length = answerLen r →
          f = Option.none ∧ x = 1 ∧ s' = { s with result := 0 }) ∧
        (∀ l, answer h = Option.some l → (l.take size).length = 9 → (∃ a b c d, r = .readWrite a b c d) →
          f = Option.none ∧ x = -1 ∧ s' = { s with result := 0 }) ∧
        ((∀ l, answer h = Option.some l → (l.take size).length ≠ answerLen r ∧
            ((∃ a b c d, r = .readWrite a b c d) → (l.take size).length ≠ 9)) →
          x = 0 ∧
          ((s'.result = -1 ∧ s'.link = .on ∧ s'.waits = true ∧ s'.expected = r.expected ∧
              f = Option.some (adu s.cl.station (pdu (dat s.cl.buf (dataAt r) (dataLen r)) r))) ∨
           (f = Option.none ∧ s'.waits = false ∧ s'.result = -3 ∧ s'.link = .off) ∨
           (f = Option.none ∧ s'.waits = false ∧ s'.result = -1 ∧ s'.link = .busy ∧ s'.bytes = r.sent ∧ HasHead r s'.cl ∧
              s'.expected = r.expected)) ∧
          (s.link ≠ .busy → (s.link = .on ∨ n2.link = .on) → n2.sent = true → f.isSome = true))) := by
  by_cases hb : s.link = .busy
  · obtain ⟨b1, b2, b3, b4⟩ := hi.busy hb
    have ho : outstanding h = false := by
      cases e : outstanding h with
      | false => rfl
      | true => have := (hi.out e).2.1; rw [hb] at this; cases this
    have ha : answer h = Option.none := by
      cases e : answer h with
      | none => rfl
      | some l => rw [(hi.some l e).2.2.2] at hb; cases hb
    have hw : s.waits = false := by rw [hi.waits, ho]
    obtain ⟨f1, s1, h1, h2, h3, h4⟩ := send_spec hf b2 n1 hw
    have hp : s.poll n1 = Option.some (f1, s1) := by rw [St.poll, if_pos hb, b1, h1]
    rw [ho, ha]
    simp only [Bool.false_eq_true, true_and, reduceCtorEq, forall_const,
      IsEmpty.forall_iff, hb, ne_eq, not_true_eq_false, and_true]
    rcases h4 with ⟨rfl, a, b, c, -, -⟩ | ⟨rfl, a, b, c, -⟩ | ⟨rfl, a, b, c, d, -, -⟩
    · refine ⟨Option.some (adu s.cl.station (pdu (dat s.cl.buf (dataAt r) (dataLen r)) r)), 0, s1, ?_,
        ⟨by rw [h2], fun i _ => by rw [h2]⟩, rfl, Or.inl ⟨a, b, c, by rw [h3, b4], rfl⟩⟩
      simp only [St.call, hp, Option.bind_some, if_true, a]
    · obtain ⟨f2, s2, g1, g2, g3, g5, -⟩ := build_spec hf s1 n2 a
      refine ⟨f2, 0, { s2 with expected := r.expected }, ?_,
        ⟨by rw [← h2]; exact g2, fun i hi => by rw [← h2]; exact g5 i hi⟩, rfl, ?_⟩
      · have hneg : ¬ s1.result = -1 := by omega
        simp only [St.call, hp, Option.bind_some, if_neg hneg, takes_false (r := r) (e := s1.expected) (show s1.result ≤ 0 by omega),
          Bool.false_eq_true, if_false, g1, Option.map_some]
      · rcases g3 with ⟨x1, x2, x3, x5⟩ | ⟨x1, x2, x3, x4⟩ | ⟨x1, x2, x3, x4, x5, x6⟩
        · exact Or.inl ⟨x1, x2, x3, rfl, by rw [x5, h2]⟩
        · exact Or.inr (Or.inl ⟨x1, x2, x3, x4⟩)
        · exact Or.inr (Or.inr ⟨x1, x2, x3, x4, x5, x6, rfl⟩)
    · refine ⟨Option.none, 0, s1, ?_, ⟨by rw [h2], fun i _ => by rw [h2]⟩, rfl, Or.inr (Or.inr ⟨rfl, a, b, c, d, by rw [h2]; exact b2, by rw [h3, b4]⟩)⟩
      simp only [St.call, hp, Option.bind_some, b, if_true]
  · have hp : s.poll n1 = Option.some (Option.none, s) := by rw [St.poll, if_neg hb]
    cases ho : outstanding h with
    | true =>
      refine ⟨Option.none, 0, s, ?_, ⟨rfl, fun _ _ => rfl⟩, fun _ => ⟨rfl, rfl, rfl⟩, by simp⟩
      simp only [St.call, hp, Option.bind_some, (hi.out ho).1, if_true]
    | false =>
      have hne : ¬ s.result = -1 := by
        intro e
        rcases hi.stuck e with e | e
        · rw [ho] at e; cases e
        · exact hb e
      have hw : s.waits = false := by rw [hi.waits, ho]
      obtain ⟨f2, s2, g1, g2, g3, g5, g4⟩ := build_spec hf s n2 hw
      have hbuild : r.takes s.expected s.result = false →
          s.call r n1 n2 = Option.some (f2, 0, { s2 with expected := r.expected }) := by
        intro ht
        simp only [St.call, hp, Option.bind_some, if_neg hne, ht, Bool.false_eq_true, if_false, g1, Option.map_some]
      have hfin : ((({ s2 with expected := r.expected } : St).result = -1 ∧ s2.link = .on ∧ s2.waits = true ∧
              r.expected = r.expected ∧
              f2 = Option.some (adu s.cl.station (pdu (dat s.cl.buf (dataAt r) (dataLen r)) r))) ∨
           (f2 = Option.none ∧ s2.waits = false ∧ s2.result = -3 ∧ s2.link = .off) ∨
           (f2 = Option.none ∧ s2.waits = false ∧ s2.result = -1 ∧ s2.link = .busy ∧ s2.bytes = r.sent ∧ HasHead r s2.cl ∧
              r.expected = r.expected)) := by
        rcases g3 with ⟨x1, x2, x3, x5⟩ | ⟨x1, x2, x3, x4⟩ | ⟨x1, x2, x3, x4, x5, x6⟩
        · exact Or.inl ⟨x1, x2, x3, rfl, x5⟩
        · exact Or.inr (Or.inl ⟨x1, x2, x3, x4⟩)
        · exact Or.inr (Or.inr ⟨x1, x2, x3, x4, x5, x6, rfl⟩)
      cases ha : answer h with
      | none =>
        refine ⟨f2, 0, _, hbuild (takes_false (hi.none ha)), ⟨g2, g5⟩, by simp, fun _ => ⟨by simp, by simp, fun _ => ⟨rfl, hfin, fun _ => g4⟩⟩⟩
      | some l =>
        obtain ⟨a1, a2, a3, a4⟩ := hi.some l ha
        have hpos : 0 < (l.take size).length := by
          have : 0 < l.length := List.length_pos_iff.mpr a3
          simp only [List.length_take, size]; omega
        have hexp := expected_toInt r hl
        have hlen := legal_len r hl
        by_cases e1 : (l.take size).length = answerLen r
        · refine ⟨Option.none, 1, { s with result := 0 }, ?_, ⟨rfl, fun _ _ => rfl⟩, by simp, fun _ => ⟨?_, ?_, ?_⟩⟩
          · have ht : r.takes s.expected s.result = true := by
              simp only [Req.takes, a1, a2, hexp, e1, decide_true, Bool.true_or, Bool.and_true, decide_eq_true_eq]
              omega
            have he : s.expected.toInt = s.result := by rw [a2, hexp, a1, e1]
            simp only [St.call, hp, Option.bind_some, if_neg hne, ht, if_true, he]
          · intro l' _ _; exact ⟨rfl, rfl, rfl⟩
          · intro l' hl' h9 _
            cases hl'; omega
          · intro hn; exact absurd e1 (hn l rfl).1
        · by_cases e2 : (l.take size).length = 9 ∧ ∃ a b c d, r = .readWrite a b c d
          · obtain ⟨e9, ra, rq, wa, wq, hr⟩ := e2
            refine ⟨Option.none, -1, { s with result := 0 }, ?_, ⟨rfl, fun _ _ => rfl⟩, by simp, fun _ => ⟨?_, ?_, ?_⟩⟩
            · have ht : r.takes s.expected s.result = true := by
                rw [hr]
                simp [Req.takes, a1, e9]
              have he : ¬ s.expected.toInt = s.result := by rw [a2, hexp, a1]; omega
              simp only [St.call, hp, Option.bind_some, if_neg hne, ht, if_true, if_neg he]
            · intro l' hl' h'
              cases hl'; exact absurd h' e1
            · intro l' _ _ _; exact ⟨rfl, rfl, rfl⟩
            · intro hn; exact absurd e9 ((hn l rfl).2 ⟨ra, rq, wa, wq, hr⟩)
          · have ht : r.takes s.expected s.result = false := by
              have hx : ¬ s.expected.toInt = s.result := by rw [a2, hexp, a1]; omega
              simp only [Req.takes, decide_eq_false hx, Bool.false_or]
              cases r with
              | readWrite ra rq wa wq =>
                have : ¬ s.result = 9 := by
                  intro e; exact e2 ⟨by omega, ra, rq, wa, wq, rfl⟩
                simp [this]
              | _ => simp
            refine ⟨f2, 0, _, hbuild ht, ⟨g2, g5⟩, by simp, fun _ => ⟨?_, ?_, fun _ => ⟨rfl, hfin, fun _ => g4⟩⟩⟩
            · intro l' hl' h'
              cases hl'; exact absurd h' e1
            · intro l' hl' h9 hr
              cases hl'; exact absurd ⟨h9, hr⟩ e2

/-- One more event. -/
theorem inv_step {r : Req} (hl : Legal r) (hf : Fits r) {h : List (Ev × Out)} {s s' : St} {e : Ev} {o : Out} (hi : Inv r h s)
    (hc : Clean r [(e, o)]) (he : step r s e = Option.some (o, s')) : Inv r ((e, o) :: h) s' := by
  cases e with
  | call n1 n2 =>
    obtain ⟨f, x, s1, h1, -, h2, h3⟩ := call_spec hl hf hi n1 n2
    simp only [Spec.step, h1, Option.map_some, Option.some.injEq, Prod.mk.injEq] at he
    obtain ⟨rfl, rfl⟩ := he
    cases ho : outstanding h with
    | true =>
      obtain ⟨rfl, -, rfl⟩ := h2 ho
      refine ⟨?_, ?_, by simp [answer], ?_, hi.busy, ?_⟩
      · simp [outstanding, hi.waits]
      · intro _; exact hi.out ho
      · intro _; rw [(hi.out ho).1]; omega
      · intro _; simp [outstanding, ho]
    | false =>
      obtain ⟨k1, k2, k3⟩ := h3 ho
      have hw : s.waits = false := by rw [hi.waits, ho]
      by_cases good : ∃ l, answer h = Option.some l ∧ ((l.take size).length = answerLen r ∨
          (l.take size).length = 9 ∧ ∃ a b c d, r = .readWrite a b c d)
      · obtain ⟨l, hl', hg⟩ := good
        have hs : f = Option.none ∧ s1 = { s with result := 0 } := by
          rcases hg with hg | ⟨hg, hr'⟩
          · obtain ⟨a, -, b⟩ := k1 l hl' hg; exact ⟨a, b⟩
          · obtain ⟨a, -, b⟩ := k2 l hl' hg hr'; exact ⟨a, b⟩
        obtain ⟨rfl, rfl⟩ := hs
        obtain ⟨-, -, -, a4⟩ := hi.some l hl'
        refine ⟨by simp [outstanding, hi.waits], by simp [outstanding, ho], by simp [answer], by simp, ?_, by simp⟩
        intro hb; simp only [a4] at hb; cases hb
      · obtain ⟨-, h4, -⟩ := k3 fun l hl' => ⟨fun e => good ⟨l, hl', Or.inl e⟩, fun hr' e => good ⟨l, hl', Or.inr ⟨e, hr'⟩⟩⟩
        rcases h4 with ⟨x1, x2, x3, x4, rfl⟩ | ⟨rfl, x2, x3, x4⟩ | ⟨rfl, x2, x3, x4, x5, x6, x7⟩
        · refine ⟨by simp [outstanding, x3], fun _ => ⟨x1, x2, x4⟩, by simp [answer], by simp [x1], ?_, fun _ => Or.inl (by simp [outstanding])⟩
          intro hb; rw [x2] at hb; cases hb
        · refine ⟨by simp [outstanding, x2, ho], by simp [outstanding, ho], by simp [answer], by simp [x3], ?_, ?_⟩
          · intro hb; rw [x4] at hb; cases hb
          · intro hb; rw [x3] at hb; cases hb
        · exact ⟨by simp [outstanding, x2, ho], by simp [outstanding, ho], by simp [answer], by simp [x3],
            fun _ => ⟨x5, x6, x3, x7⟩, fun _ => Or.inr x4⟩
  | recv l =>
    simp only [Spec.step, Option.some.injEq, Prod.mk.injEq] at he
    obtain ⟨rfl, rfl⟩ := he
    by_cases hcond : s.waits = true ∧ l ≠ []
    · obtain ⟨hw, hne⟩ := hcond
      have ho : outstanding h = true := by rw [← hi.waits, hw]
      have hl0 : l.isEmpty = false := by simpa using hne
      obtain ⟨o1, o2, o3⟩ := hi.out ho
      have hpos : 0 < l.length := List.length_pos_iff.mpr hne
      have hlen : 0 < (l.take size).length := by simp only [List.length_take, size]; omega
      rw [St.recv, if_pos ⟨hw, hne⟩]
      refine ⟨by simp [outstanding, hl0], by simp [outstanding, hl0], ?_, by simp [answer, ho, hl0], ?_, ?_⟩
      · intro l' hl'
        simp only [answer, ho, hl0, Bool.not_false, Bool.and_true, if_true, Option.some.injEq] at hl'
        subst hl'
        exact ⟨rfl, o3, hne, o2⟩
      · intro hb; simp [o2] at hb
      · intro hb; simp only at hb; omega
    · rw [St.recv, if_neg hcond]
      have hand : (outstanding h && !l.isEmpty) = false := by
        rw [← hi.waits]
        cases hw : s.waits with
        | false => rfl
        | true =>
          have : l = [] := by
            by_contra hne; exact hcond ⟨hw, hne⟩
          simp [this]
      have e1 : outstanding ((Ev.recv l, ({} : Out)) :: h) = outstanding h := by
        simp only [outstanding]
        cases ho : outstanding h with
        | false => simp
        | true => rw [ho] at hand; simpa using hand
      have e2 : answer ((Ev.recv l, ({} : Out)) :: h) = answer h := by simp only [answer, hand]; rfl
      exact ⟨by rw [e1]; exact hi.waits, by rw [e1]; exact hi.out, by rw [e2]; exact hi.some, by rw [e2]; exact hi.none, hi.busy,
        by rw [e1]; exact hi.stuck⟩
  | lost code =>
    obtain ⟨hcode, -⟩ := hc
    simp only [Spec.step, Option.some.injEq, Prod.mk.injEq] at he
    obtain ⟨rfl, rfl⟩ := he
    cases hw : s.waits with
    | true =>
      rw [St.lost, if_pos hw]
      have ho : outstanding h = true := by rw [← hi.waits, hw]
      have ha : answer h = Option.none := by
        cases e : answer h with
        | none => rfl
        | some l =>
          have := (hi.some l e).1
          have h1 := (hi.out ho).1
          omega
      refine ⟨by simp [outstanding], by simp [outstanding], by simp [answer, ha], ?_, by simp, ?_⟩
      · intro _; simp only; omega
      · intro hb; simp only at hb; omega
    | false =>
      have ho : outstanding h = false := by rw [← hi.waits, hw]
      rw [St.lost, if_neg (by simp [hw])]
      refine ⟨by simp [outstanding, hw], by simp [outstanding], by simp only [answer]; exact hi.some,
        by simp only [answer]; exact hi.none, hi.busy, ?_⟩
      intro e
      rcases hi.stuck e with e | e
      · rw [ho] at e; cases e
      · exact Or.inr e
  | set k v =>
    obtain ⟨hk, h31, -⟩ := hc
    simp only [Spec.step, Option.some.injEq, Prod.mk.injEq] at he
    obtain ⟨rfl, rfl⟩ := he
    exact ⟨hi.waits, hi.out, hi.some, hi.none,
      fun hb => ⟨(hi.busy hb).1, hasHead_set (hi.busy hb).2.1 hk h31 v, (hi.busy hb).2.2⟩, hi.stuck⟩

theorem inv_reach {r : Req} (hl : Legal r) (hf : Fits r) {h : List (Ev × Out)} {s : St} (hr : Reach r h s)
    (hc : Clean r h) : Inv r h s := by
  induction hr with
  | start junk station =>
    exact ⟨rfl, by simp [outstanding], by simp [answer], by simp [answer], by simp, by simp⟩
  | @step h s s' e o hr he ih =>
    cases e with
    | call n1 n2 => exact inv_step hl hf (ih hc) trivial he
    | recv l => exact inv_step hl hf (ih hc) trivial he
    | lost code => exact inv_step hl hf (ih hc.2) ⟨hc.1, trivial⟩ he
    | set k v => exact inv_step hl hf (ih hc.2.2) ⟨hc.1, hc.2.1, trivial⟩ he

/-- A history: a request goes out, the answer comes. -/
theorem exchange (r : Req) (hl : Legal r) (hf : Fits r) (l : List Byte) : ∃ s f x,
    Reach r [(.recv l, {}), (.call ⟨.on, true⟩ ⟨.on, true⟩, ⟨some f, x⟩)] s := by
  have h0 := Reach.start (r := r) (fun _ => 0) 1
  obtain ⟨f, x, s', h1, -, -, h3⟩ := call_spec hl hf (inv_reach hl hf h0 trivial) ⟨.on, true⟩ ⟨.on, true⟩
  obtain ⟨-, -, k3⟩ := h3 rfl
  obtain ⟨-, -, k⟩ := k3 (by simp [answer])
  have hsome := k (by simp) (Or.inr rfl) rfl
  obtain ⟨f', rfl⟩ := Option.isSome_iff_exists.mp hsome
  exact ⟨_, f', x, Reach.step (Reach.step h0 (by simp only [Spec.step, h1]; rfl)) rfl⟩

end Ptusa.MbClient
