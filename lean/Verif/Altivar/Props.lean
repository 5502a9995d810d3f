import Verif.Altivar.LemmasEx

/-!
# C97 and C98: frequency converters of type Altivar

Not proved: answers of a wrong length and more than 13 bytes (they become the next command, see `C97_mixed_violated`), an
upper bound on the age of a command (there is none, see `C97_stale_violated`), what the drive does with a frame.
-/
namespace Ptusa.Altivar
open MbClient (St Byte UInt Net Link Req Buf Cl)
open MbClient.Spec (adu pdu be16 regBytes answer)
open Timer (Tm)
open Spec

/-! ## C97: commands -/

/-- Every frame with a command that goes out carries the command word and the frequency as they were at some moment after
the exchange before it was answered. -/
theorem C97_command_partial {a320 : Bool} {t0 : Tm} {h : Hist} {s s' : Node} {e : Ev} {o : Out} (hr : Reach a320 t0 h s)
    (hc : Clean h) (he : step s e = some (o, s')) {f : List Byte} (hf : o.frame = some f) (h17 : func f = 0x17) :
    ∃ a b v, h = a ++ b ∧ Open a ∧ Tenths (freq b) v ∧ f = Spec.exchange a320 (word b) v := by
  cases e with
  | eval now n1 n2 =>
    simp only [Spec.step, Option.map_eq_some_iff] at he
    obtain ⟨⟨f', x, s2⟩, h1, h2⟩ := he
    simp only [Prod.mk.injEq] at h2
    obtain ⟨rfl, rfl⟩ := h2
    simp only [seen] at hf
    subst hf
    unfold Node.eval at h1
    split at h1
    · simp only [Option.map_eq_some_iff, Prod.mk.injEq] at h1
      obtain ⟨⟨f', x', s1⟩, h3, rfl, rfl, rfl⟩ := h1
      obtain ⟨-, ⟨-, hg⟩ | ⟨-, hg⟩⟩ := frame_run (ninv_reach hr) (dinv_reach hr hc) h3
      · exact hg
      · exfalso
        have hm := List.mem_of_getElem? hg
        have : ∀ g ∈ config, func g ≠ 0x17 := by decide
        exact this f hm h17
    · cases h1
  | _ =>
    simp only [Spec.step, Option.some.injEq, Prod.mk.injEq] at he
    obtain ⟨rfl, rfl⟩ := he
    simp [seen] at hf

/-- A drive that was switched on, without configuration: the first passes. -/
theorem started (t0 : Tm) (n : Int) (v : Fl) (h0 : n ≠ 2 ∧ n ≠ 100 ∧ n ≠ 101 ∧ n ≠ 0) {z : Int}
    (hz : toInt (v / .num 100 * .num 120 * .num 10) = some z) :
    ∃ h s, Reach false t0 h s ∧ Clean h ∧ Wait false 1 (BitVec.ofInt 16 z) s ∧ word h = 1 ∧ s.state = 0 ∧ s.frqMax = 120 ∧
      s.mberr = false ∧ s.reverse = false ∧ (∀ e ∈ h, ∀ l, e.1 ≠ .recv l) ∧ s.frqSet = v / .num 100 * .num 120 ∧
      (∃ a o b, h = a ++ (.percent v, o) :: b ∧ o.max = 120 ∧ (∀ e ∈ a, ∀ v, e.1 ≠ .percent v) ∧ Open a ∧ a.length = 3) ∧
      h.filterMap (·.2.frame) = [] ∧ Mono t0 h ∧ lastOn t0 h = t0 ∧ enabled h = true ∧ backwards h = false := by
  have R0 := Reach.start (a320 := false) (t0 := t0) (fun _ => 0)
  have R1 := Reach.step R0 (e := .percent v) rfl (by simp)
  have R2 := Reach.step R1 (e := .set n) rfl (by simp)
  have hset : ((Node.initial false (fun _ => 0) t0).setPercent v).set n = ((Node.initial false (fun _ => 0) t0).setPercent v).on := by
    simp [Node.set, h0]
  rw [hset] at R2
  obtain ⟨s', R3, hw, q1, q2, q3, q4, q5⟩ := wait_start R2 rfl rfl rfl rfl rfl hz t0 t0 rfl rfl (by simp [Time.deltaMs]) (by simp [Time.deltaMs])
  refine ⟨_, s', R3, by simp [Clean], hw, by simp [word, h0], q1, q2, q4, q5, by simp, q3, ?_⟩
  refine ⟨⟨[_, _, _], _, [], rfl, rfl, by simp, by simp [Open, seen], rfl⟩, rfl, ?_, ?_, ?_, ?_⟩
  · simp [Mono, lastOn, seen, hw.link, Node.on, Node.setPercent, Node.initial]
  · simp [lastOn, seen, hw.link, Node.on, Node.setPercent, Node.initial]
  · simp [enabled, h0]
  · simp [backwards, h0]

example : ∃ h s o s' f, Reach false 0 h s ∧ Clean h ∧ step s (.eval 0 ⟨.on, true⟩ ⟨.on, true⟩) = some (o, s') ∧
    o.frame = some f ∧ func f = 0x17 ∧ f = Spec.exchange false 1 600 := by
  obtain ⟨h, s, hr, hc, hw, -⟩ := started 0 1 (.num 50) (by decide) (z := 600) (by decide +kernel)
  obtain ⟨s', h1, -⟩ := hw.on 0
  exact ⟨h, s, _, s', _, hr, hc, h1, rfl, rfl, rfl⟩

theorem word_append (a b : Hist) (h : ∀ e ∈ a, (∀ n, e.1 ≠ .set n) ∧ ∀ v, e.1 ≠ .percent v) :
    word (a ++ b) = word b ∧ freq (a ++ b) = freq b := by
  induction a with
  | nil => exact ⟨rfl, rfl⟩
  | cons x t ih =>
    obtain ⟨i1, i2⟩ := ih fun e he => h e (List.mem_cons_of_mem _ he)
    obtain ⟨e, o⟩ := x
    have := h (e, o) (List.mem_cons_self ..)
    cases e with
    | set n => exact absurd rfl (this.1 n)
    | percent v => exact absurd rfl (this.2 v)
    | _ => exact ⟨i1, i2⟩

/-- When nothing was commanded since the last exchange was answered, the frame carries the newest command: a command goes
out at the latest with the second exchange after it. -/
theorem C97_next_partial {a320 : Bool} {t0 : Tm} {x y : Hist} {s s' : Node} {e : Ev} {o : Out} (hr : Reach a320 t0 (x ++ y) s)
    (hc : Clean (x ++ y)) (hx : ∀ e ∈ x, (∀ n, e.1 ≠ .set n) ∧ ∀ v, e.1 ≠ .percent v)
    (hy : ∃ p t, y = p :: t ∧ p.2.ret = 1) (he : step s e = some (o, s')) {f : List Byte}
    (hf : o.frame = some f) (h17 : func f = 0x17) :
    ∃ v, Tenths (freq (x ++ y)) v ∧ f = Spec.exchange a320 (word (x ++ y)) v := by
  obtain ⟨a, b, v, h1, h2, h3, h4⟩ := C97_command_partial hr hc he hf h17
  obtain ⟨p, t, rfl, hp⟩ := hy
  have : ∃ c, x = a ++ c ∧ b = c ++ p :: t := by
    rcases List.append_eq_append_iff.mp h1 with ⟨c, e1, e2⟩ | ⟨c, e1, e2⟩
    · cases c with
      | nil => exact ⟨[], by simpa using e1.symm, by simpa using e2.symm⟩
      | cons q c =>
        exfalso
        simp only [List.cons_append, List.cons.injEq] at e2
        obtain ⟨rfl, -⟩ := e2
        have := h2 p (by rw [e1]; simp)
        omega
    · exact ⟨c, e1, e2⟩
  obtain ⟨c, rfl, rfl⟩ := this
  have hc' : ∀ e ∈ c, (∀ n, e.1 ≠ .set n) ∧ ∀ v, e.1 ≠ .percent v := fun e he => hx e (by simp [he])
  obtain ⟨g1, g2⟩ := word_append _ (p :: t) hx
  obtain ⟨g3, g4⟩ := word_append _ (p :: t) hc'
  refine ⟨v, ?_, ?_⟩
  · rw [g2, ← g4]; exact h3
  · rw [g1, ← g3]; exact h4

example : ∃ x y s o s' f, Reach false 0 (x ++ y) s ∧ Clean (x ++ y) ∧
    (∀ e ∈ x, (∀ n, e.1 ≠ .set n) ∧ ∀ v, e.1 ≠ .percent v) ∧ (∃ p t, y = p :: t ∧ p.2.ret = 1) ∧
    step s (.eval 300 ⟨.on, true⟩ ⟨.on, true⟩) = some (o, s') ∧ o.frame = some f ∧ func f = 0x17 ∧ x.length = 4 := by
  obtain ⟨h, s, hr, hc, hw, -, -, -, -, -, -, hset, -⟩ := started 0 1 (.num 50) (by decide) (z := 600) (by decide +kernel)
  obtain ⟨o1, o2, s', hr', k1, k2, k3, k4, k5, q1, q2, q3, q4, q5⟩ := hw.answered hr 0 (List.replicate 21 0) rfl
  obtain ⟨x, s1, h1, h2, h3, o, s2, f, h4, h5, h6⟩ := again hr' q1 q2 q3 q4 (z := 600) (by rw [k5, hset]; decide +kernel) q5
  refine ⟨x, _, s1, o, s2, f, h1, ?_, ?_, ⟨_, _, rfl, k1⟩, h4, h5, h6, h2⟩
  · apply evals_clean x h3
    exact ⟨Or.inr ⟨rfl, _, rfl, rfl⟩, hc⟩
  · intro e he
    obtain ⟨a, b, c, h⟩ := h3 e he
    rw [h]; simp

/-- No command goes to an ATV320 before the whole configuration was written, in order, and acknowledged, since the
beginning or since the drive refused an exchange. -/
theorem C97_configured_partial {t0 : Tm} {h : Hist} {s s' : Node} {e : Ev} {o : Out} (hr : Reach true t0 h s)
    (hc : Clean h) (he : step s e = some (o, s')) {f : List Byte} (hf : o.frame = some f) (h17 : func f = 0x17) :
    config <+: session h := by
  cases e with
  | eval now n1 n2 =>
    simp only [Spec.step, Option.map_eq_some_iff] at he
    obtain ⟨⟨f', x, s2⟩, h1, h2⟩ := he
    simp only [Prod.mk.injEq] at h2
    obtain ⟨rfl, rfl⟩ := h2
    simp only [seen] at hf
    subst hf
    unfold Node.eval at h1
    split at h1
    · simp only [Option.map_eq_some_iff, Prod.mk.injEq] at h1
      obtain ⟨⟨f', x', s1⟩, h3, rfl, rfl, rfl⟩ := h1
      have hd := dinv_reach hr hc
      obtain ⟨-, ⟨hs, -⟩ | ⟨-, hg⟩⟩ := frame_run (ninv_reach hr) hd h3
      · have := hd.sess (ninv_reach hr).type
        simp only [Sess, hs] at this
        exact this.2
      · exfalso
        have hm := List.mem_of_getElem? hg
        have : ∀ g ∈ config, func g ≠ 0x17 := by decide
        exact this f hm h17
    · cases h1
  | _ =>
    simp only [Spec.step, Option.some.injEq, Prod.mk.injEq] at he
    obtain ⟨rfl, rfl⟩ := he
    simp [seen] at hf

example : ∃ h s o s' f, Reach true 0 h s ∧ Clean h ∧ step s (.eval 0 ⟨.on, true⟩ ⟨.on, true⟩) = some (o, s') ∧
    o.frame = some f ∧ func f = 0x17 ∧ session h = config := by
  obtain ⟨h, s, o, s', f, h1, h2, h3, h4, h5, h6⟩ := configured
  have := C97_configured_partial h1 h2 h3 h4 h5
  exact ⟨h, s, o, s', f, h1, h2, h3, h4, h5, (this.eq_of_length (by rw [h6]; rfl)).symm⟩

/-- Every frame is a command or one of the configuration; an ATV630 gets commands only. -/
theorem C97_frames_partial {a320 : Bool} {t0 : Tm} {h : Hist} {s s' : Node} {e : Ev} {o : Out} (hr : Reach a320 t0 h s)
    (hc : Clean h) (he : step s e = some (o, s')) {f : List Byte} (hf : o.frame = some f) :
    func f = 0x17 ∨ a320 = true ∧ ∃ k, session h = config.take k ∧ config[k]? = some f := by
  cases e with
  | eval now n1 n2 =>
    simp only [Spec.step, Option.map_eq_some_iff] at he
    obtain ⟨⟨f', x, s2⟩, h1, h2⟩ := he
    simp only [Prod.mk.injEq] at h2
    obtain ⟨rfl, rfl⟩ := h2
    simp only [seen] at hf
    subst hf
    unfold Node.eval at h1
    split at h1
    · simp only [Option.map_eq_some_iff, Prod.mk.injEq] at h1
      obtain ⟨⟨f', x', s1⟩, h3, rfl, rfl, rfl⟩ := h1
      have hd := dinv_reach hr hc
      have hi := ninv_reach hr
      obtain ⟨-, ⟨-, a, b, v, -, -, -, hg⟩ | ⟨hs, hg⟩⟩ := frame_run hi hd h3
      · left; rw [hg]; rfl
      · right
        have h320 : s.a320 = true := by
          by_contra hn
          exact hd.plain (by simpa using hn) hs
        refine ⟨by rw [← hi.type]; exact h320, s.cstep / 2, ?_, hg⟩
        have := hd.sess h320
        simp only [Sess, hs] at this
        rcases this with ⟨-, this⟩ | ⟨h99, -⟩
        · exact this
        · rw [h99] at hg; cases hg
    · cases h1
  | _ =>
    simp only [Spec.step, Option.some.injEq, Prod.mk.injEq] at he
    obtain ⟨rfl, rfl⟩ := he
    simp [seen] at hf

/-- A drive that is switched off by state 100 gets nothing, and its state is not updated. -/
theorem C97_disabled {a320 : Bool} {t0 : Tm} {h : Hist} {s s' : Node} {e : Ev} {o : Out} (hr : Reach a320 t0 h s)
    (hd : enabled h = false) (he : step s e = some (o, s')) : o.frame = none ∧ s'.state = s.state := by
  have hen : s.enabled = false := by rw [(ninv_reach hr).en]; exact hd
  cases e with
  | eval now n1 n2 =>
    simp only [Spec.step, Node.eval, hen, Bool.false_eq_true, if_false, Option.map_some, Option.some.injEq,
      Prod.mk.injEq] at he
    obtain ⟨rfl, rfl⟩ := he
    exact ⟨rfl, rfl⟩
  | set n =>
    simp only [Spec.step, Option.some.injEq, Prod.mk.injEq] at he
    obtain ⟨rfl, rfl⟩ := he
    refine ⟨rfl, ?_⟩
    simp only [Node.set, Node.on, Node.off]
    split
    · rfl
    split
    · rfl
    split
    · rfl
    split <;> rfl
  | _ =>
    simp only [Spec.step, Option.some.injEq, Prod.mk.injEq] at he
    obtain ⟨rfl, rfl⟩ := he
    exact ⟨rfl, rfl⟩

example : ∃ h s, Reach true 0 h s ∧ enabled h = false :=
  ⟨_, _, Reach.step (Reach.start (fun _ => 0)) (e := .set 100) rfl (by simp), rfl⟩

/-- Old commands: the drive is commanded on while there is no connection, then off; after any number of passes, over any
time, the connection comes and the drive is started. -/
theorem C97_stale_violated (t0 : Tm) (tm : Nat → Tm) (k : Nat) :
    ∃ a o b s s', Reach false t0 (a ++ (.set 0, o) :: b) s ∧ Clean (a ++ (.set 0, o) :: b) ∧ a.length = k ∧
      word (a ++ (.set 0, o) :: b) = 0 ∧
      step s (.eval (tm k) ⟨.on, true⟩ ⟨.on, true⟩) = some (⟨some (Spec.exchange false 1 600), 0, .on, s.state, s.frqMax⟩, s') := by
  obtain ⟨h, s, hr, hc, hw, hwd, hst, hmx, -, -, hno, -⟩ := started t0 1 (.num 50) (by decide) (z := 600) (by decide +kernel)
  have R1 := Reach.step hr (e := .set 0) rfl (by simp)
  have hw1 : Wait false 1 600 (s.set 0) := ⟨hw.step, hw.en, hw.type, hw.station, hw.dat, hw.link, hw.le, hw.ne, hw.waits⟩
  obtain ⟨a, s', R2, hw2, ha⟩ := wait_many R1 hw1 tm k
  obtain ⟨s'', h1, -⟩ := hw2.on (tm k)
  have hlen : a.length = k := by
    have := congrArg List.length ha
    simpa using this
  have hev : ∀ e ∈ a, ∃ t, e.1 = .eval t ⟨.off, false⟩ ⟨.off, false⟩ := by
    intro e he
    have : e.1 ∈ a.map (·.1) := List.mem_map_of_mem he
    rw [ha] at this
    obtain ⟨i, -, hi⟩ := List.mem_map.mp this
    exact ⟨_, hi.symm⟩
  refine ⟨a, _, h, s', s'', R2, ?_, hlen, ?_, h1⟩
  · clear R2 ha hlen
    induction a with
    | nil => exact hc
    | cons x t ih =>
      obtain ⟨t', ht'⟩ := hev x (List.mem_cons_self ..)
      obtain ⟨e, o⟩ := x
      simp only at ht'
      subst ht'
      exact ih fun e he => hev e (List.mem_cons_of_mem _ he)
  · rw [(word_append a _ fun e he => by
      obtain ⟨t, ht⟩ := hev e he
      rw [ht]; exact ⟨by simp, by simp⟩).1]
    have : (s.set 0).state = 0 := hst
    simp [word, seen, this]

/-- An answer that is cut off: when 20 of its 21 bytes arrive first, the next frame sends their end, the motor's current,
as the command word. -/
theorem C97_mixed_violated (t0 now : Tm) (l : List Byte) (hl : l.length = 20) :
    ∃ h s s' f d x m, Reach false t0 ((.recv l, x) :: h) s ∧ word h = 1 ∧
      step s (.eval now ⟨.on, true⟩ ⟨.on, true⟩) = some (⟨some f, 0, .on, 0, m⟩, s') ∧
      f = adu 255 (0x17 :: (be16 0 ++ be16 6 ++ be16 0 ++ be16 6 ++ [12] ++ (l.drop 17 ++ d))) := by
  obtain ⟨h, s, hr, hc, hw, hwd, hst, hmx, -, -, hno, -⟩ := started t0 1 (.num 50) (by decide) (z := 600) (by decide +kernel)
  obtain ⟨s1, h1, rfl⟩ := hw.on now
  have R1 := Reach.step hr h1 (by simp)
  have R2 := Reach.step R1 (e := .recv l) rfl (by simp)
  have hne : l ≠ [] := by intro e; rw [e] at hl; simp at hl
  have htk : l.take MbClient.size = l := MbClient.take_all (by omega)
  simp only [St.recv, hne, ne_eq, not_false_eq_true, and_self, if_true, htk, hl] at R2
  have hst' : s.step = .query := hw.step
  have hen : s.enabled = true := hw.en
  have hty : s.a320 = false := hw.type
  have hstn : s.mc.cl.station = 255 := hw.station
  obtain ⟨s', hs'⟩ := resend (s := { s with mberr := false, mtimeout := now, mc := { s.mc with
        cl := { s.mc.cl with buf := MbClient.put 0 l (MbClient.put 0 ((queryReq false).head 255) s.mc.cl.buf) }
        result := 20, bytes := (queryReq false).sent, expected := (queryReq false).expected, link := .on, waits := false } })
    hst' hen hstn (by simp) (by simp) (by simp only [hty]; decide) now
  have e := dat_add (MbClient.put 0 l (MbClient.put 0 ((queryReq false).head 255) s.mc.cl.buf)) 17 3 9
  rw [dat_drop l _ 17 3 (by omega)] at e
  simp only [hty, hst, show 12 = 3 + 9 from rfl, e] at hs'
  simp only [hty, hst] at R2
  exact ⟨_, _, s', _, MbClient.dat (MbClient.put 0 l (MbClient.put 0 ((queryReq false).head 255) s.mc.cl.buf)) 20 9, _,
    s.frqMax, R2, hwd, hs', by simp [pdu, queryReq, hl]⟩

/-- A drive that refuses a write of the configuration gets it again and again; no command ever goes out and the state shown
stays 0, without an error. -/
theorem C97_refused_violated (t0 : Tm) (tm : Nat → Tm) (l : List Byte) (hl : l.length = 9) (n : Nat) :
    ∃ h s, Reach true t0 h s ∧ Clean h ∧ s.state = 0 ∧
      h.filterMap (·.2.frame) = List.replicate n (write 15421 [8501, 8502, 0, 0, 0, 0]) ∧
      (h.filter fun e => match e.1 with | .recv l' => l' == l | _ => false).length = n := by
  suffices hs : ∃ h s, Reach true t0 h s ∧ Clean h ∧ First s ∧
      h.filterMap (·.2.frame) = List.replicate n (write 15421 [8501, 8502, 0, 0, 0, 0]) ∧
      (h.filter fun e => match e.1 with | .recv l' => l' == l | _ => false).length = n by
    obtain ⟨h, s, h1, h2, h3, h4, h5⟩ := hs
    exact ⟨h, s, h1, h2, h3.state, h4, h5⟩
  induction n with
  | zero =>
    obtain ⟨a, b, s, h1, h2, h3, h4, ⟨t1, t2, t3, t4⟩, h5, -⟩ := first_start t0
    refine ⟨_, s, h1, h5, h2, by simp [h3, h4], ?_⟩
    simp [t3, t4]
  | succ n ih =>
    obtain ⟨h, s, h1, h2, h3, h4, h5⟩ := ih
    obtain ⟨m, o, s', g1, g2, g3⟩ := h3.refused h1 (tm n) l hl
    refine ⟨_, s', g1, ⟨Or.inl (by omega), h2⟩, g2, ?_, ?_⟩
    · simp [g3, h4, List.replicate_succ]
    · simp [h5]

/-- A speed that is not a number, or 178956971 % and more: the conversion is undefined. -/
theorem C97_speed_violated (t0 : Tm) (v : Fl) (hv : v = .nan ∨ ∃ q, v = .num q ∧ 178956971 ≤ q) :
    ∃ h s, Reach false t0 h s ∧ h.map (·.1) = [.eval t0 ⟨.off, false⟩ ⟨.off, false⟩, .percent v] ∧
      ∀ n1 n2, step s (.eval t0 n1 n2) = none := by
  have R0 := Reach.start (a320 := false) (t0 := t0) (fun _ => 0)
  have R1 := Reach.step R0 (e := .percent v) rfl (by simp)
  let s1 := (Node.initial false (fun _ => 0) t0).setPercent v
  let s2 : Node := { s1 with step := .init }
  have r1 : s1.run t0 ⟨.off, false⟩ ⟨.off, false⟩ = some (none, 0, s2) := by
    simp [Node.run, s1, s2, Node.initial, Node.setPercent]
  have e1 : s2.watch t0 = s2 := by
    apply watch_quiet
    · simp [s1, s2, Node.initial, Node.setPercent]
    · simp [s1, s2, Node.initial, Node.setPercent, Time.deltaMs]
  have q1 := eval_run rfl r1
  rw [e1] at q1
  have R2 := Reach.step R1 q1 (by simp)
  refine ⟨_, s2, R2, rfl, ?_⟩
  intro n1 n2
  have hz : toInt (v / .num 100 * .num 120 * .num 10) = none := by
    rcases hv with rfl | ⟨q, rfl, hq⟩
    · rfl
    · rw [Fl.div_num _ _ (by norm_num), Fl.mul_num, Fl.mul_num]
      have hpos : (0 : Rat) ≤ q / 100 * 120 * 10 := by linarith
      simp only [toInt, if_pos hpos]
      rw [if_neg]
      rintro ⟨-, hle⟩
      have h1 : (2147483648 : Int) ≤ ⌊q / 100 * 120 * 10⌋ := Int.le_floor.mpr (by push_cast; linarith)
      omega
  have hz' : toInt (s2.frqSet * .num 10) = none := hz
  have hrun : s2.run t0 n1 n2 = none := by
    simp only [Node.run, show s2.step = .init from rfl, hz', Option.map_none]
  simp [Spec.step, Node.eval, show s2.enabled = true from rfl, hrun]

/-! ## C98: what is shown -/

/-- The state shown is what the drive said last, or −100 after more than 5 s without a connection. -/
theorem C98_state_partial {a320 : Bool} {t0 : Tm} {h : Hist} {s : Node} (hr : Reach a320 t0 h s) (hm : Mono t0 h) :
    s.state = Spec.state t0 h := (ninv_reach hr).st hm

example : ∃ h s, Reach false 0 h s ∧ Mono 0 h ∧ Spec.state 0 h = 1 := by
  obtain ⟨h, s, hr, -, hw, -, -, -, -, -, -, -, -, -, hm, hl, he, hb⟩ := started 0 1 (.num 50) (by decide) (z := 600) (by decide +kernel)
  obtain ⟨o1, o2, s', hr', k1, k2, k3, k4, k5, -⟩ := hw.answered hr 0 (List.replicate 10 0 ++ 0x27 :: List.replicate 10 0) rfl
  refine ⟨_, s', hr', ?_, ?_⟩
  · simp only [Mono, lastOn, hl, he, enabled, hm, and_self, if_true]
    exact ⟨Nat.le_refl _, Nat.le_refl _, trivial⟩
  · simp only [Spec.state, enabled, he, k1, true_and, lastFrame, k3, k2, k4, backwards, hb]
    simp only [cur, enabled, he]
    rw [if_neg (by simp), if_pos (by simp; decide)]
    simp [answer, MbClient.Spec.outstanding]
    decide +kernel

/-- More than 5 s without a connection: the alarm is shown. -/
theorem C98_alarm_partial {a320 : Bool} {t0 : Tm} {h : Hist} {s s' : Node} {now : Tm} {n1 n2 : Net} {o : Out}
    (hr : Reach a320 t0 h s) (hm : Mono t0 h) (hen : enabled h = true)
    (he : step s (.eval now n1 n2) = some (o, s')) (hn : o.link ≠ .on) (ht : 5000 < now.toNat - (lastOn t0 h).toNat) :
    s'.state = -100 := by
  have hr' := Reach.step hr he (by simp)
  have h1 := C98_state_partial hr' ⟨by omega, hm⟩
  have hne : ¬ (o.ret = 1 ∧ (lastFrame h).map func = some 0x17) := by
    rintro ⟨hx, -⟩
    simp only [Spec.step, Option.map_eq_some_iff] at he
    obtain ⟨⟨f', x, s2⟩, g1, g2⟩ := he
    simp only [Prod.mk.injEq] at g2
    obtain ⟨rfl, rfl⟩ := g2
    have hens : s.enabled = true := by rw [(ninv_reach hr).en]; exact hen
    simp only [Node.eval, hens, if_true, Option.map_eq_some_iff, Prod.mk.injEq] at g1
    obtain ⟨⟨f', x', s1⟩, g3, rfl, rfl, rfl⟩ := g1
    have hx1 : x' = 1 := hx
    obtain ⟨-, hcase⟩ := run_spec g3
    rcases hcase with ⟨-, -, h0, -⟩ | ⟨r, mc, b1, b2, b3, -⟩
    · omega
    · have hinv : MbClient.Inv r (cur h) s.mc := by have := (ninv_reach hr).link; rwa [MInv, b1] at this
      obtain ⟨hl, hf⟩ := cur_legal b1
      obtain ⟨f'', x'', mc', d1, -, -, -, d5, -⟩ := call_done hl hf hinv n1 n2
      rw [b2] at d1
      cases d1
      obtain ⟨-, e2, -, e4, -⟩ := d5 (by omega)
      apply hn
      show (s1.watch now).mc.link = .on
      rw [(same_watch s1 now).2.2.2.2.2.1, b3, e2]
      exact e4
  rw [h1]
  simp only [Spec.state, hen, Bool.true_eq_false, if_false, hne]
  rw [if_pos ⟨hn, ht⟩]

example : ∃ h s o s', Reach false 0 h s ∧ Mono 0 h ∧ enabled h = true ∧
    step s (.eval 6000 ⟨.off, false⟩ ⟨.off, false⟩) = some (o, s') ∧ o.link ≠ .on ∧
    5000 < (6000 : Tm).toNat - (lastOn 0 h).toNat ∧ s.state = 0 := by
  obtain ⟨h, s, hr, -, hw, -, hst, -, -, -, -, -, -, -, hm, hl, he, hb⟩ := started 0 1 (.num 50) (by decide) (z := 600) (by decide +kernel)
  obtain ⟨o, s', h1, h2, h3⟩ := hw.off 6000
  refine ⟨h, s, o, s', hr, hm, he, h1, ?_, by rw [hl]; decide, hst⟩
  have hlk := h3.link
  simp only [Spec.step, Option.map_eq_some_iff, Prod.mk.injEq] at h1
  obtain ⟨⟨f, x, s2⟩, -, rfl, rfl⟩ := h1
  simp only [seen]
  rw [show s2.mc.link = .off from hlk]
  simp

/-- The values shown are those of the last answer: status word, speed, frequency, current and highest frequency, the last
one between 10 and 120. -/
theorem C98_values {a320 : Bool} {t0 : Tm} {h : Hist} {s : Node} (hr : Reach a320 t0 h s) :
    (values h = none → s.remote = 0 ∧ s.rpm = 0 ∧ s.frq = 0 ∧ s.amp = 0 ∧ s.frqMax = 120) ∧
    (∀ l, values h = some l → s.remote = (reg l 0).toInt ∧ s.rpm = (reg l 1).toInt ∧ 10 * s.frq = (reg l 2).toInt ∧
      10 * s.amp = (reg l 4).toInt ∧ s.frqMax = max 10 (min 120 ((reg l 3).toInt / 10 : Rat))) := by
  have hv := (ninv_reach hr).vals
  constructor
  · intro e
    rw [e] at hv
    simpa [vals] using hv
  · intro l e
    rw [e] at hv
    simp only [vals, Option.map_some, Option.getD_some, valsOf, Prod.mk.injEq] at hv
    obtain ⟨h1, h2, h3, h4, h5⟩ := hv
    refine ⟨h1, h2, by rw [h3]; ring, by rw [h4]; ring, ?_⟩
    rw [h5]
    split
    · rename_i h6
      rw [min_eq_right (by linarith), max_eq_left (by linarith)]
    · split
      · rw [min_eq_left (by linarith), max_eq_right (by norm_num)]
      · rw [min_eq_right (by linarith), max_eq_right (by linarith)]

/-- A drive that accepts every connection and never answers: no alarm is shown, whatever the time. -/
theorem C98_silent_violated (t0 : Tm) (tm : Nat → Tm) (k : Nat) :
    ∃ h s, Reach false t0 h s ∧ (∀ e ∈ h, ∀ l, e.1 ≠ .recv l) ∧ s.state = 0 ∧ word h = 1 ∧
      h.filterMap (·.2.frame) = List.replicate k (Spec.exchange false 1 600) ∧
      ∀ i < k, ∃ o, (Ev.eval (tm i) ⟨.on, true⟩ ⟨.on, true⟩, o) ∈ h := by
  suffices hs : ∃ h s, Reach false t0 h s ∧ Wait false 1 600 s ∧ (∀ e ∈ h, ∀ l, e.1 ≠ .recv l) ∧ s.state = 0 ∧ word h = 1 ∧
      h.filterMap (·.2.frame) = List.replicate k (Spec.exchange false 1 600) ∧
      ∀ i < k, ∃ o, (Ev.eval (tm i) ⟨.on, true⟩ ⟨.on, true⟩, o) ∈ h by
    obtain ⟨h, s, h1, -, h3⟩ := hs
    exact ⟨h, s, h1, h3⟩
  induction k with
  | zero =>
    obtain ⟨h, s, hr, hc, hw, hwd, hst, hmx, -, -, hno, -, -, hfr, -⟩ := started t0 1 (.num 50) (by decide) (z := 600) (by decide +kernel)
    exact ⟨h, s, hr, hw, hno, hst, hwd, by simpa using hfr, by simp⟩
  | succ k ih =>
    obtain ⟨h, s, h1, h2, h3, h4, h5, h6, h7⟩ := ih
    obtain ⟨o, s', g1, g2, g3, g4⟩ := h2.silent h1 (tm k)
    refine ⟨_, s', g1, g2, ?_, by rw [g3, h4], h5, ?_, ?_⟩
    · intro e he l
      simp only [List.mem_cons] at he
      rcases he with rfl | rfl | he
      · simp
      · simp
      · exact h3 e he l
    · simp [g4, h6, List.replicate_succ]
    · intro i hi
      rcases Nat.lt_succ_iff_lt_or_eq.mp hi with hi | rfl
      · obtain ⟨o, ho⟩ := h7 i hi
        exact ⟨o, by simp [ho]⟩
      · exact ⟨_, List.mem_cons_of_mem _ (List.mem_cons_self ..)⟩

theorem split {a320 : Bool} {t0 : Tm} {a b : Hist} {e : Ev} {o : Out} {s : Node} (hr : Reach a320 t0 (a ++ (e, o) :: b) s) :
    ∃ s0 s1, Reach a320 t0 b s0 ∧ step s0 e = some (o, s1) ∧ Reach a320 t0 ((e, o) :: b) s1 := by
  induction a generalizing s with
  | nil =>
    rw [List.nil_append] at hr
    cases hr with
    | step h1 h2 h3 => exact ⟨_, _, h1, h2, Reach.step h1 h2 h3⟩
  | cons x t ih =>
    rw [List.cons_append] at hr
    cases hr with
    | step h1 h2 h3 => exact ih h1

theorem open_values (a b : Hist) (ha : Open a) : values (a ++ b) = values b := by
  induction a with
  | nil => rfl
  | cons x t ih =>
    obtain ⟨e, o⟩ := x
    have h1 : o.ret = 0 := ha _ (List.mem_cons_self ..)
    simp only [List.cons_append, values, h1]
    simpa using ih fun e he => ha e (List.mem_cons_of_mem _ he)

theorem no_percent (a b : Hist) (h : ∀ e ∈ a, ∀ v, e.1 ≠ .percent v) : freq (a ++ b) = freq b := by
  induction a with
  | nil => rfl
  | cons x t ih =>
    obtain ⟨e, o⟩ := x
    have := h (e, o) (List.mem_cons_self ..)
    have i := ih fun e he => h e (List.mem_cons_of_mem _ he)
    cases e with
    | percent v => exact absurd rfl (this v)
    | _ => exact i

/-- The highest frequency is between 10 and 120 Hz. -/
theorem C98_max {a320 : Bool} {t0 : Tm} {h : Hist} {s : Node} (hr : Reach a320 t0 h s) : 10 ≤ s.frqMax ∧ s.frqMax ≤ 120 := by
  obtain ⟨h1, h2⟩ := C98_values hr
  cases hv : values h with
  | none => rw [(h1 hv).2.2.2.2]; norm_num
  | some l =>
    rw [(h2 l hv).2.2.2.2]
    exact ⟨le_max_left .., max_le (by norm_num) (min_le_left ..)⟩

/-- The speed reads back as it was commanded, until the drive has answered again. -/
theorem C98_percent_partial {a320 : Bool} {t0 : Tm} {a b : Hist} {s : Node} {q : Rat} {o : Out}
    (hr : Reach a320 t0 (a ++ (.percent (.num q), o) :: b) s) (ha : Open a) (hp : ∀ e ∈ a, ∀ v, e.1 ≠ .percent v) :
    s.percent = .num q := by
  obtain ⟨s0, s1, -, hst, hr1⟩ := split hr
  simp only [Spec.step, Option.some.injEq, Prod.mk.injEq] at hst
  obtain ⟨rfl, rfl⟩ := hst
  have e1 := (ninv_reach hr).sp
  rw [no_percent a _ hp] at e1
  have e2 := (ninv_reach hr).vals
  rw [open_values a _ ha, ← (ninv_reach hr1).vals] at e2
  simp only [vals, Prod.mk.injEq] at e2
  obtain ⟨-, -, -, -, e2⟩ := e2
  have h10 := (C98_max hr).1
  simp only [freq, seen, ← e2] at e1
  have hne : s.frqMax ≠ 0 := by intro e; rw [e] at h10; norm_num at h10
  rw [Node.percent, e1, Fl.div_num _ _ (by norm_num), Fl.mul_num, Fl.div_num _ _ hne, Fl.mul_num]
  congr 1
  field_simp

example (t0 : Tm) : ∃ a o b s, Reach false t0 (a ++ (.percent (.num 50), o) :: b) s ∧ Open a ∧
    (∀ e ∈ a, ∀ v, e.1 ≠ .percent v) ∧ a.length = 3 := by
  obtain ⟨h, s, hr, -, -, -, -, -, -, -, -, -, ⟨a, o, b, rfl, -, h1, h2, h3⟩, -⟩ :=
    started t0 1 (.num 50) (by decide) (z := 600) (by decide +kernel)
  exact ⟨a, o, b, s, hr, h2, h1, h3⟩

/-- 50 % are commanded while the highest frequency is taken to be 120 Hz; the drive answers that it is 50 Hz: 120 % are
shown. -/
theorem C98_percent_violated (t0 : Tm) :
    ∃ a o b s, Reach false t0 (a ++ (.percent (.num 50), o) :: b) s ∧ (∀ e ∈ a, ∀ v, e.1 ≠ .percent v) ∧
      s.percent = .num 120 := by
  obtain ⟨h, s, hr, -, hw, -, -, -, -, -, hno, hset, ⟨a, o, b, rfl, -, h1, h2, h3⟩, -⟩ :=
    started t0 1 (.num 50) (by decide) (z := 600) (by decide +kernel)
  have hen := hw.en
  rw [(ninv_reach hr).en] at hen
  obtain ⟨o1, o2, s', hr', k1, k2, k3, k4, k5, -⟩ := hw.answered hr t0 (List.replicate 15 0 ++ [1, 0xF4, 0, 0, 0, 0]) rfl
  have hv := (C98_values hr').2 (List.replicate 15 0 ++ [1, 0xF4, 0, 0, 0, 0]) (by
    simp only [values, k1, true_and, lastFrame, k3, k2, k4]
    rw [if_pos (by simp; decide)]
    simp [cur, hen, answer, MbClient.Spec.outstanding])
  refine ⟨_ :: _ :: _ :: a, o, b, s', hr', ?_, ?_⟩
  · intro e he
    simp only [List.mem_cons] at he
    rcases he with rfl | rfl | rfl | he
    · simp
    · simp
    · simp
    · exact h1 e he
  · rw [Node.percent, k5, hset, hv.2.2.2.2]
    decide +kernel

end Ptusa.Altivar
