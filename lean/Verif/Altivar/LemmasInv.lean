import Verif.Altivar.Lemmas

/-!
# The invariant of frequency converters
-/
namespace Ptusa.Altivar
open MbClient (St Byte UInt Net Link Req)
open MbClient.Spec (adu pdu be16 regBytes dataAt dataLen answerLen outstanding answer Legal Fits)
open Timer (Tm)
open Spec

theorem getInt2_buf (c : MbClient.Cl) {k : UInt} (h : k.toNat ≤ 122) :
    c.getInt2 k = c.buf (9 + 2 * k.toNat) ++ c.buf (10 + 2 * k.toNat) := by
  rw [MbClient.Cl.getInt2, MbClient.addr_toNat (by omega), if_neg (by omega)]

theorem take_vals {s : Node} {l : List Byte} (hb : ∀ i, i < l.length → i < 256 → s.mc.cl.buf i = l.getD i 0)
    (hl : 21 ≤ l.length) :
    s.take.state = stateOf s.reverse (reg l 0) ∧ vals s.take = valsOf l := by
  have g : ∀ k : UInt, k.toNat ≤ 4 → s.mc.cl.getInt2 k = reg l k.toNat := by
    intro k hk
    rw [getInt2_buf _ (by omega), hb _ (by omega) (by omega), hb _ (by omega) (by omega)]
    rfl
  have g0 := g 0 (by simp)
  have g1 := g 1 (by simp)
  have g2 := g 2 (by simp)
  have g3 := g 3 (by simp)
  have g4 := g 4 (by simp)
  simp only [show (0 : UInt).toNat = 0 from rfl, show (1 : UInt).toNat = 1 from rfl, show (2 : UInt).toNat = 2 from rfl,
    show (3 : UInt).toNat = 3 from rfl, show (4 : UInt).toNat = 4 from rfl] at g0 g1 g2 g3 g4
  constructor
  · simp only [Node.take, g0, decode_eq]
  · simp only [vals, Node.take, g0, g1, g2, g3, g4, valsOf, Prod.mk.injEq, true_and]
    split
    · norm_num
    · rfl

theorem ninv_start (a320 : Bool) (t0 : Tm) (junk : MbClient.Buf) : NInv a320 t0 [] (Node.initial a320 junk t0) :=
  ⟨rfl, ⟨rfl, rfl, rfl, by simp [Node.initial], by simp [Node.initial], by simp [Node.initial]⟩, rfl, rfl, rfl, rfl, rfl,
    fun r hr => by simp [curReq, Node.initial] at hr, by simp [Node.initial], by simp [Got, cur, answer], fun _ => rfl, rfl⟩

theorem ninv_run {a320 : Bool} {t0 now : Tm} {h : Hist} {s s1 : Node} (hi : NInv a320 t0 h s) (hen : s.enabled = true)
    {n1 n2 : Net} {f : Option (List Byte)} {x : Int} (hrun : s.run now n1 n2 = some (f, x, s1)) :
    NInv a320 t0 ((.eval now n1 n2, seen f x (s1.watch now)) :: h) (s1.watch now) := by
  obtain ⟨same, hcase⟩ := run_spec hrun
  obtain ⟨w1, w2, w3, w4, w5, w6, w7, w8, w9, w10, w11⟩ := same_watch s1 now
  have hen' : enabled h = true := by rw [← hi.en, hen]
  have hcur : ∀ o : Out, o.frame = f → o.ret = x → cur ((.eval now n1 n2, o) :: h) =
      if x ≠ 0 then [] else (.call n1 n2, ⟨f, 0⟩) :: cur h := by
    intro o h1 h2
    simp only [cur, h1, h2, hen', if_true]
  have hcur' := hcur (seen f x (s1.watch now)) rfl rfl
  have hlink : MInv ((.eval now n1 n2, seen f x (s1.watch now)) :: h) (s1.watch now) ∧
      (x ≠ 0 → s1.mc.link = .on ∧ (x = 1 ∨ x = -1) ∧ ∃ l r, curReq s = some r ∧ answer (cur h) = some l ∧
        (x = 1 → (l.take 256).length = answerLen r) ∧ s1.mc.cl = s.mc.cl) ∧
      (∀ r, curReq (s1.watch now) = some r → outstanding (cur ((.eval now n1 n2, seen f x (s1.watch now)) :: h)) = true →
        (lastFrame ((.eval now n1 n2, seen f x (s1.watch now)) :: h)).map func = some (fn r)) := by
    rw [MInv, hcur', curReq_watch, w6]
    rcases hcase with ⟨a1, rfl, rfl, ⟨c, a2⟩, -, -⟩ | ⟨r, mc, b1, b2, rfl, b4, b5, -, -⟩
    · have hidle : Idle (cur h) s.mc := by have := hi.link; rwa [MInv, a1] at this
      have hidle' : Idle ((.call n1 n2, ⟨none, 0⟩) :: cur h) s1.mc := by
        rw [a2]
        exact ⟨by simp [outstanding, hidle.out], by simp [answer], hidle.waits, hidle.le, hidle.ne, hidle.link⟩
      simp only [ne_eq, not_true_eq_false, if_false, IsEmpty.forall_iff, true_and, hidle'.out, Bool.false_eq_true,
        implies_true, and_true]
      cases curReq s1 with
      | none => exact hidle'
      | some r => exact hidle'.inv r
    · have hinv : MbClient.Inv r (cur h) s.mc := by have := hi.link; rwa [MInv, b1] at this
      obtain ⟨hl, hf⟩ := cur_legal b1
      obtain ⟨f', x', mc', d1, d2, d3, d4, d5, d6⟩ := call_done hl hf hinv n1 n2
      rw [b2] at d1
      cases d1
      by_cases hx : x = 0
      · subst hx
        have e1 : curReq s1 = some r := by rw [b4 rfl]; exact b1
        simp only [e1, ne_eq, not_true_eq_false, if_false, IsEmpty.forall_iff, true_and]
        refine ⟨MbClient.inv_step hl hf hinv trivial (by simp only [MbClient.Spec.step, b2]; rfl), ?_⟩
        intro r' hr' ho
        cases hr'
        simp only [lastFrame]
        cases hff : f with
        | none =>
          simp only [hff, outstanding, Option.isSome_none, Bool.false_or] at ho
          simp only [seen, Option.isSome_none, Bool.false_eq_true, if_false]
          exact hi.kind r b1 (Or.inl ho)
        | some g =>
          simp only [seen, Option.isSome_some, if_true, Option.map_some, Option.some.injEq]
          rw [(d6 rfl).1 g hff]
          exact func_adu (cur_kind b1) _ _
      · obtain ⟨e1, e2, e3, e4, l, e5, e6, e7⟩ := d5 hx
        have hx2 : x = 1 ∨ x = -1 := d2.resolve_left hx
        have hc := b5 hx hx2
        simp only [hc, ne_eq, hx, not_false_eq_true, if_true, forall_const]
        refine ⟨⟨rfl, rfl, ?_, ?_, ?_, ?_⟩, ⟨?_, hx2, l, r, b1, e5, e6, by rw [e2]⟩, by simp⟩
        · rw [e2]; show s.mc.waits = false; rw [hinv.waits, e3]
        · rw [e2]
        · rw [e2]; simp
        · rw [e2]; show s.mc.link ≠ .busy; rw [e4]; simp
        · rw [e2]; exact e4
  obtain ⟨k1, k2, k3⟩ := hlink
  have hnoans : answer (cur ((.eval now n1 n2, seen f x (s1.watch now)) :: h)) = none := by
    rw [hcur']
    by_cases hx : x = 0 <;> simp [hx, answer]
  have hq : (x = 1 ∧ (lastFrame h).map func = some 0x17) ↔ (x = 1 ∧ s.step = .query) := by
    constructor
    · rintro ⟨h1, h2⟩
      obtain ⟨-, -, l, r, e1, e2, -, -⟩ := k2 (by omega)
      have := hi.kind r e1 (Or.inr (by simp [e2]))
      rw [h2] at this
      exact ⟨h1, (cur_fn e1).1.mp (Option.some.inj this).symm⟩
    · rintro ⟨h1, h2⟩
      obtain ⟨-, -, l, r, e1, e2, -, -⟩ := k2 (by omega)
      have := hi.kind r e1 (Or.inr (by simp [e2]))
      rw [(cur_fn e1).1.mpr h2] at this
      exact ⟨h1, this⟩
  have htake : x = 1 → s.step = .query → s1.mc.link = .on ∧ ∃ l, answer (cur h) = some l ∧
      s1.state = stateOf (backwards h) (reg l 0) ∧ vals s1 = valsOf l := by
    intro h1 h2
    obtain ⟨c1, -, l, r, e1, e2, e3, -⟩ := k2 (by omega)
    rcases hcase with ⟨a1, -⟩ | ⟨r', mc, b1, b2, b3, b4, b5, b6, -⟩
    · rw [a1] at e1; cases e1
    · have hrr : r' = r := by rw [b1] at e1; exact Option.some.inj e1
      have hs1 := b6 h1 h2
      have hcl : s1.mc.cl = s.mc.cl := by
        obtain ⟨-, -, _, _, _, _, _, hcl⟩ := k2 (by omega)
        exact hcl
      have hr : r' = queryReq s.a320 := by
        simp only [curReq, h2, Option.some.injEq] at b1; exact b1.symm
      have hlen : 21 ≤ l.length := by
        have h3 := e3 h1
        obtain ⟨-, -, p, q, hpq⟩ := query_legal s.a320
        rw [← hrr, hr, hpq] at h3
        simp only [List.length_take, answerLen, show (6 : UInt).toNat = 6 from rfl] at h3
        omega
      have hb : ∀ i, i < l.length → i < 256 → ({ s with mc := mc } : Node).mc.cl.buf i = l.getD i 0 := by
        intro i h4 h5
        show mc.cl.buf i = _
        rw [← b3, hcl]
        exact hi.got l e2 i h4 h5
      obtain ⟨t1, t2⟩ := take_vals hb hlen
      refine ⟨c1, l, e2, ?_, ?_⟩
      · rw [hs1, t1]; show stateOf s.reverse _ = _; rw [hi.rev]
      · rw [hs1, t2]
  have hkeep : ¬ (x = 1 ∧ s.step = .query) → s1.state = s.state ∧ vals s1 = vals s := by
    intro hn
    rcases hcase with ⟨-, -, -, -, a5, a6⟩ | ⟨r', mc, -, -, -, -, -, -, b7⟩
    · exact ⟨a5, a6⟩
    · exact b7 hn
  refine ⟨by rw [w1, same.type, hi.type], k1, by rw [w2, same.en, hi.en]; rfl, by rw [w3, same.cmd, hi.cmd]; rfl,
    by rw [w4, same.rev, hi.rev]; rfl, by rw [w5, same.sp, hi.sp]; rfl, ?_, ?_, ?_, ?_, ?_, ?_⟩
  · rw [w11, same.mt, hi.mt]
    simp only [lastOn, hen', true_and, seen, w6]
  · intro r hr hoa
    rcases hoa with ho | ha
    · exact k3 r hr ho
    · exact absurd hnoans ha
  · intro he
    unfold Node.watch at he ⊢
    by_cases hon : s1.mc.link = .on
    · simp [hon] at he
    · simp only [hon, if_false, ne_eq, not_false_eq_true, true_and] at he ⊢
      split
      · rfl
      · rename_i hcnd
        rw [if_neg hcnd, if_neg hon, same.err] at he
        have hst : s1.state = s.state := by
          by_cases hxx : x = 1 ∧ s.step = .query
          · exact absurd (htake hxx.1 hxx.2).1 hon
          · exact (hkeep hxx).1
        rw [hst]; exact hi.err he
  · intro l hl
    rw [hnoans] at hl; cases hl
  · intro hm
    obtain ⟨hm1, hm2⟩ := hm
    simp only [Spec.state, hen', Bool.true_eq_false, if_false]
    simp only [seen, w6]
    by_cases hxx : x = 1 ∧ s.step = .query
    · obtain ⟨t1, l, t2, t3, -⟩ := htake hxx.1 hxx.2
      rw [if_pos (hq.mpr hxx), t2]
      simp only [Option.getD_some]
      rw [← t3]
      simp [Node.watch, t1]
    · rw [if_neg (fun e => hxx (hq.mp e))]
      have hst := (hkeep hxx).1
      have hdelta : (5000 < Time.deltaMs now s1.mtimeout) ↔ 5000 < now.toNat - (lastOn t0 h).toNat := by
        rw [same.mt, hi.mt, BitVec.lt_def, Timer.delta_eq hm1]; rfl
      unfold Node.watch
      by_cases hon : s1.mc.link = .on
      · simp only [hon, ne_eq, not_true_eq_false, false_and, if_false, if_true]
        rw [hst]; exact hi.st hm2
      · simp only [hon, ne_eq, not_false_eq_true, true_and, if_false, hdelta]
        by_cases hd : 5000 < now.toNat - (lastOn t0 h).toNat
        · simp only [hd, true_and, if_true]
          split
          · rfl
          · rename_i he
            rw [hst]
            exact hi.err (by rw [← same.err]; simpa using he)
        · simp only [hd, false_and, if_false, hon]
          rw [hst]; exact hi.st hm2
  · rw [w10]
    simp only [values]
    by_cases hxx : x = 1 ∧ s.step = .query
    · obtain ⟨-, l, t2, -, t3⟩ := htake hxx.1 hxx.2
      have h17 : (seen f x (s1.watch now)).ret = 1 ∧ (lastFrame h).map func = some 0x17 := hq.mpr hxx
      rw [if_pos h17, t2, t3]; rfl
    · have h17 : ¬ ((seen f x (s1.watch now)).ret = 1 ∧ (lastFrame h).map func = some 0x17) := fun e => hxx (hq.mp e)
      rw [if_neg h17, (hkeep hxx).2]
      exact hi.vals

theorem ninv_reach {a320 : Bool} {t0 : Tm} {h : Hist} {s : Node} (hr : Reach a320 t0 h s) : NInv a320 t0 h s := by
  induction hr with
  | start junk => exact ninv_start a320 t0 junk
  | @step h s s' e o hr he hc hi =>
    cases e with
    | eval now n1 n2 =>
      simp only [Spec.step, Option.map_eq_some_iff] at he
      obtain ⟨⟨f, x, s2⟩, h1, h2⟩ := he
      simp only [Prod.mk.injEq] at h2
      obtain ⟨rfl, rfl⟩ := h2
      unfold Node.eval at h1
      split at h1
      · rename_i hen
        simp only [Option.map_eq_some_iff, Prod.mk.injEq] at h1
        obtain ⟨⟨f', x', s1⟩, h3, rfl, rfl, rfl⟩ := h1
        exact ninv_run hi hen h3
      · rename_i hen
        cases h1
        have hen' : enabled h = false := by rw [← hi.en]; simpa using hen
        have hcur : cur ((.eval now n1 n2, seen none 0 s) :: h) = cur h := by simp [cur, seen, hen']
        have hlf : lastFrame ((Ev.eval now n1 n2, seen none 0 s) :: h) = lastFrame h := by simp [lastFrame, seen]
        refine ⟨hi.type, ?_, hi.en, hi.cmd, hi.rev, hi.sp, ?_, ?_, hi.err, ?_, ?_, ?_⟩
        · rw [MInv, hcur]; exact hi.link
        · simp [lastOn, hen']; exact hi.mt
        · rw [hcur, hlf]; exact hi.kind
        · rw [Got, hcur]; exact hi.got
        · intro hm
          simp only [Spec.state, hen', if_true]
          exact hi.st hm.2
        · simp [values, seen]; exact hi.vals
    | recv l =>
      simp only [Spec.step, Option.some.injEq, Prod.mk.injEq] at he
      obtain ⟨rfl, rfl⟩ := he
      have hcl : curReq { s with mc := s.mc.recv l } = curReq s := rfl
      have hlink : s.mc.waits = outstanding (cur h) := by
        have := hi.link
        rw [MInv] at this
        split at this
        · exact this.waits
        · rw [this.out, this.waits]
      refine ⟨hi.type, ?_, hi.en, hi.cmd, hi.rev, hi.sp, hi.mt, ?_, hi.err, ?_, hi.st, ?_⟩
      · have := hi.link
        rw [MInv] at this ⊢
        rw [hcl]
        cases hr' : curReq s with
        | some r =>
          rw [hr'] at this
          exact MbClient.inv_step (cur_legal hr').1 (cur_legal hr').2 this trivial rfl
        | none =>
          rw [hr'] at this
          have e : s.mc.recv l = s.mc := by rw [St.recv, if_neg (by simp [this.waits])]
          simp only [e]
          exact ⟨by simp [cur, outstanding, this.out], by simp [cur, answer, this.out, this.ans], this.waits, this.le, this.ne,
            this.link⟩
      · intro r hr' hoa
        have : lastFrame ((Ev.recv l, seen none 0 { s with mc := s.mc.recv l }) :: h) = lastFrame h := by simp [lastFrame, seen]
        rw [this]
        apply hi.kind r hr'
        rcases hoa with ho | ha
        · simp only [cur, outstanding, Bool.and_eq_true] at ho
          exact Or.inl ho.2
        · simp only [cur, answer] at ha
          by_cases ho : outstanding (cur h) = true
          · exact Or.inl ho
          · rw [if_neg (by simp [ho])] at ha
            exact Or.inr ha
      · intro l' hl' i h1 h2
        simp only [cur, answer] at hl'
        by_cases hcond : s.mc.waits = true ∧ l ≠ []
        · rw [if_pos (by rw [← hlink, hcond.1]; simpa using hcond.2)] at hl'
          cases hl'
          have e : (s.mc.recv l).cl.buf = MbClient.put 0 (l.take MbClient.size) s.mc.cl.buf := by rw [St.recv, if_pos hcond]
          show (s.mc.recv l).cl.buf i = _
          have hi' : i < (l.take MbClient.size).length := by simp [MbClient.size]; omega
          rw [e, MbClient.put_get _ _ hi']
          simp [h1]
        · have e : s.mc.recv l = s.mc := by rw [St.recv, if_neg hcond]
          rw [if_neg (by rw [← hlink]; simpa using hcond)] at hl'
          show (s.mc.recv l).cl.buf i = _
          rw [e]
          exact hi.got l' hl' i h1 h2
      · simp [values, seen]; exact hi.vals
    | lost code =>
      simp only [Spec.step, Option.some.injEq, Prod.mk.injEq] at he
      obtain ⟨rfl, rfl⟩ := he
      have hcl : curReq { s with mc := s.mc.lost code } = curReq s := rfl
      refine ⟨hi.type, ?_, hi.en, hi.cmd, hi.rev, hi.sp, hi.mt, ?_, hi.err, ?_, hi.st, ?_⟩
      · have := hi.link
        rw [MInv] at this ⊢
        rw [hcl]
        cases hr' : curReq s with
        | some r =>
          rw [hr'] at this
          exact MbClient.inv_step (cur_legal hr').1 (cur_legal hr').2 this ⟨hc code rfl, trivial⟩ rfl
        | none =>
          rw [hr'] at this
          have e : s.mc.lost code = s.mc := by rw [St.lost, if_neg (by simp [this.waits])]
          simp only [e]
          exact ⟨by simp [cur, outstanding], by simp [cur, answer, this.ans], this.waits, this.le, this.ne,
            this.link⟩
      · intro r hr' hoa
        have : lastFrame ((Ev.lost code, seen none 0 { s with mc := s.mc.lost code }) :: h) = lastFrame h := by simp [lastFrame, seen]
        rw [this]
        apply hi.kind r hr'
        rcases hoa with ho | ha
        · simp [cur, outstanding] at ho
        · simp only [cur, answer] at ha
          exact Or.inr ha
      · intro l' hl' i h1 h2
        simp only [cur, answer] at hl'
        have e : (s.mc.lost code).cl = s.mc.cl := by rw [St.lost]; split <;> rfl
        show (s.mc.lost code).cl.buf i = _
        rw [e]
        exact hi.got l' hl' i h1 h2
      · simp [values, seen]; exact hi.vals
    | set n =>
      simp only [Spec.step, Option.some.injEq, Prod.mk.injEq] at he
      obtain ⟨rfl, rfl⟩ := he
      have hk : (s.set n).a320 = s.a320 ∧ (s.set n).mc = s.mc ∧ (s.set n).step = s.step ∧ (s.set n).cstep = s.cstep ∧
          (s.set n).frqSet = s.frqSet ∧ (s.set n).mtimeout = s.mtimeout ∧ (s.set n).state = s.state ∧
          vals (s.set n) = vals s ∧ ((s.set n).mberr = true → s.mberr = true) := by
        simp only [Node.set, Node.on, Node.off]
        split
        · exact ⟨rfl, rfl, rfl, rfl, rfl, rfl, rfl, rfl, id⟩
        split
        · exact ⟨rfl, rfl, rfl, rfl, rfl, rfl, rfl, rfl, id⟩
        split
        · exact ⟨rfl, rfl, rfl, rfl, rfl, rfl, rfl, rfl, by simp⟩
        split
        · exact ⟨rfl, rfl, rfl, rfl, rfl, rfl, rfl, rfl, id⟩
        · exact ⟨rfl, rfl, rfl, rfl, rfl, rfl, rfl, rfl, id⟩
      obtain ⟨q1, q2, q3, q4, q5, q6, q7, q8, q9⟩ := hk
      have hcl : curReq (s.set n) = curReq s := by simp only [curReq, q1, q3, q4]
      have hlf : lastFrame ((Ev.set n, seen none 0 (s.set n)) :: h) = lastFrame h := by simp [lastFrame, seen]
      refine ⟨by rw [q1]; exact hi.type, ?_, ?_, ?_, ?_, by rw [q5]; exact hi.sp, by rw [q6]; exact hi.mt, ?_, ?_, ?_, ?_, ?_⟩
      · have := hi.link
        rw [MInv] at this ⊢
        rw [hcl, q2]
        exact this
      · simp only [Node.set, Node.on, Node.off, enabled]
        split
        · rename_i e; subst e; simpa using hi.en
        split
        · rfl
        split
        · rfl
        split <;> exact hi.en
      · simp only [word, seen, q7, Node.set, Node.on, Node.off]
        by_cases e2 : n = 2
        · simp [e2]
        by_cases e100 : n = 100
        · simp [e100]; exact hi.cmd
        by_cases e101 : n = 101
        · simp [e101]; exact hi.cmd
        by_cases e0 : n = 0
        · simp [e0]
        · simp [e2, e100, e101, e0]
      · simp only [backwards, Node.set, Node.on, Node.off]
        by_cases e2 : n = 2
        · simp [e2]
        by_cases e100 : n = 100
        · simp [e100]; exact hi.rev
        by_cases e101 : n = 101
        · simp [e101]; exact hi.rev
        by_cases e0 : n = 0
        · simp [e0]
        · simp [e2, e100, e101, e0]
      · rw [hcl, hlf]; exact hi.kind
      · intro he; rw [q7]; exact hi.err (q9 he)
      · intro l hl; rw [q2]; exact hi.got l hl
      · rw [q7]; exact hi.st
      · rw [q8]; simp [values, seen]; exact hi.vals
    | percent v =>
      simp only [Spec.step, Option.some.injEq, Prod.mk.injEq] at he
      obtain ⟨rfl, rfl⟩ := he
      have hlf : lastFrame ((Ev.percent v, seen none 0 (s.setPercent v)) :: h) = lastFrame h := by simp [lastFrame, seen]
      refine ⟨hi.type, hi.link, hi.en, hi.cmd, hi.rev, rfl, hi.mt, ?_, hi.err, hi.got, hi.st, ?_⟩
      · rw [hlf]; exact hi.kind
      · simp [values, seen]; exact hi.vals

end Ptusa.Altivar
