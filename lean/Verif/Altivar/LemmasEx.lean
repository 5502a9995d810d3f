import Verif.Altivar.LemmasData

/-!
# Histories of frequency converters
-/
namespace Ptusa.Altivar
open MbClient (St Byte UInt Net Link Req Buf Cl)
open MbClient.Spec (adu pdu be16 regBytes dataAt dataLen answerLen outstanding answer Legal Fits)
open Timer (Tm)
open Spec

/-- A call without a connection. -/
theorem call_off {mc : St} (h1 : mc.link = .off) (h2 : mc.result ≤ 0) (h3 : mc.result ≠ -1) (r : Req) (n1 : Net) (b : Bool) :
    mc.call r n1 ⟨.off, b⟩ = some (none, 0, { mc with
      cl := { mc.cl with buf := MbClient.put 0 (r.head mc.cl.station) mc.cl.buf }
      result := -3, bytes := r.sent, expected := r.expected }) := by
  simp [St.call, St.poll, St.send, h1, h3, MbClient.takes_false h2]

/-- A call that sends: there is or comes a connection and no good answer is there. -/
theorem call_on {mc : St} (h1 : mc.link ≠ .busy) (h3 : mc.result ≠ -1) {r : Req}
    (ht : r.takes mc.expected mc.result = false) (hf : Fits r) (n1 : Net) :
    mc.call r n1 ⟨.on, true⟩ = some (some (adu mc.cl.station (pdu (MbClient.dat mc.cl.buf (dataAt r) (dataLen r)) r)), 0,
      { mc with
        cl := { mc.cl with buf := MbClient.put 0 (r.head mc.cl.station) mc.cl.buf }
        result := -1, bytes := r.sent, expected := r.expected, link := .on, waits := true }) := by
  have := MbClient.frame_eq mc.cl r hf
  simp [St.call, St.poll, St.send, h1, h3, ht, this]

/-- A pass over a step. -/
theorem eval_run {s s1 : Node} {now : Tm} {n1 n2 : Net} {f : Option (List Byte)} {x : Int} (hen : s.enabled = true)
    (h : s.run now n1 n2 = some (f, x, s1)) :
    Spec.step s (.eval now n1 n2) = some (seen f x (s1.watch now), s1.watch now) := by
  simp [Spec.step, Node.eval, hen, h]

theorem watch_on {s : Node} {now : Tm} (h : s.mc.link = .on) : s.watch now = { s with mberr := false, mtimeout := now } := by
  simp [Node.watch, h]

theorem watch_quiet {s : Node} {now : Tm} (h : s.mc.link ≠ .on) (h2 : ¬ 5000 < Time.deltaMs now s.mtimeout) :
    s.watch now = s := by
  simp only [Node.watch, h2, false_and, and_false, if_false, h]

/-- A node that has prepared the query with words `w`, `v` and has no connection. -/
structure Wait (a320 : Bool) (w v : BitVec 16) (s : Node) : Prop where
  step : s.step = .query
  en : s.enabled = true
  type : s.a320 = a320
  station : s.mc.cl.station = 255
  dat : MbClient.dat s.mc.cl.buf 17 12 = regBytes [w, v, 0, 0, 0, 0]
  link : s.mc.link = .off
  le : s.mc.result ≤ 0
  ne : s.mc.result ≠ -1
  waits : s.mc.waits = false

theorem query_data (a : Bool) : dataAt (queryReq a) = 17 ∧ dataLen (queryReq a) = 12 := by
  cases a <;> exact ⟨rfl, rfl⟩

theorem dat_query (a : Bool) (st : Byte) (b : Buf) :
    MbClient.dat (MbClient.put 0 ((queryReq a).head st) b) 17 12 = MbClient.dat b 17 12 := by
  have := MbClient.dat_head (queryReq a) st b
  rwa [(query_data a).1, (query_data a).2] at this

/-- A pass without a connection. -/
theorem Wait.off {a320 : Bool} {w v : BitVec 16} {s : Node} (hw : Wait a320 w v s) (now : Tm) :
    ∃ o s', Spec.step s (.eval now ⟨.off, false⟩ ⟨.off, false⟩) = some (o, s') ∧ o.ret = 0 ∧ Wait a320 w v s' := by
  have hc := call_off hw.link hw.le hw.ne (queryReq s.a320) ⟨.off, false⟩ false
  obtain ⟨mc, hmc, e1, e2, e3, e4, e5⟩ : ∃ mc, s.mc.call (queryReq s.a320) ⟨.off, false⟩ ⟨.off, false⟩ = some (none, 0, mc) ∧
      mc.cl.station = 255 ∧ MbClient.dat mc.cl.buf 17 12 = regBytes [w, v, 0, 0, 0, 0] ∧ mc.link = .off ∧ mc.result = -3 ∧
      mc.waits = false :=
    ⟨_, hc, hw.station, by rw [dat_query]; exact hw.dat, hw.link, rfl, hw.waits⟩
  have hrun : s.run now ⟨.off, false⟩ ⟨.off, false⟩ = some (none, 0, { s with mc := mc }) := by
    simp only [Node.run, hw.step, hmc, Option.map_some]; rfl
  refine ⟨_, _, eval_run hw.en hrun, rfl, ?_⟩
  obtain ⟨w1, w2, w3, w4, w5, w6, w7, w8, w9, w10, w11⟩ := same_watch { s with mc := mc } now
  exact ⟨by rw [w7]; exact hw.step, by rw [w2]; exact hw.en, by rw [w1]; exact hw.type, by rw [w6]; exact e1,
    by rw [w6]; exact e2, by rw [w6]; exact e3, by rw [w6, e4]; decide, by rw [w6, e4]; decide, by rw [w6]; exact e5⟩

/-- A pass with a connection. -/
theorem Wait.on {a320 : Bool} {w v : BitVec 16} {s : Node} (hw : Wait a320 w v s) (now : Tm) :
    ∃ s', Spec.step s (.eval now ⟨.on, true⟩ ⟨.on, true⟩) =
        some (⟨some (Spec.exchange a320 w v), 0, .on, s.state, s.frqMax⟩, s') ∧
      s' = { s with mberr := false, mtimeout := now, mc := { s.mc with
        cl := { s.mc.cl with buf := MbClient.put 0 ((queryReq a320).head 255) s.mc.cl.buf }
        result := -1, bytes := (queryReq a320).sent, expected := (queryReq a320).expected, link := .on, waits := true } } := by
  have hc := call_on (by rw [hw.link]; simp) hw.ne (MbClient.takes_false hw.le) (query_legal s.a320).2.1 ⟨.on, true⟩
  rw [(query_data _).1, (query_data _).2, hw.dat, hw.station, query_frame, hw.type] at hc
  refine ⟨_, ?_, rfl⟩
  simp only [Spec.step, Node.eval, hw.en, if_true, Node.run, hw.step, hw.type, hc, Option.map_some]
  simp [watch_on, seen]

/-- The first passes of a drive without configuration, after the events `e`. -/
theorem wait_start {t0 : Tm} {h : Hist} {s : Node} (hr : Reach false t0 h s) (hs : s.step = .check) (hen : s.enabled = true)
    (hl : s.mc.link = .off) (hres : s.mc.result = 0) (hwt : s.mc.waits = false) {z : Int}
    (hz : toInt (s.frqSet * .num 10) = some z) (t1 t2 : Tm) (hst : s.state = 0) (hm : s.mtimeout = t0)
    (h1 : ¬ 5000 < Time.deltaMs t1 t0) (h2 : ¬ 5000 < Time.deltaMs t2 t0) :
    ∃ s', Reach false t0 ((.eval t2 ⟨.off, false⟩ ⟨.off, false⟩, seen none 0 s') :: (.eval t1 ⟨.off, false⟩ ⟨.off, false⟩, seen none 0 { s with step := .init }) :: h) s' ∧
      Wait false s.cmd (BitVec.ofInt 16 z) s' ∧ s'.state = 0 ∧ s'.frqMax = s.frqMax ∧ s'.frqSet = s.frqSet ∧
      s'.mberr = s.mberr ∧ s'.reverse = s.reverse := by
  have ht : s.a320 = false := (ninv_reach hr).type
  have r1 : s.run t1 ⟨.off, false⟩ ⟨.off, false⟩ = some (none, 0, { s with step := .init }) := by
    simp [Node.run, hs, ht]
  have e1 : ({ s with step := .init } : Node).watch t1 = { s with step := .init } := by
    apply watch_quiet
    · simp [hl]
    · simp only [hm]; exact h1
  have q1 := eval_run hen r1
  rw [e1] at q1
  have R1 := Reach.step hr q1 (by simp)
  let s2 : Node := { s with
      mc := { s.mc with cl := fill s.mc.cl 15 255 2 [s.cmd, BitVec.ofInt 16 z, 0, 0, 0, 0] }
      step := .query }
  have r2 : ({ s with step := .init } : Node).run t2 ⟨.off, false⟩ ⟨.off, false⟩ = some (none, 0, s2) := by
    simp [Node.run, hz, s2]
  have e2 : s2.watch t2 = s2 := by
    apply watch_quiet
    · simp [s2, hl]
    · simp only [s2, hm]; exact h2
  have q2 := eval_run (s := { s with step := .init }) hen r2
  rw [e2] at q2
  have R2 := Reach.step R1 q2 (by simp)
  obtain ⟨w1, w2⟩ := fill_dat s.mc.cl 15 255 2 [s.cmd, BitVec.ofInt 16 z, 0, 0, 0, 0] (by simp)
  exact ⟨s2, R2, ⟨rfl, hen, ht, w2, w1, hl, by show s.mc.result ≤ 0; omega, by show s.mc.result ≠ -1; omega, hwt⟩, hst, rfl, rfl, rfl, rfl⟩

/-- Passes without a connection. -/
theorem wait_many {a320 : Bool} {t0 : Tm} {w v : BitVec 16} {h : Hist} {s : Node} (hr : Reach a320 t0 h s)
    (hw : Wait a320 w v s) (tm : Nat → Tm) (k : Nat) :
    ∃ a s', Reach a320 t0 (a ++ h) s' ∧ Wait a320 w v s' ∧
      a.map (·.1) = (List.range k).reverse.map (fun i => Ev.eval (tm i) ⟨.off, false⟩ ⟨.off, false⟩) := by
  induction k with
  | zero => exact ⟨[], s, hr, hw, rfl⟩
  | succ k ih =>
    obtain ⟨a, s', h1, h2, h3⟩ := ih
    obtain ⟨o, s'', h4, -, h6⟩ := h2.off (tm k)
    refine ⟨(.eval (tm k) ⟨.off, false⟩ ⟨.off, false⟩, o) :: a, s'', Reach.step h1 h4 (by simp), h6, ?_⟩
    simp [h3, List.range_succ]

/-- The query goes out again. -/
theorem resend {s : Node} (h1 : s.step = .query) (h2 : s.enabled = true) (h3 : s.mc.cl.station = 255) (h4 : s.mc.link ≠ .busy)
    (h5 : s.mc.result ≠ -1) (h6 : (queryReq s.a320).takes s.mc.expected s.mc.result = false) (now : Tm) :
    ∃ s', Spec.step s (.eval now ⟨.on, true⟩ ⟨.on, true⟩) =
      some (⟨some (adu 255 (pdu (MbClient.dat s.mc.cl.buf 17 12) (queryReq s.a320))), 0, .on, s.state, s.frqMax⟩, s') := by
  have hc := call_on h4 h5 h6 (query_legal s.a320).2.1 ⟨.on, true⟩
  rw [(query_data _).1, (query_data _).2, h3] at hc
  obtain ⟨mc, hmc, m1⟩ : ∃ mc, s.mc.call (queryReq s.a320) ⟨.on, true⟩ ⟨.on, true⟩ =
      some (some (adu 255 (pdu (MbClient.dat s.mc.cl.buf 17 12) (queryReq s.a320))), 0, mc) ∧ mc.link = .on := ⟨_, hc, rfl⟩
  have hrun : s.run now ⟨.on, true⟩ ⟨.on, true⟩ = some (some (adu 255 (pdu (MbClient.dat s.mc.cl.buf 17 12) (queryReq s.a320))), 0,
      { s with mc := mc }) := by
    simp only [Node.run, h1, hmc, Option.map_some]; rfl
  refine ⟨{ s with mc := mc, mberr := false, mtimeout := now }, ?_⟩
  rw [eval_run h2 hrun, watch_on m1]
  simp only [seen, m1]

theorem dat_add (b : Buf) (p m n : Nat) : MbClient.dat b p (m + n) = MbClient.dat b p m ++ MbClient.dat b (p + m) n := by
  simp [MbClient.dat, List.range_add, Nat.add_assoc, Function.comp_def]

theorem dat_drop (l : List Byte) (b : Buf) (p n : Nat) (h : l.length = p + n) : MbClient.dat (MbClient.put 0 l b) p n = l.drop p := by
  apply List.ext_getElem
  · simp [h]
  · intro i h1 h2
    simp only [MbClient.dat_length] at h1
    simp only [MbClient.dat, List.getElem_map, List.getElem_range, List.getElem_drop]
    rw [MbClient.put_get _ _ (by omega)]

/-- A connection without an answer. -/
theorem Wait.silent {a320 : Bool} {t0 : Tm} {h : Hist} {w v : BitVec 16} {s : Node} (hr : Reach a320 t0 h s) (hw : Wait a320 w v s) (now : Tm) :
    ∃ o s', Reach a320 t0 ((.lost (-2), o) :: (.eval now ⟨.on, true⟩ ⟨.on, true⟩,
        ⟨some (Spec.exchange a320 w v), 0, .on, s.state, s.frqMax⟩) :: h) s' ∧ Wait a320 w v s' ∧ s'.state = s.state ∧ o.frame = none := by
  obtain ⟨s1, h1, rfl⟩ := hw.on now
  have R1 := Reach.step hr h1 (by simp)
  have R2 := Reach.step R1 (e := .lost (-2)) rfl (by simp)
  refine ⟨_, _, R2, ⟨hw.step, hw.en, hw.type, hw.station, ?_, rfl, ?_, ?_, rfl⟩, rfl, rfl⟩
  · simp only [St.lost, if_true]
    rw [dat_query]
    exact hw.dat
  · simp [St.lost]
  · simp [St.lost]

/-- An answered query. -/
theorem Wait.answered {a320 : Bool} {t0 : Tm} {h : Hist} {w v : BitVec 16} {s : Node} (hr : Reach a320 t0 h s) (hw : Wait a320 w v s)
    (now : Tm) (l : List Byte) (hl : l.length = 21) :
    ∃ o1 o2 s', Reach a320 t0 ((.eval now ⟨.on, true⟩ ⟨.on, true⟩, o2) :: (.recv l, o1) :: (.eval now ⟨.on, true⟩ ⟨.on, true⟩,
        ⟨some (Spec.exchange a320 w v), 0, .on, s.state, s.frqMax⟩) :: h) s' ∧ o2.ret = 1 ∧ o1.frame = none ∧ o2.frame = none ∧
      o1.ret = 0 ∧ s'.frqSet = s.frqSet ∧ s'.step = .initEnd ∧ s'.enabled = true ∧ s'.mc.link = .on ∧ s'.mc.result = 0 ∧
      s'.a320 = a320 := by
  obtain ⟨s1, h1, hs1⟩ := hw.on now
  have R1 := Reach.step hr h1 (by simp)
  have R2 := Reach.step R1 (e := .recv l) rfl (by simp)
  have hne : l ≠ [] := by intro e; rw [e] at hl; simp at hl
  have htk : l.take MbClient.size = l := MbClient.take_all (by omega)
  have hrecv : s1.mc.recv l = { s1.mc with cl := { s1.mc.cl with buf := MbClient.put 0 l s1.mc.cl.buf }, result := 21, waits := false } := by
    rw [St.recv, if_pos ⟨by rw [hs1], hne⟩]
    simp only [htk, hl]
    rfl
  rw [hrecv] at R2
  obtain ⟨mc, hmc, m1, m2⟩ : ∃ mc : St, ({ s1.mc with cl := { s1.mc.cl with buf := MbClient.put 0 l s1.mc.cl.buf }, result := 21, waits := false } : St).call
      (queryReq s1.a320) ⟨.on, true⟩ ⟨.on, true⟩ = some (none, 1, mc) ∧ mc.link = .on ∧ mc.result = 0 := by
    have ha : s1.a320 = a320 := by rw [hs1]; exact hw.type
    have he : s1.mc.expected = (queryReq a320).expected := by rw [hs1]
    have hk : s1.mc.link = .on := by rw [hs1]
    have ht : (queryReq a320).takes (queryReq a320).expected 21 = true := by cases a320 <;> decide
    have hx : ((queryReq a320).expected).toInt = 21 := by cases a320 <;> decide
    rw [ha]
    simp [St.call, St.poll, hk, he, ht, hx]
  have hst : s1.step = .query := by rw [hs1]; exact hw.step
  have hen : s1.enabled = true := by rw [hs1]; exact hw.en
  have hfs : s1.frqSet = s.frqSet := by rw [hs1]
  let s2 : Node := { s1 with mc := { s1.mc with cl := { s1.mc.cl with buf := MbClient.put 0 l s1.mc.cl.buf }, result := 21, waits := false } }
  have hrun : s2.run now ⟨.on, true⟩ ⟨.on, true⟩ = some (none, 1, ({ s2 with mc := mc } : Node).take) := by
    simp only [Node.run, show s2.step = .query from hst, show s2.mc.call (queryReq s2.a320) ⟨.on, true⟩ ⟨.on, true⟩ = some (none, 1, mc) from hmc,
      Option.map_some, if_true]
  have R3 := Reach.step R2 (eval_run (s := s2) hen hrun) (by simp)
  obtain ⟨w1, w2, w3, w4, w5, w6, w7, w8, w9, w10, w11⟩ := same_watch ({ s2 with mc := mc } : Node).take now
  refine ⟨_, _, _, R3, rfl, rfl, rfl, rfl, by rw [w5]; exact hfs, by rw [w7]; rfl, by rw [w2]; exact hen,
    by rw [w6]; exact m1, by rw [w6]; exact m2, by rw [w1, show ({ s2 with mc := mc } : Node).take.a320 = s1.a320 from rfl, hs1]; exact hw.type⟩

/-- The same but for the check of the connection. -/
structure Sim (s1 s : Node) : Prop where
  step : s.step = s1.step
  cstep : s.cstep = s1.cstep
  en : s.enabled = s1.enabled
  mc : s.mc = s1.mc
  set : s.frqSet = s1.frqSet
  type : s.a320 = s1.a320
  tm : s.qtimer = s1.qtimer
  cmd : s.cmd = s1.cmd

/-- A pass with a connection. -/
theorem go {a320 : Bool} {t0 : Tm} {h : Hist} {s s1 : Node} (hr : Reach a320 t0 h s) (hen : s.enabled = true) (now : Tm)
    {f : Option (List Byte)} {x : Int} (hrun : s.run now ⟨.on, true⟩ ⟨.on, true⟩ = some (f, x, s1)) (hl : s1.mc.link = .on) :
    ∃ o s', step s (.eval now ⟨.on, true⟩ ⟨.on, true⟩) = some (o, s') ∧
      Reach a320 t0 ((.eval now ⟨.on, true⟩ ⟨.on, true⟩, o) :: h) s' ∧ o.frame = f ∧ o.ret = x ∧ Sim s1 s' := by
  have h1 := eval_run hen hrun
  rw [watch_on hl] at h1
  exact ⟨_, _, h1, Reach.step hr h1 (by simp), rfl, rfl, ⟨rfl, rfl, rfl, rfl, rfl, rfl, rfl, rfl⟩⟩

/-- Passes only. -/
def Evals (x : Hist) : Prop := ∀ e ∈ x, ∃ t n1 n2, e.1 = .eval t n1 n2

theorem evals_clean (x : Hist) {h : Hist} (hx : Evals x) (hc : Clean h) : Clean (x ++ h) := by
  induction x with
  | nil => exact hc
  | cons e t ih =>
    obtain ⟨e, o⟩ := e
    obtain ⟨a, b, c, he⟩ := hx _ (List.mem_cons_self ..)
    simp only at he
    subst he
    exact ih fun e he => hx e (List.mem_cons_of_mem _ he)

theorem Evals.cons {x : Hist} (hx : Evals x) (t : Tm) (n1 n2 : Net) (o : Out) : Evals ((.eval t n1 n2, o) :: x) := by
  intro e he
  rcases List.mem_cons.mp he with rfl | he
  · exact ⟨_, _, _, rfl⟩
  · exact hx e he

/-- The command after a preparation. -/
theorem command {a320 : Bool} {t0 : Tm} {h : Hist} {s : Node} (hr : Reach a320 t0 h s) (h1 : s.step = .init) (h2 : s.enabled = true)
    (h3 : s.mc.link = .on) (h4 : s.mc.result = 0) {z : Int} (hz : toInt (s.frqSet * .num 10) = some z) (now : Tm) :
    ∃ x s1, Reach a320 t0 (x ++ h) s1 ∧ x.length = 1 ∧ (∀ e ∈ x, e.2.ret = 0) ∧ Evals x ∧ ∃ o s2 f,
      step s1 (.eval now ⟨.on, true⟩ ⟨.on, true⟩) = some (o, s2) ∧ o.frame = some f ∧ func f = 0x17 := by
  let s1 : Node := { s with
      mc := { s.mc with cl := fill s.mc.cl 15 255 2 [s.cmd, BitVec.ofInt 16 z, 0, 0, 0, 0] }
      step := .query }
  have hrun : s.run now ⟨.on, true⟩ ⟨.on, true⟩ = some (none, 0, s1) := by
    simp only [Node.run, h1, hz, Option.map_some]; rfl
  obtain ⟨o, s', -, hr1, -, hret, e⟩ := go hr h2 now hrun h3
  obtain ⟨w1, w2⟩ := fill_dat s.mc.cl 15 255 2 [s.cmd, BitVec.ofInt 16 z, 0, 0, 0, 0] (by simp)
  obtain ⟨s2, hs2⟩ := resend (s := s') e.step (by rw [e.en]; exact h2) (by rw [e.mc]; exact w2) (by rw [e.mc]; simp [s1, h3])
    (by rw [e.mc]; simp [s1, h4]) (MbClient.takes_false (by rw [e.mc]; simp [s1, h4])) now
  refine ⟨[_], s', hr1, rfl, by simpa using hret, ?_, _, s2, _, hs2, rfl, ?_⟩
  · intro e he
    simp only [List.mem_singleton] at he
    subst he
    exact ⟨_, _, _, rfl⟩
  · rw [e.mc, show MbClient.dat s1.mc.cl.buf 17 12 = regBytes [s.cmd, BitVec.ofInt 16 z, 0, 0, 0, 0] from w1, query_frame]
    rfl

/-- The next command after an answer. -/
theorem again {h : Hist} {s : Node} (hr : Reach false 0 h s) (h1 : s.step = .initEnd) (h2 : s.enabled = true)
    (h3 : s.mc.link = .on) (h4 : s.mc.result = 0) {z : Int} (hz : toInt (s.frqSet * .num 10) = some z) (ht : s.a320 = false) :
    ∃ x s1, Reach false 0 (x ++ h) s1 ∧ x.length = 4 ∧ Evals x ∧ ∃ o s2 f,
      step s1 (.eval 300 ⟨.on, true⟩ ⟨.on, true⟩) = some (o, s2) ∧ o.frame = some f ∧ func f = 0x17 := by
  obtain ⟨o1, s1, -, r1, -, -, e1⟩ := go hr h2 0 (f := none) (x := 0) (s1 := { s with qtimer := 0, step := .finish })
    (by simp [Node.run, h1]) h3
  obtain ⟨o2, s2, -, r2, -, -, e2⟩ := go r1 (by rw [e1.en]; exact h2) 300 (f := none) (x := 0) (s1 := { s1 with step := .check })
    (by simp only [Node.run, e1.step, e1.tm]; rw [if_pos (by decide)]) (by rw [show _ = _ from e1.mc]; exact h3)
  obtain ⟨o3, s3, -, r3, -, -, e3⟩ := go r2 (by rw [e2.en]; exact e1.en.trans h2) 300 (f := none) (x := 0) (s1 := { s2 with step := .init })
    (by simp [Node.run, e2.step, e2.type, e1.type, ht]) (by simp only [e2.mc, e1.mc]; exact h3)
  obtain ⟨x, s4, k1, k2, -, k3, k4⟩ := command r3 e3.step (by rw [e3.en]; exact e2.en.trans (e1.en.trans h2))
    (by simp only [e3.mc, e2.mc, e1.mc]; exact h3) (by simp only [e3.mc, e2.mc, e1.mc]; exact h4)
    (z := z) (by simp only [e3.set, e2.set, e1.set]; exact hz) 300
  refine ⟨x ++ [_, _, _], s4, by simpa using k1, by simp [k2], ?_, k4⟩
  intro e he
  simp only [List.mem_append, List.mem_cons, List.not_mem_nil, or_false] at he
  rcases he with he | rfl | rfl | rfl
  · exact k3 e he
  · exact ⟨_, _, _, rfl⟩
  · exact ⟨_, _, _, rfl⟩
  · exact ⟨_, _, _, rfl⟩

/-- A node between two writes of the configuration. -/
structure Between (n : Nat) (s : Node) : Prop where
  step : s.step = .config
  cstep : s.cstep = n
  en : s.enabled = true
  link : s.mc.link = .on
  result : s.mc.result = 0
  set : s.frqSet = .num 0

/-- A node at its first configuration. -/
structure First (s : Node) : Prop where
  step : s.step = .config
  cstep : s.cstep = 1
  en : s.enabled = true
  station : s.mc.cl.station = 0
  dat : MbClient.dat s.mc.cl.buf 13 12 = regBytes [8501, 8502, 0, 0, 0, 0]
  link : s.mc.link ≠ .busy
  ne : s.mc.result ≠ -1
  takes : (Req.writeRegs 15421 6).takes s.mc.expected s.mc.result = false
  state : s.state = 0

theorem first_start (t0 : Tm) : ∃ a b s, Reach true t0 [a, b] s ∧ First s ∧ a.2.frame = none ∧ b.2.frame = none ∧
    (∃ t1 t2, a.1 = .eval t1 ⟨.off, false⟩ ⟨.off, false⟩ ∧ b.1 = .eval t2 ⟨.off, false⟩ ⟨.off, false⟩) ∧ Clean [a, b] ∧
    s.mc.result = 0 ∧ s.frqSet = .num 0 ∧ session [a, b] = [] := by
  have R0 := Reach.start (a320 := true) (t0 := t0) (fun _ => 0)
  let s0 := Node.initial true (fun _ => 0) t0
  let s1 : Node := { s0 with step := .config }
  have r1 : s0.run t0 ⟨.off, false⟩ ⟨.off, false⟩ = some (none, 0, s1) := by
    simp [Node.run, s0, s1, Node.initial]
  have e1 : s1.watch t0 = s1 := by
    apply watch_quiet
    · simp [s1, s0, Node.initial]
    · simp [s1, s0, Node.initial, Time.deltaMs]
  have q1 := eval_run rfl r1
  rw [e1] at q1
  have R1 := Reach.step R0 q1 (by simp)
  let s2 : Node := { s1 with mc := { s1.mc with cl := fill s1.mc.cl 13 0 0 [8501, 8502, 0, 0, 0, 0] }, cstep := 1 }
  have r2 : s1.run t0 ⟨.off, false⟩ ⟨.off, false⟩ = some (none, 0, s2) := rfl
  have e2 : s2.watch t0 = s2 := by
    apply watch_quiet
    · simp [s2, s1, s0, Node.initial]
    · simp [s2, s1, s0, Node.initial, Time.deltaMs]
  have q2 := eval_run rfl r2
  rw [e2] at q2
  have R2 := Reach.step R1 q2 (by simp)
  obtain ⟨w1, w2⟩ := fill_dat s1.mc.cl 13 0 0 [8501, 8502, 0, 0, 0, 0] (by simp)
  exact ⟨_, _, s2, R2, ⟨rfl, rfl, rfl, w2, w1, by simp [s2, s1, s0, Node.initial], by simp [s2, s1, s0, Node.initial],
    by simp [s2, s1, s0, Node.initial, Req.takes], rfl⟩, rfl, rfl, ⟨_, _, rfl, rfl⟩, trivial, rfl, rfl, rfl⟩

/-- The configuration is refused. -/
theorem First.refused {t0 : Tm} {h : Hist} {s : Node} (hr : Reach true t0 h s) (hf : First s) (now : Tm) (l : List Byte)
    (hl : l.length = 9) :
    ∃ m o s', Reach true t0 ((.recv l, o) :: (.eval now ⟨.on, true⟩ ⟨.on, true⟩,
        ⟨some (write 15421 [8501, 8502, 0, 0, 0, 0]), 0, .on, 0, m⟩) :: h) s' ∧ First s' ∧ o.frame = none := by
  have hfit : Fits (Req.writeRegs 15421 6) := by simp [Fits]
  have hc := call_on hf.link hf.ne hf.takes hfit ⟨.on, true⟩
  have hda : dataAt (Req.writeRegs 15421 6) = 13 ∧ dataLen (Req.writeRegs 15421 6) = 12 := ⟨rfl, rfl⟩
  have hfr : adu 0 (pdu (regBytes [8501, 8502, 0, 0, 0, 0]) (Req.writeRegs 15421 6)) =
      write 15421 [8501, 8502, 0, 0, 0, 0] := rfl
  rw [hda.1, hda.2, hf.station, hf.dat, hfr] at hc
  have hfc : cfgData s.cstep = none ∧ cfgReq s.cstep = some (.writeRegs 15421 6, 2) := by rw [hf.cstep]; exact ⟨rfl, rfl⟩
  have hdat : ∀ b : Buf, MbClient.dat (MbClient.put 0 l (MbClient.put 0 ((Req.writeRegs 15421 6).head 0) b)) 13 12 =
      MbClient.dat b 13 12 := by
    intro b
    rw [← show MbClient.dat (MbClient.put 0 ((Req.writeRegs 15421 6).head 0) b) 13 12 = MbClient.dat b 13 12 from
      MbClient.dat_head (Req.writeRegs 15421 6) 0 b]
    apply dat_congr
    intro i hi
    exact MbClient.put_out _ _ (Or.inr (by omega))
  obtain ⟨mc, hmc, m1, m2, m3, m4, m5, m6⟩ : ∃ mc, s.mc.call (.writeRegs 15421 6) ⟨.on, true⟩ ⟨.on, true⟩ =
      some (some (write 15421 [8501, 8502, 0, 0, 0, 0]), 0, mc) ∧ mc.link = .on ∧ mc.waits = true ∧
      mc.expected = (Req.writeRegs 15421 6).expected ∧ mc.cl.station = 0 ∧ mc.result = -1 ∧
      mc.cl.buf = MbClient.put 0 ((Req.writeRegs 15421 6).head 0) s.mc.cl.buf :=
    ⟨_, hc, rfl, rfl, rfl, hf.station, rfl, rfl⟩
  let s1 : Node := { s with mc := mc, mberr := false, mtimeout := now, state := 0 }
  have q1 : Spec.step s (.eval now ⟨.on, true⟩ ⟨.on, true⟩) =
      some (⟨some (write 15421 [8501, 8502, 0, 0, 0, 0]), 0, .on, 0, s.frqMax⟩, s1) := by
    have hrun : s.run now ⟨.on, true⟩ ⟨.on, true⟩ = some (some (write 15421 [8501, 8502, 0, 0, 0, 0]), 0, { s with mc := mc }) := by
      simp only [Node.run, hf.step, hfc.1, hfc.2, hmc, Option.map_some]; rfl
    rw [eval_run hf.en hrun, watch_on m1]
    simp only [seen, m1, hf.state]
    rfl
  have R1 := Reach.step hr q1 (by simp)
  have hne : l ≠ [] := by intro e; rw [e] at hl; simp at hl
  have htk : l.take MbClient.size = l := MbClient.take_all (by omega)
  have hrecv : mc.recv l = { mc with cl := { mc.cl with buf := MbClient.put 0 l mc.cl.buf }, result := 9, waits := false } := by
    rw [St.recv, if_pos ⟨m2, hne⟩]
    simp only [htk, hl]
    rfl
  have R2 := Reach.step R1 (e := .recv l) rfl (by simp)
  simp only [s1, hrecv] at R2
  refine ⟨_, _, _, R2, ⟨hf.step, hf.cstep, hf.en, m4, ?_, by simp [m1], by simp, ?_, rfl⟩, rfl⟩
  · simp only [m6]
    rw [hdat]; exact hf.dat
  · simp only [m3]; decide

/-- A request of the configuration, and its answer. -/
theorem between_sent {h : Hist} {s1 : Node} {n m : Nat} {a c : UInt} (r1 : Reach true 0 h s1) (hc : Clean h)
    (h0 : s1.step = .config) (h1 : s1.cstep = n) (hen : s1.enabled = true) (hl : s1.mc.link ≠ .busy) (hres : s1.mc.result = 0)
    (hset : s1.frqSet = .num 0) (h2 : cfgData n = none) (h3 : cfgReq n = some (.writeRegs a c, m)) (hf : Fits (.writeRegs a c)) :
    ∃ h' s', Reach true 0 h' s' ∧ Clean h' ∧ Between m s' ∧ (session h').length = (session h).length + 1 := by
  have c1 := call_on (r := .writeRegs a c) hl (by rw [hres]; simp) (MbClient.takes_false (by rw [hres])) hf ⟨.on, true⟩
  obtain ⟨f, mc, hmc, m1, m2, m3, m4⟩ : ∃ f mc, s1.mc.call (.writeRegs a c) ⟨.on, true⟩ ⟨.on, true⟩ = some (some f, 0, mc) ∧
      mc.link = .on ∧ mc.waits = true ∧ mc.expected = (Req.writeRegs a c).expected ∧ mc.result = -1 := ⟨_, _, c1, rfl, rfl, rfl, rfl⟩
  obtain ⟨o2, s2, -, r2, p3, p4, e2⟩ := go r1 hen 0 (f := some f) (x := 0) (s1 := { s1 with mc := mc })
    (by simp only [Node.run, h0, h1, h2, h3, hmc, Option.map_some]; rfl) m1
  have r3 := Reach.step r2 (e := .recv (List.replicate 12 0)) rfl (by simp)
  have htk : (List.replicate 12 (0 : Byte)).take MbClient.size = List.replicate 12 0 := MbClient.take_all (by simp)
  have hrecv : s2.mc.recv (List.replicate 12 0) = { mc with cl := { mc.cl with buf := MbClient.put 0 (List.replicate 12 0) mc.cl.buf }, result := 12, waits := false } := by
    rw [e2.mc, St.recv, if_pos ⟨m2, by simp⟩, htk]
    rfl
  rw [hrecv] at r3
  let s3 : Node := { s2 with mc := { mc with cl := { mc.cl with buf := MbClient.put 0 (List.replicate 12 0) mc.cl.buf }, result := 12, waits := false } }
  have r3' : Reach true 0 _ s3 := r3
  obtain ⟨mc3, hmc3, q1, q2⟩ : ∃ mc3, s3.mc.call (.writeRegs a c) ⟨.on, true⟩ ⟨.on, true⟩ = some (none, 1, mc3) ∧ mc3.link = .on ∧
      mc3.result = 0 := by
    have ht : (Req.writeRegs a c).takes (Req.writeRegs a c).expected 12 = true := by simp [Req.takes, Req.expected]
    have hx : ((Req.writeRegs a c).expected).toInt = 12 := by simp [Req.expected]
    simp [s3, St.call, St.poll, m1, m3, ht, hx]
  have en3 : s3.enabled = true := by show s2.enabled = true; rw [e2.en]; exact hen
  have st3 : s3.step = .config := by show s2.step = _; rw [e2.step]; exact h0
  have cs3 : s3.cstep = n := by show s2.cstep = _; rw [e2.cstep]; exact h1
  obtain ⟨o4, s4, -, r4, p5, p6, e4⟩ := go r3' en3 0 (f := none) (x := 1) (s1 := { s3 with mc := mc3, cstep := m })
    (by simp only [Node.run, st3, cs3, h2, h3, hmc3, Option.map_some]; simp) q1
  refine ⟨_, s4, r4, ⟨Or.inl (by simp), hc⟩, ⟨by rw [e4.step]; exact st3, e4.cstep, by rw [e4.en]; exact en3, by rw [e4.mc]; exact q1,
    by rw [e4.mc]; exact q2, ?_⟩, ?_⟩
  · rw [e4.set]; show s2.frqSet = _; rw [e2.set]; exact hset
  · simp [session, p6, p4, seen, lastFrame, p3]

/-- One write of the configuration. -/
theorem Between.next {h : Hist} {s : Node} {n : Nat} (m : Nat) (a c : UInt) (d : List (BitVec 16)) (hr : Reach true 0 h s) (hc : Clean h) (hb : Between n s)
    (h1 : cfgData n = some d) (h2 : cfgData (n + 1) = none) (h3 : cfgReq (n + 1) = some (.writeRegs a c, m)) (hf : Fits (.writeRegs a c)) :
    ∃ h' s', Reach true 0 h' s' ∧ Clean h' ∧ Between m s' ∧ (session h').length = (session h).length + 1 := by
  obtain ⟨o1, s1, -, r1, p1, p2, e1⟩ := go hr hb.en 0 (f := none) (x := 0)
    (s1 := { s with mc := { s.mc with cl := fill s.mc.cl 13 0 0 d }, cstep := n + 1 })
    (by simp [Node.run, hb.step, hb.cstep, h1]) hb.link
  obtain ⟨h', s', k1, k2, k3, k4⟩ := between_sent r1 hc (by rw [e1.step]; exact hb.step) e1.cstep (by rw [e1.en]; exact hb.en)
    (by rw [e1.mc]; simp [hb.link]) (by rw [e1.mc]; exact hb.result) (by rw [e1.set]; exact hb.set) h2 h3 hf
  exact ⟨h', s', k1, k2, k3, by simpa [session, p2] using k4⟩

/-- A configuration that is written completely, and the first command. -/
theorem configured : ∃ h s o s' f, Reach true 0 h s ∧ Clean h ∧ step s (.eval 0 ⟨.on, true⟩ ⟨.on, true⟩) = some (o, s') ∧
    o.frame = some f ∧ func f = 0x17 ∧ (session h).length = 8 := by
  obtain ⟨x, y, s0, r0, f0, -, -, -, c0, z0, z1, z2⟩ := first_start 0
  obtain ⟨h1, s1, r1, c1, b1, l1⟩ := between_sent (m := 2) (a := 15421) (c := 6) r0 c0 f0.step f0.cstep f0.en f0.link z0 z1 rfl rfl (by simp [Fits])
  obtain ⟨h2, s2, r2, c2, b2, l2⟩ := b1.next 4 15401 6 _ r1 c1 rfl rfl rfl (by simp [Fits])
  obtain ⟨h3, s3, r3, c3, b3, l3⟩ := b2.next 6 64239 1 _ r2 c2 rfl rfl rfl (by simp [Fits])
  obtain ⟨h4, s4, r4, c4, b4, l4⟩ := b3.next 8 8401 1 _ r3 c3 rfl rfl rfl (by simp [Fits])
  obtain ⟨h5, s5, r5, c5, b5, l5⟩ := b4.next 10 8413 1 _ r4 c4 rfl rfl rfl (by simp [Fits])
  obtain ⟨h6, s6, r6, c6, b6, l6⟩ := b5.next 12 8423 1 _ r5 c5 rfl rfl rfl (by simp [Fits])
  obtain ⟨h7, s7, r7, c7, b7, l7⟩ := b6.next 14 7122 3 _ r6 c6 rfl rfl rfl (by simp [Fits])
  obtain ⟨h8, s8, r8, c8, b8, l8⟩ := b7.next 99 8001 1 _ r7 c7 rfl rfl rfl (by simp [Fits])
  obtain ⟨o9, s9, -, r9, -, p9, e9⟩ := go r8 b8.en 0 (f := none) (x := 0) (s1 := { s8 with configure := false, step := .init })
    (by simp [Node.run, b8.step, b8.cstep, cfgData, cfgReq]) b8.link
  obtain ⟨w, s10, r10, n10, z10, v10, o, s', f, k1, k2, k3⟩ := command r9 e9.step (by rw [e9.en]; exact b8.en)
    (by rw [e9.mc]; exact b8.link) (by rw [e9.mc]; exact b8.result) (z := 0) (by rw [e9.set]; simp only [b8.set]; decide +kernel) 0
  obtain ⟨⟨e, oo⟩, rfl⟩ := List.length_eq_one_iff.mp n10
  have hl : (session ([(e, oo)] ++ (Ev.eval 0 ⟨.on, true⟩ ⟨.on, true⟩, o9) :: h8)).length = 8 := by
    have : oo.ret = 0 := z10 _ (List.mem_singleton.mpr rfl)
    simp only [List.cons_append, List.nil_append, session, this, p9]
    simp only [z2, List.length_nil] at l1
    simp; omega
  exact ⟨_, s10, o, s', f, r10, evals_clean _ v10 c8, k1, k2, k3, hl⟩

end Ptusa.Altivar
