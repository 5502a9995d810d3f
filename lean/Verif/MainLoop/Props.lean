import Verif.MainLoop.LemmasRun
import Verif.Coupler.Props

/-!
# Properties of the main loop (C144 to C146)
-/
namespace Ptusa.MainLoop

open Tcp (Byte Buf)
open Coupler (Node Net Link readDi SetsBits bytesOf talk bitOf Reply Confirms)
open Device (Prog Oper toInt32)

/-! ## The configuration of the examples -/

/-- A coupler with 2 inputs and 3 outputs whose connection is up. -/
def exNode : Node :=
  ⟨⟨true, 0, false, 0, 500⟩, 1, 2, fun _ => false, 0, 0, fun _ => 0, fun _ => 0, 3, fun _ => 0, fun _ => 0, 0, 0, fun _ => 0,
    fun _ => 0, fun _ => 0⟩

/-- Signal 0 at channel 0, motor 1 at channel 1, channel 2 is spare; the other devices are not wired. -/
def exCfg : Cfg := { n := 1, place := fun d => (0, if d < 2 then d else d + 1), kind := fun d => if d = 0 then .signal else .motor }

/-- The coupler answers with its inputs, both on. -/
def exRd (t : Coupler.Tm) : Net := ⟨t, t, true, true, [0x73, 0x73, 0, 0, 0, 4, 0, 2, 1, 3]⟩

/-- The coupler confirms. -/
def exWr (t : Coupler.Tm) : Net := ⟨t, t, true, true, [0x73, 0x73, 0, 0, 0, 6, 0, 0x0F, 0, 0, 0, 3]⟩

/-- A pass with a program. -/
def exCycle (t : Coupler.Tm) (p : (Nat → Nat → Bool) → List (Nat × Prog)) (sv : List (Nat × Oper)) (q : List Req) : Cycle :=
  ⟨fun _ => exRd t, p, fun _ => exWr t, sv, true, q, [], false⟩

/-- A program: the signal follows input 0, the motor input 1. -/
def exProg (inp : Nat → Nat → Bool) : List (Nat × Prog) :=
  [(0, if inp 0 0 then .on else .off), (1, if inp 0 1 then .on else .off)]

theorem exApart : Apart exCfg := by
  intro d d' h
  have : (if d < 2 then d else d + 1) = if d' < 2 then d' else d' + 1 := congrArg Prod.snd h
  split at this <;> split at this <;> omega

theorem exSmall : Small fun _ => exNode := fun _ => ⟨show 3 ≤ 255 by decide, show 2 ≤ 255 by decide⟩

/-! ## C144: the outputs follow the commands -/

/-- C144: in any history, every message that sets the outputs of a coupler carries for the channel of each device what all
commands given to it so far, by the program, the operator, OPC UA clients and the lamps' manager, ask for (those of the
program, of the clients and of the manager count outside manual mode only); the channels without device are off.  Missing:
see `C144_state_violated`. -/
theorem C144_outputs_partial {cfg : Cfg} {nodes : Nat → Node} (ha : Apart cfg) (hs : Small nodes) (buf : Buf)
    (pre : List Cycle) (c : Cycle) {s s' : Sys} {recs : List Rec} {rec : Rec} (hst : ∀ x ∈ pre, x.stop = false)
    (h : run cfg (Sys.init nodes buf) pre = some (s, recs)) (hc : s.cycle cfg c = some (s', rec))
    (ho : OnOff cfg (commands (pre.zip recs) ++ c.first rec.inp)) {k : Nat} {req : List Byte} (hq : (k, req) ∈ rec.sent) :
    k < cfg.n ∧ ∃ f, SetsBits req (nodes k).doCnt f ∧
      (∀ d i, cfg.place d = (k, i) → i < (nodes k).doCnt →
        f i = (wanted (cmdsFor d (commands (pre.zip recs) ++ c.first rec.inp))).on) ∧
      (∀ i, (∀ d, cfg.place d ≠ (k, i)) → f i = false) := by
  rw [onOff_append] at ho
  obtain ⟨hi, hr⟩ := inv_run ha hs pre (inv_init nodes buf) rfl hst h ho.1
  obtain ⟨s1, s2, h1, -, -⟩ := cycle_parts hr hc
  obtain ⟨t, inp, sent, k1, -, -, k4, k5, -⟩ := control_some ha hs hi c
  rw [h1] at k1
  cases k1
  have hi1 := k4 ho.2
  rw [← absRun_append] at hi1
  obtain ⟨hk, hb⟩ := k5 _ hq
  refine ⟨hk, _, hb, ?_, ?_⟩
  · intro d i hp hi'
    have hw : Wired cfg nodes d := by
      unfold Wired
      rw [hp]
      exact ⟨hk, hi'⟩
    have := hi1.out d hw
    rw [hp] at this
    dsimp only at this ⊢
    rw [this, absRun_wanted]
    cases (wanted (cmdsFor d (commands (pre.zip recs) ++ c.first rec.inp))).on <;> rfl
  · intro i hn
    dsimp only
    rw [hi1.rest k i fun d _ => hn d]
    rfl

/-- The messages of three passes: the program switches both outputs on; the operator takes the signal into manual mode after
the second pass, so that the program does not switch it off in the third. -/
example : ((run exCfg (Sys.init (fun _ => exNode) fun _ => 0)
      [exCycle 10 exProg [] [], exCycle 20 exProg [(0, .M (.num 1))] [], exCycle 30 (fun _ => [(0, .off), (1, .off)]) [] []]).map
      fun r => r.2.map fun x => x.sent.map fun q => (q.1, q.2.drop 12)) =
    some [[(0, [1, 3])], [(0, [1, 3])], [(0, [1, 1])]] := by decide +kernel

example : OnOff exCfg (commands ([exCycle 10 exProg [(0, .M (.num 1))] []].zip [⟨fun _ _ => true, [], []⟩])) := by
  intro x hx _
  have : x = (0, .prog .on) ∨ x = (1, .prog .on) ∨ x = (0, .oper (.M (.num 1))) := by
    simpa [commands, exCycle, Cycle.first, Cycle.second, exProg] using hx
  rcases this with rfl | rfl | rfl <;> rfl

/-- C144: no pass meets undefined behaviour, whatever the couplers answer and the clients ask, when the numbers of states sent
by the server fit. -/
theorem C144_defined {cfg : Cfg} {nodes : Nat → Node} (hs : Small nodes) (buf : Buf) (h : List Cycle) (hf : ∀ c ∈ h, Fits c) :
    ∃ s recs, run cfg (Sys.init nodes buf) h = some (s, recs) ∧ recs.length = h.length :=
  run_some hs h (fun _ => ⟨rfl, rfl⟩) hf

example : ∀ c ∈ [exCycle 10 exProg [(1, .S (.num 1)), (0, .M (.num 1))] [.writeState 1 (some 0)]], Fits c := by
  intro c hc d v hv
  rw [List.mem_singleton.1 hc] at hv
  have : d = 1 ∧ v = .num 1 := by simpa [exCycle] using hv
  rw [this.2]
  decide +kernel

/-- C144 without the hypothesis: a command with a number no `int` has is undefined. -/
theorem C144_defined_violated : run exCfg (Sys.init (fun _ => exNode) fun _ => 0)
    [exCycle 10 exProg [(1, .S (.num 3000000000))] []] = none := by
  have h : ((run exCfg (Sys.init (fun _ => exNode) fun _ => 0)
    [exCycle 10 exProg [(1, .S (.num 3000000000))] []]).map fun r => r.2.length) = none := by decide +kernel
  exact Option.map_eq_none_iff.1 h

/-- C144: after the pass in which the controller was asked to stop nothing is sent any more; the pass itself is finished. -/
theorem C144_stop {cfg : Cfg} {nodes : Nat → Node} (buf : Buf) (pre : List Cycle) (c : Cycle)
    (post : List Cycle) {s s' : Sys} {recs : List Rec} {rec : Rec} (h : run cfg (Sys.init nodes buf) pre = some (s, recs))
    (hc : s.cycle cfg c = some (s', rec)) (hst : c.stop = true) :
    ∃ rest, run cfg (Sys.init nodes buf) (pre ++ c :: post) = some (s', recs ++ rec :: rest) ∧ rest.length = post.length ∧
      ∀ r ∈ rest, r.sent = [] ∧ r.answers = [] := by
  have hr : s'.running = false := by
    unfold Sys.cycle at hc
    split at hc
    · simp only [Option.bind_eq_some_iff, Option.map_eq_some_iff] at hc
      obtain ⟨_, _, _, _, e⟩ := hc
      cases e
      show (!c.stop) = false
      rw [hst]; rfl
    · cases hc
      rename_i hn
      simpa using hn
  obtain ⟨rest, h1, h2, h3⟩ := run_stopped (cfg := cfg) post hr
  refine ⟨rest, ?_, h2, h3⟩
  have happ : ∀ (l1 l2 : List Cycle) (s : Sys), run cfg s (l1 ++ l2) =
      (run cfg s l1).bind fun x => (run cfg x.1 l2).map fun y => (y.1, x.2 ++ y.2) := by
    intro l1 l2
    induction l1 with
    | nil =>
      intro s
      show run cfg s l2 = (run cfg s l2).map _
      cases run cfg s l2 <;> rfl
    | cons a l1 ih =>
      intro s
      simp only [List.cons_append, run]
      cases s.cycle cfg a with
      | none => rfl
      | some x =>
        simp only [Option.bind_some, ih]
        cases run cfg x.1 l1 with
        | none => rfl
        | some y =>
          simp only [Option.bind_some, Option.map_some]
          cases run cfg y.1 l2 <;> rfl
  rw [happ, h]
  simp only [Option.bind_some, run, hc, h1, Option.map_some]

/-- The outputs stay as they were when the loop ends: the last message has both on. -/
example : ((run exCfg (Sys.init (fun _ => exNode) fun _ => 0)
      [{ exCycle 10 exProg [] [] with stop := true }, exCycle 20 (fun _ => [(0, .off), (1, .off)]) [] []]).map
      fun r => r.2.map fun x => x.sent.map fun q => (q.1, q.2.drop 12)) = some [[(0, [1, 3])], []] := by decide +kernel

/-- C144: with `no_io_nodes` and with `read_only_io_nodes` no outputs are set, in any history. -/
theorem C144_silent {cfg : Cfg} (hn : (cfg.noIo || cfg.readOnly) = true) (h : List Cycle) : ∀ {s s' : Sys} {recs : List Rec},
    run cfg s h = some (s', recs) → ∀ r ∈ recs, r.sent = [] := by
  induction h with
  | nil =>
    intro s s' recs h r hr
    cases h
    simp at hr
  | cons c h ih =>
    intro s s' recs hrun r hr
    simp only [run, Option.bind_eq_some_iff, Option.map_eq_some_iff] at hrun
    obtain ⟨⟨s1, rec⟩, h1, ⟨s2, rs⟩, h2, h3⟩ := hrun
    cases h3
    rcases List.mem_cons.1 hr with rfl | hr
    · cases hru : s.running with
      | false =>
        unfold Sys.cycle at h1
        rw [if_neg (by rw [hru]; decide)] at h1
        cases h1
        rfl
      | true =>
        obtain ⟨t1, t2, k1, -, -⟩ := cycle_parts hru h1
        unfold Sys.control at k1
        simp only [Option.bind_eq_some_iff, hn, if_true, Option.map_some] at k1
        obtain ⟨u, -, k⟩ := k1
        exact (congrArg (fun x => x.2.2) (Option.some.inj k)).symm
    · exact ih h2 r hr

example : ((run { exCfg with readOnly := true } (Sys.init (fun _ => exNode) fun _ => 0) [exCycle 10 exProg [] []]).map
    fun r => r.2.map fun x => (x.inp 0 0, x.inp 0 1, x.sent.length)) = some [(true, true, 0)] := by decide +kernel

/-- C144 does not hold for commands with a number of a state to signals, lamps and sirens: the program, the operator and an
OPC UA client all ask for the state 1, and the output stays off; for the motor it works. -/
theorem C144_state_violated :
    let r := run exCfg (Sys.init (fun _ => exNode) fun _ => 0)
      [exCycle 10 (fun _ => [(0, .setState 1), (1, .setState 1)]) [(0, .S (.num 1))] [.writeState 0 (some 1)],
       exCycle 20 (fun _ => []) [] []]
    (r.map fun r => r.2.map fun x => (x.answers, x.sent.map fun q => (q.1, q.2.drop 12))) =
      some [([.good], [(0, [1, 2])]), ([], [(0, [1, 2])])] ∧
    (wanted [.prog (.setState 1), .oper (.S (.num 1)), .prog (.setState 1)]).on = true := by
  constructor
  · decide +kernel
  · decide +kernel

/-! ## C145: the reaction comes within the same pass -/

/-- C145: in a pass in which the couplers answer, the program sees their inputs as they are in the answers, and what it says
last about a device that is not in manual mode goes to the coupler of this device in the one message this coupler gets in the
same pass.  Missing: channels of Phoenix couplers, analog channels, commands with a number of a state to signals. -/
theorem C145_reaction_partial {cfg : Cfg} {nodes : Nat → Node} (ha : Apart cfg) (hs : Small nodes) (buf : Buf)
    (hio : cfg.noIo = false) (hro : cfg.readOnly = false)
    (pre : List Cycle) (c : Cycle) {s s' : Sys} {recs : List Rec} {rec : Rec} (hst : ∀ x ∈ pre, x.stop = false)
    (h : run cfg (Sys.init nodes buf) pre = some (s, recs)) (hc : s.cycle cfg c = some (s', rec))
    (ho : OnOff cfg (commands (pre.zip recs) ++ c.first rec.inp))
    (data : Nat → List Byte) (hup : ∀ k < cfg.n, (s.nodes k).link.ok = true)
    (hrd : ∀ k < cfg.n, 0 < (nodes k).diCnt →
      (c.rd k).sends = true ∧ Reply 0x02 (data k) (c.rd k).got ∧ (data k).length = bytesOf (nodes k).diCnt)
    (d : Nat) (hw : Wired cfg nodes d) (hwr : Confirms 0x0F (c.wr (cfg.place d).1))
    (hm : (wanted (cmdsFor d (commands (pre.zip recs)))).manual = false)
    (f : (Nat → Nat → Bool) → Bool) (l1 l2 : List (Nat × Prog))
    (hp : c.prog rec.inp = l1 ++ (d, if f rec.inp then .on else .off) :: l2) (hl : ∀ x ∈ l2, x.1 ≠ d) :
    (∀ k < cfg.n, ∀ i < (nodes k).diCnt, rec.inp k i = bitOf (data k) i) ∧
    ∃ req g, rec.sent.filter (fun q => q.1 == (cfg.place d).1) = [((cfg.place d).1, req)] ∧
      SetsBits req (nodes (cfg.place d).1).doCnt g ∧ g (cfg.place d).2 = f rec.inp := by
  have ho' := ho
  rw [onOff_append] at ho
  obtain ⟨hi, hr⟩ := inv_run ha hs pre (inv_init nodes buf) rfl hst h ho.1
  obtain ⟨s1, s2, h1, -, -⟩ := cycle_parts hr hc
  obtain ⟨t, inp, sent, k1, -, -, -, -, -, k7, k8⟩ := control_some ha hs hi c
  rw [h1] at k1
  cases k1
  have hread : ∀ k < cfg.n, 0 < (nodes k).diCnt → ∃ b x nd', readDi b (s.nodes k) (c.rd k) = some (x, nd') ∧
      (∀ i < (nodes k).diCnt, rec.inp k i = bitOf (data k) i) ∧ nd'.link.ok = true ∧
      (0 < (nodes k).doCnt → Confirms 0x0F (c.wr k) → ∃ req, rec.sent.filter (fun q => q.1 == k) = [(k, req)]) := by
    intro k hk hdi
    obtain ⟨b, x, nd', e1, e2, e3⟩ := k7 hio k hk hdi
    obtain ⟨q1, q2, q3⟩ := hrd k hk hdi
    have hcnt := (hi.cnt k).2
    have hgot : (c.rd k).got ≠ [] := by
      obtain ⟨hd, a, -, b⟩ := q2
      intro e
      rw [b] at e
      simp at e
    have hok : (talk (s.nodes k).link (s.nodes k).num (c.rd k)).ok = true :=
      (Coupler.talk_ok _ _ _).2 ⟨Or.inl (hup k hk), q1, hgot⟩
    obtain ⟨x', nd'', e4, e5, e6⟩ := Coupler.C74_digital_partial b (s.nodes k) (c.rd k) (data k) q2
      (by rw [hcnt]; exact q3) (by rw [hcnt]; exact (hs k).2) hok
    rw [e1] at e4
    cases e4
    have hlink : nd'.link.ok = true := by
      rw [e6, Coupler.talk_ok_link hok]
    refine ⟨b, x, nd', e1, ?_, hlink, ?_⟩
    · intro i hi'
      rw [← e2]
      exact e5 i (by rw [hcnt]; exact hi')
    · intro hdo hcf
      exact e3 hro hdo hlink hcf
  refine ⟨?_, ?_⟩
  · intro k hk i hi'
    obtain ⟨_, _, _, _, e, _⟩ := hread k hk (by omega)
    exact e i hi'
  · have hdo : 0 < (nodes (cfg.place d).1).doCnt := Nat.lt_of_le_of_lt (Nat.zero_le _) hw.2
    have hreq : ∃ req, rec.sent.filter (fun q => q.1 == (cfg.place d).1) = [((cfg.place d).1, req)] := by
      by_cases hdi : 0 < (nodes (cfg.place d).1).diCnt
      · obtain ⟨_, _, _, _, _, _, e⟩ := hread _ hw.1 hdi
        exact e hdo hwr
      · exact k8 hio hro _ hw.1 (by omega) hdo (hup _ hw.1) hwr
    obtain ⟨req, hreq⟩ := hreq
    have hmem : ((cfg.place d).1, req) ∈ rec.sent := by
      have : ((cfg.place d).1, req) ∈ rec.sent.filter (fun q => q.1 == (cfg.place d).1) := by
        rw [hreq]; exact List.mem_singleton.2 rfl
      exact (List.mem_filter.1 this).1
    obtain ⟨-, g, hg, hg2, -⟩ := C144_outputs_partial ha hs buf pre c hst h hc ho' hmem
    refine ⟨req, g, hreq, hg, ?_⟩
    rw [hg2 d (cfg.place d).2 rfl hw.2]
    have hfirst : c.first rec.inp = (l1.map fun x => (x.1, Cmd.prog x.2)) ++
        ((d, Cmd.prog (if f rec.inp then .on else .off)) :: l2.map fun x => (x.1, Cmd.prog x.2)) := by
      unfold Cycle.first
      rw [hp]
      simp
    have hnone : (l2.map fun x => (x.1, Cmd.prog x.2)).filter (fun x => x.1 == d) = [] := by
      rw [List.filter_eq_nil_iff]
      intro x hx
      obtain ⟨y, hy, rfl⟩ := List.mem_map.1 hx
      simpa using hl y hy
    have hsplit : cmdsFor d (commands (pre.zip recs) ++ c.first rec.inp) =
        cmdsFor d (commands (pre.zip recs)) ++ cmdsFor d (l1.map fun x => (x.1, Cmd.prog x.2)) ++
          [Cmd.prog (if f rec.inp then .on else .off)] := by
      rw [hfirst]
      unfold cmdsFor
      simp only [List.filter_append, List.filter_cons, beq_self_eq_true, if_true, hnone, List.map_append, List.map_cons,
        List.map_nil, List.append_assoc]
    have hman : ∀ (l : List (Nat × Prog)) (w : Want), w.manual = false →
        ((cmdsFor d (l.map fun x => (x.1, Cmd.prog x.2))).foldl Want.step w).manual = false := by
      intro l
      induction l with
      | nil => intro w hw; exact hw
      | cons x l ih =>
        intro w hw
        by_cases hx : x.1 = d
        · have : cmdsFor d ((x :: l).map fun x => (x.1, Cmd.prog x.2)) =
              Cmd.prog x.2 :: cmdsFor d (l.map fun x => (x.1, Cmd.prog x.2)) := by
            unfold cmdsFor
            simp [hx]
          rw [this]
          refine ih _ ?_
          simp only [Want.step, hw, Bool.false_eq_true, if_false]
          split <;> first | rfl | exact hw
        · have : cmdsFor d ((x :: l).map fun x => (x.1, Cmd.prog x.2)) =
              cmdsFor d (l.map fun x => (x.1, Cmd.prog x.2)) := by
            unfold cmdsFor
            simp [hx]
          rw [this]
          exact ih w hw
    rw [hsplit]
    unfold wanted at hm ⊢
    rw [List.foldl_append, List.foldl_append]
    have hm' := hman l1 _ hm
    rw [List.foldl_cons, List.foldl_nil]
    simp only [Want.step, hm', Bool.false_eq_true, if_false]
    cases f rec.inp <;> rfl

/-- The hypotheses in the second of two passes: the answer has both inputs on. -/
example : ∃ s s' recs rec, run exCfg (Sys.init (fun _ => exNode) fun _ => 0) [exCycle 10 (fun _ => []) [] []] = some (s, recs) ∧
    s.cycle exCfg (exCycle 20 exProg [] []) = some (s', rec) ∧ (s.nodes 0).link.ok = true ∧
    Reply 0x02 [3] (exRd 20).got ∧ [3#8].length = bytesOf exNode.diCnt ∧ Confirms 0x0F (exWr 20) ∧
    Wired exCfg (fun _ => exNode) 1 ∧ (wanted (cmdsFor 1 (commands ([exCycle 10 (fun _ => []) [] []].zip recs)))).manual = false ∧
    exProg rec.inp = [(0, if rec.inp 0 0 then .on else .off)] ++ (1, if rec.inp 0 1 then .on else .off) :: [] := by
  obtain ⟨s, recs, h1, h2⟩ := C144_defined (cfg := exCfg) exSmall (fun _ => 0) [exCycle 10 (fun _ => []) [] []] (by
    intro c hc d v hv
    rw [List.mem_singleton.1 hc] at hv
    simp [exCycle] at hv)
  obtain ⟨s', rec, h3, -⟩ := cycle_some (cfg := exCfg) (nodes := fun _ => exNode) exSmall (s := s)
    (inv_run exApart exSmall _ (inv_init _ _) rfl (by intro x hx; rw [List.mem_singleton.1 hx]; rfl) h1 (by
      match recs, h2 with
      | [r], _ => intro x hx; simp [commands, exCycle, Cycle.first, Cycle.second] at hx)).1.cnt
    (c := exCycle 20 exProg [] []) (by intro d v hv; simp [exCycle] at hv)
  refine ⟨s, s', recs, rec, h1, h3, ?_, ⟨[0x73, 0x73, 0, 0, 0, 4, 0], by decide, by decide, by decide⟩, by decide,
    ⟨rfl, [0x73, 0x73, 0, 0, 0, 6, 0], [0, 0, 0, 3], by decide, by decide, by decide⟩, by unfold Wired; decide, ?_, rfl⟩
  · have : ((run exCfg (Sys.init (fun _ => exNode) fun _ => 0) [exCycle 10 (fun _ => []) [] []]).map
        fun r => (r.1.nodes 0).link.ok) = some true := by decide +kernel
    rw [h1] at this
    exact Option.some.inj this
  · match recs, h2 with
    | [r], _ => rfl

/-! ## C146: OPC UA clients -/

/-- C146: while the controller does not allow control by OPC UA clients, their requests change nothing: state, messages and
inputs of the pass are those without them, and every request to write is refused. -/
theorem C146_denied {cfg : Cfg} {s s' : Sys} {c : Cycle} {rec : Rec} (hr : s.running = true) (hc : c.control = false)
    (h : s.cycle cfg c = some (s', rec)) :
    s.cycle cfg { c with opc := [] } = some (s', { rec with answers := [] }) ∧ rec.answers.length = c.opc.length ∧
      ∀ i (hi : i < c.opc.length), (∀ d, c.opc[i] ≠ .readState d) →
        rec.answers[i]? = some .denied ∨ rec.answers[i]? = some .bad := by
  obtain ⟨s1, s2, h1, h2, h3⟩ := cycle_parts hr h
  have key : ∀ (l : List Req) (s : Sys), (s.reqs cfg false l).1 = s ∧ (s.reqs cfg false l).2.length = l.length ∧
      ∀ i (hi : i < l.length), (∀ d, l[i] ≠ .readState d) →
        (s.reqs cfg false l).2[i]? = some .denied ∨ (s.reqs cfg false l).2[i]? = some .bad := by
    intro l
    induction l with
    | nil => intro s; exact ⟨rfl, rfl, fun i hi => by simp at hi⟩
    | cons r l ih =>
      intro s
      have hreq : (s.req cfg false r).1 = s := by
        rcases r with ⟨d, _ | n⟩ | ⟨d, _ | n⟩ | d <;> rfl
      obtain ⟨a, b, e⟩ := ih s
      refine ⟨?_, ?_, ?_⟩
      · show ((s.req cfg false r).1.reqs cfg false l).1 = s
        rw [hreq]; exact a
      · show ((s.req cfg false r).2 :: ((s.req cfg false r).1.reqs cfg false l).2).length = _
        rw [hreq, List.length_cons, b, List.length_cons]
      · intro i hi hn
        show ((s.req cfg false r).2 :: ((s.req cfg false r).1.reqs cfg false l).2)[i]? = _ ∨
          ((s.req cfg false r).2 :: ((s.req cfg false r).1.reqs cfg false l).2)[i]? = _
        rw [hreq]
        cases i with
        | zero =>
          rcases r with ⟨d, _ | n⟩ | ⟨d, _ | n⟩ | d
          · exact .inr rfl
          · exact .inl rfl
          · exact .inr rfl
          · exact .inl rfl
          · exact absurd rfl (hn d)
        | succ i => exact e i (by simpa using hi) hn
  unfold Sys.serve at h2
  rw [Option.map_eq_some_iff] at h2
  obtain ⟨s4, h4, h5⟩ := h2
  rw [hc] at h5
  obtain ⟨k1, k2, k3⟩ := key c.opc s4
  have e1 := congrArg Prod.fst h5
  have e2 := congrArg Prod.snd h5
  dsimp only at e1 e2
  rw [k1] at e1
  refine ⟨?_, by rw [← e2]; exact k2, by rw [← e2]; exact k3⟩
  unfold Sys.cycle
  rw [if_pos hr]
  have : s.control cfg { c with opc := [] } = s.control cfg c := rfl
  rw [this, h1]
  show (s1.serve cfg { c with opc := [] }).map _ = _
  unfold Sys.serve
  dsimp only
  rw [h4, h3, ← e1]
  rfl

example : ((run exCfg (Sys.init (fun _ => exNode) fun _ => 0)
      [{ exCycle 10 exProg [] [.writeState 1 (some 0), .readState 1, .writeValue 1 none] with control := false }]).map
      fun r => r.2.map fun x => x.answers) = some [[.denied, .state 1, .bad]] := by decide +kernel

/-- C146: a client that reads the state of a device gets what all commands given so far ask of it, those of the clients served
before in this pass included. -/
theorem C146_read_partial {cfg : Cfg} {nodes : Nat → Node} (ha : Apart cfg) (hs : Small nodes) (buf : Buf)
    (pre : List Cycle) (c : Cycle) {s s' : Sys} {recs : List Rec} {rec : Rec} (hst : ∀ x ∈ pre, x.stop = false)
    (h : run cfg (Sys.init nodes buf) pre = some (s, recs)) (hc : s.cycle cfg c = some (s', rec))
    (ho : OnOff cfg (commands (pre.zip recs) ++ c.first rec.inp ++ c.second)) {l1 l2 : List Req} {d : Nat}
    (hq : c.opc = l1 ++ .readState d :: l2) (hw : Wired cfg nodes d) :
    rec.answers[l1.length]? = some (.state (if (wanted (cmdsFor d (commands (pre.zip recs) ++ c.first rec.inp ++
      (c.server.map fun x => (x.1, Cmd.oper x.2)) ++ if c.control then l1.filterMap Req.cmd else []))).on then 1 else 0)) := by
  rw [onOff_append, onOff_append] at ho
  obtain ⟨hi, hr⟩ := inv_run ha hs pre (inv_init nodes buf) rfl hst h ho.1.1
  obtain ⟨s1, s2, h1, h2, -⟩ := cycle_parts hr hc
  obtain ⟨t, inp, sent, k1, -, -, k4, -⟩ := control_some ha hs hi c
  rw [h1] at k1
  cases k1
  have hi1 := k4 ho.1.2
  rw [← absRun_append] at hi1
  have ho2 := ho.2
  unfold Cycle.second at ho2
  rw [onOff_append, onOff_append] at ho2
  unfold Sys.serve at h2
  rw [Option.map_eq_some_iff] at h2
  obtain ⟨s4, h4, h5⟩ := h2
  have hi4 := inv_opers ha c.server hi1 ho2.1.1 h4
  rw [← absRun_append] at hi4
  have happ : ∀ (l1 l2 : List Req) (s : Sys), (s.reqs cfg c.control (l1 ++ l2)).2 =
      (s.reqs cfg c.control l1).2 ++ ((s.reqs cfg c.control l1).1.reqs cfg c.control l2).2 ∧
      (s.reqs cfg c.control l1).2.length = l1.length := by
    intro l1 l2
    induction l1 with
    | nil => intro s; exact ⟨rfl, rfl⟩
    | cons r l1 ih =>
      intro s
      obtain ⟨a, b⟩ := ih (s.req cfg c.control r).1
      constructor
      · show (s.req cfg c.control r).2 :: ((s.req cfg c.control r).1.reqs cfg c.control (l1 ++ l2)).2 = _
        rw [a]; rfl
      · show ((s.req cfg c.control r).2 :: ((s.req cfg c.control r).1.reqs cfg c.control l1).2).length = _
        rw [List.length_cons, b, List.length_cons]
  have e2 := congrArg Prod.snd h5
  dsimp only at e2
  obtain ⟨a1, a2⟩ := happ l1 (.readState d :: l2) s4
  rw [← e2, hq, a1, List.getElem?_append_right (by omega), a2, Nat.sub_self]
  show some (Ans.state ((s4.reqs cfg c.control l1).1.shown cfg d)) = _
  have ho5 : OnOff cfg (if c.control then l1.filterMap Req.cmd else []) := by
    intro x hx
    refine ho2.1.2 x ?_
    cases hcc : c.control with
    | false => rw [hcc] at hx; exact absurd hx (by simp)
    | true =>
      rw [hcc, if_pos rfl] at hx
      rw [if_pos rfl, hq, List.filterMap_append]
      exact List.mem_append_left _ hx
  have hi5 := inv_reqs ha c.control l1 hi4 ho5
  rw [← absRun_append] at hi5
  have hout := hi5.out d hw
  rw [absRun_wanted] at hout
  unfold Sys.shown
  dsimp only
  rw [if_pos ⟨hw.1, by rw [(hi5.cnt _).1]; exact hw.2⟩, hout]
  rfl

example : ((run exCfg (Sys.init (fun _ => exNode) fun _ => 0)
      [exCycle 10 (fun _ => []) [] [.readState 1, .writeState 1 (some 1), .readState 1]]).map
      fun r => r.2.map fun x => x.answers) = some [[.state 0, .good, .state 1]] := by decide +kernel

/-- C146 does not hold for devices in manual mode: a request to set a state is answered with success though nothing changes,
from any state in which the device is in manual mode when the clients are served. -/
theorem C146_manual_violated {cfg : Cfg} {s s' : Sys} {c : Cycle} {rec : Rec} (hr : s.running = true) {d : Nat} {n : Int}
    (hm : s.manual d = true) (hs : c.server = []) (hc : c.control = true) (hq : c.opc = [.writeState d (some n)])
    (h : s.cycle cfg c = some (s', rec)) :
    rec.answers = [.good] ∧ s.cycle cfg { c with opc := [] } = some (s', { rec with answers := [] }) := by
  obtain ⟨s1, s2, h1, h2, h3⟩ := cycle_parts hr h
  have hm1 : s1.manual d = true := by
    have hprog : ∀ (l : List (Nat × Prog)) (s : Sys), (l.foldl (Sys.prog cfg) s).manual = s.manual := by
      intro l
      induction l with
      | nil => intro s; rfl
      | cons x l ih =>
        intro s
        rw [List.foldl_cons, ih]
        unfold Sys.prog Sys.output
        split
        · rfl
        · dsimp only
          split <;> rfl
    have hread : ∀ (m : Nat) (t : Sys), s.read c.rd m = some t → t.manual = s.manual := by
      intro m
      induction m with
      | zero => intro t h; cases h; rfl
      | succ m ih =>
        intro t h
        simp only [Sys.read, Option.bind_eq_some_iff] at h
        obtain ⟨u, hu, h⟩ := h
        split at h
        · rw [Option.map_eq_some_iff] at h
          obtain ⟨_, _, rfl⟩ := h
          exact ih u hu
        · cases h; exact ih _ hu
    have hwrite : ∀ (s : Sys) (m : Nat) (t : Sys × List (Nat × List Byte)), s.write c.wr m = some t →
        t.1.manual = s.manual := by
      intro s m
      induction m with
      | zero => intro t h; cases h; rfl
      | succ m ih =>
        intro t h
        simp only [Sys.write, Option.bind_eq_some_iff] at h
        obtain ⟨u, hu, h⟩ := h
        split at h
        · rw [Option.map_eq_some_iff] at h
          obtain ⟨_, _, rfl⟩ := h
          exact ih u hu
        · cases h; exact ih _ hu
    unfold Sys.control at h1
    simp only [Option.bind_eq_some_iff, Option.map_eq_some_iff] at h1
    obtain ⟨t, ht, w, hw, e⟩ := h1
    have e0 := congrArg Prod.fst e
    dsimp only at e0
    subst e0
    have e1 : t.manual = s.manual := by
      split at ht
      · cases ht; rfl
      · exact hread _ _ ht
    have e2 : w.1.manual = ((c.prog t.inputs).foldl (Sys.prog cfg) t).manual := by
      split at hw
      · cases hw; rfl
      · exact hwrite _ _ _ hw
    rw [e2, hprog, e1]
    exact hm
  unfold Sys.serve at h2
  rw [hs, hc, hq] at h2
  have hp : s1.prog cfg (d, .setState n) = s1 := by
    unfold Sys.prog
    rw [if_pos hm1]
  simp only [Sys.opers, Option.map_some, Sys.reqs, Sys.req, if_true, hp, Option.some.injEq, Prod.mk.injEq] at h2
  obtain ⟨e1, e2⟩ := h2
  refine ⟨e2.symm, ?_⟩
  unfold Sys.cycle
  rw [if_pos hr]
  have : s.control cfg { c with opc := [] } = s.control cfg c := rfl
  rw [this, h1]
  show (s1.serve cfg { c with opc := [] }).map _ = _
  unfold Sys.serve
  dsimp only
  rw [hs, h3, ← e1]
  rfl

/-- The motor in manual mode and off, a client asks for it to be on. -/
example : ((run exCfg (Sys.init (fun _ => exNode) fun _ => 0)
      [exCycle 10 (fun _ => []) [(1, .M (.num 1))] [], exCycle 20 (fun _ => []) [] [.writeState 1 (some 1)],
       exCycle 30 (fun _ => []) [] [.readState 1]]).map
      fun r => r.2.map fun x => (x.answers, x.sent.map fun q => q.2.drop 12)) =
    some [([], [[1, 0]]), ([.good], [[1, 0]]), ([.state 0], [[1, 0]])] := by decide +kernel

end Ptusa.MainLoop
