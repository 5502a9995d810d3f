import Verif.StepOut.Lemmas
import Verif.MainLoop.Props

/-!
# C227 — The outputs are those of the current step
-/
namespace Ptusa.StepOut

open Operation (Call SCfg Env OpState)
open Device (Prog)
open MainLoop (Cfg Cycle Sys Rec Apart Small OnOff commands)
open Coupler (Node SetsBits)
open Tcp (Byte Buf)

/-- **C227, in part.**  After any history the last command to a device that the state as a whole does not list was to switch it on exactly if the current step asks
for it: through all changes of steps, by time, by conditions, by the operator, and when the state is left. -/
theorem C227_step_partial (c : SCfg) (dev : Option Nat → Devs) (z : Nat → Bool) (h : List Ev) (hp : proper false h = true) (hs : Steady z h) (d : Nat) (hd : Free dev none d) :
    lastOn d (given c dev h) = true ↔ Asks z dev (run c h).main d := by
  obtain ⟨b, g⟩ := inv_run hd c h false _ (inv_fresh z dev d c) hp hs
  have e : lastOn d (given c dev h) = ask z dev (run c h).main d := g.outs
  rw [e]
  unfold ask
  simp

/-- **C227, in part.**  A device listed by the state as a whole and by no step is switched on in each pass, and off when the state is left. -/
theorem C227_state_partial (c : SCfg) (dev : Option Nat → Devs) (z : Nat → Bool) (h : List Ev) (e : Env) (hp : proper false (h ++ [.evaluate e]) = true)
    (hs : Steady z (h ++ [.evaluate e])) (d : Nat) (hd : ∀ i, Free dev (some i) d) (hon : d ∈ (dev none).on) (hoff : d ∉ (dev none).off) :
    lastOn d (given c dev (h ++ [.evaluate e])) = true ∧ lastOn d (given c dev (h ++ [.evaluate e, .finalize])) = false := by
  have hx : (run c h).extra = [] ∧ (run c (h ++ [.evaluate e])).extra = [] := by
    -- a device in no list at all shows that there are no parallel steps
    have key : ∀ g : List Ev, proper false g = true → Steady z g → (run c g).extra = [] := by
      intro g h1 h2
      obtain ⟨b, k⟩ := inv_run (dev := fun _ => {}) (d := 0) ⟨List.not_mem_nil, List.not_mem_nil⟩ c g false _ (inv_fresh z _ 0 c) h1 h2
      exact k.extra
    have hpre : ∀ (g : List Ev) (v : Ev) (b : Bool), proper b (g ++ [v]) = true → proper b g = true := by
      intro g v
      induction g with
      | nil => exact fun b _ => rfl
      | cons w g ih =>
        intro b hb
        cases w <;> simp only [List.cons_append, proper, Bool.and_eq_true] at hb ⊢
        · exact ⟨hb.1, ih _ hb.2⟩
        · exact ⟨hb.1, ih _ hb.2⟩
        · exact ⟨hb.1, ih _ hb.2⟩
        · exact ⟨hb.1, ih _ hb.2⟩
        · exact ⟨hb.1, ih _ hb.2⟩
        · exact ih _ hb
    exact ⟨key h (hpre h _ false hp) (fun v hv => hs v (List.mem_append_left _ hv)), key _ hp hs⟩
  have q : Quiet z e := hs (.evaluate e) (by simp) e rfl
  constructor
  · show out dev d (run c (h ++ [.evaluate e])) = true
    rw [run_snoc]
    show out dev d ((run c h).evaluate c e).1 = true
    rw [evaluate_eq c e _ hx.1 q.2.2, out_evalMain dev d hd]
    show lastOn d (((run c h).log ++ [Call.eval none]).flatMap (cmds dev)) = true
    rw [out_snoc, fold_eval, if_neg hoff, if_pos hon]
  · show out dev d (run c (h ++ [.evaluate e, .finalize])) = false
    rw [show h ++ [Ev.evaluate e, Ev.finalize] = (h ++ [.evaluate e]) ++ [.finalize] by simp, run_snoc]
    show out dev d (run c (h ++ [.evaluate e])).finalize = false
    have h2 := hx.2
    generalize run c (h ++ [.evaluate e]) = r at h2 ⊢
    have e1 : out dev d ({ r with mode := false, log := r.log ++ [.fin none] } : OpState) = false := by
      show lastOn d ((r.log ++ [Call.fin none]).flatMap (cmds dev)) = false
      rw [out_snoc, fold_fin, if_neg hoff, if_pos hon]
    have e2 := (out_finMain dev d hd { r with mode := false, log := r.log ++ [.fin none] }).trans e1
    have e3 : ({ r with mode := false, log := r.log ++ [.fin none] } : OpState).finMain.extra = [] := by
      unfold OpState.finMain
      cases r.main <;> exact h2
    unfold OpState.finalize
    simp only [e3]
    exact e2

/-- **C227, in part.**  As the program of the main loop: in each message for a coupler the output of such a device, which nobody else commands, is on exactly if the current step asks for it. -/
theorem C227_message_partial {cfg : Cfg} {nodes : Nat → Node} (ha : Apart cfg) (hsm : Small nodes) (buf : Buf)
    (pre : List Cycle) (cy : Cycle) {s s' : Sys} {recs : List Rec} {rec : Rec} (hst : ∀ x ∈ pre, x.stop = false)
    (hr : MainLoop.run cfg (Sys.init nodes buf) pre = some (s, recs)) (hc : s.cycle cfg cy = some (s', rec))
    (ho : OnOff cfg (commands (pre.zip recs) ++ cy.first rec.inp))
    (c : SCfg) (dev : Option Nat → Devs) (z : Nat → Bool) (h : List Ev) (hp : proper false h = true) (hs : Steady z h)
    (hprog : ((pre.zip recs).flatMap fun x => x.1.prog x.2.inp) ++ cy.prog rec.inp = given c dev h)
    (d : Nat) (hd : Free dev none d) (hx : ∀ x ∈ pre, ∀ y ∈ x.second, y.1 ≠ d)
    (k i : Nat) (hpl : cfg.place d = (k, i)) (hi : i < (nodes k).doCnt) (req : List Byte) (hq : (k, req) ∈ rec.sent) :
    ∃ f, SetsBits req (nodes k).doCnt f ∧ (f i = true ↔ Asks z dev (run c h).main d) := by
  obtain ⟨-, f, h1, h2, -⟩ := MainLoop.C144_outputs_partial ha hsm buf pre cy hst hr hc ho hq
  refine ⟨f, h1, ?_⟩
  rw [← C227_step_partial c dev z h hp hs d hd, h2 d i hpl hi, ← hprog]
  have hx' : ∀ x ∈ pre.zip recs, ∀ y ∈ x.1.second, y.1 ≠ d := fun x hx1 => hx x.1 (List.of_mem_zip hx1).1
  rw [cmdsFor_append, cmdsFor_commands d _ hx']
  have e2 : MainLoop.cmdsFor d (cy.first rec.inp) = _ := cmdsFor_prog d (cy.prog rec.inp)
  rw [e2, ← List.map_append, ← List.map_append, ← List.filter_append, hprog]
  unfold MainLoop.wanted
  rw [want_prog _ _ _ rfl]
  · have := lastOn_filter d (given c dev h) false
    exact ⟨fun x => this.trans x, fun x => this.symm.trans x⟩
  · intro p hp'
    obtain ⟨x, hx1, rfl⟩ := List.mem_map.1 hp'
    exact given_onOff c dev h x (List.mem_filter.1 hx1).1

/-- **C227 (violated).**  A device listed by the state as a whole and by its first step, but not by the second: in the pass that goes on to the second step it is
switched off, although the state asks for it, and in the next pass on again. -/
theorem C227_state_violated (dev : Option Nat → Devs) (d : Nat) (h0 : d ∈ (dev none).on) (h0' : d ∉ (dev none).off) (h1 : d ∈ (dev (some 0)).on) (h1' : d ∉ (dev (some 0)).off)
    (h2 : Free dev (some 1) d) :
    let h := [Ev.init {} 1, .evaluate {}]
    lastOn d (given { steps := 2 } dev h) = true ∧ lastOn d (given { steps := 2 } dev (h ++ [.evaluate { jump := fun _ => some 2 }])) = false ∧
      lastOn d (given { steps := 2 } dev (h ++ [.evaluate { jump := fun _ => some 2 }, .evaluate {}])) = true := by
  have g : ∀ l : List Call, lastOn d (l.flatMap (cmds dev)) = l.foldl (fun b x => (cmds dev x).foldl (cmd1 d) b) false := by
    intro l
    induction l using List.reverseRecOn with
    | nil => rfl
    | append_singleton l x ih => rw [out_snoc, List.foldl_append, ih]; rfl
  have l1 : (run { steps := 2 } [Ev.init {} 1, .evaluate {}]).log = [.init none, .init (some 0), .eval (some 0), .eval none, .eval (some 0)] := by decide
  have l2 : (run { steps := 2 } ([Ev.init {} 1, .evaluate {}] ++ [.evaluate { jump := fun _ => some 2 }])).log =
      [.init none, .init (some 0), .eval (some 0), .eval none, .eval (some 0), .eval none, .fin (some 0), .init (some 1), .eval (some 1), .eval (some 1)] := by decide
  have l3 : (run { steps := 2 } ([Ev.init {} 1, .evaluate {}] ++ [.evaluate { jump := fun _ => some 2 }, .evaluate {}])).log =
      [.init none, .init (some 0), .eval (some 0), .eval none, .eval (some 0), .eval none, .fin (some 0), .init (some 1), .eval (some 1), .eval (some 1),
        .eval none, .eval (some 1)] := by decide
  have i0 : ∀ i b, (cmds dev (.init i)).foldl (cmd1 d) b = b := fun _ _ => rfl
  refine ⟨?_, ?_, ?_⟩
  · unfold given
    rw [l1, g]
    simp [fold_eval, i0, h0, h0', h1, h1']
  · unfold given
    rw [l2, g]
    simp [fold_eval, fold_fin, i0, h1, h1', h2.1, h2.2]
  · unfold given
    rw [l3, g]
    simp [fold_eval, h0, h0', h2.1, h2.2]

/-- **C227 (violated).**  A step of duration 0 is to be passed over; reached by a condition it switches its devices on in this pass, without having begun. -/
theorem C227_zero_violated (dev : Option Nat → Devs) (d : Nat) (h2 : d ∈ (dev (some 1)).on) (h2' : d ∉ (dev (some 1)).off) :
    let z : Nat → Bool := fun i => i == 1
    let h := [Ev.init { zeroDur := z } 1, .evaluate { zeroDur := z, jump := fun _ => some 2 }]
    lastOn d (given { steps := 3, next := fun _ => 3 } dev h) = true ∧ Call.init (some 1) ∉ (run { steps := 3, next := fun _ => 3 } h).log := by
  have l1 : (run { steps := 3, next := fun _ => 3 } [Ev.init { zeroDur := fun i => i == 1 } 1, .evaluate { zeroDur := fun i => i == 1, jump := fun _ => some 2 }]).log =
      [.init none, .init (some 0), .eval (some 0), .eval none, .fin (some 0)] ++ [.eval (some 1)] := by decide
  refine ⟨?_, by rw [l1]; decide⟩
  unfold given
  rw [l1, out_snoc, fold_eval, if_neg h2', if_pos h2]

/-- Two steps, the first with a pump, the second with a valve; the first ends by time. -/
def exDev : Option Nat → Devs
  | some 0 => { on := [3], off := [4] }
  | some 1 => { on := [4] }
  | _ => { on := [7] }

def exRun : List Ev := [.init {} 1, .evaluate {}, .evaluate { elapsed := fun i => i == 0 }, .evaluate {}]

example : proper false exRun = true ∧ Steady (fun _ => false) exRun ∧ (run { steps := 2, next := fun _ => 2 } exRun).main = some 1 ∧
    [3, 4, 7].map (fun d => lastOn d (given { steps := 2, next := fun _ => 2 } exDev exRun)) = [false, true, true] := by
  refine ⟨rfl, ?_, by decide, by decide⟩
  intro v hv e he
  simp only [exRun, List.mem_cons, List.not_mem_nil, or_false] at hv
  rcases hv with rfl | rfl | rfl | rfl <;> cases he <;> exact ⟨rfl, fun _ _ _ => rfl, fun _ => rfl⟩

/-- Devices 0 and 1 of the main loop: the first step has the signal, the second the motor. -/
def exTwo : Option Nat → Devs
  | some 0 => { on := [0] }
  | some 1 => { on := [1] }
  | _ => {}

/-- Two passes of the main loop with this program: the commands are those of the history, and the messages carry the signal, then the motor. -/
example :
    let c : SCfg := { steps := 2, next := fun _ => 2 }
    let h1 := [Ev.init {} 1, .evaluate {}]
    let h2 := h1 ++ [.evaluate { elapsed := fun i => i == 0 }]
    let p1 := given c exTwo h1
    let p2 := (given c exTwo h2).drop p1.length
    p1 ++ p2 = given c exTwo h2 ∧
    ((MainLoop.run MainLoop.exCfg (Sys.init (fun _ => MainLoop.exNode) fun _ => 0)
      [MainLoop.exCycle 10 (fun _ => p1) [] [], MainLoop.exCycle 20 (fun _ => p2) [] []]).map
      fun r => r.2.map fun x => x.sent.map fun q => (q.1, q.2.drop 12)) = some [[(0, [1, 1])], [(0, [1, 2])]] := by decide +kernel

end Ptusa.StepOut
