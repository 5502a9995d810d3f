import Verif.ParOut.Lemmas

/-!
# C228 — A parallel step drives its devices as long as it is active
-/
namespace Ptusa.ParOut

open Operation (Call SCfg Env OpState)
open StepOut (Devs Free cmds lastOn out_snoc fold_eval fold_fin)

/-- **C228, in part.**  After any history of an operation's state the device of a step that is used in parallel only was last switched on exactly if the step is
among the active parallel ones: switched on by command or by signal, while the main step changes, until it is switched off by command, by signal or with the state. -/
theorem C228_parallel_partial (c : SCfg) (dev : Option Nat → Devs) (k d : Nat) (ho : Only dev k d) (h : List Ev) (hp : Parallel c k h) (r : OpState) (hr : run c h = some r) :
    isOn dev d r = true ↔ k + 1 ∈ r.extra :=
  (inv_run ho c h hp h (fun _ hv => hv) _ r ⟨by simp, List.not_mem_nil, List.nodup_nil, ⟨fun x => (by cases x), fun x => (by cases x)⟩⟩
    (by show (-1 : Int) ≠ k + 1; omega) hr).out

/-- What the calls make of the output of a device. -/
theorem isOn_log (dev : Option Nat → Devs) (d : Nat) (r : OpState) : isOn dev d r = r.log.foldl (fun b x => (cmds dev x).foldl (StepOut.cmd1 d) b) false := by
  unfold isOn
  generalize r.log = l
  induction l using List.reverseRecOn with
  | nil => rfl
  | append_singleton l x ih => rw [out_snoc, List.foldl_append, ih]; rfl

theorem fold_init (dev : Option Nat → Devs) (d : Nat) (i : Option Nat) (b : Bool) : (cmds dev (.init i)).foldl (StepOut.cmd1 d) b = b := rfl

/-- **C228 (violated).**  A device of the main step 1 and of the parallel step 3: in the pass in which step 1 is followed by step 2 it is switched off, although the
parallel step stays active. -/
theorem C228_shared_violated (dev : Option Nat → Devs) (d : Nat) (h0 : Free dev none d) (h1 : d ∈ (dev (some 0)).on) (h2 : Free dev (some 1) d) :
    ∃ r, run { steps := 3 } [.main (.init {} 1), .onExtra {} 3, .main (.evaluate { jump := fun _ => some 2 })] = some r ∧ isOn dev d r = false ∧ 3 ∈ r.extra := by
  refine ⟨_, rfl, ?_, by decide⟩
  rw [isOn_log]
  show ([.init none, .init (some 0), .eval (some 0), .init (some 2), .eval (some 2), .eval none, .eval (some 2), .fin (some 0), .init (some 1), .eval (some 1), .eval (some 1)] :
    List Call).foldl (fun b x => (cmds dev x).foldl (StepOut.cmd1 d) b) false = false
  simp only [List.foldl_cons, List.foldl_nil, fold_eval, fold_fin, fold_init]
  simp [h1, h2.1, h2.2]

/-- **C228 (violated).**  A parallel step that its check refuses, with an error as the answer, drives its devices from the next pass on. -/
theorem C228_refused_violated (dev : Option Nat → Devs) (d : Nat) (h0 : Free dev (some 0) d) (h1 : d ∈ (dev (some 1)).on) (h1' : d ∉ (dev (some 1)).off) :
    ∃ r r', run { steps := 2 } [.main (.init {} 1)] = some r ∧ (r.onExtra { steps := 2 } { checkOk := fun _ => false } 2).map Prod.snd = some 1 ∧
      run { steps := 2 } [.main (.init {} 1), .onExtra { checkOk := fun _ => false } 2, .main (.evaluate {})] = some r' ∧ isOn dev d r' = true := by
  refine ⟨_, _, rfl, by decide, rfl, ?_⟩
  rw [isOn_log]
  show ([.init none, .init (some 0), .eval (some 0), .eval none, .eval (some 1), .eval (some 0)] : List Call).foldl
    (fun b x => (cmds dev x).foldl (StepOut.cmd1 d) b) false = true
  simp only [List.foldl_cons, List.foldl_nil, fold_eval, fold_init]
  simp [h0.1, h0.2, h1, h1']

/-- **C228 (violated).**  Switching over from one parallel step to another that is active already makes it active twice: after it is switched off, the next pass
switches its devices on again. -/
theorem C228_twice_violated (dev : Option Nat → Devs) (d : Nat) (h0 : Free dev (some 0) d) (h1 : d ∈ (dev (some 2)).on) (h1' : d ∉ (dev (some 2)).off) :
    ∃ r, run { steps := 3 } [.main (.init {} 1), .onExtra {} 2, .onExtra {} 3, .switchExtra 2 3, .offExtra 3, .main (.evaluate {})] = some r ∧ isOn dev d r = true := by
  refine ⟨_, rfl, ?_⟩
  rw [isOn_log]
  show ([.init none, .init (some 0), .eval (some 0), .init (some 1), .eval (some 1), .init (some 2), .eval (some 2), .fin (some 1), .init (some 2), .eval (some 2), .fin (some 2),
    .eval none, .eval (some 2), .eval (some 0)] : List Call).foldl (fun b x => (cmds dev x).foldl (StepOut.cmd1 d) b) false = true
  simp only [List.foldl_cons, List.foldl_nil, fold_eval, fold_fin, fold_init]
  simp [h0.1, h0.2, h1, h1']

/-- Step 1 and 2 in turn, step 3 in parallel from a signal on. -/
def exDev : Option Nat → Devs
  | some 0 => { on := [3], off := [4] }
  | some 1 => { on := [4] }
  | some 2 => { on := [5] }
  | _ => {}

def exRun : List Ev :=
  [.main (.init {} 1), .main (.evaluate { onSig := fun i => i == 2 }), .main (.evaluate { jump := fun i => if i = 0 then some 2 else none })]

def exCfg : SCfg := { steps := 3, next := fun i => if i = 0 then 2 else 1 }

example : Only exDev 2 5 := by
  refine ⟨by decide, by decide, ?_⟩
  intro i hi
  match i with
  | none => exact ⟨by decide, by decide⟩
  | some 0 => exact ⟨by decide, by decide⟩
  | some 1 => exact ⟨by decide, by decide⟩
  | some 2 => exact absurd rfl hi
  | some (_ + 3) => exact ⟨List.not_mem_nil, List.not_mem_nil⟩

example : Parallel exCfg 2 exRun := by
  refine ⟨?_, ?_, ?_, ?_, ?_⟩
  · intro m
    show (if m = 0 then (2 : Int) else 1) ≠ 2 + 1 ∧ ((if m = 0 then (2 : Int) else 1) = -1 → m + 1 ≠ 2)
    by_cases z : m = 0 <;> simp [z]
  · intro v hv
    simp only [exRun, List.mem_cons, List.not_mem_nil, or_false, Ev.main.injEq] at hv
    rcases hv with rfl | rfl | rfl <;> simp [goesTo]
  · intro v e hv he
    simp only [exRun, List.mem_cons, List.not_mem_nil, or_false, Ev.main.injEq] at hv
    rcases hv with rfl | rfl | rfl <;> cases he <;> refine ⟨fun i => ?_, rfl⟩
    · simp
    · simp
    · by_cases z : i = 0 <;> simp [z]
  · intro e i hv
    simp [exRun] at hv
  · intro a b hv
    simp [exRun] at hv

example : (run exCfg exRun).map (fun r => (r.main, r.extra, isOn exDev 5 r, isOn exDev 3 r, isOn exDev 4 r)) = some (some 1, [3], true, false, true) := by decide

end Ptusa.ParOut
