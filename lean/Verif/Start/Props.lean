import Verif.Start.Lemmas
import Verif.TechObj.Props

/-!
# C194: an operation is switched on only with its signals
-/
namespace Ptusa.Start
open Guard (given)
open TechObj (Cfg Ans Obj)

/-- An operation with the signals 1, 2; its step has the pair of the signal 3 and the valve 4. -/
def demoMode : Calls := { required := [(1, 0, 0), (2, 0, 0)] }
def demoStep : Calls := { diDo := [(3, 0, 0), (4, 0, 0), (5, 0, 1), (4, 0, 1)] }

/-- The devices: 1, 2 and 3 are signals, 4 is a valve, 5 a temperature switch. -/
def demoDev (on : Nat → Bool) (d : Nat) : Dev := ⟨if d = 4 then .V else if d = 5 then .TS else .DI, on d⟩

/-- **C194** Switching on is allowed exactly when each group for controlling outputs, in each step of the state "run" and in the operation
itself, begins with an input of the right kind and all required signals of the operation are there. -/
theorem C194_on (w : Nat → Dev) (mode : Calls) (steps : List Calls) :
    checkOn w mode.step (steps.map Calls.step) = some none ↔
      (∀ c ∈ steps ++ [mode], c.Right w) ∧ ∀ d ∈ given mode.required 0 0, (w d).active = true := on_none

example : checkOn (demoDev fun _ => true) demoMode.step ([{ diDo := [(3, 0, 0), (4, 0, 0)] }].map Calls.step) = some none := by decide

example : checkOn (demoDev (· != 2)) demoMode.step [] = some (some (.noSignal, 2)) := by decide

/-- **C194** A refusal names a device of which its text is true; the check always ends well. -/
theorem C194_reason (w : Nat → Dev) (mode : Calls) (steps : List Calls) :
    ∃ r, checkOn w mode.step (steps.map Calls.step) = some r ∧ ∀ x, r = some x → Truthful w mode steps x := by
  cases h : checkOn w mode.step (steps.map Calls.step) with
  | none => exact absurd h (on_defined w mode steps)
  | some r => exact ⟨r, rfl, fun x hx => on_some (hx ▸ h)⟩

example : checkOn (demoDev fun _ => true) demoMode.step ([{ diDo := [(3, 0, 0)], aiAo := [(4, 0, 0), (3, 0, 0)] }].map Calls.step) =
    some (some (.notAnalog, 4)) := by decide

/-- **C194** An operation that is off and is told to switch on is on afterwards only if the conditions hold; if they are all that fails,
the code is 1101 and nothing has changed. -/
theorem C194_command_partial (c : Cfg) (a : Ans) (ext : Option Nat) (m : Nat) (newm : Int) (o : Obj) (w : Nat → Dev) (mode : Calls)
    (steps : List Calls) (hm : 1 ≤ m ∧ m ≤ c.n) (hnew : newm ≠ 0 ∧ newm ≠ 2 ∧ newm ≠ 3) (hoff : o.getMode c m = 0)
    (ha : a.runChk = if checkOn w mode.step (steps.map Calls.step) = some none then 0 else 1) :
    ((o.setMode c a ext m newm).1.getMode c m = 1 →
      (∀ x ∈ steps ++ [mode], x.Right w) ∧ ∀ d ∈ given mode.required 0 0, (w d).active = true) ∧
    (a.devErr = false → (∀ i, c.own m i = true → o.getMode c i = 0) → ext = none →
      ¬((∀ x ∈ steps ++ [mode], x.Right w) ∧ ∀ d ∈ given mode.required 0 0, (w d).active = true) →
      o.setMode c a ext m newm = (o, 1101)) := by
  have h0 : m ≠ 0 := by omega
  have hn : ¬m > c.n := by omega
  rw [← C194_on]
  have hset : o.setMode c a ext m newm = if a.devErr = true ∧ a.checkMode = 1 then (o, (m : Int) + 1000)
      else if o.checkOn c a ext m = 0 then
        ({ (o.move c .start m).initMode c m with words := TechObj.setBit ((o.move c .start m).initMode c m).words (m - 1) }, 0)
      else (o, o.checkOn c a ext m + 100) := by
    unfold Obj.setMode
    rw [if_neg h0, if_neg hn, if_neg hnew.2.1, if_neg hnew.2.2]
    simp only [if_neg hnew.1, hoff]
    simp
  constructor
  · intro hon
    by_cases hc : checkOn w mode.step (steps.map Calls.step) = some none
    · exact hc
    · rw [if_neg hc] at ha
      have : (o.setMode c a ext m newm).1 = o := by
        rw [hset]
        split
        · rfl
        · split
          · next h =>
            exfalso
            unfold Obj.checkOn at h
            simp only [ha] at h
            split at h
            · split at h
              · omega
              · split at h
                · omega
                · simp at h
            · simp at h
          · rfl
      rw [this, hoff] at hon
      cases hon
  · intro hd hr he hc
    rw [if_neg hc] at ha
    have hchk : o.checkOn c a ext m = 1001 := by
      unfold Obj.checkOn
      have hf : Obj.firstOp c.n (fun i => c.own m i && o.getMode c i == 1) = none := by
        unfold Obj.firstOp
        rw [List.find?_eq_none]
        intro i _
        cases ho : c.own m i with
        | false => simp
        | true => simp [hr i ho]
      simp only [hf, he, ha]
      split <;> simp
    rw [hset, hchk, hd]
    simp

/-- The signal 2 is missing: the command is refused; with it the operation is on. -/
example :
    (Obj.fresh { n := 3 }).setMode { n := 3 } { runChk := 1 } none 2 1 = (Obj.fresh { n := 3 }, 1101) ∧
    checkOn (demoDev (· != 2)) demoMode.step [] ≠ some none ∧
    checkOn (demoDev fun _ => true) demoMode.step [] = some none ∧
    ((Obj.fresh { n := 3 }).setMode { n := 3 } {} none 2 1).1.getMode { n := 3 } 2 = 1 := by decide

/-- What is missing in `C194_command_partial`: after a command "pause" for an operation that is off, the command "on" starts it whatever
the result of the check. -/
theorem C194_pause_violated (w : Nat → Dev) (mode : Calls) (steps : List Calls) (a : Ans)
    (ha : a = { runChk := if checkOn w mode.step (steps.map Calls.step) = some none then 0 else 1 }) :
    ((((Obj.fresh { n := 1 }).setMode { n := 1 } a none 1 2).1.setMode { n := 1 } a none 1 1).1.ops,
      (((Obj.fresh { n := 1 }).setMode { n := 1 } a none 1 2).1.setMode { n := 1 } a none 1 1).2) = ([.run], 0) := by
  subst ha
  split <;> decide

/-- Required signals given to a step of the operation, and not to the operation itself, are never looked at. -/
theorem C194_step_violated (w : Nat → Dev) (mode : Calls) (steps : List (Calls × List (Nat × Nat × Nat))) :
    checkOn w mode.step (steps.map fun x => Calls.step { x.1 with required := x.2 }) = checkOn w mode.step (steps.map fun x => x.1.step) := by
  induction steps with
  | nil => rfl
  | cons x l ih =>
    simp only [List.map_cons, checkOn, ih]
    rfl

example : checkOn (demoDev fun _ => false) {} [Calls.step { required := [(1, 0, 0)] }] = some none := by decide

/-- A temperature switch and a switch of differential pressure, which are digital inputs as the others, may not begin a group: the operation
is never switched on. -/
theorem C194_kinds_violated (w : Nat → Dev) (mode c : Calls) (steps : List Calls) (k d : Nat) (hc : c ∈ steps)
    (hd : (given c.diDo 0 k).head? = some d) (ht : (w d).ty = .TS ∨ (w d).ty = .PDS) :
    checkOn w mode.step (steps.map Calls.step) ≠ some none := by
  rw [Ne, C194_on]
  intro h
  have := (h.1 c (by simp [hc])).1 k d hd
  rcases ht with ht | ht <;> rw [ht] at this <;> revert this <;> decide

example : checkOn (demoDev fun _ => true) demoMode.step ([demoStep].map Calls.step) = some (some (.notDigital, 5)) := by decide

end Ptusa.Start
