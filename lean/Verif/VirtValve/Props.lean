import Verif.VirtValve.Lemmas

/-!
# C235: virtual valves
-/
namespace Ptusa.VirtValve
open Ptusa.ValveOff (S)
open Ptusa.ValveOff (Tm)

/-- **C235** (part: the state) After any history of any valves a virtual valve shows the number that it would have on its own: with
modules by the table of states, without them as it is. -/
theorem C235_state_partial (emu : Bool) (h : List Act) (i : Nat) :
    shown emu h i = if emu then (Vv.after i h).number else label (Vv.after i h).manual (Vv.after i h).number := by
  have e := view_run emu i h
  have n : ((run emu h).vs i).body.state = (Vv.after i h).number := congrArg Vv.number e
  have m : ((run emu h).vs i).manual = (Vv.after i h).manual := congrArg Vv.manual e
  unfold shown
  rw [m]
  unfold getState valveState
  rw [n]
  generalize (Vv.after i h).number = x
  generalize (Vv.after i h).manual = b
  cases emu with
  | true => rfl
  | false =>
    simp only [Bool.false_eq_true, if_false, label]
    by_cases c3 : x = 3
    · subst c3; cases b <;> rfl
    by_cases c2 : x = 2
    · subst c2; cases b <;> rfl
    by_cases c1 : x = 1
    · subst c1; cases b <;> rfl
    by_cases c0 : x = 0
    · subst c0; cases b <;> rfl
    have c : ¬ (0 ≤ x ∧ x ≤ 3) := by omega
    simp only [c3, c2, c1, c0, c, if_false]

/-- Valve 1 opened by the program, asked to close at 1000 with a delay of 500 ms, in manual mode at the end; valve 2 gets a number
without a meaning. -/
example :
    let h : List Act := [.on 1 0, .set 2 10 7, .off 1 1000, .evaluate 1500 500 0]
    shown false h 1 = 1 ∧ shown false h 2 = 100 ∧ shown true h 2 = 7 ∧
      shown false (h ++ [.evaluate 1501 500 0, .manual 1 true]) 1 = 20 := by
  decide +kernel

/-- **C235** (part: without modules) A virtual valve is opened or closed as was set by name last. -/
theorem C235_feedback_partial (h : List Act) (i : Nat) :
    isOpened ((run true h).vs i).body = fbOf i true h ∧ isClosed ((run true h).vs i).body = fbOf i false h :=
  ⟨fb_run true i true h, fb_run true i false h⟩

/-- Opened by name, of two valves. -/
example : isOpened ((run true [.fb 1 true true, .fb 2 true true, .fb 1 true false, .fb 1 false true]).vs 2).body = true ∧
    isOpened ((run true [.fb 1 true true, .fb 1 true false, .fb 1 false true]).vs 1).body = false := by
  decide +kernel

/-- **C235 is false of the code** as to the feedbacks: with modules a virtual valve is neither opened nor closed, whatever its
state. -/
theorem C235_feedback_violated (h : List Act) (i : Nat) :
    isOpened ((run false h).vs i).body = false ∧ isClosed ((run false h).vs i).body = false :=
  ⟨fb_run false i true h, fb_run false i false h⟩

end Ptusa.VirtValve
