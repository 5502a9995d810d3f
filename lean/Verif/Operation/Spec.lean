import Verif.Operation.Model

/-!
# What the operator manual says about operations

The state diagram of an operation, written down as a table, and what it means for a state to be
at rest.
-/
namespace Ptusa.Operation

/-- The commands that move an operation from state to state. -/
inductive Cmd
  | start | pause | stop | off
  deriving DecidableEq, Repr

/-- The state diagram.  `has s` says whether the transitional state `s` has any content: one
without content is passed over.  `none`: the command is not applicable. -/
def diagram (has : St → Bool) : Cmd → St → Option St
  | .start, .idle => some (if has .starting then .starting else .run)
  | .start, .starting => some .run
  | .start, .pause => some (if has .unpausing then .unpausing else .run)
  | .start, .unpausing => some .run
  | .pause, .run => some (if has .pausing then .pausing else .pause)
  | .pause, .pausing => some .pause
  | .stop, .run | .stop, .starting | .stop, .pausing | .stop, .pause | .stop, .unpausing =>
    some (if has .stopping then .stopping else .stop)
  | .stop, .stopping => some .stop
  | .off, .idle => none
  | .off, _ => some .idle
  | _, _ => none

/-- The command in a call, if it is one. -/
def Ev.cmd? : Ev → Option Cmd
  | .start .. => some .start
  | .startAgain .. => some .start
  | .pause .. => some .pause
  | .stop .. => some .stop
  | .switchOff .. => some .off
  | .finalize => some .off
  | _ => none

/-- The state after a call, according to the diagram. -/
def follow (has : St → Bool) (s : St) (ev : Ev) : St :=
  match ev.cmd? with
  | some k => (diagram has k s).getD s
  | none => s

/-- Whether, according to a log of calls, step `i` is in use: the last `init` or `finalize` of it
was an `init`. -/
def inUse (log : List Call) (i : Option Nat) : Bool :=
  log.foldl (fun b c => match c with
    | .init j => if j = i then true else b
    | .fin j => if j = i then false else b
    | .eval _ => b) false

/-- A state at rest: nothing is active in it. -/
structure Quiet (r : OpState) : Prop where
  mode : r.mode = false
  main : r.main = none
  extra : r.extra = []
  act : ∀ b ∈ r.act, b = false

/-- The steps evaluated by one pass over the list of active extra steps and the steps left in the
list, when the loop index is advanced after a removal: the step after a removed one is kept but
not looked at. -/
def passWithSkip (off : Nat → Bool) : List Nat → List Nat × List Nat
  | [] => ([], [])
  | [k] => ([k], if off (k - 1) then [] else [k])
  | k :: k2 :: ks =>
    if off (k - 1) then
      (k :: (passWithSkip off ks).1, k2 :: (passWithSkip off ks).2)
    else (k :: (passWithSkip off (k2 :: ks)).1, k :: (passWithSkip off (k2 :: ks)).2)

/-- The numbers (from 1) of the steps evaluated according to a log. -/
def evaluated (log : List Call) : List Nat :=
  log.filterMap fun c => match c with
    | .eval (some i) => some (i + 1)
    | _ => none

end Ptusa.Operation
