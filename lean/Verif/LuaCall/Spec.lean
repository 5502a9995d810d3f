import Verif.LuaCall.Model

/-!
# What a call of the script should do
-/
namespace Ptusa.LuaCall

/-- What the script makes of a call. -/
inductive Outcome where
  /-- the function answers -/
  | answer (v : Val)
  /-- there is no such object -/
  | noObject
  /-- the object has no such function -/
  | noFunction (t : Nat)
  /-- the function raises an error -/
  | failed (e : Val)
  /-- the object is not a table -/
  | broken

/-- Calling a value. -/
def World.callVal (w : World) (args : List Val) : Val → Outcome
  | .fn f => match w.call f args with
    | .ok v => .answer v
    | .error e => .failed e
  | _ => .failed (.str w.noFun)

/-- Parameters as the script sees them. -/
def nums (ps : List Int) : List Val := ps.map fun (p : Int) => .num (.num p)

/-- A method of an object gets the object and the parameters, a global function the parameters. -/
def World.outcome (w : World) (obj : Option Nat) (fn : Nat) (params : List Int) : Outcome :=
  match obj with
  | none => w.callVal (nums params) (w.global fn)
  | some o =>
    match w.global o with
    | .nil => .noObject
    | .tbl t =>
      match w.field t fn with
      | .nil => .noFunction t
      | v => w.callVal (.tbl t :: nums params) v
    | _ => .broken

/-- The whole number an answer stands for (0 when it is no number). -/
def Val.whole : Val → Option Int
  | .num q => Device.toInt32 q
  | _ => some 0

/-- The result of a call that asks for a number, `failed` when there is no answer. -/
def Outcome.int (failed : Int) : Outcome → Option Int
  | .answer v => v.whole
  | .broken => none
  | _ => some failed

/-- What the caller should get. -/
def Call.expected (w : World) : Call → Option Int
  | .int1 o f p => (w.outcome o f [p]).int (-1)
  | .int2 o f p q => (w.outcome o f [p, q]).int (-1)
  | .int0 o f => (w.outcome o f []).int 1
  | .void o f =>
    match w.outcome o f [] with
    | .answer _ => some 0
    | .broken => none
    | _ => some 1
  | .check o f m s =>
    match w.global o with
    | .nil => some 0
    | .tbl t =>
      match w.field t f with
      | .fn _ => (w.outcome (some o) f [m, if s then 1 else 0]).int (-1)
      | _ => some 0
    | _ => none

/-- The error object a call raises, if any. -/
def Outcome.error : Outcome → Option Val
  | .failed e => some e
  | _ => none

/-- The error object raised during a call. -/
def Call.error (w : World) : Call → Option Val
  | .int1 o f p => (w.outcome o f [p]).error
  | .int2 o f p q => (w.outcome o f [p, q]).error
  | .int0 o f => (w.outcome o f []).error
  | .void o f => (w.outcome o f []).error
  | .check o f m s =>
    match w.global o with
    | .tbl t =>
      match w.field t f with
      | .fn _ => (w.outcome (some o) f [m, if s then 1 else 0]).error
      | _ => none
    | _ => none

/-- Text of an error object. -/
def Val.text (w : World) : Val → Option Text
  | .str t => some t
  | .num q => some (w.numText q)
  | _ => none

/-- Texts of the errors raised in a history. -/
def errorsOf (h : List (World × Call)) : List Text :=
  h.filterMap fun c => (c.2.error c.1).bind (Val.text c.1)

/-- Elements of a list without repetitions, at their first place. -/
def firsts (seen : List Text) : List Text → List Text
  | [] => []
  | t :: ts => if t ∈ seen then firsts seen ts else t :: firsts (t :: seen) ts

/-- Values that a call leaves on the stack of the interpreter. -/
def Outcome.left : Outcome → Nat
  | .answer _ => 0
  | .noObject => 2
  | .noFunction _ => 3
  | .failed _ => 1
  | .broken => 0

/-- The same for all calls. -/
def Call.left (w : World) : Call → Nat
  | .int1 o f p => (w.outcome o f [p]).left
  | .int2 o f p q => (w.outcome o f [p, q]).left
  | .int0 o f => (w.outcome o f []).left
  | .void o f => (w.outcome o f []).left
  | .check o f m s =>
    match w.global o with
    | .tbl t =>
      match w.field t f with
      | .fn _ => (w.outcome (some o) f [m, if s then 1 else 0]).left + 1
      | _ => 1
    | _ => 0

/-- The interpreter after the start. -/
def Lua.fresh : Lua := ⟨[], [], []⟩

end Ptusa.LuaCall
