import Verif.Valve.Model

/-!
# What valves should do
-/
namespace Ptusa.Valve

/-- The feedback agrees with what the valve was told. -/
def agrees : Kind → Dv → Bool
  | .do1, _ | .do2, _ => true
  | .di1Off, v => v.x == !v.a
  | .di1On, v => v.x == v.a
  | .do1di2, v => v.x == v.a && v.y == !v.a
  | .do2di2, v => v.x == v.a && v.y == v.b
  | .mix, v => (v.x == v.a && v.y == !v.a) || (!v.a && (v.b || v.c))
  | .bistable, v => v.x != v.y

/-- The kinds with discrete feedback and an output that is held. -/
def Held (k : Kind) : Prop := k = .di1Off ∨ k = .di1On ∨ k = .do1di2 ∨ k = .do2di2 ∨ k = .mix

/-- The reported state is a feedback error. -/
def isError (n : Int) : Bool := n == -2 || n == -3 || n == -12 || n == -13

/-- The outputs. -/
def outputs (v : Dv) : Bool × Bool × Bool := (v.a, v.b, v.c)

/-- The moment from which the time for switching counts is set by an event: when the outputs change or a seat is opened,
and, for valves with one input, when the feedback is seen to agree. -/
def restarts (k : Kind) (pFb : Fl) (v : Dv) : Ev → Option Tm
  | .on t => if outputs (directOn k t v) ≠ outputs v then some t else none
  | .off t => if outputs (directOff k t v) ≠ outputs v then some t else none
  | .set t n => if outputs (directSet k t n v) ≠ outputs v ∨ (k = .mix ∧ (n = 2 ∨ n = 3)) then some t else none
  | .ask t _ => if (k = .di1Off ∨ k = .di1On) ∧ agrees k v = true ∧ pFb.eq (.num 0) = false then some t else none
  | _ => none

/-- The moment from which the time for switching counts after a history. -/
def since (k : Kind) (pOn pFb : Fl) (v : Dv) (t0 : Tm) : List Ev → Tm
  | [] => t0
  | e :: es =>
    match step k pOn pFb v e with
    | some v' => since k pOn pFb v' ((restarts k pFb v e).getD t0) es
    | none => t0

/-- Not two outputs at once. -/
def exclusive (v : Dv) : Prop := ¬ (v.a = true ∧ v.b = true) ∧ ¬ (v.a = true ∧ v.c = true) ∧ ¬ (v.b = true ∧ v.c = true)

/-- A repetition: a command `cmd`, a look at the state, a cycle, or inputs with which the feedback still disagrees with
the outputs `o`. -/
def Repeats (k : Kind) (o : Bool × Bool × Bool) (cmd : Ev → Prop) (e : Ev) : Prop :=
  cmd e ∨ (∃ t m, e = .ask t m) ∨ (∃ t, e = .tick t) ∨
    ∃ x y, e = .inputs x y ∧ ∀ v : Dv, outputs v = o → v.x = x → v.y = y → agrees k v = false

/-- Not two coils of an IO-Link valve at once. -/
def Iol.exclusive (v : Iol) : Prop :=
  ¬ (v.sv1 = true ∧ v.sv2 = true) ∧ ¬ (v.sv1 = true ∧ v.sv3 = true) ∧ ¬ (v.sv2 = true ∧ v.sv3 = true)

/-- The feedback of an IO-Link valve confirms what it was told: it is closed, open, or the seat is lifted, at rest. -/
def Iol.confirmed (v : Iol) : Bool :=
  v.st && (if v.sv1 then v.main else v.deEn || (v.sv2 && v.usl) || (v.sv3 && v.lsp))

end Ptusa.Valve
