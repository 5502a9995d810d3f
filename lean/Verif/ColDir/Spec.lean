import Verif.ColDir.Model

/-!
# What commands of a signal column should do

Each light is a lamp of its own (`Column.Lamp`), driven by the commands which concern it.
-/
namespace Ptusa.ColDir
open Column (Lamp)

/-- What a command orders for one light. -/
inductive Order
  | off
  | on
  | blink (now delay : BitVec 64)

/-- The place of a lamp in the groups of commands. -/
def place : Light → Int
  | .green => 0
  | .yellow => 1
  | .red => 2
  | .blue => 3
  | .siren => 16

/-- The order of command `n` for a light: 0 – all off, 1 – green only, 2 – lamps off; lamps: from 3 on, from 7 off, from 11 blink twice a
second, from 15 blink once in two seconds; siren: 19 on, 20 off. A red lamp which blinks by itself is switched on instead. -/
def order (constRed : Bool) (now : BitVec 64) (n : Int) (x : Light) : Option Order :=
  if n = 0 then some .off
  else if n = 1 then some (if x = .green then .on else .off)
  else if x = .siren then if n = 19 then some .on else if n = 20 then some .off else none
  else if n = 2 then some .off
  else if n = 3 + place x then some .on
  else if n = 7 + place x then some .off
  else if n = 11 + place x then some (if x = .red ∧ constRed = false then .on else .blink now 250)
  else if n = 15 + place x then some (if x = .red ∧ constRed = false then .on else .blink now 1000)
  else none

/-- A lamp gets an order. -/
def obey (l : Lamp) : Option Order → Lamp
  | none => l
  | some .off => l.turnOff
  | some .on => l.turnOn
  | some (.blink now delay) => l.blink now delay

/-- Whether the red lamp is to be made to blink, after a history. -/
def constRed (es : List Ev) : Bool := es.foldl (fun b e => match e with | .constRed v => v | .cmd .. => b) false

/-- The order of an event for a light, after a history. -/
def orderOf (before : List Ev) (x : Light) : Ev → Option Order
  | .cmd n now => order (constRed before) now n x
  | .constRed _ => none

/-- The orders for a light in a history that goes on after `before`. -/
def orders (x : Light) : List Ev → List Ev → List Order
  | _, [] => []
  | before, e :: es => (orderOf before x e).toList ++ orders x (before ++ [e]) es

/-- The lamp after a history. -/
def alone (x : Light) (es : List Ev) : Lamp := (orders x [] es).foldl (fun l o => obey l (some o)) {}

/-- The light of a letter. -/
def lightOf (ch : Char) : Option Light :=
  if ch = 'R' then some .red else if ch = 'Y' then some .yellow else if ch = 'G' then some .green
  else if ch = 'B' then some .blue else if ch = 'A' then some .siren else none

/-- The light at output `i` of a column with the given sequence of signals: a letter stands for its light where it comes first. -/
def lightAt (s : List Char) (i : Nat) : Option Light :=
  match s[i]? with
  | none => none
  | some ch => if ch ∈ s.take i then none else lightOf ch

end Ptusa.ColDir
