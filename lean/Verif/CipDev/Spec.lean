import Verif.CipDev.Model
import Verif.Registry.Spec

/-!
# Which device a parameter means
-/
namespace Ptusa.CipDev
open Ptusa.Registry

/-- The device at the place `i` of the description has this type and name. -/
def IsNamed (rs : List Reg) (t : Int) (name : Name) (i : Nat) : Prop := ∃ r, rs[i]? = some r ∧ r.type = t ∧ r.name = name

/-- The device at the place `i` has this type. -/
def IsTyped (rs : List Reg) (t : Int) (i : Nat) : Prop := ∃ r, rs[i]? = some r ∧ r.type = t

/-- Ways in which a number means a device. -/
inductive Way where
  | name (t : Int) (n : Name)
  | place (t : Int) (i : Nat)

/-- A way leads to the device at place `i`. -/
def Way.To (rs : List Reg) : Way → Nat → Prop
  | .name t n, i => IsNamed rs t n i
  | .place t p, i => i = p ∧ IsTyped rs t p

/-- The names of signals, as in descriptions of projects: `LINE1DI5`, `DI5`. -/
def digits (n : Nat) : Name := (toString n).toList.map fun c => BitVec.ofNat 8 c.toNat

/-- Type and letters of a kind of device. -/
def Kind.about : Kind → Int × String
  | .di => (13, "DI")
  | .dout => (14, "DO")
  | .ai => (15, "AI")
  | .ao => (16, "AO")
  | .ls => (3, "LS")
  | .m => (2, "M")

def onLine (line : Nat) (k : Kind) (n : Nat) : Way :=
  .name k.about.1 (bytes "LINE" ++ digits line ++ bytes k.about.2 ++ digits n)

def common (k : Kind) (n : Nat) : Way := .name k.about.1 (bytes k.about.2 ++ digits n)

def byPlace (k : Kind) (n : Nat) : Way := .place k.about.1 n

/-- The ways for a kind of device, the preferred first: the device of the line, the device of the project with this number in its name, the device
that stands at this place of the description.  A sensor of level can be a digital input of the line. -/
def ways (line : Nat) (n : Nat) : Kind → List Way
  | .ai => [onLine line .ai n, byPlace .ai n]
  | .ls => [onLine line .ls n, onLine line .di n]
  | k => [onLine line k n, common k n, byPlace k n]

/-- The device that ways mean: that of the first way that leads to one. -/
def First (rs : List Reg) : List Way → Nat → Prop
  | [], _ => False
  | w :: ws, i => w.To rs i ∨ ((¬ ∃ j, w.To rs j) ∧ First rs ws i)

/-- The device at the place `i` is meant by the number `n`. -/
def Meant (rs : List Reg) (line : Nat) (k : Kind) (n i : Nat) : Prop := First rs (ways line n k) i

/-- A description as the manager of devices expects it. -/
def Proper (rs : List Reg) : Prop := Ordered rs ∧ ∀ r ∈ rs, Supported r

/-- Numbers that are printed as they are. -/
def Small (v : Int) : Prop := 0 ≤ v ∧ v < 2 ^ 31

/-- The kind of every signal, by its documentation (cip_tech_def.h lines 832-865 and the parameters from line 310 on). -/
def kindOf (s : Slot) : Kind :=
  if s ∈ [Slot.os, .objectReady, .cipReady, .canContinue, .pause, .empty, .pumpCanRun] then .di
  else if s = .retPump then .m
  else if s ∈ [Slot.pumpFrequency, .pumpFeedback] then .ai
  else if s = .retLevel then .ls
  else if s ∈ [Slot.flowTask, .tempTask] then .ao
  else .dout

/-- Bit `b` of a value. -/
def bit (v : Int) (b : Nat) : Bool := v.toNat / 2 ^ b % 2 = 1

end Ptusa.CipDev
