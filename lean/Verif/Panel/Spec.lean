import Verif.Panel.Model
import Verif.Modbus.Spec

/-!
# What the panel of a washing station is for its user

Parameters of a line are floats in pairs of registers: parameter `i` (from 1) in the registers `2 * i` and `2 * i + 1`, the
lower half first.  Recipes are shown in a list: the used ones, in the order of their numbers.
-/
namespace Ptusa.Panel

open Tcp (Byte)

/-- The four bytes of a float in two registers: lower half, upper half, each with the high byte first. -/
def regBytes (v : BitVec 32) : List Byte :=
  let n := v.toNat
  [BitVec.ofNat 8 (n / 2 ^ 8), BitVec.ofNat 8 n, BitVec.ofNat 8 (n / 2 ^ 24), BitVec.ofNat 8 (n / 2 ^ 16)]

/-- The parameters with `vs` written from number `a` on; what does not fit is dropped. -/
def assigned (old : List (BitVec 32)) (a : Nat) (vs : List (BitVec 32)) : List (BitVec 32) :=
  old.mapIdx fun i v => if a ≤ i + 1 then vs.getD (i + 1 - a) v else v

/-- A recipe is in use: its first value is the number one. -/
def marked (m : List Byte) (r : Nat) : Bool :=
  (List.range 4).map (fun i => m.getD (512 * r + 32 + i) 0) == [0, 0, 0x80, 0x3F]

/-- The numbers (from 0) of the recipes in use, in order. -/
def inUse (m : List Byte) : List Nat := (List.range 25).filter (marked m)

/-- The registers with their line: where the panel has a device of a line. -/
inductive Site where
  | valve (n : Nat) | lineValve (n : Nat) | pump | feedPump | feedPumpValue | high | middle | low | flow | out
  | counterFlow | counterVolume | tempIn | tempOut | conc | levelCaustic | levelAcid | levelWater
  deriving DecidableEq, Repr

/-- Group and number of a site of line `l`. -/
def Site.address (l : Nat) : Site → Nat × Nat
  | .valve n => (0, 100 * l + n)
  | .lineValve n => (50 + l, n)
  | .pump => (50, 1000 * l + 1)
  | .feedPump => (2, 100 * l + 3)
  | .feedPumpValue => (8, 200 * l + 2)
  | .high => (3, 100 * l + 1)
  | .middle => (3, 100 * l + 2)
  | .low => (3, 100 * l + 3)
  | .flow => (6, 100 * l)
  | .out => (8, 200 * l + 28)
  | .counterFlow => (5, 200 * l)
  | .counterVolume => (7, 200 * l)
  | .tempIn => (4, 200 * l + 2)
  | .tempOut => (4, 200 * l + 4)
  | .conc => (12, 200 * l)
  | .levelCaustic => (9, 100 * l)
  | .levelAcid => (9, 100 * l + 2)
  | .levelWater => (9, 100 * l + 4)

/-- The device of a site of line `l` (new definition). -/
def Site.device (l : Nat) : Site → Dev
  | .valve n => .valve l n
  | .lineValve n => .valve l n
  | .pump => .pump l 1001
  | .feedPump => .part l .NP
  | .feedPumpValue => .part l .NP
  | .high => .part l .LH
  | .middle => .part l .LM
  | .low => .part l .LL
  | .flow => .part l .FL
  | .out => .part l .ao
  | .counterFlow => .part l .cnt
  | .counterVolume => .part l .cnt
  | .tempIn => .part l .TP
  | .tempOut => .part l .TR
  | .conc => .part l .Q
  | .levelCaustic => .part l .LTS
  | .levelAcid => .part l .LTK
  | .levelWater => .part l .LTW

/-- The numbers valves have. -/
def Site.Valid (l : Nat) : Site → Prop
  | .valve n => n < 14
  | .lineValve n => l ≤ 9 ∧ n ∈ [1000, 1001, 1002, 1004, 1006, 1010, 1011, 1012, 1020, 1021, 1022, 1030, 1031, 1032, 1040, 1041, 1042]
  | _ => True

/-- What the panel gets when it reads the coil, when it reads the register, what it does when it writes the coil, the register
of a site; `none`: nothing. -/
def Site.uses : Site → Option Use × Option Use × Option Use × Option Use
  | .valve _ | .lineValve _ | .pump | .feedPump => (some .readState, none, some .setState, none)
  | .high | .middle | .low => (some .readActive, none, none, none)
  | .flow => (some .readState, none, none, none)
  | .feedPumpValue | .out => (none, some .readValue, none, some .setValue)
  | .tempIn | .tempOut | .conc | .levelCaustic | .levelAcid | .levelWater => (none, some .readValue, none, none)
  | .counterFlow => (none, some .readFlow, none, none)
  | .counterVolume => (none, some .readQuantity, none, none)

/-- Where the panel has the devices of the tanks, which belong to the station. -/
def tanks : List (Nat × Nat × Part) :=
  [(1, 1, .NS), (2, 1, .NS), (1, 2, .NK), (2, 2, .NK), (3, 4, .LSH), (3, 5, .LSL), (3, 6, .LKH), (3, 7, .LKL), (3, 8, .LWH), (3, 9, .LWL)]

/-- The line whose device a request names. -/
def lineOf (group number : Nat) : Nat :=
  if group = 4 ∨ group = 5 ∨ group = 7 ∨ group = 8 ∨ group = 12 then number / 200
  else if group = 50 then number / 1000
  else if 51 ≤ group then group - 50
  else number / 100

/-- Devices all lines share: pumps and levels of the tanks. -/
def common : List Part := [.NS, .NK, .LSH, .LSL, .LKH, .LKL, .LWH, .LWL]

/-- The line of a device. -/
def Dev.line : Dev → Option Nat
  | .stub => none
  | .valve l _ => some l
  | .pump l _ => some l
  | .part l p => if p ∈ common then none else some l

/-- An event asks line `l` for a new list. -/
def raises (l : Nat) : Ev → Bool
  | .panel k v => k == l && v != 0
  | .all => true
  | .line k => k == (l : Int)

/-- An event is a confirmation for line `l`. -/
def confirms (l : Nat) : Ev → Bool
  | .panel k v => k == l && v == 0
  | _ => false

/-- The confirmations since the last event (the list has the last event first) asking for a new list. -/
def confirmed (l : Nat) (h : List Ev) : Nat := (h.takeWhile fun e => !raises l e).countP (confirms l)

/-- The panel writes for existing lines only. -/
def Sane (lines : Nat) : Ev → Prop
  | .panel l _ => 1 ≤ l ∧ l ≤ lines
  | _ => True

end Ptusa.Panel
