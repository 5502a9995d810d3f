import Verif.Tcp.Model

/-!
# The manager of devices

Model of the registration of devices and of their look-up (PAC/common/device/manager.cpp lines 11-574, 1384-1490) and of
the classes of devices (PAC/common/device/base.h, device.h, valve.h).  Sizes of the list of devices are natural numbers
(the program keeps them in `int`).
-/
namespace Ptusa.Registry

open Ptusa.Tcp (Byte)

/-- The characters of a C string, without its end. -/
abbrev Name := List Byte

/-- `strcmp` (manager.cpp lines 1464-1469): characters are compared as unsigned numbers. -/
def cmp : Name → Name → Ordering
  | [], [] => .eq
  | [], _ :: _ => .lt
  | _ :: _, [] => .gt
  | a :: as, b :: bs => if a < b then .lt else if b < a then .gt else cmp as bs

/-- `device::C_MAX_NAME` (base.h line 377): places in the name of a device, with the end of the string. -/
def maxName : Nat := 20

/-- `device::C_DEVICE_TYPE_CNT` (base.h lines 382-417). -/
def typeCnt : Int := 26

/-- The classes of the devices that the manager makes (manager.cpp lines 576-1380), and the placeholder. -/
inductive Cls where
  | stub
  | valveDO1 | valveDO2 | valveDO1DI1off | valveDO1DI1on | valveDO1DI2 | valveDO2DI2 | valveMixProof | valveASmixProof
  | valveBottom | valveASDO1DI2 | valveBistable | termDO1 | termDI1off | termDI1on | iolMixProof | geaDs | sorio | geaSs
  | thinktop | termDO1DI2 | virtualValve | miniFlushing | termDO3 | termDO3DI2
  | analogValve | analogValveIol
  | motor | altivar | altivarLinear | virtualMotor
  | levelS | levelSIol
  | tempE | tempEIol | tempEAnalog
  | flowS
  | counter | counterF | virtualCounter | counterIol
  | analogOutput
  | levelE | levelECyl | levelECone | levelEIol
  | diSignal | doSignal
  | pressureE | pressureEIol
  | concE | concEOk | concEIol
  | analogInput
  | siren | lamp | button
  | stateS | stateSInverse | diffPressure | tempSignal
  | wages | virtualWages | wagesRS232 | wagesEth | wagesPxc
  | breaker
  | pid | thld
  | columnDiscrete | columnIol
  | camera | cameraDI2 | cameraDI3
  | powerUnit
  | virtualDevice
  deriving DecidableEq, Repr

/-- Which of the articles with an own class was given (manager.cpp lines 671, 684-699; the article of the seats of AS
valves does not change the class and is left out). -/
inductive Article where
  | geaDouble | geaSingle | sorio | other
  deriving DecidableEq, Repr

/-- The class made for a type and a subtype, `none` when there is none (manager.cpp lines 576-1380, numbers from base.h
lines 382-610). -/
def make (t s : Int) (a : Article) : Option Cls :=
  match t with
  | 0 => match s with
    | 1 => some .valveDO1
    | 2 => some .valveDO2
    | 3 => some .valveDO1DI1off
    | 4 => some .valveDO1DI1on
    | 5 => some .valveDO1DI2
    | 6 => some .valveDO2DI2
    | 7 => some .valveMixProof
    | 8 => some .valveASmixProof
    | 9 => some .valveBottom
    | 10 => some .valveASDO1DI2
    | 11 => some .valveBistable
    | 12 => some .termDO1
    | 13 => some .termDI1off
    | 14 => some .termDI1on
    | 15 => if a = .geaDouble then some .geaDs else some .iolMixProof
    | 16 => if a = .sorio then some .sorio else if a = .geaSingle then some .geaSs else some .thinktop
    | 17 => some .termDO1DI2
    | 18 => some .virtualValve
    | 19 => some .miniFlushing
    | 20 => some .termDO3
    | 21 => some .termDO3DI2
    | _ => none
  | 1 => match s with
    | -1 | 1 => some .analogValve
    | 2 => some .analogValveIol
    | 3 => some .virtualDevice
    | _ => none
  | 2 => match s with
    | 1 | 2 | 3 | 4 | 5 | 6 | 7 | 8 => some .motor
    | 9 => some .altivar
    | 10 => some .virtualMotor
    | 11 => some .altivarLinear
    | _ => none
  | 3 => match s with
    | 1 | 2 => some .levelS
    | 3 | 4 => some .levelSIol
    | 5 => some .virtualDevice
    | _ => none
  | 4 => match s with
    | -1 | 1 => some .tempE
    | 2 => some .tempEIol
    | 3 => some .virtualDevice
    | 4 => some .tempEAnalog
    | _ => none
  | 5 => match s with
    | -1 | 1 => some .flowS
    | 2 => some .virtualDevice
    | _ => none
  | 6 => match s with
    | -1 | 1 => some .stateS
    | 2 => some .virtualDevice
    | 3 => some .stateSInverse
    | _ => none
  | 7 => match s with
    | 1 => some .counter
    | 2 => some .counterF
    | 4 => some .virtualCounter
    | 5 => some .counterIol
    | _ => none
  | 8 => match s with
    | -1 | 1 => some .levelE
    | 2 => some .levelECyl
    | 3 => some .levelECone
    | 5 => some .levelEIol
    | 6 => some .virtualDevice
    | _ => none
  | 9 => match s with
    | -1 | 1 => some .concE
    | 2 => some .concEOk
    | 3 => some .concEIol
    | 4 => some .virtualDevice
    | _ => none
  | 10 => match s with
    | -1 | 1 => some .siren
    | 2 => some .virtualDevice
    | _ => none
  | 11 => match s with
    | -1 | 1 => some .lamp
    | 2 => some .virtualDevice
    | _ => none
  | 12 => match s with
    | -1 | 1 => some .button
    | 2 => some .virtualDevice
    | _ => none
  | 13 => match s with
    | -1 | 1 => some .diSignal
    | 2 => some .virtualDevice
    | _ => none
  | 14 => match s with
    | -1 | 1 => some .doSignal
    | 2 => some .virtualDevice
    | _ => none
  | 15 => match s with
    | -1 | 1 => some .analogInput
    | 2 => some .virtualDevice
    | _ => none
  | 16 => match s with
    | -1 | 1 => some .analogOutput
    | 2 => some .virtualDevice
    | _ => none
  | 17 => match s with
    | -1 | 1 => some .wages
    | 2 => some .virtualWages
    | 3 => some .wagesRS232
    | 4 => some .wagesEth
    | 5 => some .wagesPxc
    | _ => none
  | 18 => match s with
    | -1 | 1 => some .pressureE
    | 2 => some .pressureEIol
    | 3 => some .virtualDevice
    | _ => none
  | 19 => match s with
    | -1 | 1 => some .breaker
    | 4 => some .virtualDevice
    | _ => none
  | 20 => match s with
    | -1 | 1 => some .pid
    | 2 => some .thld
    | _ => none
  | 21 => match s with
    | 1 => some .columnDiscrete
    | 2 => some .virtualDevice
    | 3 => some .columnIol
    | _ => none
  | 22 => match s with
    | 1 => some .cameraDI2
    | 2 => some .camera
    | 3 => some .cameraDI3
    | _ => none
  | 23 => match s with
    | 1 => some .diffPressure
    | 2 => some .virtualDevice
    | _ => none
  | 24 => match s with
    | 1 => some .tempSignal
    | 2 => some .virtualDevice
    | _ => none
  | 25 => match s with
    | 1 | 2 => some .powerUnit
    | _ => none
  | _ => none

/-- The subtype that the constructor of the class gives the device; `s` is the one of the registration, for the classes
that take it over (the constructors in device.cpp and valve.cpp, device.h lines 1040-1078, PID.cpp lines 10-11,
base.cpp line 531). -/
def subOf (c : Cls) (s : Int) : Int :=
  match c with
  | .stub => -1
  | .valveDO1 => 1
  | .valveDO2 => 2
  | .valveDO1DI1off => 3
  | .valveDO1DI1on => 4
  | .valveDO1DI2 => 5
  | .valveDO2DI2 => 6
  | .valveMixProof => 7
  | .valveASmixProof => 8
  | .valveBottom => 9
  | .valveASDO1DI2 => 10
  | .valveBistable => 11
  | .termDO1 => 12
  | .termDI1off => 13
  | .termDI1on => 14
  | .iolMixProof => 15
  | .geaDs => 15
  | .sorio => 16
  | .geaSs => 16
  | .thinktop => 16
  | .termDO1DI2 => 17
  | .virtualValve => 18
  | .miniFlushing => 19
  | .termDO3 => 20
  | .termDO3DI2 => 21
  | .analogValve => 1
  | .analogValveIol => 2
  | .motor => s
  | .altivar => s
  | .altivarLinear => 11
  | .virtualMotor => 10
  | .levelS => s
  | .levelSIol => s
  | .tempE => 1
  | .tempEIol => 2
  | .tempEAnalog => 4
  | .flowS => -1
  | .counter => 1
  | .counterF => 2
  | .virtualCounter => 4
  | .counterIol => 5
  | .analogOutput => -1
  | .levelE => 1
  | .levelECyl => 2
  | .levelECone => 3
  | .levelEIol => 5
  | .diSignal => -1
  | .doSignal => -1
  | .pressureE => -1
  | .pressureEIol => 2
  | .concE => 1
  | .concEOk => 2
  | .concEIol => 3
  | .analogInput => -1
  | .siren => -1
  | .lamp => -1
  | .button => -1
  | .stateS => 1
  | .stateSInverse => 3
  | .diffPressure => 2
  | .tempSignal => 2
  | .wages => -1
  | .virtualWages => 2
  | .wagesRS232 => 3
  | .wagesEth => 4
  | .wagesPxc => 5
  | .breaker => 1
  | .pid => 1
  | .thld => 2
  | .columnDiscrete => 1
  | .columnIol => 3
  | .camera => s
  | .cameraDI2 => s
  | .cameraDI3 => 3
  | .powerUnit => s
  | .virtualDevice => s

/-- A device of the project: its class, name, number, type and subtype (base.h lines 752-768). -/
structure Dev where
  cls : Cls
  name : Name
  number : Nat
  type : Int
  sub : Int
  deriving DecidableEq, Repr

/-- `get_serial_n` (base.h lines 669-673), overridden by the placeholder (device.cpp lines 427-430). -/
def Dev.serial (d : Dev) : Nat := if d.cls = .stub then 0 else d.number

/-- "STUB", the name of a placeholder (device.cpp lines 360-362). -/
def stubName : Name := [0x53, 0x54, 0x55, 0x42]

/-- One call of `add_io_device` (manager.cpp lines 568-569). -/
structure Reg where
  type : Int
  sub : Int
  name : Name
  article : Article := .other
  deriving DecidableEq, Repr

/-- State of the manager (manager.h lines 343-367): the devices, for every type the first and the last place
(`dev_types_ranges`, -1 when there is none), whether the type was met (`is_first_device`), and whether missing devices
are left out of the log (`disable_error_logging`). -/
structure Mgr where
  devs : List Dev := []
  start : Int → Int := fun _ => -1
  stop : Int → Int := fun _ => -1
  met : Int → Bool := fun _ => false
  silent : Bool := false

/-- The device that `add_io_device` puts into the list (manager.cpp lines 571-1395, base.cpp lines 355-366).  `none`:
the name is copied by `strcpy` past the places it has. -/
def build (r : Reg) (n : Nat) : Option Dev :=
  match make r.type r.sub r.article with
  | none => some { cls := .stub, name := stubName, number := n, type := -1, sub := -1 }
  | some c =>
    if r.name.length < maxName then
      some { cls := c, name := r.name, number := n, type := r.type, sub := subOf c r.sub }
    else none

/-- `device_manager::add_io_device` (manager.cpp lines 568-574, 1383-1407). -/
def Mgr.add (m : Mgr) (r : Reg) : Option Mgr :=
  (build r m.devs.length).map fun d =>
    if 0 ≤ r.type ∧ r.type < typeCnt then
      { m with
        devs := m.devs ++ [d]
        start := fun t => if t = r.type then (if m.met t then m.start t else m.devs.length) else m.start t
        stop := fun t => if t = r.type then m.devs.length else m.stop t
        met := fun t => if t = r.type then true else m.met t }
    else { m with devs := m.devs ++ [d] }

/-- The registrations of a description of a project, in their order. -/
def Mgr.addAll (m : Mgr) : List Reg → Option Mgr
  | [] => some m
  | r :: rs => (m.add r).bind (·.addAll rs)

/-- `device_manager::clear_io_devices` (manager.cpp lines 1409-1425). -/
def Mgr.clear (m : Mgr) : Mgr :=
  { m with
    devs := []
    start := fun t => if 0 ≤ t ∧ t < typeCnt then -1 else m.start t
    stop := fun t => if 0 ≤ t ∧ t < typeCnt then -1 else m.stop t
    met := fun t => if 0 ≤ t ∧ t < typeCnt then false else m.met t }

/-- The search of `get_device_n` (manager.cpp lines 1459-1477).  The outer `none`: a place outside of the list is read;
`some none`: there is no such device.  (`l + u` is not negative when the loop runs, so the division is exact.) -/
def search (ds : List Dev) (name : Name) (l u : Int) : Option (Option Nat) :=
  if _h : l ≤ u then
    let i := (l + u) / 2
    if i < 0 then none
    else match ds[i.toNat]? with
      | none => none
      | some d =>
        match cmp name d.name with
        | .eq => some (some i.toNat)
        | .gt => search ds name (i + 1) u
        | .lt => search ds name l (i - 1)
  else some none
  termination_by (u + 1 - l).toNat
  decreasing_by all_goals omega

/-- `device_manager::get_device_n` (manager.cpp lines 1446-1480). -/
def Mgr.find (m : Mgr) (t : Int) (name : Name) : Option (Option Nat) :=
  if 0 ≤ t ∧ t < typeCnt then
    if m.start t = -1 then some none else search m.devs name (m.start t) (m.stop t)
  else some none

/-- The search through all types, from type `t` on (manager.cpp lines 1481-1490). -/
def Mgr.findFrom (m : Mgr) (name : Name) : Nat → Int → Option (Option Nat)
  | 0, _ => some none
  | k + 1, t =>
    match m.find t name with
    | none => none
    | some (some i) => some (some i)
    | some none => m.findFrom name k (t + 1)

/-- What a look-up gives: a device of the list, or the stub of the manager. -/
inductive Ref where
  | at (n : Nat)
  | stub
  deriving DecidableEq, Repr

/-- Places of the text of the log (log.h line 31). -/
def logSize : Nat := 10 * 1024

/-- `device_manager::get_device( dev_type, dev_name )` (manager.cpp lines 276-312).  `none`: the names of types are read
outside of their table for the log (lines 295-299 check the upper end only). -/
def Mgr.getDevice (m : Mgr) (t : Int) (name : Name) : Option Ref :=
  match m.find t name with
  | none => none
  | some (some i) => some (.at i)
  | some none => if m.silent then some .stub else if t < 0 then none else some .stub

/-- `device_manager::get_device( dev_name )` (manager.cpp lines 314-335).  `none`: the text of the log does not fit
(log.cpp lines 84-91 print without a limit; 21 characters belong to the text around the name and to its end). -/
def Mgr.getByName (m : Mgr) (name : Name) : Option Ref :=
  match m.findFrom name typeCnt.toNat 0 with
  | none => none
  | some (some i) => some (.at i)
  | some none => if m.silent then some .stub else if name.length + 21 ≤ logSize then some .stub else none

/-- `device_manager::get_device( serial_dev_n )` (manager.cpp lines 337-345). -/
def Mgr.getByNumber (m : Mgr) (n : Nat) : Ref := if n < m.devs.length then .at n else .stub

/-- The class of what a look-up gave. -/
def Mgr.cls (m : Mgr) : Ref → Cls
  | .at n => ((m.devs[n]?).map (·.cls)).getD .stub
  | .stub => .stub

/-- The classes to which the functions of the program convert a device. -/
inductive Base where
  | device | valve | motor | level | wages | column | camera | counter | counterF | virtualCounter | counterIol
  deriving DecidableEq, Repr

/-- Whether the part `device` that the manager hands out belongs to a part of the class `b` in an object of class `c`
(base.h, device.h, valve.h: the heads of the classes).  The placeholder is a valve, a camera and a signal column, each
with an own part `device`; the manager hands out that of the valve (manager.cpp lines 363-366, 1388).  No class has its
`device` inside of `i_camera`: cameras derive from both (device.h line 1389). -/
def within (c : Cls) : Base → Bool
  | .device => true
  | .valve =>
    match c with
    | .stub | .valveDO1 | .valveDO2 | .valveDO1DI1off | .valveDO1DI1on | .valveDO1DI2 | .valveDO2DI2
    | .valveMixProof | .valveASmixProof | .valveBottom | .valveASDO1DI2 | .valveBistable | .termDO1 | .termDI1off
    | .termDI1on | .iolMixProof | .geaDs | .sorio | .geaSs | .thinktop | .termDO1DI2 | .virtualValve | .miniFlushing
    | .termDO3 | .termDO3DI2 => true
    | _ => false
  | .motor => match c with
    | .motor | .altivar | .altivarLinear | .virtualMotor => true
    | _ => false
  | .level => match c with
    | .levelE | .levelECyl | .levelECone | .levelEIol => true
    | _ => false
  | .wages => match c with
    | .wages => true
    | _ => false
  | .column => match c with
    | .columnDiscrete | .columnIol => true
    | _ => false
  | .camera => false
  | .counter => match c with
    | .counter | .counterF => true
    | _ => false
  | .counterF => match c with
    | .counterF => true
    | _ => false
  | .virtualCounter => match c with
    | .virtualCounter => true
    | _ => false
  | .counterIol => match c with
    | .counterIol => true
    | _ => false

/-- The functions of the program that give a device by its name (manager.cpp lines 20-259), without those for counters.
-/
inductive Acc where
  | V | VC | M | LS | TE | FS | GS | LT | QT | HA | HL | SB | DI | DO | AI | AO | WT | PT | F | C | HLA | CAM | PDS | TS | G
  deriving DecidableEq, Repr

/-- The type that the function looks for (manager.cpp lines 262-566). -/
def Acc.type : Acc → Int
  | .V => 0 | .VC => 1 | .M => 2 | .LS => 3 | .TE => 4 | .FS => 5 | .GS => 6 | .LT => 8 | .QT => 9 | .HA => 10
  | .HL => 11 | .SB => 12 | .DI => 13 | .DO => 14 | .AI => 15 | .AO => 16 | .WT => 17 | .PT => 18 | .F => 19 | .C => 20
  | .HLA => 21 | .CAM => 22 | .PDS => 23 | .TS => 24 | .G => 25

/-- The class to which the function converts the device by a cast that is not checked (manager.cpp lines 20-23, 119-122,
403-406, 528-551); the other functions convert it to a base of `device`. -/
def Acc.target : Acc → Base
  | .V => .valve
  | .M => .motor
  | .LT => .level
  | .WT => .wages
  | .HLA => .column
  | .CAM => .camera
  | _ => .device

/-- The result of a function of the program; `none`: the pointer does not point to an object of its type. -/
def Mgr.access (m : Mgr) (a : Acc) (name : Name) : Option Ref :=
  match m.getDevice a.type name with
  | none => none
  | some r => if within (m.cls r) a.target then some r else none

/-- `device_manager::get_FQT` (manager.cpp lines 433-460): the class is chosen by the subtype.  `none`: as above, or the
text of the log does not fit (18 characters around the name). -/
def Mgr.fqt (m : Mgr) (name : Name) : Option Ref :=
  match m.find 7 name with
  | none => none
  | some r =>
    let missing := if name.length + 18 ≤ logSize then some .stub else none
    match r with
    | none => missing
    | some i =>
      match m.devs[i]? with
      | none => none
      | some d =>
        if d.sub = 2 then (if within d.cls .counterF then some (.at i) else none)
        else if d.sub = 1 then (if within d.cls .counter then some (.at i) else none)
        else if d.sub = 4 then (if within d.cls .virtualCounter then some (.at i) else none)
        else if d.sub = 5 then (if within d.cls .counterIol then some (.at i) else none)
        else missing

end Ptusa.Registry
