import Verif.Valve.Model
import Verif.ValveOff.Model

/-!
# Valves without input/output modules

Started without nodes (`PAC_info::is_emulator`, PAC/common/PAC_info.cpp 371-386, is the option `G_NO_IO_NODES`, fixed for a
run) a controller simulates its devices.  Model of the classes of valves in both modes: those with discrete channels
(device.cpp 2202-2235, valve.cpp 16-57, 430-1037), of which `Valve` has the branches with modules; the bottom mix-proof valve
(valve.cpp 1039-1222), of which `ValveOff` has these branches; the valve at an outlet of a terminal (valve.cpp 2207-2357).
The queue of valves that close with a delay, commands of the program and of the operator are those of `ValveOff`.
Simplifications: `P_ON_TIME` is one number for all valves; a terminal is one outlet, its bit in the output image.
-/
namespace Ptusa.Emul

open Ptusa.Valve (Tm Dv)

/-- The classes; `term cfg`: `check_config` (valve.cpp 2235-2250) succeeds or not. -/
inductive Kind where
  | plain (k : Valve.Kind)
  | bottom
  | term (cfg : Bool)
  deriving DecidableEq

/-- The fields of all the classes: discrete channels and the field `state` of `device` (`dv`), the bottom mix-proof valve
(`bt`), the outlet of the terminal and the own field `state` of its class (valve.h 992), and the simulated feedback `on_fb`,
`off_fb` (valve.h 154-155). -/
structure Body where
  dv : Dv := {}
  bt : ValveOff.Bottom := {}
  out : Bool := false
  vst : Int := 0
  onFb : Bool := false
  offFb : Bool := false
  deriving DecidableEq

/-- After the constructors: valve.cpp 60-91, device.cpp 2202. -/
def Body.new : Kind → Body
  | .plain .do1 | .plain .do2 => {}
  | .term _ => {}
  | _ => { onFb := true, offFb := true }

/-- `direct_on`: simulated `device::direct_on` (base.cpp 217-220), else of the class; of terminals in both modes
(valve.cpp 2303-2324). -/
def directOn (emu : Bool) (k : Kind) (now : Tm) (b : Body) : Body :=
  match k with
  | .term cfg => if cfg then { b with out := true, vst := 1 } else b
  | .bottom => if emu then { b with dv := { b.dv with state := 1 } } else { b with bt := b.bt.directOn now }
  | .plain k => if emu then { b with dv := { b.dv with state := 1 } } else { b with dv := Valve.directOn k now b.dv }

/-- `direct_off`: simulated `device::direct_off` (base.cpp 211-215), else of the class; of terminals in both modes
(valve.cpp 2326-2345). -/
def directOff (emu : Bool) (k : Kind) (now : Tm) (b : Body) : Body :=
  match k with
  | .term cfg => if cfg then { b with out := false, vst := 0 } else b
  | .bottom => if emu then { b with dv := { b.dv with state := 0 } } else { b with bt := b.bt.directOff now }
  | .plain k => if emu then { b with dv := { b.dv with state := 0 } } else { b with dv := Valve.directOff k now b.dv }

/-- `direct_set_state`: simulated `device::direct_set_state` (base.cpp 222-225), else of the class; of terminals in both modes
(valve.cpp 2289-2296). -/
def directSet (emu : Bool) (k : Kind) (now : Tm) (n : Int) (b : Body) : Body :=
  match k with
  | .term cfg => if n ≠ 0 then directOn emu (.term cfg) now b else directOff emu (.term cfg) now b
  | .bottom => if emu then { b with dv := { b.dv with state := n } } else { b with bt := b.bt.directSet now n }
  | .plain k => if emu then { b with dv := { b.dv with state := n } } else { b with dv := Valve.directSet k now n b.dv }

/-- `get_valve_state`: simulated `valve::get_valve_state` (valve.cpp 316-319), else of the class; of terminals the own field in
both modes (valve.cpp 2298-2301). -/
def valveState (emu : Bool) (k : Kind) (b : Body) : Int :=
  match k with
  | .term _ => b.vst
  | .bottom =>
    if emu then b.dv.state
    else if b.bt.main = false ∧ b.bt.mini = true then 2 else if b.bt.main = false ∧ b.bt.lower = true then 3
    else if b.bt.main then 1 else 0
  | .plain k => if emu then b.dv.state else Valve.valveState k b.dv

/-- `get_state`, simulated: valve.cpp 35, 109-110, 2275.  With modules see `Valve.exState`. -/
def simState (k : Kind) (b : Body) : Int :=
  match k with
  | .term _ => b.vst
  | _ => b.dv.state

/-- `get_on_fb_value`: valve.cpp 382-385, 494-497, 559-564, 638-643, 715-720, 848-853, 1032-1037, 1219-1222. -/
def onFb (emu : Bool) (k : Kind) (b : Body) : Bool :=
  match k with
  | .plain .di1Off => false
  | .plain .di1On | .plain .do1di2 | .plain .bistable | .plain .mix | .bottom => if emu then b.onFb else b.dv.x
  | .plain .do2di2 => if emu then b.onFb else b.dv.y
  | _ => b.onFb

/-- `get_off_fb_value`: valve.cpp 388-391, 488-493, 566-569, 631-636, 707-713, 841-846, 1025-1030, 1212-1217. -/
def offFb (emu : Bool) (k : Kind) (b : Body) : Bool :=
  match k with
  | .plain .di1On => false
  | .plain .di1Off | .plain .do2di2 => if emu then b.offFb else b.dv.x
  | .plain .do1di2 | .plain .bistable | .plain .mix | .bottom => if emu then b.offFb else b.dv.y
  | _ => b.offFb

/-- `valve::set_cmd` (valve.cpp 288-304) for a name that `device::set_cmd` would not take as a state or a mode. -/
def setCmd (emu : Bool) (prop : String) (val : Fl) (b : Body) : Body :=
  if emu && prop.toList.head? == some 'F' then
    if prop = "FB_ON_ST" then { b with onFb := !val.eq (.num 0) } else { b with offFb := !val.eq (.num 0) }
  else b

/-- A class for `ValveOff`.  `seat`: `get_valve_state` is one of the seats.  `tick`: `valve_DO2_DI2_bistable::evaluate`
(valve.cpp 731-757). `finished`: the override of bottom mix-proof valves (valve.cpp 1108-1131), which closes by `direct_off`. -/
def cls (emu : Bool) (pOn : Fl) (k : Kind) : ValveOff.Cls Body where
  directOn := directOn emu k
  directOff := directOff emu k
  directSet := directSet emu k
  seat b := decide (valveState emu k b = 2) || decide (valveState emu k b = 3)
  tick now b :=
    match k with
    | .plain k => if emu then b else { b with dv := (Valve.tick k now pOn b.dv).getD b.dv }
    | _ => b
  finished :=
    match k with
    | .bottom => some fun now bd b =>
        if !b.bt.closing then (true, b)
        else if (Time.deltaMs now b.bt.startOff).toNat > bd.toNat then
          (true, directOff emu .bottom now { b with bt := { b.bt with closing := false } })
        else (false, b)
    | _ => none

/-- What happens: commands of the program, of the operator, new values of the inputs of a valve, commands by name, and the
evaluation in each cycle. -/
inductive Act where
  | on (i : Nat) (now : Tm)
  | off (i : Nat) (now : Tm)
  | instantOff (i : Nat) (now : Tm)
  | setState (i : Nat) (now : Tm) (n : Int)
  | oper (i : Nat) (now : Tm) (n : Int)
  | manual (i : Nat) (m : Bool)
  | inputs (i : Nat) (x y : Bool)
  | name (i : Nat) (prop : String) (val : Fl)
  | evaluate (now : Tm) (delay bdelay : BitVec 32)

/-- As an event of `ValveOff`. -/
def Act.ev (emu : Bool) : Act → ValveOff.Ev Body
  | .on i t => .on i t
  | .off i t => .off i t
  | .instantOff i t => .instantOff i t
  | .setState i t n => .setState i t n
  | .oper i t n => .oper i t n
  | .manual i m => .manual i m
  | .inputs i x y => .io i fun b => { b with dv := { b.dv with x := x, y := y } }
  | .name i p v => .io i (setCmd emu p v)
  | .evaluate t d bd => .evaluate t d bd

/-- All the valves after a history from the start of the program. -/
def run (emu : Bool) (pOn : Fl) (kind : Nat → Kind) (h : List Act) : ValveOff.Fleet Body :=
  (ValveOff.start fun i => Body.new (kind i)).run (fun i => cls emu pOn (kind i)) (h.map (Act.ev emu))

end Ptusa.Emul
