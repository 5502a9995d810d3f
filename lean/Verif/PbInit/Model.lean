/-!
# Starting and stopping the PROFIBUS slave

Model of `profibus_slave_PFC200::init`, its steps, `eval` and `close` (PAC/linux/PAC_PFC200/profibus_slave_PFC200.cpp lines 18-528, 612-694) and of the
main program that starts it and ignores the result (PAC_control_projects/main_control_prg/main.cpp lines 124-129, 214-219), as the
calls made to the library of the controller.  What each call of the library returns is arbitrary: it depends on the call and on how
many were made before.  Not modelled: printing and logging; the bytes that are exchanged (component `Profibus`).
-/
namespace Ptusa.PbInit

/-- The functions of the library. -/
inductive Call
  | init
  | scan
  | list
  | open (id : Int)
  | lastError (id : Int)
  | setWatchdog
  | configure (id address outBits inBits : Int)
  | running
  | startWatchdog
  | trigger
  | readStart (id : Int)
  | readBytes (id : Int)
  | readEnd (id : Int)
  | writeStart (id : Int)
  | writeBytes (id : Int)
  | writeEnd (id : Int)
  | stopWatchdog
  | closeDevice (id : Int)
  | exit
  deriving DecidableEq, Repr

/-- Calls with their results, in order. -/
abbrev Trace := List (Call × Bool)

/-- The library: whether the interface is there, the devices it lists (name, number), the results of the calls. -/
structure Lib where
  adi : Bool
  devices : List (String × Int)
  ok : Nat → Call → Bool

/-- The settings of the slave: address, sizes in bytes (profibus_slave.h lines 19-50). -/
structure Cfg where
  address : Int := 2
  outSize : Int := 1
  inSize : Int := 1

/-- One call. -/
def call (l : Lib) (t : Trace) (c : Call) : Trace := t ++ [(c, l.ok t.length c)]

/-- Calls up to the first that fails. -/
def calls (l : Lib) (t : Trace) : List Call → Trace × Bool
  | [] => (t, true)
  | c :: r => if l.ok t.length c then calls l (call l t c) r else (call l t c, false)

/-- `get_device_id` (lines 197-243): the loop goes on after a device was found. -/
def deviceId (ds : List (String × Int)) : Int :=
  ds.foldl (fun id d => if d.1 = "libdps" then d.2 else id) (-1)

/-- `init` (lines 18-94) with a device list of at most ten entries: trace, result, `iDpsDeviceId`.  `open_device` asks for the error when it
fails (line 262). -/
def start (cfg : Cfg) (l : Lib) : Trace × Bool × Int :=
  if l.adi = false then ([], false, 0)
  else
    let r := calls l [] [.init, .scan, .list]
    if r.2 = false then (r.1, false, 0)
    else
      let id := deviceId l.devices
      if id = -1 then (r.1, false, id)
      else if l.ok r.1.length (.open id) then
        let q := calls l (call l r.1 (.open id)) [.setWatchdog, .configure id cfg.address (cfg.outSize * 8) (cfg.inSize * 8), .running, .startWatchdog]
        (q.1, q.2, id)
      else (call l (call l r.1 (.open id)) (.lastError id), false, id)

/-- `eval` (lines 444-493): nothing without the interface. -/
def cycle (l : Lib) (id : Int) (t : Trace) : Trace :=
  if l.adi = false then t
  else (calls l t [.trigger, .readStart id, .readBytes id, .readEnd id, .writeStart id, .writeBytes id, .writeEnd id]).1

/-- Cycles of the main program; whether `init` succeeded is not asked (main.cpp lines 214-219). -/
def cycles (l : Lib) (id : Int) (t : Trace) : Nat → Trace
  | 0 => t
  | n + 1 => cycles l id (cycle l id t) n

/-- `close` (lines 612-621), `stop_watchdog` (line 635), `close_device` (line 665: `Exit`), `release_ADI` (line 686: `Exit`). -/
def close (l : Lib) (t : Trace) : Trace :=
  if l.adi = false then t else call l (call l (call l t .stopWatchdog) .exit) .exit

/-- The program: start, cycles, end. -/
def program (cfg : Cfg) (l : Lib) (n : Nat) : Trace :=
  let s := start cfg l
  close l (cycles l s.2.2 s.1 n)

end Ptusa.PbInit
