/-!
# The status lamp

Models `PAC_critical_errors_manager::show_errors` (PAC/common/PAC_err.cpp 22-73) and the lamp of the PFC200
(PAC/linux/PAC_PFC200/led_PFC200.cpp 17-68). On the other controllers the lamp does nothing (PAC_PC/led_PC.h).

Simplifications. `get_millisec` counts without overflow and gives one value during one call. The list of the errors is modelled in
`CritErr`: here only whether it is empty.
-/
namespace Ptusa.Led

/-- `led::COLOUR`, sys/led.h 21-26. -/
inductive Colour | green | yellow | red
  deriving DecidableEq, Repr

/-- `led::LEDS_NAMES`, sys/led.h 28-34. -/
inductive Lamp | all | status | service | user
  deriving DecidableEq, Repr

/-- The events of the diagnostic library for the lamp USR1, led_PFC200.cpp 29-37, 56-60. -/
inductive Diag | userGreen | userYellow | userRed | userOff
  deriving DecidableEq, Repr

/-- `led_PFC200::on`, led_PFC200.cpp 17-48: the events which are logged. -/
def pfcOn : Lamp → Colour → List Diag
  | .all, _ => []
  | .status, .green => [.userGreen]
  | .status, .red => [.userRed]
  | .status, .yellow => [.userYellow]
  | .service, _ => []
  | .user, _ => []

/-- `led_PFC200::off`, led_PFC200.cpp 50-68. -/
def pfcOff : Lamp → List Diag
  | .all => [.userOff]
  | .status => [.userOff]
  | .service => []
  | .user => []

/-- A command to the status lamp: `on` with a colour, or `off`. -/
abbrev Cmd := Option Colour

/-- The static variables of `show_errors` (PAC_err.cpp 24-25) – `start` has a value from the first call on – and the commands
given so far, the last one first. -/
structure S where
  step : Nat
  start : Option Nat
  log : List (Nat × Cmd)
  deriving DecidableEq, Repr

def S.init : S := ⟨0, none, []⟩

/-- `show_errors`, PAC_err.cpp 22-73, at the time `now`; `errors`: there are errors. -/
def S.show (s : S) (now : Nat) (errors : Bool) : S :=
  let st := s.start.getD now
  let s : S := { s with start := some st }
  if errors then
    if s.step = 0 then
      if 500 < now - st then ⟨1, some now, (now, some .red) :: s.log⟩ else s
    else if s.step = 1 then
      if 500 < now - st then ⟨0, some now, (now, none) :: s.log⟩ else s
    else s
  else
    if s.step = 0 then
      if 500 < now - st then ⟨1, some now, (now, some .green) :: s.log⟩ else s
    else if s.step = 1 then
      if 500 < now - st then ⟨0, some now, (now, none) :: s.log⟩ else s
    else s

/-- Calls of the main loop: the time and whether there are errors. -/
def S.run (s : S) (cs : List (Nat × Bool)) : S := cs.foldl (fun s c => s.show c.1 c.2) s

end Ptusa.Led
