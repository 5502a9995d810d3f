import Verif.DevCmd.Model

/-!
# What the names mean

The names are those of the texts with the states of the devices (`save_device`, base.cpp 265-301, and `save_device_ex` of the classes).
-/
namespace Ptusa.DevCmd.Spec

/-- The properties of every device. -/
def common : List (String × Field) := [("ST", .state), ("V", .value), ("M", .manual)]

def ofCounter : List (String × Field) :=
  [("ABS_V", .abs), ("DAY_T1", .day1), ("DAY_T2", .day2), ("PREV_DAY_T1", .prev1), ("PREV_DAY_T2", .prev2)]

def ofAnalog : List (String × Field) := [("E", .emul), ("M_EXP", .mean), ("S_DEV", .dev)]

/-- The properties that can be set; some of them only when the controller is an emulator. -/
def names (emu : Bool) : Cls → List (String × Field)
  | .plain => common
  | .vcounter => common ++ [("ABS_V", .abs), ("F", .flow)]
  | .camera => common ++ [("RESULT", .result), ("READY", .ready)]
  | .counter => common ++ ofCounter
  | .counterF => common ++ ofCounter ++ [("F", .flow)]
  | .counterIol => common ++ ofCounter ++ [("F", .flow), ("T", .temp)]
  | .analog => common ++ ofAnalog
  | .valve => common ++ (if emu then [("FB_ON_ST", .fbOn), ("FB_OFF_ST", .fbOff)] else [])
  | .valveIol => common ++ [("BLINK", .blink)] ++ (if emu then [("FB_ON_ST", .fbOn), ("FB_OFF_ST", .fbOff)] else [])
  | .analogValve => common ++ ofAnalog ++ [("BLINK", .blink)]
  | .altivar => common ++ (if emu then [("R", .reverse), ("FRQ", .freq), ("RPM", .rpm), ("EST", .est), ("AMP", .amp)] else [])

/-- What a name means for a device with these parameters. -/
def Means (emu : Bool) (pars : List Name) (c : Cls) (n : Name) (f : Field) : Prop :=
  (∃ s, (s, f) ∈ names emu c ∧ n = s.toList) ∨ (n ∈ pars ∧ f = .par n)

/-- The names of parameters begin with `P_`, and the program never gives one of the names of the counters to a parameter. -/
def ParNames (pars : List Name) : Prop := ∀ n ∈ pars, ∃ r, n = 'P' :: '_' :: r

/-- A whole number of a type. -/
def Whole (lo hi : Int) (v : Fl) : Prop := ∃ t : Int, v = .num t ∧ lo ≤ t ∧ t ≤ hi

/-- The values that make sense for a property: whole numbers for numbers of states and for counters of pulses, 0 and 1 for switches. For
the flow and the temperature of the IO-Link counter `w` is the number in hundredths or tenths. -/
def Sense (c : Cls) (f : Field) (v w : Fl) : Prop :=
  match f with
  | .state | .result | .reverse | .rpm | .est => Whole (-2147483648) 2147483647 v ∧ w = v
  | .manual | .emul | .blink | .fbOn | .fbOff | .ready => (v = 0 ∨ v = 1) ∧ w = v
  | .abs => if c = .vcounter then Whole 0 4294967295 v ∧ w = v else w = v
  | .flow => if c = .counterIol then Whole (-32768) 32767 w ∧ v * 100 = w else w = v
  | .temp => Whole (-32768) 32767 w ∧ v * 10 = w
  | _ => w = v

/-- The variable `f` after commands with names and values that make sense: the last command that means it wins. -/
inductive Holds (emu : Bool) (pars : List Name) (c : Cls) (s : St) : List Cmd → St → Prop
  | nil : Holds emu pars c s [] s
  | snoc {ks : List Cmd} {t t' : St} (k : Cmd) (f : Field) (w : Fl) : Holds emu pars c s ks t → Means emu pars c k.name f → Sense c f k.v w →
      t' f = w → (∀ x, x ≠ f → t' x = t x) → Holds emu pars c s (ks ++ [k]) t'

end Ptusa.DevCmd.Spec
