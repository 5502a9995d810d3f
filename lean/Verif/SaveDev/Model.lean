import Mathlib.Algebra.Order.Floor.Semiring
import Mathlib.Data.Rat.Floor

/-!
# The text of the states of the devices

Models `device_manager::save_device` (PAC/common/device/manager.cpp 1435-1444), `device::save_device`
(PAC/common/device/base.cpp 265-303), `par_device::save_device` (base.cpp 44-66) and `save_device_ex` of the kinds of devices
(base.cpp 660-665, 771-776, 995-1009; device.cpp 202-207, 752-791, 1275-1281, 1417-1424, 1543-1550, 2133-2137, 2525-2552,
3085-3109, 3328-3343, 3359-3365, 3493-3501, 3737-3755; valve.cpp 91-105, 1310-1321, 1589-1597, 1730-1740, 2076-2084,
2581-2587). The server of the SCADA system runs this text as a Lua chunk.

Simplifications. A text is a list of characters. Every call of `fmt::format_to_n` appends its text: the limit of 1000
characters of one call is not modelled (one call writes at most eight numbers with their keys). What the methods of a device
return (state, value, parameters) are fields of the record: the other components model them. The number which a call prints
is the exact value of the float, and a negative zero is a zero.
-/
namespace Ptusa.SaveDev

abbrev Txt := List Char

/-- A float as `fmt` sees it: the sign of a not-a-number is printed too. -/
inductive Fv
  | num (q : Rat)
  | inf (neg : Bool)
  | nan (neg : Bool)
  deriving DecidableEq

/-- A decimal digit. -/
def digit (n : Nat) : Char := Char.ofNat (48 + n)

/-- The decimal text of a natural number. -/
def natText (n : Nat) : Txt := if n < 10 then [digit n] else natText (n / 10) ++ [digit (n % 10)]
  termination_by n
  decreasing_by omega

/-- The last `k` decimal digits of a number. -/
def padded : Nat → Nat → Txt
  | 0, _ => []
  | k + 1, m => padded k (m / 10) ++ [digit (m % 10)]

/-- `{}` of an integer. -/
def intText (z : Int) : Txt := if z < 0 then '-' :: natText z.natAbs else natText z.natAbs

/-- `{:d}` of a boolean. -/
def boolText (b : Bool) : Txt := if b then ['1'] else ['0']

/-- Rounding to the nearest integer, ties to even, as `fmt` rounds decimal digits. -/
def roundEven (x : Rat) : Nat :=
  let f := ⌊x⌋₊
  if x - f < 1 / 2 then f else if 1 / 2 < x - f then f + 1 else if f % 2 = 0 then f else f + 1

/-- `{:.kf}` of a finite number. -/
def ratText (k : Nat) (q : Rat) : Txt :=
  let n := roundEven (|q| * 10 ^ k)
  (if q < 0 then ['-'] else []) ++ natText (n / 10 ^ k) ++ (if k = 0 then [] else '.' :: padded k (n % 10 ^ k))

/-- `{:.kf}` of a float. -/
def fixed (k : Nat) : Fv → Txt
  | .num q => ratText k q
  | .inf neg => (if neg then ['-'] else []) ++ "inf".toList
  | .nan neg => (if neg then ['-'] else []) ++ "nan".toList

/-- `modf( val, &tmp ) == 0 ? 0 : 2` (base.cpp 59-60, 289-290): integral values and infinities have no fraction. -/
def precision : Fv → Nat
  | .num q => if q.den = 1 then 0 else 2
  | .inf _ => 0
  | .nan _ => 2

/-- `"{}={}, "`: one field. -/
def fld (key : String) (v : Txt) : Txt := key.toList ++ '=' :: v ++ [',', ' ']

/-- A field with a float of `k` places. -/
def fldF (key : String) (k : Nat) (x : Fv) : Txt := fld key (fixed k x)

/-- A field with an integer. -/
def fldI (key : String) (z : Int) : Txt := fld key (intText z)

/-- Texts separated by commas. -/
def commas : List Txt → Txt
  | [] => []
  | [a] => a
  | a :: l => a ++ ',' :: commas l

/-- `"KEY={{{},{},…}}, "`: a field with a list of values. -/
def fldL (key : String) (l : List Txt) : Txt := fld key ('{' :: commas l ++ ['}'])

/-- What `save_device_ex` of a kind of device prints from. The values are the ones which the cited methods read. -/
inductive Kind
  /-- no additional fields (`device::save_device_ex`, base.h) -/
  | plain
  /-- `analog_io_device` (device.cpp 3493-3501) -/
  | analog (e : Bool) (mExp sDev : Fv)
  /-- `valve` (valve.cpp 91-105): feedbacks which exist -/
  | valve (onFb offFb : Option Int)
  /-- `valve_iolink_mix_proof` (valve.cpp 1310-1321) -/
  | mixProof (onFb offFb : Option Int) (blink cs : Bool) (err : Int) (v : Fv)
  /-- `valve_iolink_shut_off_sorio` and `valve_iolink_shut_off_thinktop` (valve.cpp 1589-1597, 2076-2084) -/
  | shutOff (blink cs : Bool) (err : Int) (v : Fv)
  /-- `valve_iolink_gea_tvis_a15` (valve.cpp 1730-1740) -/
  | tvis (onFb offFb : Option Int) (cs sup err : Int) (v : Fv)
  /-- `analog_valve_iolink` (valve.cpp 2581-2587) -/
  | analogValve (namur : Int) (opened closed blink : Bool)
  /-- `base_counter` (device.cpp 1275-1281) -/
  | counter (abs t1 pt1 t2 pt2 : Int)
  /-- `counter_f` (device.cpp 1417-1424) -/
  | counterF (abs t1 pt1 t2 pt2 : Int) (flow : Fv)
  /-- `counter_iolink` (device.cpp 1543-1550) -/
  | counterIol (abs t1 pt1 t2 pt2 : Int) (flow temp : Fv)
  /-- `virtual_counter` (base.cpp 660-665) -/
  | counterVirt (abs : Int) (flow : Fv)
  /-- `level` (base.cpp 771-776) -/
  | level (volume : Int)
  /-- `wages` (device.cpp 2133-2137) -/
  | wages (w : Fv)
  /-- `motor` (device.cpp 2525-2552): without reverse, with reverse, with reverse and an error input -/
  | motor (r errt : Option Int)
  /-- `motor_altivar` (device.cpp 3737-3755) -/
  | altivar (r : Int) (frq : Fv) (rpm est : Int) (amp maxFrq : Fv)
  /-- `signal_column` (base.cpp 995-1009) -/
  | column (green yellow red blue siren : Bool)
  /-- `concentration_e_iolink` (device.cpp 3359-3365) -/
  | concIol (temp : Fv)
  /-- `concentration_e_ok` (device.cpp 3328-3343): the emulator and the input -/
  | concOk (emulator : Bool) (ok : Int)
  /-- `power_unit` (device.cpp 752-791) -/
  | power (nominal : List Int) (load : List Fv) (st : List Int) (sum voltage : Fv) (power90 err : Int)
  /-- `circuit_breaker` (device.cpp 3085-3109); `m` is the member `m` (device.h 350), which nothing changes from zero -/
  | breaker (err m : Int) (nominal : List Int) (load : List Fv) (st errCh : List Int)
  /-- `camera` (device.cpp 202-207) -/
  | camera (result ready : Int)

/-- Fields of the feedbacks of a valve (valve.cpp 91-105). -/
def fbText (onFb offFb : Option Int) : Txt :=
  (match onFb with | some z => fldI "FB_ON_ST" z | none => []) ++
  (match offFb with | some z => fldI "FB_OFF_ST" z | none => [])

/-- Fields of a counter (device.cpp 1275-1281). -/
def counterText (abs t1 pt1 t2 pt2 : Int) : Txt :=
  fldI "ABS_V" abs ++ fldI "DAY_T1" t1 ++ fldI "PREV_DAY_T1" pt1 ++ fldI "DAY_T2" t2 ++ fldI "PREV_DAY_T2" pt2

/-- `save_device_ex` of every kind. `none` is the exception of `fmt` about a missing argument: `"OK={1}, "` without arguments
(device.cpp 3333-3334). In the camera the text has no replacement fields, so it is printed as it stands (device.cpp 204). -/
def Kind.ex : Kind → Option Txt
  | .plain => some []
  | .analog e m s => some (fldI "E" (if e then 1 else 0) ++ fldF "M_EXP" 1 m ++ fldF "S_DEV" 1 s)
  | .valve a b => some (fbText a b)
  | .mixProof a b bl cs err v => some (fbText a b ++ fld "BLINK" (boolText bl) ++ fld "CS" (boolText cs) ++ fldI "ERR" err ++
      fldF "V" 1 v)
  | .shutOff bl cs err v => some (fld "BLINK" (boolText bl) ++ fld "CS" (boolText cs) ++ fldI "ERR" err ++ fldF "V" 1 v)
  | .tvis a b cs sup err v => some (fbText a b ++ fldI "CS" cs ++ fldI "SUP" sup ++ fldI "ERR" err ++ fldF "V" 1 v)
  | .analogValve n o c b => some (fldI "NAMUR_ST" n ++ fld "OPENED" (boolText o) ++ fld "CLOSED" (boolText c) ++
      fld "BLINK" (boolText b))
  | .counter a t1 p1 t2 p2 => some (counterText a t1 p1 t2 p2)
  | .counterF a t1 p1 t2 p2 f => some (counterText a t1 p1 t2 p2 ++ fldF "F" 2 f)
  | .counterIol a t1 p1 t2 p2 f t => some (counterText a t1 p1 t2 p2 ++ fldF "F" 2 f ++ fldF "T" 1 t)
  | .counterVirt a f => some (fldI "ABS_V" a ++ fldF "F" 2 f)
  | .level v => some (fldI "CLEVEL" v)
  | .wages w => some (fldF "W" 3 w)
  | .motor r e => some ((match r with | some z => fldI "R" z | none => []) ++ (match e with | some z => fldI "ERRT" z | none => []))
  | .altivar r f rpm est a mf => some (fldI "R" r ++ fldF "FRQ" 1 f ++ fldI "RPM" rpm ++ fldI "EST" est ++ fldF "AMP" 1 a ++
      fldF "MAX_FRQ" 1 mf)
  | .column g y r b s => some (fld "L_GREEN" (boolText g) ++ fld "L_YELLOW" (boolText y) ++ fld "L_RED" (boolText r) ++
      fld "L_BLUE" (boolText b) ++ fld "L_SIREN" (boolText s))
  | .concIol t => some (fldF "T" 1 t)
  | .concOk emulator ok => if emulator then none else some (fldI "OK" ok)
  | .power n l s sum u p err => some (fldL "NOMINAL_CURRENT_CH" (n.map intText) ++ fldL "LOAD_CURRENT_CH" (l.map (fixed 1)) ++
      fldL "ST_CH" (s.map intText) ++ fldF "SUM_CURRENTS" 1 sum ++ fldF "VOLTAGE" 1 u ++ fldI "OUT_POWER_90" p ++ fldI "ERR" err)
  | .breaker err m n l s ec => some (fldI "ERR" err ++ fldI "M" m ++ fldL "NOMINAL_CURRENT_CH" (n.map intText) ++
      fldL "LOAD_CURRENT_CH" (l.map (fixed 1)) ++ fldL "ST_CH" (s.map intText) ++ fldL "ERR_CH" (ec.map intText))
  | .camera _ _ => some "RESULT=%d, READY=%d, ".toList

/-- A device: name, manual mode, state (absent for an analog output, base.cpp 270-274), value (absent for the types of base.cpp
276-287), additional fields and the parameters which have a name. -/
structure Dev where
  name : String
  manual : Bool
  state : Option Int
  value : Option Fv
  kind : Kind
  pars : List (String × Fv)

/-- `par_device::save_device` (base.cpp 44-66) with the default prefix: parameters without a name are skipped. -/
def parsText (l : List (String × Fv)) : Txt := l.flatMap fun p => fldF p.1 (precision p.2) p.2

/-- The state (base.cpp 270-274). -/
def stText : Option Int → Txt
  | some z => fldI "ST" z
  | none => []

/-- The value (base.cpp 276-294). -/
def valueText : Option Fv → Txt
  | some x => fldF "V" (precision x) x
  | none => []

/-- `device::save_device` (base.cpp 265-303). The last two characters are removed, then the table is closed. -/
def Dev.save (d : Dev) (pre : Txt) : Option Txt :=
  match d.kind.ex with
  | none => none
  | some ex =>
    let t := pre ++ d.name.toList ++ "={".toList ++ fld "M" (boolText d.manual) ++
      stText d.state ++ valueText d.value ++ ex ++ parsText d.pars
    some ((if 2 < t.length then t.take (t.length - 2) else t) ++ "},\n".toList)

/-- The devices one after another (manager.cpp 1438-1441). -/
def saveDevs : List Dev → Option Txt
  | [] => some []
  | d :: l => match d.save "\t".toList with
    | none => none
    | some a => match saveDevs l with
      | none => none
      | some b => some (a ++ b)

/-- `device_manager::save_device` (manager.cpp 1435-1444). -/
def saveAll (l : List Dev) : Option Txt :=
  match saveDevs l with
  | none => none
  | some b => some ("t=\n\t{\n".toList ++ b ++ "\t}\n".toList)

end Ptusa.SaveDev
