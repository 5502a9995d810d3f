import Verif.Base.Fl

/-!
# Sensors on IO-Link: `PAC/common/device/device.cpp`

Process data of a sensor lie in the image of the coupler as the sensor sent them (modules "AXL F
IOL8", "AXL SE IOL4": `PAC/common/uni_bus_coupler_io.cpp` lines 829-834).  Bit fields are laid out as by gcc on
the little-endian processors of the controllers, low bits first.  The image is a total function from
places to bytes, counted from the first byte of the channel; the module has enough bytes.
-/
namespace Ptusa.IolSens

abbrev Byte := BitVec 8

/-- Bytes of the image from the place of the sensor on. -/
abbrev Img := Nat → Byte

/-- A 16-bit word in memory, low byte first. -/
def word (lo hi : Byte) : BitVec 16 := hi ++ lo

/-- A 32-bit word in memory, low byte first. -/
def dword (b0 b1 b2 b3 : Byte) : BitVec 32 := b3 ++ b2 ++ b1 ++ b0

/-- `std::swap( data[ i ], data[ j ] )` in the image. -/
def Img.swap (m : Img) (i j : Nat) : Img := fun k => if k = i then m j else if k = j then m i else m k

/-! ### Pressure (and level by pressure) -/

/-- `pressure_e_iolink::ARTICLE` (device.h lines 205-240). -/
inductive PArticle where
  | pi2715 | pi2794 | pi2797
  | pm1704 | pm1705 | pm1706 | pm1707 | pm1708 | pm1709 | pm1715
  | fes8001446
  | default
  deriving DecidableEq, Repr

/-- The factor `alfa` (device.cpp lines 3004-3034), in decimal. -/
def PArticle.alfa : PArticle → Rat
  | .pm1708 => 1 / 100000
  | .pm1706 | .pm1707 | .pm1709 => 1 / 10000
  | .pi2715 | .pi2797 | .pm1704 | .pm1705 | .pm1715 => 1 / 1000
  | .pi2794 => 1 / 100
  | .fes8001446 => 610388818 / 1000000000000
  | .default => 1

/-- Value and state kept by a device. -/
structure Reading where
  v : Fl
  st : Int
  deriving DecidableEq, Repr

/-- `pressure_e_iolink::evaluate_io` (device.cpp lines 2956-3036), also used by `level_e_iolink`
(lines 2839-2846): the new image and reading.  `PT_data` (device.h 242-247): 1 + 1 + 14 bits;
`ex_PT_data` (249-255): 16 bits, then 4 unused and 4 bits of the status. -/
def pressureEval (a : PArticle) (m : Img) : Img × Reading :=
  match a with
  | .pi2715 | .pi2794 | .pi2797 | .fes8001446 =>
    -- std::reverse_copy( data, data + 2, &info )
    let w := word (m 1) (m 0)
    (m, ⟨.num (a.alfa * (w.extractLsb' 2 14).toInt), 0⟩)
  | .default => (m, ⟨.num 0, 0⟩)
  | _ =>
    let m := (m.swap 0 1).swap 2 3
    let w := word (m 0) (m 1)
    let s := word (m 2) (m 3)
    (m, ⟨.num (a.alfa * w.toInt), (s.extractLsb' 4 4).toNat⟩)

/-! ### Level switch -/

/-- `level_s_iolink::ARTICLE` (device.h lines 988-998). -/
inductive LArticle where
  | lmt100 | lmt102 | lmt104 | lmt105 | ftl33 | default
  deriving DecidableEq, Repr

/-- `level_s_iolink::evaluate_io` (device.cpp lines 2586-2620); `LS_data` (device.h 1001-1006),
`rev_LS_data` (1007-1012). -/
def levelSEval (a : LArticle) (err : Fl) (m : Img) : Reading :=
  match a with
  | .ftl33 =>
    let w := word (m 1) (m 0)
    ⟨.num (1 / 10 * (w.extractLsb' 0 14).toInt), (w.extractLsb' 14 1).toNat⟩
  | .default => ⟨err, 0⟩
  | _ =>
    let w := word (m 1) (m 0)
    ⟨.num (w.extractLsb' 2 14).toInt, (w.extractLsb' 0 1).toNat⟩

/-! ### Conductivity -/

/-- `concentration_e_iolink::QT_data` (device.h lines 453-462). -/
structure Qt where
  conductivity : Nat
  temperature : Nat
  status : Nat
  deriving DecidableEq, Repr

/-- `concentration_e_iolink::evaluate_io` (device.cpp lines 3400-3407): 12 bytes in reverse order into
a packed structure of 1, 1, 4, 1, 1 and 4 bytes. -/
def qtEval (m : Img) : Qt :=
  let r : Nat → Byte := fun k => m (11 - k)
  ⟨(dword (r 8) (r 9) (r 10) (r 11)).toNat, (dword (r 2) (r 3) (r 4) (r 5)).toNat,
    ((r 0).extractLsb' 4 4).toNat⟩

/-! ### Flow meter -/

/-- `counter_iolink::in_data` (device.h lines 1329-1338); the totalizer by the bits of the `float`. -/
structure Fqt where
  totalizer : BitVec 32
  flow : Int
  out1 : Nat
  out2 : Nat
  temperature : Int
  deriving DecidableEq, Repr

/-- `counter_iolink::evaluate_io` (device.cpp lines 1462-1478): 8 bytes are copied, then the order of
bytes is reversed in the copy. -/
def fqtEval (m : Img) : Fqt :=
  let b := (((m.swap 3 0).swap 1 2).swap 4 5).swap 6 7
  let w := word (b 6) (b 7)
  ⟨dword (b 0) (b 1) (b 2) (b 3), (word (b 4) (b 5)).toInt, (w.extractLsb' 1 1).toNat,
    (w.extractLsb' 0 1).toNat, (w.extractLsb' 2 14).toInt⟩

/-- `counter_iolink::get_flow` (device.cpp lines 1537-1541). -/
def Fqt.getFlow (cz : Fl) (d : Fqt) : Fl := cz + .num (d.flow * (1 / 100))

/-- `counter_iolink::get_temperature` (device.cpp lines 1496-1499). -/
def Fqt.getTemperature (d : Fqt) : Fl := .num (1 / 10 * d.temperature)

/-! ### Temperature -/

/-- A `char` as a number; `char` is signed on x86, unsigned on ARM. -/
def ofChar (signed : Bool) (b : Byte) : Int := if signed then b.toInt else b.toNat

/-- `int16_t tmp = data[1] + 256 * data[0]` (device.cpp line 1744). -/
def teWord (signed : Bool) (m : Img) : Int :=
  (BitVec.ofInt 16 (ofChar signed (m 1) + 256 * ofChar signed (m 0))).toInt

/-! ### What the program sees -/

/-- `io_device::IOLINKSTATE` (bus_coupler_io.h lines 40-45). -/
inductive Link where
  | ok | notConnected | deviceError
  deriving DecidableEq, Repr

/-- Its number. -/
def Link.code : Link → Int
  | .ok => 0
  | .notConnected => 1
  | .deviceError => 2

/-- `temperature_e_iolink::get_value` outside the emulator (device.cpp lines 1732-1749). -/
def teValue (signed : Bool) (zero err : Fl) (l : Link) (m : Img) : Fl :=
  if l ≠ .ok then err else zero + .num (1 / 10 * teWord signed m)

/-- `get_value` of `pressure_e_iolink` (device.cpp lines 3050-3062) and `level_s_iolink` (2660-2672). -/
def getValue (err : Fl) (l : Link) (r : Reading) : Fl := if l ≠ .ok then err else r.v

/-- `get_state` of `pressure_e_iolink` (device.cpp lines 3064-3077) and `level_e_iolink` (2818-2831). -/
def getState (l : Link) (r : Reading) : Int := if l ≠ .ok then -l.code else r.st

/-- `level_e_iolink::get_value` (device.cpp lines 2804-2816). -/
def levelEValue (err maxP : Fl) (l : Link) (r : Reading) : Fl :=
  if l ≠ .ok then err else r.v / maxP * 100

/-- `concentration_e_iolink::get_value` (device.cpp lines 3372-3384). -/
def qtValue (err : Fl) (l : Link) (q : Qt) : Fl :=
  if l ≠ .ok then err else .num (1 / 1000 * (q.conductivity : Rat))

/-- `concentration_e_iolink::get_temperature` (device.cpp lines 3367-3370). -/
def Qt.getTemperature (q : Qt) : Fl := .num (1 / 10 * (q.temperature : Rat))

/-- `concentration_e_iolink::get_state` (device.cpp lines 3386-3399). -/
def qtState (l : Link) (q : Qt) : Int := if l ≠ .ok then -l.code else q.status

/-! ### Histories -/

/-- `recv`: the coupler answered, the image holds what the sensor sent (`main.cpp` line 179); a cycle
in which the coupler does not answer has none.  `eval`: `evaluate_io` of the device (line 182). -/
inductive Ev where
  | recv (d : Img)
  | eval

/-- A history for a device that keeps `σ` and may change the image. -/
def run {σ : Type} (f : Img → Img × σ) : Img × σ → List Ev → Img × σ
  | s, [] => s
  | (_, r), .recv d :: h => run f (d, r) h
  | (m, _), .eval :: h => run f (f m) h

end Ptusa.IolSens
