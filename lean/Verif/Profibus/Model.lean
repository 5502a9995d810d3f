/-!
# The controller as a slave on PROFIBUS

Model of the exchange of data and of the functions for the program of `profibus_slave_PFC200`
(PAC/linux/PAC_PFC200/profibus_slave_PFC200.cpp 444-611, with `USE_PROFIBUS`). The library of the manufacturer is a parameter:
whether each of its functions succeeds and which bytes it gives. Simplifications: `ReadBytes` that fails leaves the buffer as it
is; the initialization of the library is not modelled, except that it clears both images (90-92); a float is its 32 bits.
-/
namespace Ptusa.Profibus

abbrev Byte := BitVec 8

/-- Both images (profibus_slave_PFC200.h 269-270), 244 bytes each. -/
structure Dev where
  inp : Nat → Byte := fun _ => 0
  out : Nat → Byte := fun _ => 0

/-- `get_double` (530-547): the four bytes are turned round and read as a float of the processor, whose first byte is the
lowest. `none`: access outside of the image. -/
def getFloat (d : Dev) (off : Int) : Option (BitVec 32) :=
  if off < 240 then
    if off < 0 then none
    else
      let t0 := d.inp (off.toNat + 3)
      let t1 := d.inp (off.toNat + 2)
      let t2 := d.inp (off.toNat + 1)
      let t3 := d.inp off.toNat
      some (t3 ++ t2 ++ t1 ++ t0)
  else some 0

/-- `get_bool` (549-559). A shift by a negative number is undefined too. -/
def getBool (d : Dev) (off bit : Int) : Option Bool :=
  if off < 244 ∧ bit < 8 then
    if off < 0 ∨ bit < 0 then none else some ((d.inp off.toNat).getLsbD bit.toNat)
  else some false

/-- `get_int` (561-571). -/
def getInt (d : Dev) (off : Int) : Option Int :=
  if off < 242 then
    if off < 0 then none else some (256 * (d.inp off.toNat).toNat + (d.inp (off.toNat + 1)).toNat)
  else some 0

/-- `get_int4` (573-585): the sum is one of `int`, and an overflow is undefined. -/
def getInt4 (d : Dev) (off : Int) : Option Int :=
  if off < 240 then
    if off < 0 then none
    else
      let v := 16777216 * (d.inp off.toNat).toNat + 65536 * (d.inp (off.toNat + 1)).toNat +
        256 * (d.inp (off.toNat + 2)).toNat + (d.inp (off.toNat + 3)).toNat
      if v < 2147483648 then some v else none
  else some 0

/-- One byte of the output image. -/
def Dev.put (d : Dev) (i : Nat) (b : Byte) : Dev := { d with out := fun j => if j = i then b else d.out j }

/-- `set_int` (587-594): the value is converted to bytes, `val >> 8` is arithmetic. -/
def setInt (d : Dev) (off : Int) (v : BitVec 32) : Option Dev :=
  if off < 242 then
    if off < 0 then none
    else some ((d.put off.toNat ((v.sshiftRight 8).setWidth 8)).put (off.toNat + 1) (v.setWidth 8))
  else some d

/-- `set_bool` (596-610). -/
def setBool (d : Dev) (off bit : Int) (v : Bool) : Option Dev :=
  if off < 244 ∧ bit < 8 then
    if off < 0 ∨ bit < 0 then none
    else
      let tmp : Byte := 1#8 <<< bit.toNat
      some (d.put off.toNat (if v then d.out off.toNat ||| tmp else d.out off.toNat &&& ~~~tmp))
  else some d

/-- The functions of the library. -/
inductive Call
  | watchdog
  | readStart
  | readBytes
  | readEnd
  | writeStart
  | writeBytes
  | writeEnd
  deriving DecidableEq

/-- What the library does in a cycle: which functions succeed, which bytes it gives. -/
structure Lib where
  ok : Call → Bool
  data : Nat → Byte

/-- The calls in order, up to the first that fails. -/
def calls (ok : Call → Bool) : List Call → List Call
  | [] => []
  | c :: l => c :: if ok c then calls ok l else []

/-- All calls of a cycle. -/
def allCalls : List Call := [.watchdog, .readStart, .readBytes, .readEnd, .writeStart, .writeBytes, .writeEnd]

/-- `eval` (444-528): the device, the result, the calls, the bytes handed to a successful `WriteBytes`. -/
def eval (d : Dev) (l : Lib) : Dev × Bool × List Call × Option (Nat → Byte) :=
  let made := calls l.ok allCalls
  let d := if .readBytes ∈ made ∧ l.ok .readBytes then { d with inp := fun i => if i < 244 then l.data i else d.inp i } else d
  (d, made.length = 7 && l.ok .writeEnd, made,
    if .writeBytes ∈ made ∧ l.ok .writeBytes then some (fun i => if i < 244 then d.out i else 0) else none)

/-- What happens: the program sets a value, or a cycle. -/
inductive Ev
  | setInt (off : Int) (v : BitVec 32)
  | setBool (off bit : Int) (v : Bool)
  | cycle (l : Lib)

/-- One event. -/
def step (d : Dev) : Ev → Option Dev
  | .setInt o v => setInt d o v
  | .setBool o b v => setBool d o b v
  | .cycle l => some (eval d l).1

/-- A history after the initialization. -/
def run (d : Dev) : List Ev → Option Dev
  | [] => some d
  | e :: l => (step d e).bind fun d => run d l

end Ptusa.Profibus
