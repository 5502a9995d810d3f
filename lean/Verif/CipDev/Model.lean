import Verif.Registry.Model

/-!
# The devices of the object of a washing line: `PAC/common/cip_tech_def.cpp`

Model of `cipline_tech_object::init_object_devices` (lines 5681-5772) and of `check_DI` … `check_M` (lines 5774-6009), on top of the
manager of devices (`Ptusa.Registry`).  A device is its place in the list of the project.  A parameter is its value without the
fraction.  `none`: undefined.  Simplification: the conversion of what `M( … )` gives to a motor and back is taken for no change (see
C82 for what it is).
-/
namespace Ptusa.CipDev
open Ptusa.Registry

/-- Characters of a text as bytes. -/
def bytes (t : String) : Name := t.toList.map fun c => BitVec.ofNat 8 c.toNat

/-- `%d` of a number of 32 bits (as signed). -/
def dec (n : Int) : Name :=
  let n := if n < 2 ^ 31 then n else n - 2 ^ 32
  if n < 0 then bytes (toString "-") ++ (Nat.toDigits 10 (-n).toNat).map (fun c => BitVec.ofNat 8 c.toNat)
  else (Nat.toDigits 10 n.toNat).map (fun c => BitVec.ofNat 8 c.toNat)

/-- Kinds of devices (`device::DEVICE_TYPE`, base.h lines 386-403). -/
inductive Kind where
  | di | dout | ai | ao | ls | m
  deriving DecidableEq, Repr

/-- `DT_DI` … -/
def Kind.type : Kind → Int
  | .m => 2
  | .ls => 3
  | .di => 13
  | .dout => 14
  | .ai => 15
  | .ao => 16

/-- The letters of the names. -/
def Kind.tag : Kind → Name
  | .m => bytes "M"
  | .ls => bytes "LS"
  | .di => bytes "DI"
  | .dout => bytes "DO"
  | .ai => bytes "AI"
  | .ao => bytes "AO"

/-- `"LINE%dDI%d"`. -/
def lineName (nmr : Int) (k : Kind) (n : Int) : Name := bytes "LINE" ++ dec nmr ++ k.tag ++ dec n

/-- `"DI%d"` (manager.cpp lines 149-154). -/
def shortName (k : Kind) (n : Int) : Name := k.tag ++ dec n

/-- The device behind a look-up, if its `get_serial_n() > 0`. -/
def real (m : Mgr) : Ref → Option Nat
  | .stub => none
  | .at i =>
    match m.devs[i]? with
    | none => none
    | some d => if 0 < d.serial then some i else none

/-- `DI( name )` and the check of its number.  The outer `none`: undefined. -/
def named (m : Mgr) (k : Kind) (name : Name) : Option (Option Nat) := (m.getDevice k.type name).map (real m)

/-- `DEVICE( dev_no )` with the check of its number and type. -/
def placed (m : Mgr) (k : Kind) (n : Nat) : Option Nat :=
  match real m (m.getByNumber n) with
  | none => none
  | some i =>
    match m.devs[i]? with
    | none => none
    | some d => if d.type = k.type then some i else none

/-- What a check finds: nothing is wanted, a device, or an error. -/
inductive Found where
  | unused
  | dev (i : Nat)
  | missing
  deriving DecidableEq, Repr

/-- `check_DI`, `check_DO`, `check_AO`, `check_M` (lines 5774-5856, 5891-5931, 5969-6009). -/
def checkFull (m : Mgr) (nmr : Int) (k : Kind) (v : Int) : Option Found :=
  if v < 0 ∨ 2 ^ 32 ≤ v then none
  else if 0 < v then
    match named m k (lineName nmr k v) with
    | none => none
    | some (some i) => some (.dev i)
    | some none =>
      match named m k (shortName k v) with
      | none => none
      | some (some i) => some (.dev i)
      | some none =>
        match placed m k v.toNat with
        | some i => some (.dev i)
        | none => some .missing
  else some .unused

/-- `check_AI` (lines 5858-5889). -/
def checkAi (m : Mgr) (nmr : Int) (v : Int) : Option Found :=
  if v < 0 ∨ 2 ^ 32 ≤ v then none
  else if 0 < v then
    match named m .ai (lineName nmr .ai v) with
    | none => none
    | some (some i) => some (.dev i)
    | some none =>
      match placed m .ai v.toNat with
      | some i => some (.dev i)
      | none => some .missing
  else some .unused

/-- `check_LS` (lines 5933-5967). -/
def checkLs (m : Mgr) (nmr : Int) (v : Int) : Option Found :=
  if v < 0 ∨ 2 ^ 32 ≤ v then none
  else if 0 < v then
    match named m .ls (lineName nmr .ls v) with
    | none => none
    | some (some i) => some (.dev i)
    | some none =>
      match named m .di (lineName nmr .di v) with
      | none => none
      | some (some i) => some (.dev i)
      | some none => some .missing
  else some .unused

/-- The check for a kind. -/
def check (m : Mgr) (nmr : Int) (k : Kind) (v : Int) : Option Found :=
  match k with
  | .ai => checkAi m nmr v
  | .ls => checkLs m nmr v
  | k => checkFull m nmr k v

/-- The signals and devices of an object (lines 5711-5769): the member and its parameter. -/
inductive Slot where
  | os | objectReady | cipReady | canContinue | pause | retPump | retCtrl | sanitizer | mediumChange | empty | caustic | acid | water
  | desinfection | circulation | finished | finished2 | inProgress | pumpFrequency | pumpFeedback | pumpCanRun | retLevel | prerinse
  | intermediate | postrinse | aborted | pumpStopped | flowTask | tempTask
  deriving DecidableEq, Repr

/-- The function that checks the parameter of a signal. -/
def Slot.kind : Slot → Kind
  | .os | .objectReady | .cipReady | .canContinue | .pause | .empty | .pumpCanRun => .di
  | .retPump => .m
  | .pumpFrequency | .pumpFeedback => .ai
  | .retLevel => .ls
  | .flowTask | .tempTask => .ao
  | _ => .dout

/-- The order of the checks (lines 5711-5769). -/
def order : List Slot :=
  [.os, .objectReady, .cipReady, .canContinue, .pause, .retPump, .retCtrl, .sanitizer, .mediumChange, .empty, .caustic, .acid, .water,
   .desinfection, .circulation, .finished, .finished2, .inProgress, .pumpFrequency, .pumpFeedback, .pumpCanRun, .retLevel, .prerinse,
   .intermediate, .postrinse, .aborted, .pumpStopped, .flowTask, .tempTask]

/-- The members that hold the devices. -/
abbrev Devs := Slot → Option Nat

/-- Assignment to a member. -/
def Devs.set (d : Devs) (s : Slot) (o : Option Nat) : Devs := fun x => if x = s then o else d x

/-- The checks, one after another; `false`: -1 is returned. -/
def assign (m : Mgr) (nmr : Int) (par : Slot → Int) : List Slot → Devs → Option (Bool × Devs)
  | [], d => some (true, d)
  | s :: ss, d =>
    match check m nmr s.kind (par s) with
    | none => none
    | some .unused => assign m nmr par ss (d.set s none)
    | some (.dev i) => assign m nmr par ss (d.set s (some i))
    | some .missing => some (false, d.set s none)

/-- Options of the circulation (lines 5683-5697). -/
structure Circ where
  tankS : Bool
  tankK : Bool
  feedWater : Bool
  feedS : Bool
  feedK : Bool
  count : Nat
  waterNoStop : Bool
  mediumNoStop : Bool
  deriving DecidableEq, Repr

/-- The options in the parameter (lines 5683-5697, cip_tech_def.h lines 121-128).  `none`: a value that is not a number of 32 bits. -/
def circ (v : Int) : Option Circ :=
  if v < 0 ∨ 2 ^ 32 ≤ v then none
  else
    let f : BitVec 32 := BitVec.ofNat 32 v.toNat
    let c := ((f >>> 12) &&& 0xFF#32).toNat
    some { tankS := f &&& 64#32 != 0#32
           tankK := f &&& 32#32 != 0#32
           feedWater := f &&& 1#32 != 0#32
           feedS := f &&& 4#32 != 0#32
           feedK := f &&& 2#32 != 0#32
           count := if c = 0 then 3 else c
           waterNoStop := f &&& 256#32 != 0#32
           mediumNoStop := f &&& 128#32 != 0#32 }

/-- `init_object_devices` (lines 5681-5772): whether the washing can start, and the devices after it; the options are set in any case. -/
def init (m : Mgr) (nmr : Int) (podp : Int) (par : Slot → Int) (d : Devs) : Option (Bool × Circ × Devs) :=
  match circ podp with
  | none => none
  | some c =>
    if (c.tankS && c.feedS) || (c.tankK && c.feedK) then some (false, c, d)
    else (assign m nmr par order d).map fun r => (r.1, c, r.2)

end Ptusa.CipDev
