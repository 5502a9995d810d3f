import Verif.Registry.Model

/-!
# Statistics of washed objects

Model of `cip_object_stats` and `cip_stats` (PAC/common/cip_stats.cpp, cip_stats.h): the statistics of the objects a
washing station has washed, the file they are kept in, and what the washing lines do with them
(PAC/common/cip_tech_def.cpp).  Arrays of characters are modelled with all their places, so that a text without an end and
a write past the end are seen; both are the outcome `none`.  The stream classes of C++ are modelled as far as the program
uses them.
-/
namespace Ptusa.CipStats

open Ptusa.Tcp (Byte)
open Ptusa.Registry (Name cmp)

/-! ### Texts in arrays -/

/-- The text in an array, `none` if it has no end. -/
def cstr (b : List Byte) : Option Name := if (0 : Byte) ∈ b then some (b.takeWhile (· != 0)) else none

/-- `strcpy` of the text `s` into the array `b`, `none` if it does not fit. -/
def strcpy (b : List Byte) (s : Name) : Option (List Byte) :=
  if s.length < b.length then some (s ++ 0 :: b.drop (s.length + 1)) else none

/-- `MAX_ID_LENGTH * UNICODE_MULTIPLIER` (cip_stats.h line 11, mcaRec.h line 17). -/
def maxId : Nat := 96

/-- `MAX_FIELD_LENGTH * UNICODE_MULTIPLIER` (cip_stats.h line 12, mcaRec.h line 17). -/
def maxField : Nat := 72

/-- "Не известно" (cip_stats.cpp lines 13, 15). -/
def unknown : Name :=
  [0xD0, 0x9D, 0xD0, 0xB5, 0x20, 0xD0, 0xB8, 0xD0, 0xB7, 0xD0, 0xB2, 0xD0, 0xB5, 0xD1, 0x81, 0xD1, 0x82, 0xD0, 0xBD, 0xD0, 0xBE]

/-- "Не определено" (cip_stats.cpp line 14). -/
def undetermined : Name :=
  [0xD0, 0x9D, 0xD0, 0xB5, 0x20, 0xD0, 0xBE, 0xD0, 0xBF, 0xD1, 0x80, 0xD0, 0xB5, 0xD0, 0xB4, 0xD0, 0xB5, 0xD0, 0xBB, 0xD0,
   0xB5, 0xD0, 0xBD, 0xD0, 0xBE]

/-- "tmp" (cip_stats.cpp line 142). -/
def tmp : Name := [0x74, 0x6D, 0x70]

/-- `cip_object_stats` (cip_stats.h lines 32-48), without `changed`, which nothing reads. -/
structure Obj where
  id : List Byte
  wash : List Byte
  prog : List Byte
  acid : List Byte
  caustic : Int
  deriving Repr, DecidableEq

/-- What memory holds before it is written: the array places of a new object, and the local variable `sl`. -/
structure Junk where
  id : Nat → Byte
  wash : Nat → Byte
  prog : Nat → Byte
  acid : Nat → Byte
  sl : Int

/-- The constructor (cip_stats.cpp lines 10-18). -/
def Obj.new (j : Junk) (n : Name) : Option Obj := do
  let id ← strcpy ((List.range maxId).map j.id) n
  let acid ← strcpy ((List.range maxField).map j.acid) unknown
  let prog ← strcpy ((List.range maxField).map j.prog) undetermined
  let wash ← strcpy ((List.range maxField).map j.wash) unknown
  some { id, wash, prog, acid, caustic := 0 }

/-! ### Writing -/

/-- The digits of a number. -/
def dec (n : Nat) : List Byte :=
  if n < 10 then [BitVec.ofNat 8 (48 + n)] else dec (n / 10) ++ [BitVec.ofNat 8 (48 + n % 10)]

/-- `stream << int`. -/
def decInt (i : Int) : List Byte := if i < 0 then 0x2D :: dec i.natAbs else dec i.natAbs

/-- One text of a record (cip_stats.cpp lines 28-30). -/
def putText (b : List Byte) : Option (List Byte) := do
  let s ← cstr b
  some (0x23 :: decInt s.length ++ 0x23 :: s)

/-- `cip_object_stats::serialize` (cip_stats.cpp lines 24-41). -/
def Obj.put (o : Obj) : Option (List Byte) := do
  let id ← putText o.id
  let wash ← putText o.wash
  let prog ← putText o.prog
  let acid ← putText o.acid
  some (decInt o.caustic ++ id ++ wash ++ prog ++ acid ++ [0x0A])

/-- `obj_stats`, a map ordered by `strcmp` (cip_stats.h lines 24-30, 67). -/
abbrev Base := List (Name × Obj)

/-- The records, one after another (cip_stats.cpp lines 130-133). -/
def putAll : Base → Option (List Byte)
  | [] => some []
  | (_, o) :: t => do
    let a ← o.put
    let b ← putAll t
    some (a ++ b)

/-- `cip_stats::serialize` (cip_stats.cpp lines 126-134); the number of objects is below 2^31. -/
def Base.put (b : Base) : Option (List Byte) := do
  let r ← putAll b
  some (decInt b.length ++ 0x0A :: r)

/-! ### Reading -/

/-- An input stream: what is left, and `good()`. -/
structure In where
  rest : List Byte
  ok : Bool
  deriving Repr, DecidableEq

/-- White space that `>>` skips. -/
def isWs (b : Byte) : Bool := b == 0x20 || (decide (9 ≤ b.toNat) && decide (b.toNat ≤ 13))

def isDigit (b : Byte) : Bool := decide (48 ≤ b.toNat) && decide (b.toNat ≤ 57)

/-- The number of a list of digits. -/
def number (l : List Byte) : Nat := l.foldl (fun n d => 10 * n + (d.toNat - 48)) 0

/-- `stream >> int` of a variable that holds `old`: a stream that is not good leaves the variable as it is, a text that is
no number sets it to zero, a number that does not fit sets it to the nearest that does; the end of the stream right behind
the number sets `eofbit`. -/
def In.int (s : In) (old : Int) : In × Int :=
  if s.ok = false then (s, old) else
  match s.rest.dropWhile isWs with
  | [] => (⟨[], false⟩, old)
  | c :: t =>
    let body := if c = 0x2D ∨ c = 0x2B then t else c :: t
    let ds := body.takeWhile isDigit
    let rest := body.dropWhile isDigit
    let v : Int := if c = 0x2D then -(number ds) else number ds
    if ds = [] then (⟨rest, false⟩, 0)
    else if v < -2147483648 then (⟨rest, false⟩, -2147483648)
    else if 2147483647 < v then (⟨rest, false⟩, 2147483647)
    else (⟨rest, !rest.isEmpty⟩, v)

/-- `stream >> char`; the character is not used. -/
def In.char (s : In) : In :=
  if s.ok = false then s else
  match s.rest.dropWhile isWs with
  | [] => ⟨[], false⟩
  | _ :: t => ⟨t, true⟩

/-- `stream.read(b, sl)` and the end of the text (cip_stats.cpp lines 48-52): the places are written before the length is
looked at, `none` if there are more of them than the array has. -/
def In.text (s : In) (b : List Byte) (sl : Int) : Option (In × List Byte) :=
  let got := if s.ok then s.rest.take sl.toNat else []
  if b.length < got.length then none
  else
    let b' := got ++ b.drop got.length
    let b'' := if 0 ≤ sl ∧ sl < b.length then b'.set sl.toNat 0 else b'
    some (if s.ok then ⟨s.rest.drop got.length, decide ((got.length : Int) = sl)⟩ else s, b'')

/-- `comma`, the length, `comma`, the text (cip_stats.cpp lines 53-58). -/
def In.field (s : In) (b : List Byte) (sl : Int) : Option (In × List Byte × Int) := do
  let (s, sl) := s.char.int sl
  let (s, b) ← s.char.text b sl
  some (s, b, sl)

/-- `cip_object_stats::deserialize` (cip_stats.cpp lines 43-71). -/
def Obj.get (o : Obj) (sl : Int) (s : In) : Option (In × Obj) := do
  let (s, n) := s.int o.caustic
  let (s, id, sl) ← s.field o.id sl
  let (s, wash, sl) ← s.field o.wash sl
  let (s, prog, sl) ← s.field o.prog sl
  let (s, acid, _) ← s.field o.acid sl
  some (s, { id, wash, prog, acid, caustic := n })

/-- `emplace`: a key that is there already keeps its object. -/
def emplace (k : Name) (o : Obj) : Base → Base
  | [] => [(k, o)]
  | (k', o') :: t =>
    match cmp k k' with
    | .lt => (k, o) :: (k', o') :: t
    | .eq => (k', o') :: t
    | .gt => (k', o') :: emplace k o t

/-- The loop of `cip_stats::deserialize` (cip_stats.cpp lines 140-147); the `n` records left, and the memory each finds. -/
def getAll : Nat → (Nat → Junk) → In → Base → Option Base
  | 0, _, _, b => some b
  | n + 1, js, s, b => do
    let o ← Obj.new (js 0) tmp
    let (s, o) ← o.get (js 0).sl s
    let k ← cstr o.id
    getAll n (fun i => js (i + 1)) s (emplace k o b)

/-- What the loading of a file finds in memory: the variable `reccount`, and what the records find. -/
structure Mem where
  count : Int
  recs : Nat → Junk

/-- `cip_stats::deserialize` of a file (cip_stats.cpp lines 136-148). -/
def Base.get (m : Mem) (f : List Byte) : Option Base :=
  let (s, n) := (In.mk f true).int m.count
  getAll n.toNat m.recs s []

/-- `loadFromFile` (cip_stats.cpp lines 150-164) into an empty base: no file, no objects. -/
def load (m : Mem) : Option (List Byte) → Option Base
  | none => some []
  | some f => Base.get m f

/-! ### The washing lines -/

/-- One place of a function changed. -/
def upd {α : Type} (f : Nat → α) (i : Nat) (v : α) : Nat → α := fun j => if j = i then v else f j

/-- The object of a name. -/
def find (n : Name) : Base → Option Obj
  | [] => none
  | (k, o) :: t => if cmp n k = .eq then some o else find n t

/-- A change of the object of a name. -/
def modify (n : Name) (f : Obj → Option Obj) : Base → Option Base
  | [] => none
  | (k, o) :: t => if cmp n k = .eq then (f o).map fun o => (k, o) :: t else (modify n f t).map ((k, o) :: ·)

/-- The statistics of a station and its file.  `at'` is `objectstats` of each line: the object of a name, or (`none`) the
empty object of the line, `empty`. -/
structure Sys where
  base : Base
  at' : Nat → Option Name
  empty : Nat → Obj
  file : Option (List Byte)
  changed : Bool

/-- What happens at a station. -/
inductive Ev
  /-- A recipe is selected for a line (cip_tech_def.cpp lines 1709-1710), or a line starts to wash a car (1900). -/
  | select (i : Nat) (n : Name) (j : Junk)
  /-- The name of a car is entered (cip_tech_def.cpp lines 571, 665). -/
  | car (i : Nat) (n : Name)
  /-- The circulation of caustic of a line is over (cip_tech_def.cpp lines 5532-5540). -/
  | caustic (i : Nat)
  /-- The circulation of acid of a line is over (cip_tech_def.cpp lines 5541-5546). -/
  | acid (i : Nat) (date : Name)
  /-- The wash of a line is over (cip_tech_def.cpp lines 2908-2922); `reset`: the operator ended it. -/
  | finish (i : Nat) (prog date : Name) (reset : Bool)
  /-- The recipe of a line is forgotten (`resetRecipeName`, cip_tech_def.cpp lines 1123-1129). -/
  | forget (i : Nat)
  /-- A cycle of the first line, which is not locked (cip_tech_def.cpp lines 704-724). -/
  | cycle
  /-- A cycle of the first line while it is locked (cip_tech_def.cpp lines 704-707). -/
  | locked
  /-- The command to read the statistics again (cip_tech_def.cpp lines 2011-2034); the lines that wash an object, with its
  name. -/
  | reload (washing : Nat → Option Name) (m : Mem)
  /-- The controller starts again (cip_tech_def.cpp lines 103-109). -/
  | restart (m : Mem) (js : Nat → Junk)
  /-- The controller loses its power when `k` bytes of the file are written, and starts again. -/
  | crash (k : Nat) (m : Mem) (js : Nat → Junk)

/-- A change of the object a line points to. -/
def Sys.onObj (s : Sys) (i : Nat) (f : Obj → Option Obj) : Option Sys :=
  match s.at' i with
  | some n => (modify n f s.base).map fun b => { s with base := b }
  | none => (f (s.empty i)).map fun o => { s with empty := upd s.empty i o }

/-- `objcausticwashes++` (cip_tech_def.cpp line 5538). -/
def Obj.addCaustic (o : Obj) : Option Obj := if o.caustic < 2147483647 then some { o with caustic := o.caustic + 1 } else none

/-- The end of a circulation of acid (cip_tech_def.cpp lines 5543-5544). -/
def Obj.setAcid (date : Name) (o : Obj) : Option Obj := (strcpy o.acid date).map fun a => { o with caustic := 0, acid := a }

/-- The end of a wash (cip_tech_def.cpp lines 2910-2911). -/
def Obj.setWash (prog date : Name) (o : Obj) : Option Obj := do
  let p ← strcpy o.prog prog
  let w ← strcpy o.wash date
  some { o with prog := p, wash := w }

/-- `resetstats` (cip_stats.cpp lines 73-80). -/
def Obj.reset (o : Obj) : Option Obj := do
  let acid ← strcpy o.acid unknown
  let prog ← strcpy o.prog undetermined
  let wash ← strcpy o.wash unknown
  some { o with acid, prog, wash, caustic := 0 }

/-- `resetRecipeName` (cip_tech_def.cpp lines 1123-1129). -/
def Sys.forget (s : Sys) (i : Nat) : Option Sys :=
  (s.empty i).reset.map fun o => { s with empty := upd s.empty i o, at' := upd s.at' i none }

/-- "emptyname" (cip_tech_def.cpp line 108). -/
def emptyName : Name := [0x65, 0x6D, 0x70, 0x74, 0x79, 0x6E, 0x61, 0x6D, 0x65]

/-- The empty object of a line; its name and the texts fit. -/
def Obj.empty (j : Junk) : Obj := (Obj.new j emptyName).getD ⟨[], [], [], [], 0⟩

/-- A controller that starts with a file (cip_tech_def.cpp lines 103-109). -/
def Sys.boot (file : Option (List Byte)) (m : Mem) (js : Nat → Junk) : Option Sys :=
  (load m file).map fun b => { base := b, at' := fun _ => none, empty := fun i => Obj.empty (js i), file, changed := false }

/-- `saveToFile` (cip_stats.cpp lines 166-186): what is written.  On a PLCnext controller the command that follows is put
behind a text that leaves no place for it (lines 179-183). -/
def Sys.save (plcnext : Bool) (s : Sys) : Option (List Byte) := if plcnext then none else s.base.put

/-- One event. -/
def Sys.step (plcnext : Bool) (s : Sys) : Ev → Option Sys
  | .select i n j =>
    match find n s.base with
    | some _ => some { s with at' := upd s.at' i (some n) }
    | none => (Obj.new j n).map fun o => { s with base := emplace n o s.base, at' := upd s.at' i (some n) }
  | .car i n => some { s with at' := upd s.at' i ((find n s.base).map fun _ => n) }
  | .caustic i => s.onObj i Obj.addCaustic
  | .acid i date => s.onObj i (Obj.setAcid date)
  | .finish i prog date reset => do
    let s ← s.onObj i (Obj.setWash prog date)
    Sys.forget { s with changed := s.changed || !reset } i
  | .forget i => s.forget i
  | .cycle =>
    if s.changed then (s.save plcnext).map fun f => { s with file := some f, changed := false } else some s
  | .locked => some s
  | .reload washing m => (load m s.file).map fun b =>
      { s with base := b, changed := false, at' := fun i => (washing i).bind fun n => (find n b).map fun _ => n }
  | .restart m js => Sys.boot s.file m js
  | .crash k m js =>
    if s.changed then (s.base.put).bind fun f => Sys.boot (some (f.take k)) m js else Sys.boot s.file m js

/-- A history. -/
def Sys.run (plcnext : Bool) (s : Sys) : List Ev → Option Sys
  | [] => some s
  | e :: es => (s.step plcnext e).bind fun s => s.run plcnext es

/-- A new station: no file. -/
def Sys.init (js : Nat → Junk) : Sys :=
  { base := [], at' := fun _ => none, empty := fun i => Obj.empty (js i), file := none, changed := false }

/-- Is a wash refused because the object needs an acid wash (cip_tech_def.cpp lines 1918-1926)? -/
def Sys.acidDue (s : Sys) (i : Nat) (max : Int) (prog : Nat) : Bool :=
  let o := match s.at' i with
    | some n => (find n s.base).getD (s.empty i)
    | none => s.empty i
  decide (0 < max) && decide (max < o.caustic) && !prog.testBit 4 && prog.testBit 5

end Ptusa.CipStats
