/-!
# Text files: `data_file` (PAC/linux/l_mem.cpp 112-200, l_mem.h 49-72; interface `file`, PAC/common/sys/base_mem.h 153-197)

The version for Linux.  Files are regular: `read` of one byte gives a byte or, at the end, none; a descriptor is a number; opening
gives -1 or a descriptor that is not open yet.
-/
namespace Ptusa.TextFile

abbrev Byte := BitVec 8

/-- What is open in the process under one descriptor: the bytes and the position. -/
structure Stream where
  data : List Byte
  pos : Nat := 0
  deriving DecidableEq

/-- The object: the descriptor `f`, and the open descriptors of the process.  Descriptor 0 is the standard input. -/
structure Obj where
  f : Int := 0
  open_ : Int → Option Stream

/-- `C_MAX_BUFFER_SIZE` (l_mem.h lines 65-71): the size of `buf`. -/
def size : Nat := 200

/-- The loop of `fget_line` (l_mem.cpp lines 153-176): `acc` is in the buffer and `pos` is its length; `rest` is not read yet.  The
result is what is in the buffer. -/
def loop : List Byte → List Byte → List Byte
  | [], acc => acc
  | c :: rest, acc =>
    if acc.getLast? = some 10 then acc
    else
      let acc := acc ++ [c]
      if size ≤ acc.length then acc else loop rest acc

/-- `fget_line` on the bytes that are left (l_mem.cpp lines 137-180): `buf[ pos ] = 0` behind the buffer is undefined. -/
def line : List Byte → Option (List Byte)
  | [] => some []
  | c :: rest =>
    let l := loop rest [c]
    if l.length < size then some l else none

/-- The bytes that are left of a descriptor; reading from a descriptor that is not open gives an error, like the end of a file. -/
def Obj.left (o : Obj) : List Byte :=
  match o.open_ o.f with
  | some s => s.data.drop s.pos
  | none => []

/-- Moving the position of the descriptor (`read`, `lseek`). -/
def Obj.move (o : Obj) (d : Int) : Obj :=
  { o with open_ := fun n => if n = o.f then (o.open_ n).map fun s => { s with pos := (s.pos + d).toNat } else o.open_ n }

/-- The buffer as a C string: what is before the first zero. -/
def cstr (l : List Byte) : List Byte := l.takeWhile (· ≠ 0)

/-- `fget_line`: the string returned and the new state. -/
def Obj.getLine (o : Obj) : Option (List Byte × Obj) :=
  (line o.left).map fun l => (cstr l, o.move l.length)

/-- `pfget_line` (l_mem.cpp lines 182-188): back by `strlen`. -/
def Obj.peekLine (o : Obj) : Option (List Byte × Obj) :=
  o.getLine.map fun (s, o) => (s, o.move (-s.length))

/-- `file_open` (l_mem.cpp lines 121-125): `got` is what the system gives, a new descriptor and the bytes of the file or an error.  The
result is the descriptor. -/
def Obj.fileOpen (o : Obj) (got : Option (Nat × List Byte)) : Int × Obj :=
  match got with
  | some (n, data) => (n, { f := n, open_ := fun x => if x = n then some ⟨data, 0⟩ else o.open_ x })
  | none => (-1, { o with f := -1 })

/-- `file_read` (l_mem.cpp lines 127-135). -/
def Obj.fileRead (o : Obj) (count : Nat) : List Byte × Obj :=
  if o.f ≠ 0 then (o.left.take count, o.move (o.left.take count).length) else ([], o)

/-- `file_close` (l_mem.cpp lines 190-197). -/
def Obj.fileClose (o : Obj) : Obj :=
  if o.f ≠ 0 then { f := 0, open_ := fun x => if x = o.f then none else o.open_ x } else o

/-- A call: `fget_line` or `pfget_line`. -/
inductive Call where
  | get
  | peek
  deriving DecidableEq

/-- Calls one after the other, with what they return. -/
def Obj.calls (o : Obj) : List Call → Option (List (List Byte) × Obj)
  | [] => some ([], o)
  | .get :: cs => o.getLine.bind fun (s, o) => (o.calls cs).map fun (r, o) => (s :: r, o)
  | .peek :: cs => o.peekLine.bind fun (s, o) => (o.calls cs).map fun (r, o) => (s :: r, o)

end Ptusa.TextFile
