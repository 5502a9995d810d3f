/-!
# Non-volatile memory: `PAC/common/sys/base_mem.{h,cpp}`, `PAC/linux/l_mem.cpp`

`u_int` is a 32-bit word, so all positions are `BitVec 32` and `+` wraps as in C++.
-/
namespace Ptusa.Mem

/-- C++ `u_int` (32 bit on every supported target). -/
abbrev Word := BitVec 32

/-- A byte of the storage device. -/
abbrev Byte := BitVec 8

/-- `NV_memory_manager::MEMORY_TYPE`, `PAC/common/sys/base_mem.h`.
Any other value passed by a caller is `other`. -/
inductive MemType where
  | nvram
  | eeprom
  | other
  deriving DecidableEq, Repr

/-- The two `NV_memory` objects made by the constructor
(`base_mem.cpp:107-147`, `NVRAM_SIZE = 32`, `EEPROM_SIZE = 32768`). -/
inductive Area where
  | nvram
  | eeprom
  deriving DecidableEq, Repr

/-- `get_available_start_pos()` of the two areas (`base_mem.cpp:121-122`). -/
def Area.startPos : Area → Word
  | .nvram => 0
  | .eeprom => 32

/-- `get_available_end_pos()` of the two areas, *inclusive* (`base_mem.cpp:121-122`). -/
def Area.endPos : Area → Word
  | .nvram => 31
  | .eeprom => 32767

/-- `total_size` of the storage device (`base_mem.cpp:112,121-122`). -/
def totalSize : Nat := 32768

/-- `memory_range` (`base_mem.h`, constructor `base_mem.cpp:47-52`).  `mem = none` is the
null pointer used for a refused request. -/
structure Range where
  mem   : Option Area
  start : Word
  size  : Word
  deriving DecidableEq, Repr

/-- The range returned for a refused request, `new memory_range( 0, 0, 0 )`. -/
def Range.empty : Range := { mem := none, start := 0, size := 0 }

/-- `NV_memory_manager` (`base_mem.cpp:107-147`): the two bump pointers. -/
structure Mgr where
  lastNvram  : Word
  lastEeprom : Word
  deriving DecidableEq, Repr

/-- Constructor, `base_mem.cpp:145-146`. -/
def Mgr.init : Mgr :=
  { lastNvram := Area.nvram.startPos, lastEeprom := Area.eeprom.startPos }

/-- `*last_mem_pos`. -/
def Mgr.last (m : Mgr) : Area → Word
  | .nvram => m.lastNvram
  | .eeprom => m.lastEeprom

/-- `*last_mem_pos = w`. -/
def Mgr.setLast (m : Mgr) (a : Area) (w : Word) : Mgr :=
  match a with
  | .nvram => { m with lastNvram := w }
  | .eeprom => { m with lastEeprom := w }

/-- The body of `get_memory_block` once the area is chosen (`base_mem.cpp:204-225`). -/
def Mgr.alloc (m : Mgr) (a : Area) (count : Word) : Mgr × Range :=
  if a.endPos < m.last a + count then
    (m, Range.empty)
  else
    (m.setLast a (m.last a + count), { mem := some a, start := m.last a, size := count })

/-- `NV_memory_manager::get_memory_block` (`base_mem.cpp:157-226`). -/
def Mgr.getBlock (m : Mgr) (t : MemType) (count : Word) : Mgr × Range :=
  match t with
  | .nvram => m.alloc .nvram count
  | .eeprom => m.alloc .eeprom count
  | .other => (m, Range.empty)

/-- A history of requests; returns the ranges handed out, in order. -/
def Mgr.run (m : Mgr) : List (MemType × Word) → Mgr × List Range
  | [] => (m, [])
  | (t, c) :: rs =>
    let (m1, r) := m.getBlock t c
    let (m2, out) := m1.run rs
    (m2, r :: out)

/-- The storage device (one file / one NVRAM chip shared by both areas): contents by
absolute offset.  The device is unbounded here; staying below `totalSize` is a property. -/
abbrev Disk := Nat → Byte

/-- `SRAM::write`/`SRAM::read` seek to `get_available_start_pos() + start_pos`
(`l_mem.cpp:71,94`); the sum is computed in `u_int`. -/
def seekPos (a : Area) (pos : Word) : Nat := (a.startPos + pos).toNat

/-- Writing the bytes `buf` at absolute offset `p` (`write(2)` after `lseek(2)`,
assumed to transfer everything). -/
def Disk.put (d : Disk) (p : Nat) (buf : List Byte) : Disk :=
  fun q => if h : p ≤ q ∧ q < p + buf.length then buf[q - p]'(by omega) else d q

/-- Reading `n` bytes at absolute offset `p`. -/
def Disk.get (d : Disk) (p n : Nat) : List Byte := (List.range n).map fun i => d (p + i)

/-- `memory_range::check_params` (`base_mem.cpp:96-104`): `true` = parameters accepted. -/
def Range.ok (r : Range) (count start : Word) : Bool := ¬ (r.size < start + count)

/-- `memory_range::write` (`base_mem.cpp:75-94`) on top of `SRAM::write`
(`l_mem.cpp:88-108`).  The caller passes exactly `count` bytes.  Result: new device
contents, and the number of bytes transferred (0 = refused). -/
def Range.write (r : Range) (d : Disk) (buf : List Byte) (count start : Word) : Disk × Nat :=
  match r.mem with
  | none => (d, 0)
  | some a =>
    if r.ok count start then
      (d.put (seekPos a (r.start + start)) (buf.take count.toNat), count.toNat)
    else (d, 0)

/-- `memory_range::read` (`base_mem.cpp:54-73`) on top of `SRAM::read`
(`l_mem.cpp:65-86`).  `none` = refused (nothing is copied to the caller's buffer). -/
def Range.read (r : Range) (d : Disk) (count start : Word) : Option (List Byte) :=
  match r.mem with
  | none => none
  | some a =>
    if r.ok count start then
      some (d.get (seekPos a (r.start + start)) count.toNat)
    else none

/-- Absolute device offsets that belong to a range (half open interval). -/
def Range.lo (r : Range) : Nat :=
  match r.mem with
  | none => 0
  | some a => a.startPos.toNat + r.start.toNat

/-- End (exclusive) of the absolute device offsets that belong to a range. -/
def Range.hi (r : Range) : Nat :=
  match r.mem with
  | none => 0
  | some _ => r.lo + r.size.toNat

end Ptusa.Mem
