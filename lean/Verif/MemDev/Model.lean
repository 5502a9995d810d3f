/-!
# Drivers of the non-volatile memory

`PAC/linux/l_mem.cpp` and `PAC/win/w_mem.cpp` (class `SRAM`: a file), `PAC/linux/PAC_PFC200/mem_PFC200.cpp`
and `PAC/linux/PAC_PLCnext/mem_PLCnext.{h,cpp}` (memory mapped into the process), and the choice
between them in the constructor of `NV_memory_manager`, `PAC/common/sys/base_mem.cpp:107-155`.

The layer above (`memory_range`) is modelled in `Verif.Mem`, which takes the medium as an array.
Simplifications: a transfer on an open file is complete (no partial write, no full disc);
a position beyond `2^31` on Windows (`fseek` takes a `long`) is not treated.
-/
namespace Ptusa.MemDev

/-- C++ `u_int`. -/
abbrev Word := BitVec 32
/-- A byte of the medium. -/
abbrev Byte := BitVec 8

/-- Which driver the constructor of `NV_memory_manager` makes (`base_mem.cpp:115-141`):
`./nvram.txt` or `/dev/nvram` on Linux, `./nvram.txt` on Windows, the PFC200 and the PLCnext chip. -/
inductive Kind where
  | linuxFile
  | winFile
  | pfc200
  | plcNext
  deriving DecidableEq, Repr

/-- `EEPROM_SIZE` (`base_mem.cpp:112`), passed as `total_size`. -/
def totalSize : Nat := 32768

/-- The medium and the handle on it.
* `cells` – bytes of the file (`none`: the file does not exist) or of the chip;
* `handle` – `SRAM::file` (static, one for both areas) resp. `NV_ram_data` is not zero. -/
structure Dev where
  kind : Kind
  cells : Option (List Byte)
  handle : Bool
  deriving DecidableEq, Repr

/-- What the operating system answers when the driver is constructed.
* `rw` – an existing file may be opened for reading and writing; the chip can be mapped;
* `create` – a file may be created (or emptied);
* `fd` – the descriptor a successful `open` on Linux returns: the lowest one that is free, hence
  0 in a process started with its standard input closed. -/
structure Env where
  rw : Bool
  create : Bool
  fd : Nat
  deriving DecidableEq, Repr

/-- One constructor: `SRAM::SRAM` on Linux (`l_mem.cpp:22-53`), on Windows (`w_mem.cpp:9-50`, where a
file that cannot be opened is created, hence emptied, and filled up to `total_size`),
`eeprom_PFC200::eeprom_PFC200` (`mem_PFC200.cpp:14-34`; the exit after a failed `nvram_init` is the
`false` handle here, nothing can be done with it afterwards) and `eeprom_PLCnext::eeprom_PLCnext`
(`mem_PLCnext.cpp:10-15`). -/
def ctor (e : Env) (d : Dev) : Dev :=
  match d.kind with
  | .linuxFile =>
    if d.handle then d else
      match d.cells with
      | some _ => if e.rw then { d with handle := decide (e.fd ≠ 0) } else d
      | none => if e.create then { d with cells := some [], handle := decide (e.fd ≠ 0) } else d
  | .winFile =>
    if d.handle then d else
      if d.cells.isSome && e.rw then { d with handle := true }
      else if e.create then
        { d with cells := some (List.replicate (totalSize + 1) 0), handle := true }
      else d
  | .pfc200 => { d with handle := e.rw }
  | .plcNext => { d with handle := false }

/-- The constructor of `NV_memory_manager` (`base_mem.cpp:107-155`) in a new process: two drivers,
one for each area. -/
def start (e₁ e₂ : Env) (d : Dev) : Dev := ctor e₂ (ctor e₁ { d with handle := false })

/-- `NV_memory_manager::init_ex` (`base_mem.cpp:157-163`) with `NV_memory::init`
(`base_mem.h`, does nothing) and `eeprom_PLCnext::init` (`mem_PLCnext.h:30-33`);
`given`: the pointer handed over is not zero. -/
def initEx (given : Bool) (d : Dev) : Dev :=
  match d.kind with
  | .plcNext => { d with handle := given }
  | _ => d

/-- The end of the process, by `SRAM::~SRAM` (`l_mem.cpp:55-62`) or otherwise. -/
def stop (d : Dev) : Dev := { d with handle := false }

/-- Absolute position of a transfer: `get_available_start_pos() + start_pos`, a sum of `u_int`. -/
def absPos (areaStart pos : Word) : Nat := (areaStart + pos).toNat

/-- `write(2)` / `fwrite` at position `p` of a file: a gap before `p` is filled with zeros. -/
def fileWrite (f : List Byte) (p : Nat) (data : List Byte) : List Byte :=
  if data = [] then f
  else (f ++ List.replicate (p - f.length) 0).take p ++ data ++ f.drop (p + data.length)

/-- `read(2)` / `fread` at position `p` into `buf`: what lies beyond the end of the file leaves the
buffer as it is. -/
def fileRead (f : List Byte) (p : Nat) (buf : List Byte) : List Byte :=
  let got := (f.drop p).take buf.length
  got ++ buf.drop got.length

/-- `SRAM::write` (`l_mem.cpp:86-105`, `w_mem.cpp:83-104`), `eeprom_PFC200::write`
(`mem_PFC200.cpp:51-59`), `eeprom_PLCnext::write` (`mem_PLCnext.cpp:32-40`).
`none`: the copy runs over the end of the mapped memory, undefined behaviour. -/
def write (d : Dev) (p : Nat) (data : List Byte) : Option Dev :=
  if d.handle then
    let f := d.cells.getD []
    match d.kind with
    | .linuxFile | .winFile => some { d with cells := some (fileWrite f p data) }
    | .pfc200 | .plcNext =>
      if p + data.length ≤ f.length then
        some { d with cells := some (f.take p ++ data ++ f.drop (p + data.length)) }
      else none
  else some d

/-- `SRAM::read` (`l_mem.cpp:64-84`, `w_mem.cpp:61-81`), `eeprom_PFC200::read`
(`mem_PFC200.cpp:41-49`), `eeprom_PLCnext::read` (`mem_PLCnext.cpp:22-30`): the buffer afterwards.
`none`: the copy runs over the end of the mapped memory. -/
def read (d : Dev) (p : Nat) (buf : List Byte) : Option (List Byte) :=
  if d.handle then
    let f := d.cells.getD []
    match d.kind with
    | .linuxFile | .winFile => some (fileRead f p buf)
    | .pfc200 | .plcNext =>
      if p + buf.length ≤ f.length then some ((f.drop p).take buf.length) else none
  else some buf

/-- Number the write returns: `write(2)`/`fwrite` the number of bytes, the chips always 0. -/
def writeResult (d : Dev) (data : List Byte) : Nat :=
  match d.kind with
  | .linuxFile | .winFile => if d.handle then data.length else 0
  | .pfc200 | .plcNext => 0

/-- What happens to the memory. -/
inductive Ev where
  | start (e₁ e₂ : Env)
  | initEx (given : Bool)
  | write (areaStart pos : Word) (data : List Byte)
  | stop
  deriving DecidableEq, Repr

/-- One event; `none`: undefined behaviour. -/
def step (d : Dev) : Ev → Option Dev
  | .start e₁ e₂ => some (start e₁ e₂ d)
  | .initEx g => some (initEx g d)
  | .write a p data => write d (absPos a p) data
  | .stop => some (stop d)

/-- A history. -/
def run (d : Dev) : List Ev → Option Dev
  | [] => some d
  | e :: es =>
    match step d e with
    | none => none
    | some d' => run d' es

end Ptusa.MemDev
