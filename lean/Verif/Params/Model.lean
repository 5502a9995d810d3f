import Verif.Mem.Model

/-!
# Persistent parameters: `PAC/common/param_ex.{h,cpp}`

The controller keeps one RAM array `params[ 30720 ]` and an EEPROM block of the same size;
every `saved_params` object is a window of that array.  Elements (`u_int_4` or `float`) are
4-byte little-endian words.
-/
namespace Ptusa.Params
open Ptusa.Mem

/-- One parameter value: the 32-bit pattern of a `u_int_4` or a `float`. -/
abbrev Val := BitVec 32

/-- Little-endian object representation of a 4-byte value. -/
def encode (v : Val) : List Byte :=
  [v.extractLsb' 0 8, v.extractLsb' 8 8, v.extractLsb' 16 8, v.extractLsb' 24 8]

/-- The value represented by four bytes. -/
def decode (b0 b1 b2 b3 : Byte) : Val := b3 ++ b2 ++ b1 ++ b0

/-- Reading an element through a `type *` at byte offset `p` (`param_ex.h:195`). -/
def getWord (m : Nat → Byte) (p : Nat) : Val := decode (m p) (m (p + 1)) (m (p + 2)) (m (p + 3))

/-- `C_TOTAL_PARAMS_SIZE` (`param_ex.h:61`). -/
def totalParams : Nat := 30720

/-- `CRC_mem` (`param_ex.cpp:24-25`); an `example` in `Props.lean` shows
that the allocator returns it. -/
def crcMem : Range := ⟨some .nvram, 0, 10⟩

/-- `params_mem` (`param_ex.cpp:27-28`). -/
def paramsMem : Range := ⟨some .eeprom, 32, 30720⟩

/-- `C_LAST_IDX_OFFSET` (`param_ex.h:66`). -/
def lastIdxOffset : Word := 4

/-- Where the values of a `saved_params` object live: inside `params` at the given start
position, or – when `get_params_data` returned null – on the heap (`param_ex.h:275-280`),
in which case the member `start_pos` was never assigned and has an arbitrary value. -/
inductive Place where
  | pool (start : Word)
  | heap (garbage : Word)
  deriving DecidableEq, Repr

/-- A `saved_params` object: place and number of elements. -/
structure PSet where
  place : Place
  count : Word
  deriving DecidableEq, Repr

/-- Volatile and non-volatile state of the parameter subsystem.
`heap i k` is the k-th element (from 0) of a heap-allocated set `i`,
`stub i` the stub element of set `i` (`param_ex.h:345`). -/
structure Sys where
  sets : List PSet
  last : Word
  ram  : Nat → Byte
  heap : Nat → Nat → Val
  stub : Nat → Val
  disk : Disk

/-- `params_manager::get_params_data` (`param_ex.cpp:167-186`): start position and new
`last_idx`, or `none` when the 32-bit sum exceeds the block. -/
def getParamsData (last size : Word) : Option (Word × Word) :=
  if paramsMem.size < last + size then none else some (last, last + size)

/-- Construction of one set (`param_ex.h:473-478`, `258-281`); `g` is the indeterminate value
of `start_pos`. -/
def create (last : Word) (count g : Word) : Word × PSet :=
  match getParamsData last (4 * count) with
  | some (st, last') => (last', ⟨.pool st, count⟩)
  | none => (last, ⟨.heap g, count⟩)

/-- Construction of all sets of an application in program order. -/
def createAll (last : Word) : List (Word × Word) → Word × List PSet
  | [] => (last, [])
  | (c, g) :: rest =>
    let (l1, s) := create last c g
    let (l2, ss) := createAll l1 rest
    (l2, s :: ss)

/-- `params_manager::save` (`param_ex.cpp:157-165`): write `count` bytes of the RAM array
(the whole array when `count` is 0) to the same position of the EEPROM block. -/
def saveBytes (ram : Nat → Byte) (d : Disk) (start count : Word) : Disk :=
  let n := if count = 0 then BitVec.ofNat 32 totalParams else count
  (paramsMem.write d ((List.range n.toNat).map fun i => ram (start.toNat + i)) n start).1

/-- Is `idx` a valid element index (`param_ex.h:193`, `491`)? -/
def validIdx (s : PSet) (idx : Word) : Bool := idx ≤ s.count ∧ 0 < idx

/-- `values[ idx - 1 ]`. -/
def element (sys : Sys) (i : Nat) (s : PSet) (idx : Word) : Val :=
  match s.place with
  | .pool st => getWord sys.ram (st.toNat + 4 * (idx.toNat - 1))
  | .heap _ => sys.heap i (idx.toNat - 1)

/-- `parameters::operator[]` used as a value (`param_ex.h:191-218`). -/
def readPar (sys : Sys) (i : Nat) (idx : Word) : Option Val :=
  sys.sets[i]?.map fun s => if validIdx s idx then element sys i s idx else sys.stub i

/-- `values[ idx - 1 ] = v`. -/
def setElement (sys : Sys) (i : Nat) (s : PSet) (idx : Word) (v : Val) : Sys :=
  match s.place with
  | .pool st => { sys with ram := Disk.put sys.ram (st.toNat + 4 * (idx.toNat - 1)) (encode v) }
  | .heap _ => { sys with heap := fun j k =>
      if j = i ∧ k = idx.toNat - 1 then v else sys.heap j k }

/-- `params_manager::save( start_pos + off, n )` for a set: for a heap-allocated set the
bytes saved are those of `params` at an indeterminate position; when that is outside the
array the pointer arithmetic is undefined behaviour (`none`). -/
def saveSet (sys : Sys) (s : PSet) (off n : Word) : Option Sys :=
  match s.place with
  | .pool st => some { sys with disk := saveBytes sys.ram sys.disk (st + off) n }
  | .heap g =>
    if g.toNat + off.toNat + n.toNat ≤ totalParams then
      some { sys with disk := saveBytes sys.ram sys.disk (g + off) n }
    else none

/-- Application operations on the sets. -/
inductive Op where
  /-- `set[ idx ] = v` (through the reference returned by `operator[]`) -/
  | assign (i : Nat) (idx : Word) (v : Val)
  /-- `set.save( idx, v )` -/
  | save (i : Nat) (idx : Word) (v : Val)
  /-- `set.save_all()` -/
  | saveAll (i : Nat)
  /-- `set.reset_to_0()` of a saved set -/
  | reset (i : Nat)
  deriving DecidableEq, Repr

/-- The loop of `saved_params::reset_to_0` (`param_ex.h:524-528`). -/
def zeroElements (sys : Sys) (i : Nat) (s : PSet) : Nat → Sys
  | 0 => sys
  | n + 1 => setElement (zeroElements sys i s n) i s (BitVec.ofNat 32 (n + 1)) 0

/-- One application operation; `none` is undefined behaviour. Operations on a set that does
not exist are not expressible in the code; they are no-ops here. -/
def step (sys : Sys) : Op → Option Sys
  | .assign i idx v =>                                   -- param_ex.h:191-200
    match sys.sets[i]? with
    | none => some sys
    | some s =>
      if validIdx s idx then some (setElement sys i s idx v)
      else some { sys with stub := fun j => if j = i then v else sys.stub j }
  | .save i idx v =>                                     -- param_ex.h:489-505
    match sys.sets[i]? with
    | none => some sys
    | some s =>
      if validIdx s idx then saveSet (setElement sys i s idx v) s (4 * (idx - 1)) 4
      else some sys
  | .saveAll i =>                                        -- param_ex.h:512-518
    match sys.sets[i]? with
    | none => some sys
    | some s => saveSet sys s 0 (4 * s.count)
  | .reset i =>                                          -- param_ex.h:522-532
    match sys.sets[i]? with
    | none => some sys
    | some s => saveSet (zeroElements sys i s s.count.toNat) s 0 (4 * s.count)

/-- A history of operations. -/
def run (sys : Sys) : List Op → Option Sys
  | [] => some sys
  | op :: ops => (step sys op).bind fun s => run s ops

/-- RAM image after `memset` + `params_mem->read` (`param_ex.cpp:83-84`). -/
def loadRam (d : Disk) : Nat → Byte :=
  match paramsMem.read d 30720 0 with
  | none => fun _ => 0
  | some bytes => fun p => if h : p < bytes.length then bytes[p] else 0

/-- The size marker stored in NVRAM (`param_ex.cpp:99-101`). -/
def marker (d : Disk) : Word :=
  match crcMem.read d 4 lastIdxOffset with
  | some [b0, b1, b2, b3] => decode b0 b1 b2 b3
  | _ => 0

/-- One write to non-volatile memory: the new contents as a function of the old ones. -/
inductive NvWrite where
  /-- `CRC_mem->write( &last_idx, 4, C_LAST_IDX_OFFSET )` (`param_ex.cpp:109-110`) -/
  | mark (last : Word)
  /-- `params_manager::save( start, count )` with the RAM array as it is at that moment -/
  | par (ram : Nat → Byte) (start count : Word)

/-- Effect of a write. -/
def NvWrite.apply (d : Disk) : NvWrite → Disk
  | .mark l => (crcMem.write d (encode l) 4 lastIdxOffset).1
  | .par ram st n => saveBytes ram d st n

/-- Apply several writes. -/
def applyAll (d : Disk) (ws : List NvWrite) : Disk := ws.foldl NvWrite.apply d

/-- The default values of an application: what the `init_params` call-backs of
`reset_to_default` (`param_ex.cpp:117-155`) leave in the RAM array, and the partial saves
they make on the way (tech objects and devices call `save_all` in their initialisation). -/
structure Defaults where
  ram : Nat → Byte
  partialSaves : List NvWrite

/-- The writes to non-volatile memory made by `final_init` (`param_ex.cpp:89-115`,
`reset_to_default` 117-155), in program order. -/
def finalInitWrites (d : Disk) (last : Word) (df : Defaults) : List NvWrite :=
  if marker d = last then []
  else .mark last :: (df.partialSaves ++ [.par df.ram 0 0])

/-- RAM array after `final_init`. -/
def finalInitRam (d : Disk) (last : Word) (df : Defaults) : Nat → Byte :=
  if marker d = last then loadRam d else df.ram

/-- A complete start of the controller: the sets of the application are constructed,
`params_manager::init` loads the EEPROM, `final_init` re-initialises when the total size
differs from the stored one. -/
def boot (layout : List (Word × Word)) (df : Defaults) (d : Disk) : Sys :=
  { sets := (createAll 0 layout).2
    last := (createAll 0 layout).1
    ram := finalInitRam d (createAll 0 layout).1 df
    heap := fun _ _ => 0
    stub := fun _ => 0
    disk := applyAll d (finalInitWrites d (createAll 0 layout).1 df) }

/-- A run-time parameter set (`parameters<type>` with its own buffer, `param_ex.h:177-411`):
values and the stub element. -/
structure RtPar where
  vals : List Val
  stub : Val
  deriving DecidableEq, Repr

/-- Construction: `n` zeros (`param_ex.h:258-281`). -/
def RtPar.init (n : Nat) : RtPar := ⟨List.replicate n 0, 0⟩

/-- `operator[]` as a value (`param_ex.h:191-200`). -/
def RtPar.get (p : RtPar) (idx : Word) : Val :=
  if h : idx.toNat ≤ p.vals.length ∧ 0 < idx.toNat then p.vals[idx.toNat - 1] else p.stub

/-- Assignment through `operator[]` (`param_ex.h:191-200`). -/
def RtPar.set (p : RtPar) (idx : Word) (v : Val) : RtPar :=
  if idx.toNat ≤ p.vals.length ∧ 0 < idx.toNat then { p with vals := p.vals.set (idx.toNat - 1) v }
  else { p with stub := v }

/-- A history of assignments. -/
def RtPar.run (p : RtPar) (ws : List (Word × Val)) : RtPar :=
  ws.foldl (fun p w => p.set w.1 w.2) p

end Ptusa.Params
