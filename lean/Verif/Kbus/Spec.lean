import Verif.Kbus.Model

/-!
# What the modules of a PFC200 and their image should have in common
-/
namespace Ptusa.Kbus

/-- Bytes of a module in the data of the bus: a counter 750-638 has two words per channel. -/
def width (t : Nat) : Nat := if t = 638 then 4 else 2

/-- Position of channel `k` in the data of the bus: behind the channels before it. -/
def pos (types : List Nat) (k : Nat) : Nat := ((types.take k).map width).sum

/-- The word (low byte first) at a position. -/
def word (b : Buf) (p : Nat) : BitVec 16 := b (p + 1) ++ b p

/-- The value of an analog input: its word, of a counter the second word. -/
def analogIn (c : Conf) (b : Buf) (k : Nat) : Option (BitVec 16) :=
  c.aiTypes[k]?.map fun t => word b (pos c.aiTypes k + if t = 638 then 2 else 0)

/-- A digital value: one bit behind the analog part. -/
def digital (b : Buf) (size i : Nat) : Bool := (b (size + i / 8)).getLsbD (i % 8)

/-- The project fits the buffers, and the analog part is what its channels take. -/
structure Fits (c : Conf) : Prop where
  ain : c.aiSize = (c.aiTypes.map width).sum
  aout : c.aoSize = (c.aoTypes.map width).sum
  bufIn : c.aiSize + c.diCnt / 8 + 1 ≤ 4096
  bufOut : c.aoSize + c.doCnt / 8 + 1 ≤ 4096
  arrIn : c.aiTypes.length ≤ 2016
  arrOut : c.aoTypes.length ≤ 2016

/-- A reading in which every call of the library succeeded. -/
def Answer.ok (a : Answer) : Prop := a.start + a.bytes + a.fin = 0

instance (a : Answer) : Decidable a.ok := by unfold Answer.ok; infer_instance

/-- The readings of a history, the last one first. -/
def readings : List Ev → List Answer
  | [] => []
  | .read a :: rest => readings rest ++ [a]
  | _ :: rest => readings rest

/-- The last reading that succeeded. -/
def lastOk (h : List Ev) : Option Answer := (readings h).find? (fun a => decide a.ok)

end Ptusa.Kbus
