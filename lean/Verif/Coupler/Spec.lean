import Verif.Coupler.Model

/-!
# What is expected from the exchange with couplers

Modbus messages as the standard describes them, and histories of exchanges.
-/
namespace Ptusa.Coupler

open Tcp (Byte Buf)

/-- Seven bytes in front of every message: transaction, protocol, length and unit. -/
abbrev IsHead (hd : List Byte) : Prop := hd.length = 7

/-- A complete answer to a request to read: the function, the number of bytes and the bytes. -/
def Reply (code : Byte) (data got : List Byte) : Prop :=
  ∃ hd, IsHead hd ∧ data.length < 256 ∧ got = hd ++ [code, BitVec.ofNat 8 data.length] ++ data

/-- A complete refusal: the function with the highest bit set and a reason. -/
def Refusal (code : Byte) (got : List Byte) : Prop := ∃ hd r, IsHead hd ∧ got = hd ++ [code ||| 0x80, r]

/-- A complete confirmation of a request to write: the function, the address and the count. -/
def Confirm (code : Byte) (got : List Byte) : Prop := ∃ hd w, IsHead hd ∧ w.length = 4 ∧ got = hd ++ [code] ++ w

/-- Bit `i` of packed bits. -/
def bitOf (data : List Byte) (i : Nat) : Bool := (data.getD (i / 8) 0).getLsbD (i % 8)

/-- The word at byte `i`, the high byte first. -/
def wordAt (data : List Byte) (i : Nat) : BitVec 16 := data.getD i 0 ++ data.getD (i + 1) 0

/-- The request `req` writes the word `v` to the register `a`. -/
def Sets (req : List Byte) (a : Nat) (v : BitVec 16) : Prop :=
  req.getD 7 0 = 0x10 ∧
  (wordAt req 8).toNat ≤ a ∧ a < (wordAt req 8).toNat + (wordAt req 10).toNat ∧
  v = wordAt req (13 + 2 * (a - (wordAt req 8).toNat))

/-- The request asks with the function `code` for `n` registers from `a` on. -/
def Asks (req : List Byte) (code : Byte) (a n : Nat) : Prop :=
  req.length = 12 ∧ req.getD 7 0 = code ∧ (wordAt req 8).toNat = a ∧ (wordAt req 10).toNat = n

/-- The bytes of a word, the high one first. -/
def wordBytes (v : BitVec 16) : List Byte := [v.extractLsb' 8 8, v.extractLsb' 0 8]

/-- The bytes of `n` registers from `s` on. -/
def regsData (w : Nat → BitVec 16) (s n : Nat) : List Byte := (List.range n).flatMap fun j => wordBytes (w (s + j))

/-- The word with its bytes exchanged. -/
def swapped (v : BitVec 16) : BitVec 16 := v.extractLsb' 0 8 ++ v.extractLsb' 8 8

/-- Bit `k` of the digital inputs of a register: the high byte comes first. -/
def regBit (v : BitVec 16) (k : Nat) : Bool := if k < 8 then v.getLsbD (8 + k) else v.getLsbD (k - 8)

/-- The words of modules of IO-Link masters. -/
def IolMaster (ty : Nat) : Prop := ty = 1027843 ∨ ty = 1088132

instance (ty : Nat) : Decidable (IolMaster ty) := inferInstanceAs (Decidable (_ ∨ _))

/-- The coupler does not answer, or refuses. -/
def NoData (code : Byte) (e : Net) : Prop := e.sends = false ∨ e.got = [] ∨ Refusal code e.got

/-- The request sets `cnt` digital outputs from the first one on to `f`; the spare bits of the last byte are zero. -/
def SetsBits (req : List Byte) (cnt : Nat) (f : Nat → Bool) : Prop :=
  req.length = 13 + (cnt + 7) / 8 ∧ (wordAt req 4).toNat = req.length - 6 ∧ req.getD 7 0 = 0x0F ∧ (wordAt req 8).toNat = 0 ∧
  (wordAt req 10).toNat = cnt ∧ (req.getD 12 0).toNat = (cnt + 7) / 8 ∧
  ∀ i < 8 * ((cnt + 7) / 8), bitOf (req.drop 13) i = (decide (i < cnt) && f i)

/-- The message is complete: its length field and its byte count agree with its length and its count of registers. -/
def WellFormed (req : List Byte) : Prop :=
  (wordAt req 4).toNat = req.length - 6 ∧ req.getD 7 0 = 0x10 ∧ req.length = 13 + 2 * (wordAt req 10).toNat ∧
  (req.getD 12 0).toNat = 2 * (wordAt req 10).toNat

/-- The run of registers of the same module type that contains register `i` begins at `s`. -/
def RunStart (ty : Nat → Nat) (s i : Nat) : Prop :=
  s ≤ i ∧ (∀ j, s ≤ j → j ≤ i → ty j = ty i) ∧ (s = 0 ∨ ty (s - 1) ≠ ty i)

/-- Modules with analog outputs. -/
def AnalogOut (ty : Nat) : Prop := ty = 2688527 ∨ ty = 2702072 ∨ ty = 1088123 ∨ ty = 2688666

instance (ty : Nat) : Decidable (AnalogOut ty) := inferInstanceAs (Decidable (_ ∨ _))

/-- What register `i` of a Phoenix coupler is to be set to: the words of IO-Link masters are 32 per module, of which the first
three carry digital outputs; the counter module has 14 words, the first of which starts both counters; modules with
analog outputs take the value; all other registers carry sixteen digital outputs. -/
def OutWord (nd : Node) (i : Nat) (v : BitVec 16) : Prop :=
  ∃ s, RunStart nd.aoType s i ∧
    if IolMaster (nd.aoType i) ∧ 2 < (i - s) % 32 then v = swapped (nd.aReq i)
    else if nd.aoType i = 2688093 then v = if (i - s) % 14 = 0 then 0x0505 else 0
    else if AnalogOut (nd.aoType i) then v = nd.aReq i
    else ∀ k < 16, regBit v k = (nd.dReq (16 * i + k)).getLsbD 0

/-- The coupler answers and confirms. -/
def Confirms (code : Byte) (e : Net) : Prop := e.sends = true ∧ Confirm code e.got

/-- A history of reads of the digital inputs; between them the buffer may have been used for anything. -/
def reads (nd : Node) : List (Buf × Net) → Option Node
  | [] => some nd
  | p :: h => (readDi p.1 nd p.2).bind fun r => reads r.2 h

/-- Nothing, or a complete answer of the right size, or a complete refusal. -/
def Whole (cnt : Nat) (got : List Byte) : Prop :=
  got = [] ∨ Refusal 0x02 got ∨ ∃ data, Reply 0x02 data got ∧ data.length = bytesOf cnt

/-- Reads over a connection in which `pend` has arrived but has not been taken yet: each time the coupler answers with the
given message, of which everything arrives in time. -/
def stream (b : Buf) (nd : Node) (pend : List Byte) : List (Tm × List Byte) → Option (Node × List Byte)
  | [] => some (nd, pend)
  | (t, msg) :: h =>
    (readDi b nd ⟨t, t, true, true, pend ++ msg⟩).bind fun r =>
      stream r.1.buf r.2 ((pend ++ msg).drop (bytesOf nd.diCnt + 9)) h

/-- The times of the reads are at most six seconds apart. -/
def Steady (last : Tm) : List (Tm × List Byte) → Prop
  | [] => True
  | (t, _) :: h => last.toNat ≤ t.toNat ∧ t.toNat ≤ last.toNat + 6000 ∧ Steady t h

/-- What happens to the connection of a node: exchanges and commands. -/
inductive Ev where
  | talk (e : Net)
  | cmd (c : Cmd)

/-- The node (active, connection) and the list of critical errors after an event; an inactive node makes no exchanges. -/
def evStep (num : BitVec 64) (s : Bool × Link × CritErr.Mgr) : Ev → Bool × Link × CritErr.Mgr
  | .talk e =>
    if s.1 then
      let t := Coupler.talk s.2.1 num e
      (true, t.link, s.2.2.run t.calls)
    else s
  | .cmd c =>
    let r := c.run num s.1 s.2.1
    (r.1, r.2.1, s.2.2.run r.2.2)

/-- A history. -/
def evRun (num : BitVec 64) (s : Bool × Link × CritErr.Mgr) (h : List Ev) : Bool × Link × CritErr.Mgr := h.foldl (evStep num) s

/-- The loss of the connection to node `num` is in the list. -/
def Reported (m : CritErr.Mgr) (num : BitVec 64) : Prop := CritErr.key noConnection ioCoupler num ∈ m.errors

/-- That node `num` is switched off for service is in the list. -/
def InService (m : CritErr.Mgr) (num : BitVec 64) : Prop := CritErr.key service ioCoupler num ∈ m.errors

instance (m : CritErr.Mgr) (num : BitVec 64) : Decidable (Reported m num) := inferInstanceAs (Decidable (_ ∈ _))

instance (m : CritErr.Mgr) (num : BitVec 64) : Decidable (InService m num) := inferInstanceAs (Decidable (_ ∈ _))

/-- A node created at `t`, whose errors are not in the list. -/
def evInit (t : Tm) (m : CritErr.Mgr) : Bool × Link × CritErr.Mgr := (true, Link.init t, m)

/-- When the coupler was last heard: the creation of the node counts as well. -/
def heard (num : BitVec 64) (s : Bool × Link × CritErr.Mgr) (t : Tm) : List Ev → Tm
  | [] => t
  | .talk e :: h =>
    heard num (evStep num s (.talk e)) (if s.1 ∧ (Coupler.talk s.2.1 num e).ok then e.after else t) h
  | .cmd c :: h => heard num (evStep num s (.cmd c)) t h

/-- A history of exchanges of an active node. -/
def talks (num : BitVec 64) (l : Link) : List Net → Link
  | [] => l
  | e :: h => talks num (talk l num e).link h

/-- How often connecting failed since the last success. -/
def failures (num : BitVec 64) (l : Link) (n : Nat) : List Net → Nat
  | [] => n
  | e :: h =>
    let t := talk l num e
    failures num t.link (if t.tried then (if e.connects then 0 else n + 1) else n) h

/-- How many attempts to connect there are. -/
def attempts (num : BitVec 64) (l : Link) : List Net → Nat
  | [] => 0
  | e :: h => (if (talk l num e).tried then 1 else 0) + attempts num (talk l num e).link h

/-- A device with `n` channels after calls of `init_channel` (channel, node, offset). -/
def configure (find : Nat → Nat → Option (Nat × Nat)) (n : Nat) (calls : List (Nat × Nat × Nat)) : Places :=
  calls.foldl (fun p c => initChannel p c.1 (find c.2.1 c.2.2)) (List.replicate n none)

/-- The node and the offset the channel `ch` was last given. -/
def given (ch : Nat) (calls : List (Nat × Nat × Nat)) : Option (Nat × Nat) :=
  ((calls.filter fun c => c.1 == ch).getLast?).map fun c => c.2

end Ptusa.Coupler
