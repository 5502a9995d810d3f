import Verif.Altivar.Model
import Verif.MbClient.SpecAsync

/-!
# What is expected of a frequency converter

Everything is said over the history of the drive: what the program commanded, what went out, what came in.
-/
namespace Ptusa.Altivar.Spec
open Ptusa.Altivar
open MbClient (Byte Net Link)
open MbClient.Spec (adu be16 regBytes)
open Timer (Tm)

/-- What happens: a pass of the controller, bytes from the network, a lost connection, a state commanded (1 on, 0 off, 2
backwards, 100 disable, 101 enable), a speed in percent commanded. -/
inductive Ev where
  | eval (now : Tm) (n1 n2 : Net)
  | recv (l : List Byte)
  | lost (code : Int)
  | set (n : Int)
  | percent (v : Fl)

/-- What can be seen of it: the frame that went out, what the exchange came to (1 answered, −1 refused, 0 still open), and
afterwards whether there is a connection, the state shown and the highest frequency shown. -/
structure Out where
  frame : Option (List Byte) := none
  ret : Int := 0
  link : Link
  state : Int
  max : Rat

abbrev Hist := List (Ev × Out)

def seen (f : Option (List Byte)) (x : Int) (s : Node) : Out := ⟨f, x, s.mc.link, s.state, s.frqMax⟩

/-- One event. -/
def step (s : Node) : Ev → Option (Out × Node)
  | .eval now n1 n2 => (s.eval now n1 n2).map fun (f, x, s) => (seen f x s, s)
  | .recv l => let s := { s with mc := s.mc.recv l }; some (seen none 0 s, s)
  | .lost code => let s := { s with mc := s.mc.lost code }; some (seen none 0 s, s)
  | .set n => let s := s.set n; some (seen none 0 s, s)
  | .percent v => let s := s.setPercent v; some (seen none 0 s, s)

/-- Everything that can happen to a drive created at `t0`; newest first.  A connection that is lost reports an error (−2 or
−3). -/
inductive Reach (a320 : Bool) (t0 : Tm) : Hist → Node → Prop
  | start (junk : MbClient.Buf) : Reach a320 t0 [] (Node.initial a320 junk t0)
  | step {h : Hist} {s s' : Node} {e : Ev} {o : Out} (hr : Reach a320 t0 h s) (he : step s e = some (o, s'))
      (hc : ∀ code, e = .lost code → code < -1) : Reach a320 t0 ((e, o) :: h) s'

/-! ## What was commanded -/

/-- Not switched off by state 100. -/
def enabled : Hist → Bool
  | [] => true
  | (.set n, _) :: t => if n = 100 then false else if n = 101 then true else enabled t
  | _ :: t => enabled t

/-- The command word: 1 on, 2 backwards, 0 off, 4 off and reset of the fault. -/
def word : Hist → BitVec 16
  | [] => 4
  | (.set n, o) :: t =>
    if n = 100 ∨ n = 101 then word t else if n = 2 then 2 else if n = 0 then (if o.state < 0 then 4 else 0) else 1
  | _ :: t => word t

/-- Backwards was commanded last. -/
def backwards : Hist → Bool
  | [] => false
  | (.set n, _) :: t => if n = 100 ∨ n = 101 then backwards t else decide (n = 2)
  | _ :: t => backwards t

/-- The frequency commanded, in Hz. -/
def freq : Hist → Fl
  | [] => .num 0
  | (.percent v, o) :: _ => v / .num 100 * .num o.max
  | _ :: t => freq t

/-! ## What went over the network -/

/-- The exchange that is open: what happened since the last one was answered or refused. -/
def cur : Hist → List (MbClient.Spec.Ev × MbClient.Spec.Out)
  | [] => []
  | (.eval _ n1 n2, o) :: t =>
    if o.ret ≠ 0 then [] else if enabled t then (.call n1 n2, ⟨o.frame, 0⟩) :: cur t else cur t
  | (.recv l, _) :: t => (.recv l, {}) :: cur t
  | (.lost code, _) :: t => (.lost code, {}) :: cur t
  | _ :: t => cur t

/-- The frame that went out last. -/
def lastFrame : Hist → Option (List Byte)
  | [] => none
  | (_, o) :: t => if o.frame.isSome then o.frame else lastFrame t

/-- The answered requests since the beginning or the last refusal, oldest first. -/
def session : Hist → List (List Byte)
  | [] => []
  | (_, o) :: t => if o.ret = -1 then [] else if o.ret = 1 then session t ++ (lastFrame t).toList else session t

/-- Registers written. -/
def write (a : Nat) (l : List (BitVec 16)) : List Byte :=
  adu 0 (0x10 :: (be16 a ++ be16 l.length ++ [BitVec.ofNat 8 (2 * l.length)] ++ regBytes l))

/-- The configuration of an ATV320: what the scanner writes (command, frequency), what it reads (status, speed, frequency,
highest frequency, current), scanner on, separate profile, frequency and command over the network, reset of faults by bit
2 of the command, save. -/
def config : List (List Byte) :=
  [write 15421 [8501, 8502, 0, 0, 0, 0], write 15401 [3201, 8604, 3202, 3104, 3204, 0], write 64239 [1], write 8401 [3],
    write 8413 [169], write 8423 [30], write 7122 [1, 0, 210], write 8001 [1]]

/-- The exchange of values: six registers from `a` on are written, command word and frequency (0.1 Hz) first, and six are
read. -/
def exchange (a320 : Bool) (w f : BitVec 16) : List Byte :=
  let a := if a320 then 1 else 0
  adu 255 (0x17 :: (be16 a ++ be16 6 ++ be16 a ++ be16 6 ++ [12] ++ regBytes [w, f, 0, 0, 0, 0]))

/-- `v` is `f` Hz in tenths, cut towards zero. -/
def Tenths (f : Fl) (v : BitVec 16) : Prop :=
  ∃ (q : Rat) (z : Int), f = .num q ∧ |(z : Rat)| ≤ |10 * q| ∧ |10 * q| < |(z : Rat)| + 1 ∧ 0 ≤ z * q ∧ v = BitVec.ofInt 16 z

/-- The function of a frame. -/
def func (f : List Byte) : Byte := f.getD 7 0

/-- No exchange was answered or refused. -/
def Open (h : Hist) : Prop := ∀ e ∈ h, e.2.ret = 0

/-- Answers have the right length or are short. -/
def Clean : Hist → Prop
  | [] => True
  | (.recv l, _) :: t => (l.length ≤ 13 ∨ l.length = 21 ∧ ∃ f, lastFrame t = some f ∧ func f = 0x17) ∧ Clean t
  | _ :: t => Clean t

/-! ## What is shown -/

/-- When a connection was seen last. -/
def lastOn (t0 : Tm) : Hist → Tm
  | [] => t0
  | (.eval now _ _, o) :: t => if enabled t ∧ o.link = .on then now else lastOn t0 t
  | _ :: t => lastOn t0 t

/-- Register `k` of an answer. -/
def reg (l : List Byte) (k : Nat) : BitVec 16 := l.getD (9 + 2 * k) 0 ++ l.getD (10 + 2 * k) 0

/-- The answer to the last exchange of values that was answered. -/
def values : Hist → Option (List Byte)
  | [] => none
  | (_, o) :: t =>
    if o.ret = 1 ∧ (lastFrame t).map func = some 0x17 then MbClient.Spec.answer (cur t) else values t

/-- The state by the status word of the drive: 1 or 2 when the operation is enabled (all of ready, switched on, enabled,
no fault, no quick stop, not blocked), 0 when it is blocked, ready or switched on, −1 otherwise. -/
def stateOf (back : Bool) (w : BitVec 16) : Int :=
  match w.getLsbD 6, w.getLsbD 5, w.getLsbD 3, w.getLsbD 2, w.getLsbD 1, w.getLsbD 0 with
  | false, true, false, true, true, true => if back then 2 else 1
  | true, false, false, false, false, false => 0
  | false, true, false, false, _, true => 0
  | _, _, _, _, _, _ => -1

/-- The state that has to be shown: −100 after 5 s without a connection, otherwise what the drive said last. -/
def state (t0 : Tm) : Hist → Int
  | [] => 0
  | (.eval now _ _, o) :: t =>
    if enabled t = false then state t0 t
    else if o.ret = 1 ∧ (lastFrame t).map func = some 0x17 then
      stateOf (backwards t) (reg ((MbClient.Spec.answer (cur t)).getD []) 0)
    else if o.link ≠ .on ∧ 5000 < now.toNat - (lastOn t0 t).toNat then -100
    else state t0 t
  | _ :: t => state t0 t

/-- The clock does not go back. -/
def Mono (t0 : Tm) : Hist → Prop
  | [] => True
  | (.eval now _ _, _) :: t => (lastOn t0 t).toNat ≤ now.toNat ∧ Mono t0 t
  | _ :: t => Mono t0 t

end Ptusa.Altivar.Spec
