import Verif.MbClient.Spec

/-!
# What is expected of the calls that do not wait

A program asks for one and the same request again and again until it is answered.
-/
namespace Ptusa.MbClient.Spec
open Ptusa.MbClient

/-- What happens: the program calls, the network brings bytes or breaks off, the program sets a register. -/
inductive Ev where
  | call (n1 n2 : Net)
  | recv (l : List Byte)
  | lost (code : Int)
  | set (k : UInt) (v : BitVec 16)

/-- What came of it: the frame that went out and what the call returned. -/
structure Out where
  frame : Option (List Byte) := none
  ret : Int := 0

/-- One event with request `r`. -/
def step (r : Req) (s : St) : Ev → Option (Out × St)
  | .call n1 n2 => (s.call r n1 n2).map fun (f, x, s) => (⟨f, x⟩, s)
  | .recv l => some ({}, s.recv l)
  | .lost code => some ({}, s.lost code)
  | .set k v => some ({}, { s with cl := s.cl.setInt2 k v })

/-- Everything that can happen from a new client on; newest first. -/
inductive Reach (r : Req) : List (Ev × Out) → St → Prop
  | start (junk : Buf) (station : Byte) : Reach r [] { cl := { Cl.initial junk with station := station } }
  | step {h : List (Ev × Out)} {s s' : St} {e : Ev} {o : Out} (hr : Reach r h s) (he : step r s e = some (o, s')) :
      Reach r ((e, o) :: h) s'

/-- A request went out and there was no answer yet, and the connection has not been lost. -/
def outstanding : List (Ev × Out) → Bool
  | [] => false
  | (.call _ _, o) :: t => o.frame.isSome || outstanding t
  | (.recv l, _) :: t => l.isEmpty && outstanding t
  | (.lost _, _) :: _ => false
  | (.set _ _, _) :: t => outstanding t

/-- The answer to the request that went out last, when no call was made since. -/
def answer : List (Ev × Out) → Option (List Byte)
  | [] => none
  | (.call _ _, _) :: _ => none
  | (.recv l, _) :: t => if outstanding t && !l.isEmpty then some l else answer t
  | (.lost _, _) :: t => answer t
  | (.set _ _, _) :: t => answer t

/-- Only registers behind the head are set, and a connection that is lost reports an error. -/
def Clean (r : Req) : List (Ev × Out) → Prop
  | [] => True
  | (.set k _, _) :: t => (r.head 0).length ≤ 13 + 2 * k.toNat ∧ k.toNat < 2 ^ 31 ∧ Clean r t
  | (.lost code, _) :: t => code < -1 ∧ Clean r t
  | _ :: t => Clean r t

end Ptusa.MbClient.Spec
