import Verif.MemDev.Model
/-!
# What is expected of non-volatile memory

An array of bytes, zero where nothing has been stored, which keeps the last byte stored at each
address through any number of restarts.
-/
namespace Ptusa.MemDev

/-- Contents by absolute address. -/
abbrev Store := Nat → Byte

/-- Contents of a medium before the history: the bytes it holds, zero elsewhere. -/
def initial (cells : Option (List Byte)) : Store := fun i => ((cells.getD [])[i]?).getD 0

/-- Only writing changes the contents. -/
def Store.after (s : Store) : Ev → Store
  | .write a p data => fun i =>
      if (a + p).toNat ≤ i ∧ i < (a + p).toNat + data.length then
        (data[i - (a + p).toNat]?).getD 0
      else s i
  | _ => s

/-- Contents after a history. -/
def Store.run (s : Store) (es : List Ev) : Store := es.foldl Store.after s

/-- The operating system serves the driver: the file may be read, written and created, and its
descriptor is not number 0. -/
def Env.Healthy (e : Env) : Prop := e.rw = true ∧ e.create = true ∧ e.fd ≠ 0

/-- Is the memory accessible after the event, seen from outside: after a start, except on PLCnext,
where it is after the runtime has handed over its memory. -/
def accessible (k : Kind) (was : Bool) : Ev → Bool
  | .start _ _ => decide (k ≠ .plcNext)
  | .initEx g => if k = .plcNext then g else was
  | .write _ _ _ => was
  | .stop => false

/-- Accessible after a history. -/
def accessibleAfter (k : Kind) (es : List Ev) : Bool := es.foldl (accessible k) false

/-- A history in order: each start is served by the operating system, writing happens only while the
memory is accessible. -/
def InOrder (k : Kind) : Bool → List Ev → Prop
  | _, [] => True
  | o, .start e₁ e₂ :: es => e₁.Healthy ∧ e₂.Healthy ∧ InOrder k (accessible k o (.start e₁ e₂)) es
  | o, .write a p data :: es => o = true ∧ InOrder k (accessible k o (.write a p data)) es
  | o, e :: es => InOrder k (accessible k o e) es

end Ptusa.MemDev
