import Verif.Fqt.Model

/-!
# What pulse counters should show

The module counts all pulses that ever came; its reading is that total modulo 2^16.
-/
namespace Ptusa.Fqt

open Valve (Tm)

/-- The reading for a total. -/
def reading (n : Nat) : Nat := n % 65536

/-- The readings of the cycles of a history. -/
def readings (es : List Ev) : List Nat := es.filterMap (fun e => match e with | .eval i => some i.raw | _ => none)

/-- Totals of successive cycles that grow by no more than 301 (`MAX_OVERFLOW` and one) from one to the next. -/
def Slow : List Nat → Prop
  | [] => True
  | [_] => True
  | a :: b :: l => a ≤ b ∧ b ≤ a + 301 ∧ Slow (b :: l)

/-- Use of a counter, in totals of the module. -/
inductive Use where
  | cycle (n : Nat)
  | pause
  | start (n : Nat)
  | reset

/-- Pulses that come while the counter is not paused, since the last reset: `working`, the total up to which they are
counted, the number so far. -/
def counted : Bool → Nat → Nat → List Use → Nat
  | _, _, v, [] => v
  | w, last, v, .cycle n :: l => counted w n (if w then v + (n - last) else v) l
  | _, last, v, .pause :: l => counted false last v l
  | w, last, v, .start n :: l => counted true (if w then last else n) v l
  | w, last, _, .reset :: l => counted w last 0 l

/-- While the counter works, totals do not fall from cycle to cycle and the module does not wrap. -/
def Gentle : Bool → Nat → List Use → Prop
  | _, _, [] => True
  | w, last, .cycle n :: l => (w = true → last ≤ n ∧ n / 65536 = last / 65536) ∧ Gentle w n l
  | _, last, .pause :: l => Gentle false last l
  | w, last, .start n :: l => Gentle true (if w then last else n) l
  | w, last, .reset :: l => Gentle w last l

/-- The calls on the counter: no pump, no flow. -/
def Use.toEv (now : Nat → Tm) (day : Nat → Int) (k : Nat) : Use → Ev
  | .cycle n => .eval { now := now k, raw := reading n, yday := day k }
  | .pause => .pause
  | .start n => .start (reading n)
  | .reset => .reset

/-- What a call sees, for the calls that look at pump and flow: `get_state` and the cycle, while the flow channel is
good. -/
def look : Ev → Option In
  | .eval i => if i.chan = 0 then some i else none
  | .ask i => if i.chan = 0 then some i else none
  | _ => none

/-- The pump works (or there is none) and the flow is above the least one. -/
def Active (i : In) : Prop := i.pump ≠ some false ∧ i.flow = true

/-- The looks are in the order of time, later than 0, not after `now`, within the first 2^32 milliseconds (49.7 days) of
uptime. -/
def Early (es : List Ev) (now : Tm) : Prop :=
  es.Pairwise (fun a b => ∀ i j, look a = some i → look b = some j → i.now.toNat ≤ j.now.toNat) ∧
  (∀ e ∈ es, ∀ i, look e = some i → 0 < i.now.toNat ∧ i.now.toNat ≤ now.toNat) ∧ now.toNat < 2 ^ 32

/-- The absolute value after a history. -/
def absAfter (f : Fq) (es : List Ev) : Option Nat := (f.run es).map (·.abs.val)

end Ptusa.Fqt
