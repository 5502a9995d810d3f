import Verif.IolValve.Model

/-!
# What the heads send, and what is expected of the valves
-/
namespace Ptusa.IolValve

open Ptusa.Valve (Tm)

/-- The bits of a byte, the highest first. -/
def byte (b7 b6 b5 b4 b3 b2 b1 b0 : Bool) : Byte :=
  BitVec.ofNat 8 (128 * b7.toNat + 64 * b6.toNat + 32 * b5.toNat + 16 * b4.toNat + 8 * b3.toNat + 4 * b2.toNat + 2 * b1.toNat +
    b0.toNat)

/-- The two bytes of a position of 16 bits, the high one first, as IO-Link sends them. -/
def highByte (p : BitVec 16) : Byte := p.extractLsb' 8 8
@[inherit_doc highByte] def lowByte (p : BitVec 16) : Byte := p.extractLsb' 0 8

/-- What a ThinkTop or SORIO head reports: position, closed, open, settled, solenoid, number of an error (ThinkTop: 5 bits,
SORIO: 4 bits). -/
structure Report where
  pos : BitVec 16
  closed : Bool
  opened : Bool
  settled : Bool
  solenoid : Bool
  err : BitVec 5

/-- The data of a ThinkTop: position, error, state bits. -/
def Report.thinktop (r : Report) : Data :=
  (highByte r.pos, lowByte r.pos, byte false false false (r.err.getLsbD 4) (r.err.getLsbD 3) (r.err.getLsbD 2) (r.err.getLsbD 1) (r.err.getLsbD 0),
   byte false false false r.settled false false r.opened r.closed)

/-- Has an error. -/
def Report.faulty (r : Report) : Kind → Bool
  | .thinktop => r.err != 0
  | _ => r.err.extractLsb' 0 4 != 0

/-- The data of a SORIO. -/
def Report.sorio (r : Report) : Data :=
  (highByte r.pos, lowByte r.pos, byte false false false false false false false r.solenoid,
   byte (r.err.getLsbD 3) (r.err.getLsbD 2) (r.err.getLsbD 1) (r.err.getLsbD 0) false false r.opened r.closed)

/-- The data of a head. -/
def Report.data (r : Report) : Kind → Data
  | .sorio => r.sorio
  | _ => r.thinktop

/-- What a T.VIS head reports: the pilots which are on, the closed disc, the end of the main stroke, the rest position, the
setup, an error, and the position. -/
structure Tvis where
  y1 : Bool
  y2 : Bool
  y3 : Bool
  closed : Bool
  stroke : Bool
  rest : Bool
  setup : Bool
  err : Bool
  pos : BitVec 10

/-- The data of a T.VIS head. -/
def Tvis.data (r : Tvis) : Data :=
  (byte false false false r.setup r.rest false r.stroke r.closed,
   byte false false false false r.err r.y3 r.y2 r.y1,
   (r.pos.zeroExtend 16).extractLsb' 8 8, (r.pos.zeroExtend 16).extractLsb' 0 8)

/-- The solenoids which a command asks for: main, lower seat, upper seat. -/
def wanted (k : Kind) : Ev → Option (Bool × Bool × Bool)
  | .on _ => some (true, false, false)
  | .off _ => some (false, false, false)
  | .set _ n =>
    if n = 0 then some (false, false, false)
    else if k = .tvisDs ∧ n = 2 then some (false, false, true)
    else if k = .tvisDs ∧ n = 3 then some (false, true, false)
    else some (true, false, false)
  | _ => none

/-- The solenoids which the last command asks for. -/
def asked (k : Kind) (o : Bool × Bool × Bool) (es : List Ev) : Bool × Bool × Bool :=
  es.foldl (fun o e => (wanted k e).getD o) o

/-- The solenoids in the output byte. -/
def solenoids (k : Kind) (b : Byte) : Bool × Bool × Bool :=
  match k with
  | .thinktop => (b.getLsbD 4, false, false)
  | .sorio => (b.getLsbD 0, false, false)
  | _ => (b.getLsbD 0, b.getLsbD 1, b.getLsbD 2)

/-- A cycle in which both channels of the valve exist. -/
def Ev.linked : Ev → Bool
  | .cycle ao ai _ => ao && ai.isSome
  | _ => true

/-- A command which drives the valve. -/
def Ev.drives : Ev → Bool
  | .on _ | .off _ | .set _ _ => true
  | _ => false

/-- A valve when the program starts. The data of a ThinkTop are not initialised, except for the error. -/
def start (k : Kind) (img stub : Byte) (pos flags : BitVec 16) (t : Tm) (ok : Bool) : V :=
  { ptr := k.ptr0, img, stub, pos, flags, ioOk := ok, start := t, blink := false }

/-- The head is in the position which belongs to the command, in order and connected. -/
def Report.fits (r : Report) (k : Kind) (open' : Bool) (ok : Bool) : Bool :=
  ok && ! r.faulty k && (if open' then r.opened else r.closed) && (k == .sorio || r.settled)

/-- A T.VIS head is connected, in order, not in the setup, with at most one pilot on and in the position which belongs to this
pilot. -/
def Tvis.fits (r : Tvis) (ok : Bool) : Bool :=
  ok && !r.err && !r.setup &&
    match r.y1, r.y2, r.y3 with
    | false, false, false => r.closed && r.rest
    | true, false, false => r.stroke
    | false, true, false => true
    | false, false, true => r.closed && r.rest
    | _, _, _ => false

end Ptusa.IolValve
