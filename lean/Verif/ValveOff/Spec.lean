import Verif.ValveOff.Model

/-!
# Closing with a delay, as it should be

One valve, without any queue: whether the control program has opened it (`auto`), and when the program asked to close it
(`request`).
-/
namespace Ptusa.ValveOff
variable {σ : Type}

/-- One valve on its own. -/
structure S (σ : Type) where
  body : σ
  manual : Bool := false
  auto : Bool := false
  request : Option Tm := none

/-- Time passed from `t` to `now`. -/
def elapsed (now t : Tm) : Nat := (Time.deltaMs now t).toNat

/-- The event concerns valve `i` or is an evaluation. -/
def Ev.concerns (i : Nat) : Ev σ → Bool
  | .on j _ | .off j _ | .instantOff j _ | .setState j _ _ | .oper j _ _ | .manual j _ | .io j _ => j == i
  | .evaluate _ _ _ => true

/-- What an event that concerns the valve does to it. -/
def S.step (c : Cls σ) (s : S σ) : Ev σ → S σ
  | .on _ now => { s with auto := true, request := none, body := if s.manual then s.body else c.directOn now s.body }
  | .off _ now =>
    if s.auto ∧ c.seat s.body = false then { s with request := s.request.or (some now) }
    else if s.manual then s else { s with body := c.directOff now s.body }
  | .instantOff _ now => if s.manual then s else { s with body := c.directOff now s.body }
  | .setState _ now n => if s.manual then s else { s with body := c.directSet now n s.body }
  | .oper _ now n => { s with body := c.directSet now n s.body }
  | .manual _ m => { s with manual := m }
  | .io _ g => { s with body := g s.body }
  | .evaluate now delay _ =>
    let b := c.tick now s.body
    match s.request with
    | some t =>
      if elapsed now t > delay.toNat then
        { s with request := none, auto := false, body := if s.manual then b else c.directOff now b }
      else { s with body := b }
    | none => { s with body := b }

/-- A history of the valve on its own: the events that concern it. -/
def S.run (c : Cls σ) (i : Nat) (s : S σ) (h : List (Ev σ)) : S σ :=
  (h.filter (Ev.concerns i)).foldl (fun s e => s.step c e) s

/-- What can be seen of a valve. -/
def V.view (v : V σ) : S σ :=
  { body := v.body, manual := v.manual, auto := v.wasOnAuto, request := if v.switching then some v.startOff else none }

/-- Events that leave a request to close the valve `i` at `t0` as it is: those of other valves, further requests, and
evaluations not later than the delay after the request. -/
def Waiting (i : Nat) (t0 : Tm) : Ev σ → Prop
  | .off _ _ => True
  | .evaluate now delay _ => t0 ≤ now ∧ now.toNat - t0.toNat ≤ delay.toNat
  | e => e.concerns i = false

/-- Events that do not ask for anything but to open the valve `i`. -/
def KeepsOpen (i : Nat) : Ev σ → Prop
  | .on _ _ => True
  | .evaluate _ _ _ => True
  | e => e.concerns i = false

end Ptusa.ValveOff
