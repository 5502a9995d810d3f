import Verif.Supply.Model

/-!
# What the user of the fuses knows
-/
namespace Ptusa.Supply

/-- Every channel as the last command for it says, from `start` on. -/
def fSwitched (start : Fin 4 → Bool) : List FEv → Fin 4 → Bool
  | [] => start
  | .eval _ _ :: h => fSwitched start h
  | .all b :: h => fSwitched (fun _ => b) h
  | .channel n b :: h => fSwitched (fun i => if i.val + 1 = n then b else start i) h

/-- The link is good in every cycle of the history. -/
def FGood (h : List FEv) : Prop := ∀ m ok, FEv.eval m ok ∈ h → ok = true

/-- No command for all channels in the history. -/
def FNoAll (h : List FEv) : Prop := ∀ b, FEv.all b ∉ h

/-- The time of the last command. -/
def lastCmd (h : List GEv) : Option (BitVec 64) :=
  h.reverse.findSome? fun e => match e with | .cmd t _ => some t | _ => none

/-- At the time `now` there was no command for a second. -/
def Quiet (h : List GEv) (now : BitVec 64) : Prop := ∀ t, lastCmd h = some t → 1000 < Time.deltaMs now t

/-- What the unit is to do: the states and currents it reported, changed by the command. -/
def wanted (m : Img) (c : GCmd) : (Fin 8 → Bool) × (Fin 8 → Nat) :=
  let sw : Fin 8 → Bool := fun i => (m (4 + i.val / 4)).toNat / 4 ^ (3 - i.val % 4) % 4 != 0
  let cur : Fin 8 → Nat := fun i => (m (6 + i.val / 2)).toNat / (if i.val % 2 = 0 then 8 else 1) % 8
  match c with
  | .all b => (fun _ => b, cur)
  | .channel n b => (fun i => if i.val + 1 = n then b else sw i, cur)
  | .current n val => (sw, fun i => if i.val + 1 = n then val.toNat else cur i)

/-- The currents a channel can be set to have 3 bits. -/
def GCmd.ok : GCmd → Prop
  | .current _ val => 0 ≤ val ∧ val < 8
  | _ => True

end Ptusa.Supply
