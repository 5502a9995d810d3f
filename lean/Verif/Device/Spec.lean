import Verif.Device.Model

/-!
# Manual mode
-/
namespace Ptusa.Device
variable {σ : Type}

/-- The device is in manual mode after a history: the last command `M` that said 0 or 1 decides. -/
def manualAfter (m : Bool) : List (Ev σ) → Bool
  | [] => m
  | .oper (.M v) :: es => manualAfter (if v = .num 0 then false else if v = .num 1 then true else m) es
  | _ :: es => manualAfter m es

/-- The event is a command of the program. -/
def Ev.isProg : Ev σ → Bool
  | .prog _ => true
  | _ => false

/-- The history without the program commands given in manual mode. -/
def effective (m : Bool) : List (Ev σ) → List (Ev σ)
  | [] => []
  | e :: es =>
    let rest := effective (manualAfter m [e]) es
    if m && e.isProg then rest else e :: rest

/-- What a history does to the body of a device without any manual mode. -/
def drive (c : Cls σ) (b : σ) : List (Ev σ) → Option σ
  | [] => some b
  | .prog p :: es => drive c (c.obey p b) es
  | .oper (.S v) :: es => (toInt32 v).bind fun n => drive c (c.directSetState n b) es
  | .oper (.V v) :: es => drive c (c.directSetValue v b) es
  | .oper (.M _) :: es => drive c b es
  | .io f :: es => drive c (f b) es

end Ptusa.Device
