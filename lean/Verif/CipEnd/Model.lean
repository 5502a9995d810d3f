import Verif.CipDose.Model

/-!
# When a step of a washing program ends

The conditions under which `_ToObject`, `_FromObject`, `_OporCIP`, `_FillCirc`, `_OporCirc`, `_DoseRR` and `OpolRR` of
`cipline_tech_object` (cip_tech_def.cpp) end a step, with their timers and flags, cycle by cycle. The valves are modelled in
`CipFlow`, where these conditions are inputs; the circulation and self-cleaning in `CipSet`.

Simplifications. Exact numbers instead of `float`. The times of the recipe are whole seconds and not negative (see `CipSet` for
others). A cycle in which `CheckErr` finds an error does not reach these functions; a stop, for any reason, and the resumption are one
event. The clock does not overflow.
-/
namespace Ptusa.CipEnd
open CipDose (Tmr)

/-- What happens: a cycle with its inputs; a stop (`PauseTimers`, `cnt->pause()`, 1616-1640) and later the resumption (`_InitStep` with
`not_first_call`). -/
inductive Ev (α : Type)
  | cycle (now : Nat) (i : α)
  | again (stop resume : Nat)

/-- What a cycle returns: 0, 1, `ERR_NO_RETURN`, `ERR_NO_CONC` or `ERR_IS_CONC`. -/
inductive Out
  | go | done | noReturn | conc
  deriving DecidableEq, Repr

/-- Cycles as long as they return 0; `none`: one of them has returned something else. -/
def run {σ α : Type} (cycle : σ → Nat → α → σ × Out) (again : σ → Nat → Nat → σ) (s : σ) : List (Ev α) → Option σ
  | [] => some s
  | .cycle now i :: l => match cycle s now i with
    | (s, .go) => run cycle again s l
    | _ => none
  | .again a b :: l => run cycle again (again s a b) l

/-! ## To the object -/

/-- `cnt->get_quantity()`, `P_VRAB`, `TR`, the state of `dev_os_can_continue`, if there is one. -/
structure ToIn where
  q : Rat
  vol : Rat
  tr : Rat
  cont : Option Bool

/-- The end of `_ToObject` (cip_tech_def.cpp 4977-5004); the state is `wasflip`, which `_InitStep` clears when the step begins
(2286). -/
def toCycle (step : Int) (prog : Nat) (flip : Bool) (_now : Nat) (i : ToIn) : Bool × Out :=
  let waits := decide (step = 8 ∨ step = 37 ∨ step = 57 ∨ step = 86) && !flip
  if waits ∧ i.cont = some false then (flip, .go)
  else (flip || waits && i.cont == some true, if i.q ≥ i.vol ∨ step = 86 ∧ i.tr < 5 ∧ prog ≠ 1 then .done else .go)

/-- A stop does not change `wasflip`. -/
def toAgain (flip : Bool) (_ _ : Nat) : Bool := flip

/-! ## From the object -/

/-- `cnt->get_quantity()`, `P_VRAB`, `FL`, whether the concentration is as it must be (see `CipFlow.Env.fits`). -/
structure FromIn where
  q : Rat
  vol : Rat
  fl : Bool
  fits : Bool

/-- `TMR_RETURN`, `TMR_CHK_CONC`, `return_ok`. -/
structure From where
  tRet : Tmr := {}
  tConc : Tmr := {}
  retOk : Bool := false

/-- `_InitFromObject` (cip_tech_def.cpp 4339-4343, 4486-4496); `ret`, `conc`: `P_TM_NO_FLOW_R`, `P_TM_NO_CONC`. The concentration is
tested only for tanks of acid and caustic, for which the time is doubled. -/
def From.init (ret conc : Nat) (first : Bool) (s : From) : From :=
  ⟨{ s.tRet.reset with cd := ret * 1000 }, { s.tConc.reset with cd := conc * 1000 * 2 }, s.retOk && !first⟩

/-- The end of `_FromObject` (cip_tech_def.cpp 5019-5102). `concentration_ok` is set anew in each cycle in which it is read. -/
def From.cycle (s : From) (now : Nat) (i : FromIn) : From × Out :=
  if i.q ≥ i.vol then
    let s := if s.retOk then s else if i.fl then { s with retOk := true } else { s with tRet := s.tRet.start now }
    if s.retOk = false ∧ s.tRet.up now = true then (s, .noReturn)
    else if i.fits then (s, if s.retOk then .done else .go)
    else
      let s := { s with tConc := s.tConc.start now }
      if s.tConc.up now then ({ s with tConc := s.tConc.reset }, .conc) else (s, .go)
  else (s, .go)

/-- A stop and the resumption. -/
def From.again (ret conc : Nat) (s : From) (a _b : Nat) : From :=
  From.init ret conc false { s with tRet := s.tRet.pause a, tConc := s.tConc.pause a }

/-! ## Emptying the object -/

/-- The states of `dev_os_object_empty` and `dev_ls_ret_pump`, if there are such devices, `FL`. -/
structure EmptyIn where
  empty : Option Bool
  ls : Option Bool
  fl : Bool

/-- `TMR_OP_TIME`, `TMR_RETURN`, `opcip`, `ret_pums_ls_timer`. -/
structure Emp where
  tOp : Tmr := {}
  tRet : Tmr := {}
  flowed : Bool := false
  lsAt : Nat := 0

/-- `_InitStep` (2246) and `_InitOporCIP` (cip_tech_def.cpp 4509, 4570-4574); `limit`, `ret`: `P_TM_MAX_TIME_OPORCIP`,
`P_TM_RET_IS_EMPTY`. -/
def Emp.init (limit ret : Nat) (s : Emp) (now : Nat) : Emp :=
  ⟨({ s.tOp with cd := limit * 1000 } : Tmr).start now, { s.tRet.reset with cd := ret * 1000 }, false, now⟩

/-- The beginning of the step: `RT` (2276). -/
def Emp.enter (limit ret : Nat) (s : Emp) (now : Nat) : Emp := Emp.init limit ret { s with tOp := s.tOp.reset } now

/-- `_OporCIP` (cip_tech_def.cpp 5231, 5270-5320), before it the timer of the level switch (2737-2743). -/
def Emp.cycle (step : Int) (line : Bool) (limit ret : Nat) (s : Emp) (now : Nat) (i : EmptyIn) : Emp × Out :=
  let s := if i.ls = some true then { s with lsAt := now } else s
  if line then (s, .done)
  else match i.empty with
    | some b => (s, if b then .done else .go)
    | none =>
      if i.ls = some false ∧ now - s.lsAt > ret * 1000 then (s, .done)
      else
        let s := if i.fl then { s with flowed := true, tRet := s.tRet.reset }
          else if s.flowed then { s with tRet := s.tRet.start now } else s
        if i.fl = false ∧ s.flowed = true ∧ s.tRet.up now = true then (s, .done)
        else if limit * 500 < s.tOp.time now ∧ (step = 6 ∨ s.flowed = false) then (s, .done)
        else if s.tOp.up now then (s, .done) else (s, .go)

/-- A stop and the resumption. -/
def Emp.again (limit ret : Nat) (s : Emp) (a b : Nat) : Emp :=
  Emp.init limit ret { s with tOp := s.tOp.pause a, tRet := s.tRet.pause a } b

/-! ## The small tank -/

/-- The counter (`cnt`): whether it counts, and its quantity; `TMR_OP_TIME`. -/
structure Small where
  on : Bool := false
  q : Rat := 0
  tOp : Tmr := {}

/-- The litres since the last cycle, and the level: `LM` and `LH` when the tank is filled, `LL` when it is emptied. -/
structure SmallIn where
  litres : Rat
  lm : Bool := false
  lh : Bool := false
  ll : Bool := true

/-- The counter in a cycle. -/
def Small.count (s : Small) (litres : Rat) : Small := if s.on then { s with q := s.q + litres } else s

/-- The beginning of a step: the counter is reset and paused (2276-2279), `RT`; `limit`: `TM_MAX_TIME_OPORBACHOK`
(4709-4719). -/
def Small.enter (limit : Nat) (s : Small) (now : Nat) : Small :=
  ⟨false, 0, (({ s.tOp.reset with cd := limit * 1000 } : Tmr).start now).pause now⟩

/-- `_FillCirc` (cip_tech_def.cpp 5323-5335); `vol`: `P_V_RAB_ML`. -/
def Small.fill (vol : Rat) (s : Small) (_now : Nat) (i : SmallIn) : Small × Out :=
  let s := s.count i.litres
  let s := { s with on := s.on || i.lm }
  (s, if s.q ≥ vol ∨ i.lh = true then .done else .go)

/-- `_OporCirc` (cip_tech_def.cpp 5603-5611); `vol`: `P_V_LL_BOT`. -/
def Small.empty (vol : Rat) (s : Small) (now : Nat) (i : SmallIn) : Small × Out :=
  let s := s.count i.litres
  let s := if i.ll then s else { s with on := true, tOp := s.tOp.start now }
  (s, if s.q ≥ vol ∨ s.tOp.up now = true then .done else .go)

/-- A stop and the resumption (`_InitFilCirc`, 4583-4641, `_InitOporCirc`, 4713-4719): the counter is not started. -/
def Small.again (limit : Nat) (s : Small) (a b : Nat) : Small :=
  { s with on := false, tOp := (({ s.tOp.pause a with cd := limit * 1000 } : Tmr).start b).pause b }

/-! ## Dosing the disinfectant, rinsing after the preparation of a solution -/

/-- `_InitDoseRR` (cip_tech_def.cpp 5640-5643); `limit`: `PTM_SANITIZER_INJECT`. -/
def doseEnter (limit : Nat) (t : Tmr) (now : Nat) : Tmr := ({ t.reset with cd := limit * 1000 } : Tmr).start now

/-- `_DoseRR` (cip_tech_def.cpp 5673-5678). -/
def doseCycle (t : Tmr) (now : Nat) (_ : Unit) : Tmr × Out := (t, if t.up now then .done else .go)

/-- A stop and the resumption. -/
def doseAgain (limit : Nat) (t : Tmr) (a b : Nat) : Tmr := ({ t.pause a with cd := limit * 1000 } : Tmr).start b

/-- `InitOpolRR` (cip_tech_def.cpp 3910); `conc`: `P_TM_NO_CONC`. -/
def rinseEnter (conc : Nat) (t : Tmr) : Tmr := { t.reset with cd := conc * 1000 }

/-- `OpolRR` (cip_tech_def.cpp 4103-4111); the input: the concentration is below `P_CKANAL_S` or `P_CKANAL_K`. -/
def rinseCycle (t : Tmr) (now : Nat) (low : Bool) : Tmr × Out :=
  if low then
    let t := t.start now
    (t, if t.up now then .done else .go)
  else (t.reset, .go)

/-- A stop and the resumption. -/
def rinseAgain (conc : Nat) (t : Tmr) (a _b : Nat) : Tmr := { t.pause a with cd := conc * 1000 }

end Ptusa.CipEnd
