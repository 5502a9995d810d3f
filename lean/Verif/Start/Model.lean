import Verif.Guard.Model

/-!
# Whether an operation may be switched on

Model of `operation_state::check_on` and of the checks below it (PAC/common/operation_mngr.cpp). The texts of the messages are left
out: a refusal is its kind and the device that it names. The filling of actions with devices is the one of `Guard`.
-/
namespace Ptusa.Start

/-- `device::DEVICE_TYPE` (device/base.h 386-416). -/
inductive Ty
  | V | VC | M | LS | TE | FS | GS | FQT | LT | QT | HA | HL | SB | DI | DO | AI | AO | WT | PT | F | REGULATOR | HLA | CAM | PDS | TS | G
  deriving DecidableEq, Repr

/-- A device as the checks see it: `get_type()`, `is_active()`. -/
structure Dev where
  ty : Ty
  active : Bool

/-- What a refusal says: the first device of a group is no input signal (DI; AI), or a signal is missing. -/
inductive Kind
  | notDigital | notAnalog | noSignal
  deriving DecidableEq, Repr

/-- `action::is_empty` (operation_mngr.cpp 626-640). -/
def isEmpty (g : List (List (List Nat))) : Bool := g.all fun s => s.all List.isEmpty

/-- The test of the type in `DI_DO_action::check` (operation_mngr.cpp 1102-1106). -/
def isDigital (t : Ty) : Bool := !(t != .DI && t != .SB && t != .GS && t != .LS && t != .FS)

/-- The test of the type in `AI_AO_action::check` (operation_mngr.cpp 1221-1226). -/
def isAnalog (t : Ty) : Bool := !(t != .AI && t != .PT && t != .LT && t != .FQT && t != .QT && t != .TE)

/-- The loop over the subgroups (operation_mngr.cpp 1093-1115, 1212-1235): the first device of each of them is tested. -/
def wrongFirst (w : Nat → Dev) (ok : Ty → Bool) : List (List Nat) → Option Nat
  | [] => none
  | [] :: l => wrongFirst w ok l
  | (d :: _) :: l => if ok (w d).ty then wrongFirst w ok l else some d

/-- `DI_DO_action::check` (operation_mngr.cpp 1084-1118), inherited by `inverted_DI_DO_action`. -/
def digitalCheck (w : Nat → Dev) (g : List (List (List Nat))) : Option (Kind × Nat) :=
  if isEmpty g then none else (wrongFirst w isDigital (g.getD 0 [])).map (.notDigital, ·)

/-- `AI_AO_action::check` (operation_mngr.cpp 1203-1238). -/
def analogCheck (w : Nat → Dev) (g : List (List (List Nat))) : Option (Kind × Nat) :=
  if isEmpty g then none else (wrongFirst w isAnalog (g.getD 0 [])).map (.notAnalog, ·)

/-- `required_DI_action::check` (operation_mngr.cpp 875-897); outer `none`: there is no `devices[ 0 ][ 0 ]`, undefined behaviour. -/
def requiredCheck (w : Nat → Dev) (g : List (List (List Nat))) : Option (Option (Kind × Nat)) :=
  if isEmpty g then some none
  else match g with
    | (s :: _) :: _ => some ((s.find? fun d => !(w d).active).map (.noSignal, ·))
    | _ => none

/-- The actions of a `step` which are checked: `A_DI_DO`, `A_AI_AO`, `A_INVERTED_DI_DO`, `A_REQUIRED_FB`. -/
structure Step where
  diDo : List (List (List Nat)) := Guard.emptyGroups 1
  aiAo : List (List (List Nat)) := Guard.emptyGroups 1
  inverted : List (List (List Nat)) := Guard.emptyGroups 1
  required : List (List (List Nat)) := Guard.emptyGroups 1

/-- `step::check` (operation_mngr.cpp 957-973). -/
def Step.check (w : Nat → Dev) (isMode : Bool) (s : Step) : Option (Option (Kind × Nat)) :=
  match digitalCheck w s.diDo with
  | some r => some (some r)
  | none => match analogCheck w s.aiAo with
    | some r => some (some r)
    | none => match digitalCheck w s.inverted with
      | some r => some (some r)
      | none => if isMode then requiredCheck w s.required else some none

/-- `operation_state::check_on` (operation_mngr.cpp 1971-1980). -/
def checkOn (w : Nat → Dev) (mode : Step) : List Step → Option (Option (Kind × Nat))
  | [] => mode.check w true
  | s :: l => match s.check w false with
    | none => none
    | some (some r) => some (some r)
    | some none => checkOn w mode l

end Ptusa.Start
