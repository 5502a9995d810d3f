import Verif.CipLua.Model

/-!
# What a project expects of the functions it defines
-/
namespace Ptusa.CipLua

open Ptusa.LuaCall (Val Text)

variable {σ : Type}

/-- The name under which a project defines a function. -/
def Fn.name : Fn → String
  | .inEvaluate => "cip_in_evaluate"
  | .inError => "cip_in_error"
  | .initCustomStep => "init_custom_step"
  | .doCustomStep => "do_custom_step"
  | .goToStep => "cip_GoToStep"
  | .doStep => "cip_DoStep"
  | .initStep => "cip_InitStep"
  | .loadProgram => "cip_LoadProgram"
  | .stopDev => "cip_StopDev"
  | .resetLines => "cip_ResetLinesDevicesBeforeReset"
  | .oporCip => "cip_OporCIP"
  | .initOporCip => "cip_InitOporCIP"
  | .checkErr => "cip_CheckErr"
  | .circ => "cip_Circ"
  | .initCirc => "cip_InitCirc"
  | .toObject => "cip_ToObject"
  | .initToObject => "cip_InitToObject"
  | .fromObject => "cip_FromObject"
  | .initFromObject => "cip_InitFromObject"
  | .fillCirc => "cip_FillCirc"
  | .initFillCirc => "cip_InitFillCirc"
  | .oporCirc => "cip_OporCirc"
  | .initOporCirc => "cip_InitOporCirc"
  | .rt => "cip_RT"
  | .stop => "cip_Stop"
  | .doseRR => "cip_DoseRR"
  | .initDoseRR => "cip_InitDoseRR"
  | .onResume => "cip_On_Resume"
  | .configureLine => "cip_ConfigureLine"

/-- Number of arguments of a function in C++ (with `curstep` for a custom step). -/
def Fn.arity : Fn → Nat
  | .inEvaluate | .inError | .loadProgram | .stopDev | .resetLines | .checkErr | .rt | .onResume => 0
  | .doStep | .oporCip | .circ | .fillCirc | .oporCirc | .stop | .doseRR => 1
  | .goToStep | .initStep | .toObject | .fromObject => 2
  | .initOporCip | .initCirc | .initFillCirc | .initOporCirc | .initDoseRR => 3
  | .initToObject | .initFromObject | .configureLine => 4
  | .doCustomStep => 5
  | .initCustomStep => 6

/-- The arguments handed to the script: all of them, for a custom step without the media. -/
def Fn.passed : Fn → List Int → List Int
  | .doCustomStep, args => args.drop 4
  | .initCustomStep, args => args.drop 4
  | _, args => args

/-- Does the caller use the answer? -/
def Fn.answers : Fn → Bool
  | .inEvaluate | .inError | .stopDev | .resetLines | .rt | .stop | .onResume => false
  | _ => true

/-- Has the object of the line the function at this moment? -/
def World.defines (w : World σ) (f : Fn) : Prop :=
  ∃ t g, w.object = .tbl t ∧ w.field t f.name = .fn g

/-- The script when the line was initialised: the first time its object was there. -/
def script : List (Ev σ) → Option (World σ)
  | [] => none
  | .init w :: rest => match w.object with
    | .tbl _ => some w
    | _ => script rest
  | .call _ _ _ :: rest => script rest

/-- The project defined `f` when the line was initialised. -/
def Defined (h : List (Ev σ)) (f : Fn) : Prop := ∃ w, script h = some w ∧ w.defines f

/-- Whole number an answer stands for. -/
def wholeOf : Val → Option Int
  | .num q => Device.toInt32 q
  | _ => some 0

/-- Text of an error object. -/
def errText (w : World σ) : Val → Option Text
  | .str t => some t
  | .num q => some (w.numText q)
  | _ => none

/-- Whole numbers as values of the script. -/
def vals (l : List Int) : List Val := l.map fun (a : Int) => .num (.num a)

/-- What the script does when function `g` of its object `t` is called for `f`. -/
def World.act (w : World σ) (f : Fn) (t g : Nat) (args : List Int) (line : σ) : Except Val Val × σ :=
  w.call g (.tbl t :: vals (f.passed args)) line

end Ptusa.CipLua
