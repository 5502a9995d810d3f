import Verif.SysText.Model

/-!
# What the state of the controller should be
-/
namespace Ptusa.SysText
open SaveDev LuaText

/-- The parameters which can be set, with their values after a reset. -/
def known : List (String × Nat) :=
  [("WASH_VALVE_SEAT_PERIOD", 180), ("WASH_VALVE_UPPER_SEAT_TIME", 2000), ("WASH_VALVE_LOWER_SEAT_TIME", 1000),
   ("P_V_OFF_DELAY_TIME", 1000), ("P_V_BOTTOM_ON_DELAY_TIME", 1200), ("P_WAGO_TCP_NODE_WARN_ANSWER_AVG_TIME", 50),
   ("P_MAIN_CYCLE_WARN_ANSWER_AVG_TIME", 300), ("P_RESTRICTIONS_MODE", 0), ("P_RESTRICTIONS_MANUAL_TIME", 120000),
   ("P_AUTO_PAUSE_OPER_ON_DEV_ERR", 0)]

/-- A text which can stand between quotation marks. -/
def CleanQ (s : Txt) : Prop := ∀ c ∈ s, c ≠ '"' ∧ c ≠ '\n' ∧ c ≠ '\\'

instance (s : Txt) : Decidable (CleanQ s) := by
  unfold CleanQ
  infer_instance

/-- What the reader of a text finds in `t.SYSTEM` under a key. -/
def shown (t : Txt) (key : String) : Option Lv :=
  match runText t (fun _ => none) with
  | none => none
  | some env => match env "SYSTEM".toList with
    | some (.table fs) => field fs key
    | _ => none

/-- The value which a parameter should have after commands: that of the last one which concerns it. `v0`: at the beginning. -/
def lastSet (name : String) (dflt : Nat) : Lv → List Ev → Lv
  | v0, [] => v0
  | v0, .set p v :: l => lastSet name dflt (if p = name then .num (⌊v⌋₊ : Nat) else v0) l
  | _, .defaults :: l => lastSet name dflt (.num dflt) l
  | v0, _ :: l => lastSet name dflt v0 l

/-- The result which should be shown after commands: of the last reload, 0 once it was taken away. `r0`: at the beginning. -/
def lastResult : Int → List Ev → Int
  | r0, [] => r0
  | _, .clear :: l => lastResult 0 l
  | r0, .reload f :: l => lastResult (((reload f).map Prod.fst).getD r0) l
  | r0, _ :: l => lastResult r0 l

/-- The command sets a value within the type, if any. -/
def Ev.InRange : Ev → Prop
  | .set _ v => -1 < v ∧ v < 4294967296
  | _ => True

/-- The command does not reload. -/
def Ev.NoReload : Ev → Prop
  | .reload _ => False
  | _ => True

/-- A state whose text can be read. -/
structure Clear (s : Sys) : Prop where
  upTime : CleanQ s.upTime
  version : CleanQ s.version
  answer : ∃ a, s.answer = some a ∧ CleanQ a

end Ptusa.SysText
