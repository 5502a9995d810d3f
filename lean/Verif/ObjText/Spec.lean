import Verif.ObjText.Model

/-!
# What a reader of the texts should find

Independent of the functions which write them: the fields of the table of an object and the values of a backup.
-/
namespace Ptusa.ObjText
open SaveDev LuaText

/-- A number rounded to hundredths, ties to even. -/
def hundredths (q : Rat) : Rat := (if q < 0 then -1 else 1) * ((roundEven (|q| * 10 ^ 2) : Nat) / 10 ^ 2)

/-- What a parameter is read as: an integral value exactly, another one in hundredths, not-a-number as nothing (a global variable
which does not exist). -/
def seen : Fv → Lv
  | .num q => .num (if q.den = 1 then q else hundredths q)
  | .inf _ => .glob "inf".toList
  | .nan _ => .glob "nan".toList

/-- A parameter which can be shown: not infinite, not a negative not-a-number, and an integral value in the range of `int`. -/
def Printable : Fv → Prop
  | .num q => q.den = 1 → -2147483648 ≤ q.num ∧ q.num ≤ 2147483647
  | .inf _ => False
  | .nan neg => neg = false

/-- A field with a number. -/
def one (key : String) (q : Rat) : Option Txt × Lv := (some key.toList, .num q)

/-- A field with a list. -/
def many (key : Txt) (l : List Lv) : Option Txt × Lv := (some key, .table (l.map fun v => (none, v)))

/-- 1 for yes, 0 for no. -/
def bit (b : Bool) : Lv := .num (if b then 1 else 0)

/-- A list with 1 for every step which is active. -/
def activeSteps (s : StepSt) : List Lv :=
  (List.range s.count).map fun j => bit (s.active = j + 1 ∨ ((j + 1 : Nat) : Int) ∈ s.extra)

/-- The step of an operation: that of the state in which it is, 0 if it is off. -/
def currentStep (p : Op) : Nat := if p.state = 0 ∨ 14 < p.state then 0 else (p.states p.state).active

/-- The time of the step of the last operation which is performed. -/
def lastStepTime (l : List Op) : Nat :=
  match (l.filter fun o => o.state == 1).getLast? with
  | none => 0
  | some o => o.stepTime / 1000

/-- The fields of the table of an object. -/
def want (o : Obj) : List (Option Txt × Lv) :=
  [one "CMD" o.cmd, one "LASTRECNMR" o.recNmr, (some "LASTRECNAME".toList, .str o.recName),
   many "ST".toList (o.words.map fun n : Nat => Lv.num n),
   many "MODES".toList (o.ops.map fun p => bit (p.state ≠ 0)),
   many "OPERATIONS".toList (o.ops.map fun p => .num p.state),
   many "AVAILABILITY".toList (o.ops.map fun p => bit (p.unavailable = 0)),
   one "ACTIVE_OPERATION_OR_IDLE_TIME" (o.idle / 1000 : Nat),
   one "ACTIVE_STEP_TIME" (lastStepTime o.ops),
   many "MODES_TIME".toList (o.ops.map fun p => .num (p.time / 1000 : Nat)),
   many "MODES_STEPS".toList (o.ops.map fun p => .num (currentStep p)),
   many "MODES_RUN_STEPS".toList (o.ops.map fun p => .num p.runStep)] ++
  ((o.ops.zipIdx 1).filter fun p => (p.1.states 1).count ≠ 0).map
    (fun p => many ("STEPS".toList ++ natText p.2) (activeSteps (p.1.states 1))) ++
  (List.range' 1 14).flatMap (fun s => ((o.ops.zipIdx 1).filter fun p => (p.1.states s).count ≠ 0).map
    fun p => many ((stateName s).toList ++ "_STEPS".toList ++ natText p.2) (activeSteps (p.1.states s))) ++
  [many "S_PAR_F".toList (o.parF.map seen), many "S_PAR_UI".toList (o.parU.map fun n : Nat => Lv.num n),
   many "RT_PAR_F".toList (o.rtF.map seen), many "RT_PAR_UI".toList (o.rtU.map fun n : Nat => Lv.num n)]

/-- An object whose parameters can be saved: its name is a Lua name and its parameters can be shown. -/
structure Savable (o : Obj) : Prop where
  name : luaName o.name = true
  parF : ∀ x ∈ o.parF, Printable x
  rtF : ∀ x ∈ o.rtF, Printable x

/-- An object whose text can be read: the name of its recipe has no apostrophe, line feed or backslash either. -/
structure Readable (o : Obj) : Prop extends Savable o where
  recipe : Clean o.recName

/-- Only the states which have a name have steps. -/
def Named (o : Obj) : Prop := ∀ p ∈ o.ops, ∀ s, stateName s = "" → (p.states s).count = 0

/-- The arguments of the calls of the backup of an object. -/
def wantCalls (o : Obj) : List (Txt × List (Option Txt × Lv)) :=
  [("par_float", 1, o.parF.map seen), ("rt_par_float", 2, o.rtF.map seen),
   ("par_uint", 3, o.parU.map fun n : Nat => Lv.num n), ("rt_par_uint", 4, o.rtU.map fun n : Nat => Lv.num n)].map
  fun (p : String × Nat × List Lv) => ("params".toList,
    [(some "object".toList, .str o.name), (some "param_name".toList, .str p.1.toList), one "par_id" p.2.1,
     many "values".toList p.2.2])

/-- Both objects have the same name and the same numbers of parameters. -/
structure SameShape (b o : Obj) : Prop where
  name : b.name = o.name
  parF : b.parF.length = o.parF.length
  rtF : b.rtF.length = o.rtF.length
  parU : b.parU.length = o.parU.length
  rtU : b.rtU.length = o.rtU.length

/-- Values moved one place to the front: place `k` gets value `k + 1` of the saved ones, if it was saved as a number. -/
def shiftF (fl : Rat → Fv) (saved l : List Fv) : List Fv :=
  l.mapIdx fun k x => match (saved[k + 1]?).map seen with
    | some (.num q) => fl q
    | _ => x

/-- The same for integers. -/
def shiftU (saved l : List Nat) : List Nat := l.mapIdx fun k x => (saved[k + 1]?).getD x

/-- What the restoration makes of an object `o` from the saved object `b`. -/
def shifted (fl : Rat → Fv) (b o : Obj) : Obj :=
  { o with
    parF := shiftF fl b.parF o.parF
    rtF := shiftF fl b.rtF o.rtF
    parU := shiftU b.parU o.parU
    rtU := shiftU b.rtU o.rtU
    stubF := match (b.rtF.head?).map seen with
      | some (.num q) => fl q
      | _ => o.stubF
    stubU := (b.rtU.head?).getD o.stubU }

/-- What is saved of every object is in the controller too. -/
def Covers (bs objs : List Obj) : Prop := ∀ b ∈ bs, ∃ o ∈ objs, SameShape b o

/-- The unsigned parameters fit their type. -/
def Fits (o : Obj) : Prop := (∀ n ∈ o.parU, n < 4294967296) ∧ ∀ n ∈ o.rtU, n < 4294967296

end Ptusa.ObjText
