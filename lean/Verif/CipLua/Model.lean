import Verif.LuaCall.Model

/-!
# Functions of a washing line that a project replaces or extends

Model of the wrappers around the functions of `cipline_tech_object` (PAC/common/cip_tech_def.cpp lines 236-264,
1042-1090, 6678-6732, 6786-7475 and the calls inside `evaluate`, `EvalCommands`, `EvalCipInError`).  A project may define
functions in the Lua table of a line; what the interpreter does is modelled after the Lua 5.1 manual as in
`Ptusa.LuaCall`.

The line itself and what the built-in functions and those of the project do to it are parameters.  A function of the
project has a stack of its own, so it does not touch that of the main program.
-/
namespace Ptusa.CipLua

open Ptusa.LuaCall (Val Text)

/-- The functions a project can define (cip_tech_def.h lines 595-623). -/
inductive Fn where
  | inEvaluate | inError | initCustomStep | doCustomStep | goToStep | doStep | initStep | loadProgram | stopDev
  | resetLines | oporCip | initOporCip | checkErr | circ | initCirc | toObject | initToObject | fromObject
  | initFromObject | fillCirc | initFillCirc | oporCirc | initOporCirc | rt | stop | doseRR | initDoseRR | onResume
  | configureLine
  deriving DecidableEq, Repr

/-- How the function of the project and the built-in one go together. -/
inductive Kind where
  /-- the built-in function is in the other branch of `if (2 == is_..._func)` -/
  | replace
  /-- the built-in function follows in any case -/
  | extend
  /-- there is no built-in function -/
  | only
  deriving DecidableEq, Repr

/-- The numbers and names in a wrapper: the name looked up, which of its arguments are pushed, the number of arguments
and of results given to `lua_pcall`. -/
structure Row where
  key : String
  push : List Nat
  nargs : Nat
  nres : Nat
  kind : Kind
  deriving DecidableEq, Repr

/-- The wrappers.  The arguments of `EvalCustomStep` are its four own ones and `curstep`. -/
def Fn.row : Fn → Row
  /- cip_tech_def.cpp:736-749 -/
  | .inEvaluate => ⟨"cip_in_evaluate", [], 1, 0, .only⟩
  /- cip_tech_def.cpp:2966-2978 -/
  | .inError => ⟨"cip_in_error", [], 1, 0, .only⟩
  /- cip_tech_def.cpp:6678-6705 -/
  | .initCustomStep => ⟨"init_custom_step", [4, 5], 3, 1, .only⟩
  /- cip_tech_def.cpp:6707-6732 -/
  | .doCustomStep => ⟨"do_custom_step", [4], 2, 1, .only⟩
  /- cip_tech_def.cpp:6786-6816 -/
  | .goToStep => ⟨"cip_GoToStep", [0, 1], 3, 1, .replace⟩
  /- cip_tech_def.cpp:6818-6847 -/
  | .doStep => ⟨"cip_DoStep", [0], 2, 1, .replace⟩
  /- cip_tech_def.cpp:6849-6879 -/
  | .initStep => ⟨"cip_InitStep", [0, 1], 3, 1, .replace⟩
  /- cip_tech_def.cpp:6881-6909 -/
  | .loadProgram => ⟨"cip_LoadProgram", [], 1, 1, .replace⟩
  /- cip_tech_def.cpp:6911-6931 -/
  | .stopDev => ⟨"cip_StopDev", [], 1, 0, .replace⟩
  /- cip_tech_def.cpp:6933-6951 -/
  | .resetLines => ⟨"cip_ResetLinesDevicesBeforeReset", [], 1, 0, .extend⟩
  /- cip_tech_def.cpp:6953-6982 -/
  | .oporCip => ⟨"cip_OporCIP", [0], 2, 1, .replace⟩
  /- cip_tech_def.cpp:6984-7015 -/
  | .initOporCip => ⟨"cip_InitOporCIP", [0, 1, 2], 4, 1, .replace⟩
  /- cip_tech_def.cpp:7017-7045 -/
  | .checkErr => ⟨"cip_CheckErr", [], 1, 1, .replace⟩
  /- cip_tech_def.cpp:7080-7109 -/
  | .circ => ⟨"cip_Circ", [0], 2, 1, .replace⟩
  /- cip_tech_def.cpp:7047-7078 -/
  | .initCirc => ⟨"cip_InitCirc", [0, 1, 2], 4, 1, .replace⟩
  /- cip_tech_def.cpp:7245-7275 -/
  | .toObject => ⟨"cip_ToObject", [0, 1], 3, 1, .replace⟩
  /- cip_tech_def.cpp:7111-7143 -/
  | .initToObject => ⟨"cip_InitToObject", [0, 1, 2, 3], 5, 1, .replace⟩
  /- cip_tech_def.cpp:7277-7307 -/
  | .fromObject => ⟨"cip_FromObject", [0, 1], 3, 1, .replace⟩
  /- cip_tech_def.cpp:7145-7177 -/
  | .initFromObject => ⟨"cip_InitFromObject", [0, 1, 2, 3], 5, 1, .replace⟩
  /- cip_tech_def.cpp:7309-7338 -/
  | .fillCirc => ⟨"cip_FillCirc", [0], 2, 1, .replace⟩
  /- cip_tech_def.cpp:7179-7210 -/
  | .initFillCirc => ⟨"cip_InitFillCirc", [0, 1, 2], 4, 1, .replace⟩
  /- cip_tech_def.cpp:7340-7369 -/
  | .oporCirc => ⟨"cip_OporCirc", [0], 2, 1, .replace⟩
  /- cip_tech_def.cpp:7212-7243 -/
  | .initOporCirc => ⟨"cip_InitOporCirc", [0, 1, 2], 4, 1, .replace⟩
  /- cip_tech_def.cpp:7371-7390 -/
  | .rt => ⟨"cip_RT", [], 1, 0, .replace⟩
  /- cip_tech_def.cpp:7392-7412 -/
  | .stop => ⟨"cip_Stop", [0], 2, 0, .replace⟩
  /- cip_tech_def.cpp:7447-7475 -/
  | .doseRR => ⟨"cip_DoseRR", [0], 2, 1, .replace⟩
  /- cip_tech_def.cpp:7414-7445 -/
  | .initDoseRR => ⟨"cip_InitDoseRR", [0, 1, 2], 4, 1, .replace⟩
  /- cip_tech_def.cpp:1830-1850 -/
  | .onResume => ⟨"cip_On_Resume", [], 1, 0, .replace⟩
  /- cip_tech_def.cpp:1932-1951; the result is not used -/
  | .configureLine => ⟨"cip_ConfigureLine", [0, 1, 2, 3], 5, 1, .only⟩

/-- The script at the moment of a call: the object of the line, the fields of tables, what a function does to the line
and answers (or the error object it raises). -/
structure World (σ : Type) where
  object : Val
  field : Nat → String → Val
  call : Nat → List Val → σ → Except Val Val × σ
  /-- text of a number -/
  numText : Fl → Text
  /-- text of "attempt to call a … value" -/
  noFun : Text

/-- The line, the stack of the interpreter (top first), the messages printed (function and text), the flags
`is_..._func`. -/
structure Sys (σ : Type) where
  line : σ
  stack : List Val
  printed : List (String × Text)
  flag : Fn → Nat

/-- After the constructor (cip_tech_def.cpp:236-264). -/
def Sys.fresh {σ : Type} (line : σ) (stack : List Val) : Sys σ := ⟨line, stack, [], fun _ => 0⟩

variable {σ : Type}

/-! ### Which functions there are -/

/-- `check_Lua_function` (cip_tech_def.cpp:1043-1064). -/
def Sys.check (w : World σ) (name : String) (f : Fn) (s : Sys σ) : Sys σ :=
  if s.flag f = 0 then
    match w.object with
    | .tbl t =>
      match w.field t name with
      | .fn _ => { s with flag := fun g => if g = f then 2 else s.flag g }
      | _ => { s with flag := fun g => if g = f then 1 else s.flag g }
    | _ => s
  else s

/-- The calls in `initline` (cip_tech_def.cpp:1066-1090). -/
def checks : List (String × Fn) :=
  [("init_custom_step", .initCustomStep), ("do_custom_step", .doCustomStep), ("cip_GoToStep", .goToStep),
   ("cip_DoStep", .doStep), ("cip_InitStep", .initStep), ("cip_LoadProgram", .loadProgram),
   ("cip_StopDev", .stopDev), ("cip_ResetLinesDevicesBeforeReset", .resetLines), ("cip_OporCIP", .oporCip),
   ("cip_InitOporCIP", .initOporCip), ("cip_in_evaluate", .inEvaluate), ("cip_in_error", .inError),
   ("cip_InitCirc", .initCirc), ("cip_Circ", .circ), ("cip_CheckErr", .checkErr), ("cip_ToObject", .toObject),
   ("cip_InitToObject", .initToObject), ("cip_FromObject", .fromObject), ("cip_InitFromObject", .initFromObject),
   ("cip_RT", .rt), ("cip_Stop", .stop), ("cip_DoseRR", .doseRR), ("cip_InitDoseRR", .initDoseRR),
   ("cip_On_Resume", .onResume), ("cip_ConfigureLine", .configureLine)]

/-- The end of `initline` (cip_tech_def.cpp:1066-1090). -/
def Sys.init (w : World σ) (s : Sys σ) : Sys σ := checks.foldl (fun s c => s.check w c.1 c.2) s

/-! ### A call of the script -/

/-- `lua_getglobal( L, name_Lua ); lua_getfield( L, -1, key ); lua_remove( L, -2 ); lua_getglobal( L, name_Lua )`; a
value that cannot be indexed raises an error that nobody catches, the program ends (`none`). -/
def prepare (w : World σ) (key : String) (stack : List Val) : Option (List Val) :=
  match w.object with
  | .tbl t =>
    let stack := w.object :: stack
    let stack := w.field t key :: stack
    let stack := stack.eraseIdx 1
    some (w.object :: stack)
  | _ => none

/-- The `lua_pushinteger`s; `none` for an argument that the wrapper does not have. -/
def pushArgs (args : List Int) : List Nat → List Val → Option (List Val)
  | [], stack => some stack
  | i :: rest, stack =>
    match args[i]? with
    | some a => pushArgs args rest (.num (.num a) :: stack)
    | none => none

/-- `lua_pcall( L, nargs, nres, 0 )`: whether it succeeded, the stack and the line after it. -/
def pcall (w : World σ) (nargs nres : Nat) (stack : List Val) (line : σ) : Option (Bool × List Val × σ) :=
  let rest := stack.drop (nargs + 1)
  match stack[nargs]? with
  | none => none
  | some (.fn g) =>
    match w.call g (stack.take nargs).reverse line with
    | (.ok v, line) => some (true, (if nres = 0 then rest else v :: rest), line)
    | (.error e, line) => some (false, e :: rest, line)
  | some _ => some (false, .str w.noFun :: rest, line)

/-- `lua_tointeger( L, -1 )` as an `int`; 0 for what is no number, `none` for a number outside of `int`. -/
def toInteger : List Val → Option Int
  | .num q :: _ => Device.toInt32 q
  | _ => some 0

/-- `lua_tostring( L, -1 )`; what is neither text nor number gives a null pointer, with which `printf` must not be
called (`none`). -/
def toText (w : World σ) : List Val → Option Text
  | .str t :: _ => some t
  | .num q :: _ => some (w.numText q)
  | _ => none

/-- The branch `if (2 == is_..._func)` of a wrapper: the result and the system after it. -/
def Sys.lua (w : World σ) (r : Row) (args : List Int) (s : Sys σ) : Option (Int × Sys σ) :=
  match prepare w r.key s.stack with
  | none => none
  | some st =>
    match pushArgs args r.push st with
    | none => none
    | some st =>
      match pcall w r.nargs r.nres st s.line with
      | none => none
      | some (true, st, line) =>
        if r.nres = 0 then some (0, { s with stack := st, line := line })
        else (toInteger st).map fun n => (n, { s with stack := st.drop 1, line := line })
      | some (false, st, line) =>
        (toText w st).map fun t =>
          (0, { s with stack := st.drop 1, line := line, printed := s.printed ++ [(r.key, t)] })

/-- The built-in functions (`_GoToStep`, `_DoStep`, …). -/
abbrev Builtin (σ : Type) := Fn → List Int → σ → Int × σ

/-- The built-in branch. -/
def Sys.builtin (b : Builtin σ) (f : Fn) (args : List Int) (s : Sys σ) : Int × Sys σ :=
  let r := b f args s.line
  (r.1, { s with line := r.2 })

/-- A wrapper. -/
def Sys.call (b : Builtin σ) (w : World σ) (f : Fn) (args : List Int) (s : Sys σ) : Option (Int × Sys σ) :=
  match f.row.kind with
  | .replace => if s.flag f = 2 then s.lua w f.row args else some (s.builtin b f args)
  | .only => if s.flag f = 2 then s.lua w f.row args else some (0, s)
  | .extend =>
    if s.flag f = 2 then (s.lua w f.row args).map fun r => (r.2.builtin b f args) else some (s.builtin b f args)

/-- What happens to a line. -/
inductive Ev (σ : Type) where
  | init (w : World σ)
  | call (w : World σ) (f : Fn) (args : List Int)

/-- One event. -/
def Sys.step (b : Builtin σ) (s : Sys σ) : Ev σ → Option (Sys σ)
  | .init w => some (s.init w)
  | .call w f args => (s.call b w f args).map (·.2)

/-- A history. -/
def Sys.run (b : Builtin σ) (s : Sys σ) : List (Ev σ) → Option (Sys σ)
  | [] => some s
  | e :: rest =>
    match s.step b e with
    | none => none
    | some s => s.run b rest

/-! ### Stopping a line -/

/-- The part of a line that pausing and blocking looks at; `dev` stands for all its devices, timers and regulators. -/
structure Line (δ : Type) where
  dev : δ
  state : Int
  curstep : Int
  deriving DecidableEq, Repr

/-- What stopping does to the devices: `before` is `_Stop` up to `cnt->pause()` (cip_tech_def.cpp:1612-1625), `off` is
`_StopDev` (cip_tech_def.cpp:1524-1608), which also looks at the state. -/
structure Plant (δ : Type) where
  before : Int → δ → δ
  off : Int → δ → δ

variable {δ : Type}

/-- `_StopDev`. -/
def Plant.builtin (p : Plant δ) : Builtin (Line δ) := fun f _ l =>
  match f with
  | .stopDev => (0, { l with dev := p.off l.state l.dev })
  | _ => (0, l)

/-- `Stop` (cip_tech_def.cpp:7392-7412) with `_Stop` (cip_tech_def.cpp:1610-1628). -/
def Sys.stop (p : Plant δ) (w : World (Line δ)) (n : Int) (s : Sys (Line δ)) : Option (Sys (Line δ)) :=
  if s.flag .stop = 2 then (s.lua w Fn.stop.row [n]).map (·.2)
  else
    let s := { s with line := { s.line with dev := p.before n s.line.dev } }
    (s.call p.builtin w .stopDev []).map fun r => { r.2 with line := { r.2.line with state := 0 } }

/-- The command `MCMD_PAUSE` (cip_tech_def.cpp:1788-1796). -/
def Sys.pause (p : Plant δ) (w : World (Line δ)) (s : Sys (Line δ)) : Option (Sys (Line δ)) :=
  if 0 < s.line.state ∧ s.line.curstep ≠ 555 then
    (s.stop p w s.line.curstep).map fun s => { s with line := { s.line with state := -1 } }
  else some s

/-- `EvalBlock` of a blocked line (cip_tech_def.cpp:1510-1522); `w₂` is the script at the second call. -/
def Sys.block (p : Plant δ) (w₁ w₂ : World (Line δ)) (s : Sys (Line δ)) : Option (Sys (Line δ)) :=
  match (if 0 < s.line.state then s.stop p w₁ s.line.curstep else some s) with
  | none => none
  | some s =>
    let s := { s with line := { s.line with state := -1000 } }
    (s.call p.builtin w₂ .stopDev []).map (·.2)

end Ptusa.CipLua
