import Verif.Device.Model

/-!
# Calls of the user's script: `common/lua_manager.cpp`, `lua_check_function` (`PAC/common/tech_def.cpp`)

The Lua interpreter itself is not part of the repository; its interface functions are modelled after
the Lua 5.1 manual.  Simplifications: a value that is not a table cannot be indexed and one that is
not a function cannot be called (no metatables); texts of numbers are numerals that are not
converted back; the additional log entry with the call stack of an error is left out.
-/
namespace Ptusa.LuaCall

/-- Bytes of a text. -/
abbrev Text := List Nat

/-- A value of the interpreter; tables and functions by their identity. -/
inductive Val where
  | nil
  | num (q : Fl)
  | str (t : Text)
  | tbl (t : Nat)
  | fn (f : Nat)
  /-- the closure of `lua_manager::error_trace` -/
  | trace
  /-- anything else -/
  | other (k : Nat)
  deriving DecidableEq, Repr

/-- The script at the moment of a call: global names, fields of tables, what a function does with its
arguments (its first result, or the error object it raises). -/
structure World where
  global : Nat → Val
  field : Nat → Nat → Val
  call : Nat → List Val → Except Val Val
  /-- text of a number -/
  numText : Fl → Text
  /-- text of "attempt to call a … value" -/
  noFun : Text

/-- The interpreter as C++ sees it: the stack (top first) of the main program, the texts remembered
by `error_trace` (`lua_manager.cpp:514`), the entries written to the log. -/
structure Lua where
  stack : List Val
  memo : List Text
  log : List Text
  deriving DecidableEq, Repr

/-! ### Interface of the interpreter -/

/-- `lua_push…`. -/
def Lua.push (l : Lua) (v : Val) : Lua := { l with stack := v :: l.stack }

/-- `lua_getfield( L, -1, key )`: a value that is no table raises an error that nobody catches, the
program ends (`none`). -/
def Lua.getField (l : Lua) (w : World) (key : Nat) : Option Lua :=
  match l.stack with
  | .tbl t :: _ => some (l.push (w.field t key))
  | _ => none

/-- `lua_remove( L, -n - 1 )`. -/
def Lua.remove (l : Lua) (n : Nat) : Option Lua :=
  if n < l.stack.length then some { l with stack := l.stack.eraseIdx n } else none

/-! ### The error handler -/

/-- Order of `std::string`. -/
def Text.lt : Text → Text → Bool
  | [], [] => false
  | [], _ :: _ => true
  | _ :: _, [] => false
  | a :: s, b :: t => if a < b then true else if b < a then false else Text.lt s t

/-- `std::binary_search` on a sorted vector (`lua_manager.cpp:519`). -/
def bsearch (l : List Text) (t : Text) : Bool :=
  match l.dropWhile (fun x => x.lt t) with
  | [] => false
  | y :: _ => !(t.lt y)

/-- Insertion into a sorted vector. -/
def insert (t : Text) : List Text → List Text
  | [] => [t]
  | x :: rest => if x.lt t then x :: insert t rest else t :: x :: rest

/-- `std::sort` (`lua_manager.cpp:554`). -/
def sort : List Text → List Text
  | [] => []
  | x :: rest => insert x (sort rest)

/-- `MAX_ERRORS` (`lua_manager.h:140`). -/
def maxErrors : Nat := 50

/-- `i_log::C_BUFF_SIZE` (`log.h:33`). -/
def logSize : Nat := 10240

/-- Length of "Lua error: ". -/
def prefixLen : Nat := 11

/-- Without a line feed at the end (`lua_manager.cpp:522-526`). -/
def noLf (t : Text) : Text := if t.getLast? = some 10 then t.dropLast else t

/-- The body of `lua_manager::error_trace` for a text (`lua_manager.cpp:519-555`); `none` when the
text does not fit the buffer of the log. -/
def Lua.noteError (l : Lua) (t : Text) : Option Lua :=
  if bsearch l.memo t then some l
  else if prefixLen + t.length < logSize then
    let m := l.memo ++ [t]
    let m := if m.length > maxErrors then m.drop (m.length - maxErrors / 2) else m
    some { l with memo := sort m, log := l.log ++ [noLf t] }
  else none

/-- `lua_manager::error_trace` (`lua_manager.cpp:512-558`): `lua_tostring` of an error object that is
neither text nor number is a null pointer, of which no `std::string` can be made (`none`). -/
def Lua.errorTrace (l : Lua) (w : World) : Val → Option Lua
  | .str t => l.noteError t
  | .num q => l.noteError (w.numText q)
  | _ => none

/-! ### Calls -/

/-- The value at the absolute index `i` (from 1, bottom of the stack). -/
def Lua.at (l : Lua) (i : Nat) : Option Val := l.stack.reverse[i - 1]?

/-- `lua_pcall( L, nargs, nres, errfunc )`: `true` when the call failed; the handler returns nothing,
so the error message is `nil`. -/
def Lua.pcall (l : Lua) (w : World) (nargs : Nat) (nres : Nat) (errfunc : Nat) : Option (Bool × Lua) :=
  let args := (l.stack.take nargs).reverse
  let rest := l.stack.drop (nargs + 1)
  let fail (e : Val) : Option (Bool × Lua) :=
    if l.at errfunc = some .trace then
      (l.errorTrace w e).map fun l' => (true, { l' with stack := .nil :: rest })
    else none
  match l.stack[nargs]? with
  | some (.fn f) =>
    match w.call f args with
    | .ok v => some (false, { l with stack := if nres = 0 then rest else v :: rest })
    | .error e => fail e
  | some _ => fail (.str w.noFun)
  | none => none

/-- The parameters pushed by the loop of `exec_lua_method_var` (`lua_manager.cpp:481-490`). -/
def Lua.pushAll (l : Lua) : List Int → Lua
  | [] => l
  | p :: ps => (l.push (.num (.num p))).pushAll ps

/-- The last part of `exec_lua_method_var` (`lua_manager.cpp:479-509`), `count` values being pushed
already. -/
def Lua.finish (l : Lua) (w : World) (ret : Bool) (count : Nat) (params : List Int) (errfunc : Nat) :
    Option (Bool × Lua) :=
  let nres := if ret then 1 else 0
  match (l.pushAll params).pcall w (count + params.length) nres errfunc with
  | none => none
  | some (res, l) => (l.remove nres).map fun l => (res, l)

/-- `lua_manager::exec_lua_method_var` (`lua_manager.cpp:447-510`): `true` when it reports an error.
`obj = none` stands for a null pointer or an empty object name. -/
def Lua.exec (l : Lua) (w : World) (obj : Option Nat) (fn : Nat) (ret : Bool) (params : List Int) :
    Option (Bool × Lua) :=
  let l := l.push .trace
  let errfunc := l.stack.length
  match obj with
  | some o =>
    let l := l.push (w.global o)
    if w.global o = .nil then some (true, l)
    else
      match l.getField w fn with
      | none => none
      | some l =>
        if l.stack.head? = some .nil then some (true, l)
        else
          match l.remove 1 with
          | none => none
          | some l => (l.push (w.global o)).finish w ret 1 params errfunc
  | none => (l.push (w.global fn)).finish w ret 0 params errfunc

/-- `tolua_tonumber( L, -1, 0 )`. -/
def Lua.topNumber (l : Lua) : Fl :=
  match l.stack with
  | .num q :: _ => q
  | _ => 0

/-- Common part of the `int_…_exec_lua_method` functions: `( int ) tolua_tonumber( L, -1, 0 )`, then
the result is removed; `failed` is returned on an error. -/
def Lua.intResult (failed : Int) : Option (Bool × Lua) → Option (Int × Lua)
  | none => none
  | some (true, l) => some (failed, l)
  | some (false, l) =>
    match Device.toInt32 l.topNumber with
    | none => none
    | some n => (l.remove 0).map fun l => (n, l)

/-- `int_exec_lua_method` (`lua_manager.cpp:392-408`). -/
def Lua.intExec (l : Lua) (w : World) (obj : Option Nat) (fn : Nat) (param : Int) : Option (Int × Lua) :=
  Lua.intResult (-1) (l.exec w obj fn true [param])

/-- `int_2_exec_lua_method` (`lua_manager.cpp:410-426`). -/
def Lua.int2Exec (l : Lua) (w : World) (obj : Option Nat) (fn : Nat) (p1 p2 : Int) : Option (Int × Lua) :=
  Lua.intResult (-1) (l.exec w obj fn true [p1, p2])

/-- `int_no_param_exec_lua_method` (`lua_manager.cpp:563-578`). -/
def Lua.intNoParam (l : Lua) (w : World) (obj : Option Nat) (fn : Nat) : Option (Int × Lua) :=
  Lua.intResult 1 (l.exec w obj fn true [])

/-- `void_exec_lua_method` (`lua_manager.cpp:385-389`). -/
def Lua.voidExec (l : Lua) (w : World) (obj : Option Nat) (fn : Nat) : Option (Int × Lua) :=
  (l.exec w obj fn false []).map fun r => (if r.1 then 1 else 0, r.2)

/-- `tech_object::lua_check_function` (`tech_def.cpp:404-426`), the check before an operation starts,
pauses or stops. -/
def Lua.checkFunction (l : Lua) (w : World) (obj : Nat) (fn : Nat) (mode : Int) (show_ : Bool) :
    Option (Int × Lua) :=
  let l := l.push (w.global obj)
  if w.global obj = .nil then (l.remove 0).map fun l => (0, l)
  else
    match l.getField w fn with
    | none => none
    | some l =>
      match l.remove 1 with
      | none => none
      | some l =>
        match l.stack with
        | .fn _ :: _ => l.int2Exec w (some obj) fn mode (if show_ then 1 else 0)
        | _ => some (0, l)

/-! ### Histories of the main program -/

/-- A call of the script by the main program. -/
inductive Call where
  | int1 (obj : Option Nat) (fn : Nat) (p : Int)
  | int2 (obj : Option Nat) (fn : Nat) (p q : Int)
  | int0 (obj : Option Nat) (fn : Nat)
  | void (obj : Option Nat) (fn : Nat)
  | check (obj : Nat) (fn : Nat) (mode : Int) (show_ : Bool)
  deriving DecidableEq, Repr

/-- One call. -/
def Lua.step (l : Lua) (w : World) : Call → Option (Int × Lua)
  | .int1 o f p => l.intExec w o f p
  | .int2 o f p q => l.int2Exec w o f p q
  | .int0 o f => l.intNoParam w o f
  | .void o f => l.voidExec w o f
  | .check o f m s => l.checkFunction w o f m s

/-- A history; the script may have another state at every call. -/
def Lua.run (l : Lua) : List (World × Call) → Option Lua
  | [] => some l
  | (w, c) :: rest =>
    match l.step w c with
    | none => none
    | some (_, l) => l.run rest

end Ptusa.LuaCall
