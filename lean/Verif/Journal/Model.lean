import Verif.SaveDev.Model

/-!
# The journal of the program

Model of `i_log` (PAC/common/log.cpp 38-117, log.h 25-75) with `l_log::write_log` (PAC/linux/l_log.h 41-106), of `check_file` and the checks of `reload_script`
(common/lua_manager.cpp 31-58, 655-689), and of the message of `parseDriverCmd` (PAC/common/params_recipe_manager.cpp 99-104).

A character stands for a byte.  `vsprintf` knows `%s`, `%d` and `%%`; every other conversion, an argument that is missing or of another kind, and more than `C_BUFF_SIZE` bytes are undefined, the
outcome `none` (the conversion `%m` of glibc, which needs no argument, is taken for undefined too).  Left out: the date and the colour at the console.
-/
namespace Ptusa.Journal
open SaveDev (Txt intText)

/-- `PRIORITIES` (log.h 40-50). -/
inductive Prio where
  | emerg | alert | crit | err | warning | notice | info | debug
  deriving DecidableEq, Repr

inductive Arg where
  | str (t : Txt)
  | int (z : Int)
  deriving DecidableEq, Repr

/-- A conversion: its text and the remaining arguments. -/
def conv (c : Char) (as : List Arg) : Option (Txt × List Arg) :=
  if c = '%' then some (['%'], as)
  else if c = 's' then
    match as with
    | .str t :: as => some (t, as)
    | _ => none
  else if c = 'd' then
    match as with
    | .int z :: as => some (intText z, as)
    | _ => none
  else none

/-- `vsprintf`. -/
def format : Txt → List Arg → Option Txt
  | [], _ => some []
  | [c], _ => if c = '%' then none else some [c]
  | c :: d :: f, as =>
    if c = '%' then (conv d as).bind fun r => (format f r.2).map (r.1 ++ ·) else (format (d :: f) as).map (c :: ·)

/-- `C_BUFF_SIZE` (log.h 31). -/
def size : Nat := 10240

/-- An entry: what is printed at the console, and what the system's journal gets. -/
structure Entry where
  prio : Prio
  console : Txt
  sys : Txt
  deriving DecidableEq, Repr

/-- Every end of a line but that at the end of the text (l_log.h 91-95). -/
def oneLine : Txt → Txt
  | [] => []
  | [c] => [c]
  | c :: d :: t => (if c = '\n' then ';' else c) :: oneLine (d :: t)

/-- `write_log( priority )` with `msg` (l_log.h 41-106). -/
def emit (p : Prio) (msg : Txt) : Entry := ⟨p, msg, oneLine msg⟩

/-- `write_log( priority, debug_message )` (log.cpp 38-43). -/
def writeLog (p : Prio) (t : Txt) : Entry := emit p (t.take (size - 1))

/-- `error( info_message, … )` and the others (log.cpp 57-117): a message and its arguments. -/
def logf (p : Prio) (f : Txt) (as : List Arg) : Option (List Entry) :=
  (format f as).bind fun t => if t.length < size then some [emit p t] else none

/-- `debug( debug_message, … )` (log.cpp 45-55). -/
def debugf (dbg : Bool) (f : Txt) (as : List Arg) : Option (List Entry) := if dbg then logf .debug f as else some []

/-- `parseDriverCmd` writes the command it received (params_recipe_manager.cpp 102-103). -/
def driverCmd (dbg : Bool) (cmd : Txt) : Option (List Entry) := debugf dbg cmd []

/-! ### Versions of files -/

/-- The digits at the beginning (`%d`). -/
def digits (acc : Nat) : Txt → Nat
  | c :: t => if c.isDigit then digits (10 * acc + (c.toNat - 48)) t else acc
  | [] => acc

/-- Blanks are skipped by `sscanf`. -/
def isBlank (c : Char) : Bool := c = ' ' || c = '\t' || c = '\n' || c = '\r' || c = '\x0b' || c = '\x0c'

/-- `%d` of `sscanf` with a value before it. -/
def scanInt (t : Txt) : Int :=
  match t with
  | '-' :: c :: u => if c.isDigit then - (digits 0 (c :: u) : Int) else 0
  | '+' :: c :: u => if c.isDigit then digits 0 (c :: u) else 0
  | u => digits 0 u

/-- `sscanf( str, "--version = %d", &version )` with 0 before (lua_manager.cpp 41-48): a blank of the format stands for any blanks. -/
def scanVersion (line : Txt) : Int :=
  if "--version".toList.isPrefixOf line then
    match (line.drop 9).dropWhile isBlank with
    | '=' :: t => scanInt (t.dropWhile isBlank)
    | _ => 0
  else 0

/-- `fgets` of 100 bytes (line 44). -/
def firstLine (file : Txt) : Txt :=
  let l := file.take 99
  l.takeWhile (· ≠ '\n') ++ if '\n' ∈ l then ['\n'] else []

/-- `check_file` (lines 31-58): the version or -1, `err_str`, the journal.  `file = none`: it cannot be opened. -/
def checkFile (dbg : Bool) (name : Txt) (file : Option Txt) : Option (Int × Txt × List Entry) :=
  match file with
  | none => (logf .err [] [.str "File \"%s\" not found!".toList, .str name]).map fun j => (-1, [], j)
  | some f =>
    let v := scanVersion (firstLine f)
    if dbg then (logf .notice "File \"%s\" version %d.".toList [.str name, .int v]).map fun j => (v, [], j) else some (v, [], [])

/-- The message about a wrong version (lines 682-684). -/
def wrongVersion (name : Txt) (v want : Int) : Option Txt :=
  format "File \"%s\" has version %d, must be %d (consider updating program \"ptusa_main\").".toList [.str name, .int v, .int want]

/-- The checks of `reload_script` (lines 651-689) of a script `name` in the directory `dir`, with the files found there and in the current directory: the text for the server
(`none` when the checks are passed) and the journal.  `path` and `err_str` have 100 bytes. -/
def reloadCheck (dbg : Bool) (dir name : Txt) (want : Int) (there here : Option Txt) : Option (Option Txt × List Entry) :=
  if 100 ≤ (dir ++ name).length then none
  else
    (checkFile dbg (dir ++ name) there).bind fun a =>
      (if a.1 = -1 then (checkFile dbg name here).map fun b => (b.1, b.2.1, a.2.2 ++ b.2.2) else some a).bind fun r =>
        if r.1 = -1 then (logf .err "%s".toList [.str r.2.1]).map fun j => (some r.2.1, r.2.2 ++ j)
        else if want ≠ r.1 then
          (wrongVersion name r.1 want).bind fun m =>
            if 100 ≤ m.length then none else (logf .err "%s".toList [.str m]).map fun j => (some m, r.2.2 ++ j)
        else some (none, r.2.2)

end Ptusa.Journal
