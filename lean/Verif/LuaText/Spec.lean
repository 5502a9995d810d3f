import Mathlib.Logic.Function.Basic
import Verif.SaveDev.Spec

/-!
# A reader for Lua texts

The part of Lua in which the controller writes to the server: words, numbers, truth values, quoted strings, tables with named and with
numbered fields, assignments to fields of the global table `t`, and calls `f{ … }`. It is written from the grammar of Lua 5.1,
without the program. Not read (an error here): escape sequences, comments, exponents, arithmetic except a minus before a number.
-/
namespace Ptusa.LuaText
open SaveDev (Txt isWord isName readPos)

/-- A token. -/
inductive Tok
  | name (w : Txt)
  | num (q : Rat)
  | str (s : Txt)
  | sym (c : Char)
  | orr
  | bool (b : Bool)
  deriving DecidableEq

/-- What the reader of tokens is in: nothing, a word or a number, a string with its quotation mark. -/
inductive St
  | idle
  | word (w : Txt)
  | str (quote : Char) (s : Txt)
  deriving DecidableEq

/-- The first character is a digit. -/
def startsDigit : Txt → Bool
  | [] => false
  | c :: _ => c.isDigit

/-- The reserved words of Lua 5.1 which are not read here. -/
def reserved : List Txt :=
  ["and", "break", "do", "else", "elseif", "end", "false", "for", "function", "if", "in", "local", "nil", "not", "repeat",
   "return", "then", "true", "until", "while"].map String.toList

/-- A name which is not a reserved word. -/
def luaName (w : Txt) : Bool := isName w && !(reserved.contains w) && w != ['o', 'r']

/-- The token of a run of letters, digits, underscores, and points after a first digit: a number, `or`, a truth value or a name. -/
def wordTok (w : Txt) : Option Tok :=
  match readPos w with
  | some (q, []) => some (.num q)
  | some _ => none
  | none => if w = ['o', 'r'] then some .orr else if w = "true".toList then some (.bool true)
    else if w = "false".toList then some (.bool false) else if luaName w then some (.name w) else none

/-- The symbols which are read. -/
def symbols : Txt := ['{', '}', '=', ',', '.', '-', '[', ']', '(', ')', ';']

/-- A character outside of words and strings. -/
def start (c : Char) : Option (St × List Tok) :=
  if c = ' ' ∨ c = '\n' ∨ c = '\t' then some (.idle, [])
  else if isWord c then some (.word [c], [])
  else if c = '"' ∨ c = '\'' then some (.str c [], [])
  else if c ∈ symbols then some (.idle, [.sym c])
  else none

/-- One character: the new state and the tokens which it ends. -/
def step : St → Char → Option (St × List Tok)
  | .idle, c => start c
  | .word w, c =>
    if isWord c || (c == '.' && startsDigit w) then some (.word (w ++ [c]), [])
    else match wordTok w with
      | none => none
      | some t => (start c).map fun p => (p.1, t :: p.2)
  | .str q s, c =>
    if c = q then some (.idle, [.str s])
    else if c = '\n' ∨ c = '\\' then none
    else some (.str q (s ++ [c]), [])

/-- The end of the text. -/
def flush : St → Option (List Tok)
  | .idle => some []
  | .word w => (wordTok w).map fun t => [t]
  | .str _ _ => none

/-- The tokens of a text. -/
def lex : St → Txt → Option (List Tok)
  | st, [] => flush st
  | st, c :: s => match step st c with
    | none => none
    | some p => (lex p.1 s).map fun l => p.2 ++ l

/-- A value: a number, a string, a truth value, the value of a global variable, a table with its fields in order (`none`: a numbered field). -/
inductive Lv
  | num (q : Rat)
  | str (s : Txt)
  | bool (b : Bool)
  | glob (w : Txt)
  | table (fs : List (Option Txt × Lv))

mutual
/-- A value at the beginning of the tokens. -/
def pVal : Nat → List Tok → Option (Lv × List Tok)
  | 0, _ => none
  | n + 1, ts => match ts with
    | .num q :: r => some (.num q, r)
    | .sym '-' :: .num q :: r => some (.num (-q), r)
    | .str s :: r => some (.str s, r)
    | .bool b :: r => some (.bool b, r)
    | .name w :: r => some (.glob w, r)
    | .sym '{' :: r => (pFields n r).map fun p => (.table p.1, p.2)
    | _ => none
/-- The fields of a table after its opening brace: `key = value` or `value`, each followed by a comma or the closing brace. -/
def pFields : Nat → List Tok → Option (List (Option Txt × Lv) × List Tok)
  | 0, _ => none
  | n + 1, ts => match ts with
    | .sym '}' :: r => some ([], r)
    | .name k :: .sym '=' :: r => match pVal n r with
      | some (v, .sym ',' :: r) => (pFields n r).map fun p => ((some k, v) :: p.1, p.2)
      | some (v, .sym '}' :: r) => some ([(some k, v)], r)
      | _ => none
    | ts => match pVal n ts with
      | some (v, .sym ',' :: r) => (pFields n r).map fun p => ((none, v) :: p.1, p.2)
      | some (v, .sym '}' :: r) => some ([(none, v)], r)
      | _ => none
end

/-- The global table `t` of the server. -/
abbrev Env := Txt → Option Lv

/-- Assignments `t.x = value` and `t.x = t.y or {}`, one after another. -/
def exec : Nat → List Tok → Env → Option Env
  | 0, _, _ => none
  | n + 1, ts, env => match ts with
    | [] => some env
    | .name t :: .sym '.' :: .name x :: .sym '=' :: r =>
      if t ≠ ['t'] then none
      else match r with
        | .name u :: .sym '.' :: .name y :: .orr :: .sym '{' :: .sym '}' :: r =>
          if u = ['t'] then exec n r (Function.update env x (some ((env y).getD (.table [])))) else none
        | r => match pVal r.length r with
          | some (v, r) => exec n r (Function.update env x (some v))
          | none => none
    | _ => none

/-- The server runs a text: its table `t` afterwards, or an error. -/
def runText (s : Txt) (env : Env) : Option Env :=
  match lex .idle s with
  | none => none
  | some ts => exec (ts.length + 1) ts env

/-- Calls `f{ … }`, one after another. -/
def calls : Nat → List Tok → Option (List (Txt × List (Option Txt × Lv)))
  | 0, _ => none
  | n + 1, ts => match ts with
    | [] => some []
    | .name f :: .sym '{' :: r => match pFields r.length r with
      | some (fs, r) => (calls n r).map fun l => (f, fs) :: l
      | none => none
    | _ => none

/-- A text which consists of calls. -/
def readCalls (s : Txt) : Option (List (Txt × List (Option Txt × Lv))) :=
  match lex .idle s with
  | none => none
  | some ts => calls (ts.length + 1) ts

/-- A text which can stand between apostrophes. -/
def Clean (s : Txt) : Prop := ∀ c ∈ s, c ≠ '\'' ∧ c ≠ '\n' ∧ c ≠ '\\'

instance (s : Txt) : Decidable (Clean s) := by
  unfold Clean
  infer_instance

/-- The value under a key: a later field replaces an earlier one. -/
def field (fs : List (Option Txt × Lv)) (key : String) : Option Lv :=
  ((fs.filter fun p => p.1 == some key.toList).getLast?).map (·.2)

/-- The numbered fields in order. -/
def items (fs : List (Option Txt × Lv)) : List Lv := (fs.filter fun p => p.1.isNone).map (·.2)

end Ptusa.LuaText
