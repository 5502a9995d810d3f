import Verif.SaveDev.Model
import Verif.LuaText.Spec

/-!
# The text of the recipes for the server

Model of `ParamsRecipeManager::save_device` (PAC/common/params_recipe_manager.cpp 27-63).  Each piece of the text is written by
`fmt::format_to_n` with the limit `MAX_COPY_SIZE` = 1000 (PAC/common/device/base.h 17): no more than that is written, yet `size` is the length of the
whole piece.  The buffer holds what an earlier answer left in it.

Simplifications: a character is a byte.  The buffer is large enough.  `{}` of a float is the shortest decimal numeral that gives the same float (a
property of the library); it is part of the state here; numerals with an exponent are left out.
-/
namespace Ptusa.RecText
open SaveDev LuaText

/-- A parameter as the library writes it: `-12.05` is `dec true 12 2 5`. -/
inductive Par where
  | dec (neg : Bool) (int k frac : Nat)
  | nan (neg : Bool)

/-- Its text. -/
def Par.text : Par → Txt
  | .dec neg n k m => (if neg then ['-'] else []) ++ natText n ++ (if k = 0 then [] else '.' :: padded k m)
  | .nan neg => (if neg then ['-'] else []) ++ "nan".toList

/-- What the text shows of an adapter: `getActiveState()`, `getActiveRecipe()`, the name and the values of the active recipe,
`recipeList`, `recipeLists`. -/
structure Adapter where
  act : Nat
  nmr : Int
  name : Txt
  list : Txt
  lists : List Txt
  params : List Par

/-- `"\n\t\t\tKEY={},"` -/
def fieldText (key v : Txt) : Txt := "\n\t\t\t".toList ++ key ++ '=' :: v ++ [',']

/-- A text between apostrophes. -/
def quoted (s : Txt) : Txt := '\'' :: s ++ ['\'']

/-- The pieces `LIST1`, `LIST2`, … (lines 42-45). -/
def listsText : Nat → List Txt → List Txt
  | _, [] => []
  | i, s :: l => fieldText ("LIST".toList ++ natText i) (quoted s) :: listsText (i + 1) l

/-- The pieces of an adapter (lines 32-55). -/
def Adapter.pieces (a : Adapter) : List Txt :=
  ["\n\t\t{".toList, fieldText "CMD".toList ['0'], fieldText "ACT".toList (natText a.act), fieldText "NMR".toList (intText a.nmr),
   fieldText "NAME".toList (quoted a.name), fieldText "LIST".toList (quoted a.list)] ++
  listsText 1 a.lists ++ ["\n\t\t\tPAR=\n\t\t\t{\n\t\t\t".toList] ++ (a.params.map fun p => p.text ++ [',']) ++
  ["\n\t\t\t},".toList, "\n\t\t},".toList]

/-- All pieces (lines 29-58). -/
def pieces (l : List Adapter) : List Txt :=
  "t.RECMAN = \n\t{".toList :: l.flatMap Adapter.pieces ++ ["\n\t}\n".toList]

/-- The buffer. -/
abbrev Buf := Nat → Char

/-- `MAX_COPY_SIZE` (base.h 17). -/
def maxCopy : Nat := 1000

/-- `size += fmt::format_to_n( buff + size, MAX_COPY_SIZE, … ).size`. -/
def emit (s : Buf × Nat) (piece : Txt) : Buf × Nat :=
  (fun i => if s.2 ≤ i ∧ i < s.2 + min piece.length maxCopy then piece.getD (i - s.2) ' ' else s.1 i, s.2 + piece.length)

/-- `save_device` (lines 27-63): the text of `size` characters that the buffer then holds. -/
def save (b : Buf) (l : List Adapter) : Txt :=
  let r := (pieces l).foldl emit (b, 0)
  (List.range r.2).map r.1

end Ptusa.RecText
