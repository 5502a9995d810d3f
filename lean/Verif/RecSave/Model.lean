import Verif.RecFile.Model

/-!
# Saving changed recipes and lists of recipes

Models the parts of `ParamsRecipeManager::evaluate` which save changed adapters and changed storages of recipes
(PAC/common/params_recipe_manager.cpp 133-144 and 164-176): both loops save the first changed item when the last saving was more
than ten seconds ago, and stop. Models also `ParamsRecipeAdapter::serialize` and `deserialize`
(params_recipe_manager.cpp 455-509) and the constructor (442-453): the file with the marks of the enabled recipes.

Simplifications. `get_millisec` counts without overflow and gives one value during one evaluation. In the first part the contents of an item are
any values `V`, and its file holds the contents last written: the text of a storage is modelled in `Recipe`, that of an adapter
below.
-/
namespace Ptusa.RecSave

open SaveDev RecFile

/-- An adapter or a storage: its contents, `isChanged`, and what its file holds. -/
structure Item (V : Type) where
  val : V
  changed : Bool
  file : Option V
  deriving DecidableEq

/-- The items of one kind; `t` is `mLastAdapterSaveTimer` or `mLastRecipeSaveTimer`. -/
structure Q (V : Type) where
  items : List (Item V)
  t : Nat
  deriving DecidableEq

/-- The start: each item takes what its file holds, or `d` if there is no file; params_recipe_manager.cpp 79-80, 239, 448-451. -/
def start {V : Type} (d : V) (files : List (Option V)) (now : Nat) : Q V :=
  ⟨files.map fun f => ⟨f.getD d, false, f⟩, now⟩

/-- The loop over the items, params_recipe_manager.cpp 133-144, 164-176: the items after it and whether one was saved; `ok`: its
file can be opened. The flag is cleared in any case. -/
def saveFirst {V : Type} (due ok : Bool) : List (Item V) → List (Item V) × Bool
  | [] => ([], false)
  | a :: as =>
    if a.changed && due then ({ a with changed := false, file := if ok then some a.val else a.file } :: as, true)
    else
      let r := saveFirst due ok as
      (a :: r.1, r.2)

/-- The part of `evaluate` for one kind of items. -/
def Q.eval {V : Type} (q : Q V) (now : Nat) (ok : Bool) : Q V :=
  let r := saveFirst (RecFile.interval < now - q.t) ok q.items
  ⟨r.1, if r.2 then now else q.t⟩

/-- A change of item `i` (params_recipe_manager.cpp 265-271, 516-527, 555-575): it has to be saved. -/
def Q.change {V : Type} (q : Q V) (i : Nat) (v : V) : Q V :=
  { q with items := q.items.modify i fun a => { a with val := v, changed := true } }

/-- The command 789 (params_recipe_manager.cpp 545-548): the storage is read from its file; without a file nothing is done. -/
def Q.reload {V : Type} (q : Q V) (i : Nat) : Q V :=
  { q with items := q.items.modify i fun a => { a with val := a.file.getD a.val } }

/-- What happens. -/
inductive Ev (V : Type)
  | change (i : Nat) (v : V) (now : Nat)
  | reload (i : Nat) (now : Nat)
  | eval (now : Nat) (ok : Bool)
  deriving DecidableEq

def Q.step {V : Type} (q : Q V) : Ev V → Q V
  | .change i v _ => q.change i v
  | .reload i _ => q.reload i
  | .eval now ok => q.eval now ok

def Q.run {V : Type} (q : Q V) (es : List (Ev V)) : Q V := es.foldl Q.step q

/-! ### The file of an adapter -/

/-- `ParamsRecipeAdapter::serialize`, params_recipe_manager.cpp 455-466: the number of the recipes and their marks. -/
def marksText (marks : List Int) : Txt := natText marks.length ++ '\n' :: marks.flatMap fun x => intText x ++ [' ']

/-- `stream >> variable` with an uninitialised `int`; `none`: it is left so, as the end is met before any character. -/
def readVar (s : Stream) : Option Int × Stream :=
  if s.good ∧ s.rest.dropWhile isSpace ≠ [] then (some (readInt s).1, (readInt s).2) else (none, (readInt s).2)

/-- The loop of `deserialize`, params_recipe_manager.cpp 490-498: `n` numbers. `none`: an uninitialised variable is stored. Reading beyond
the last recipe of the project stores nothing. -/
def readMarks : Nat → Nat → Stream → List Int → Option (List Int)
  | 0, _, _, marks => some marks
  | n + 1, i, s, marks =>
    let r := readVar s
    if i < marks.length then
      match r.1 with
      | none => none
      | some x => readMarks n (i + 1) r.2 (marks.set i x)
    else readMarks n (i + 1) r.2 marks

/-- The constructor of an adapter with `deserialize`, params_recipe_manager.cpp 442-453, 478-504: all `n` recipes are enabled, then the
file is read. `none`: undefined behaviour. -/
def loadMarks (n : Nat) : Option Txt → Option (List Int)
  | none => some (List.replicate n 1)
  | some f =>
    match readVar ⟨f, true⟩ with
    | (none, _) => none
    | (some c, s) => readMarks c.toNat 0 s (List.replicate n 1)

end Ptusa.RecSave
