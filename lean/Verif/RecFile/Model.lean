import Verif.SaveDev.Lemmas

/-!
# The file with the recipes loaded last

Models `ParamsRecipeManager::saveTechObjects`, `loadTechObjects`, the constructor and the part of `evaluate` which decides when
this file is written (PAC/common/params_recipe_manager.cpp 77-83, 130-162, 179-221), and the part of
`ParamsRecipeAdapter::loadParams` which notes the loaded recipe (438-440). Each technological object shows the name and the
number of the recipe loaded last (tech_def.h 329-330).

Simplifications. A file is a list of characters. `get_millisec` counts without overflow and gives one value during one
evaluation. Which recipe a command loads is modelled in `Recipe`: here a load comes with the name and the number of the recipe.
-/
namespace Ptusa.RecFile

open SaveDev

/-- What a technological object remembers: `lastLoadedRecipeName`, `lastLoadedRecipeNmr`, tech_def.h 329-330. -/
structure Obj where
  name : Txt
  nmr : Int
  deriving DecidableEq, Repr

/-- The initial values, tech_def.h 329-330. -/
def noRecipe : Obj := ⟨"Не выбран".toList, 0⟩

/-- What one pass of the loop of `saveTechObjects` writes, params_recipe_manager.cpp 188-189. -/
def objText (o : Obj) : Txt := o.name ++ '\n' :: (intText o.nmr ++ ['\n'])

/-- What `saveTechObjects` writes into the emptied file, params_recipe_manager.cpp 184-190. -/
def saveText (objs : List Obj) : Txt := natText objs.length ++ '\n' :: objs.flatMap objText

/-! ### Reading: `std::ifstream` -/

/-- An input stream: the characters to come, and whether no error or end has been met (`good()`). -/
structure Stream where
  rest : Txt
  good : Bool
  deriving DecidableEq, Repr

/-- `std::isspace`. -/
def isSpace (c : Char) : Bool := c == ' ' || (9 ≤ c.toNat && c.toNat ≤ 13)

/-- The number in the digits `ds` with sign `neg`, put into an `int`, and whether it fits. -/
def toInt (neg : Bool) (ds : Txt) : Int × Bool :=
  let v : Int := if neg then -(digitsVal ds : Int) else digitsVal ds
  if v < -2147483648 then (-2147483648, false)
  else if 2147483647 < v then (2147483647, false)
  else (v, true)

/-- `stream >> variable` with an `int` which is 0 before (params_recipe_manager.cpp 205, 212). -/
def readInt (s : Stream) : Int × Stream :=
  if s.good then
    let r := s.rest.dropWhile isSpace
    let neg := r.head? == some '-'
    let r1 := if r.head? = some '-' ∨ r.head? = some '+' then r.tail else r
    let ds := r1.takeWhile Char.isDigit
    let r2 := r1.dropWhile Char.isDigit
    if ds = [] then (0, ⟨r2, false⟩)
    else ((toInt neg ds).1, ⟨r2, (toInt neg ds).2 && !r2.isEmpty⟩)
  else (0, s)

/-- `stream.ignore()` (params_recipe_manager.cpp 210). -/
def ignore1 (s : Stream) : Stream :=
  if s.good then
    match s.rest with
    | [] => ⟨[], false⟩
    | _ :: r => ⟨r, true⟩
  else s

/-- `std::getline` into an empty string (params_recipe_manager.cpp 211): it ends the stream when there is no line feed. -/
def getLine (s : Stream) : Txt × Stream :=
  if s.good then
    match s.rest.dropWhile (· != '\n') with
    | [] => (s.rest, ⟨[], false⟩)
    | _ :: r => (s.rest.takeWhile (· != '\n'), ⟨r, true⟩)
  else ([], s)

/-- One pass of the loop of `loadTechObjects`, params_recipe_manager.cpp 208-212. -/
def readObj (s : Stream) : Obj × Stream :=
  let l := getLine (ignore1 s)
  let n := readInt l.2
  (⟨l.1, n.1⟩, n.2)

/-- What the loop of `loadTechObjects` reads in `n` passes, params_recipe_manager.cpp 206-212. -/
def readObjs : Nat → Stream → List Obj
  | 0, _ => []
  | n + 1, s => (readObj s).1 :: readObjs n (readObj s).2

/-- The records of a file, params_recipe_manager.cpp 205-212. -/
def records (f : Txt) : List Obj :=
  let c := readInt ⟨f, true⟩
  readObjs c.1.toNat c.2

/-- `loadTechObjects`, params_recipe_manager.cpp 198-221: the objects after it; no file – nothing is done. -/
def loadFile (objs : List Obj) : Option Txt → List Obj
  | none => objs
  | some f => (records f).take objs.length ++ objs.drop (records f).length

/-! ### When the file is written -/

/-- The flags of an adapter which matter here: `isChanged`, `isLoaded`. -/
structure Ad where
  changed : Bool
  loaded : Bool
  deriving DecidableEq, Repr

/-- `MIN_SAVE_INTERVAL_MS`, params_recipe_manager.h 112. -/
def interval : Nat := 10000

/-- The manager, the objects and the file. `tA` is `mLastAdapterSaveTimer`, `tT` is `mLastTechObjectSaveTimer`. -/
structure M where
  ads : List Ad
  tA : Nat
  tT : Nat
  objs : List Obj
  file : Option Txt
  deriving DecidableEq

/-- The start of the controller with `n` objects, `k` adapters and the file `f`: params_recipe_manager.cpp 77-83. The manager
is created when the project is loaded, after its objects (prj_mngr.cpp 276-308). -/
def start (n k : Nat) (f : Option Txt) (now : Nat) : M :=
  ⟨List.replicate k ⟨false, false⟩, now, now, loadFile (List.replicate n noRecipe) f, f⟩

/-- The loop over the adapters, params_recipe_manager.cpp 133-158: the adapters after it, whether an adapter has been saved
(the loop is left then) and `wasLoaded`. -/
def evalAds (dueA dueT : Bool) : List Ad → List Ad × Bool × Bool
  | [] => ([], false, false)
  | a :: as =>
    if a.changed && dueA then ({ a with changed := false } :: as, true, false)
    else
      let r := evalAds dueA dueT as
      if a.loaded && dueT then ({ a with loaded := false } :: r.1, r.2.1, true)
      else (a :: r.1, r.2)

/-- `evaluate`, params_recipe_manager.cpp 130-162; `ok`: the file can be opened for writing (183). -/
def M.eval (m : M) (now : Nat) (ok : Bool) : M :=
  let r := evalAds (interval < now - m.tA) (interval < now - m.tT) m.ads
  { m with
    ads := r.1
    tA := if r.2.1 then now else m.tA
    tT := if r.2.2 then now else m.tT
    file := if r.2.2 && ok then some (saveText m.objs) else m.file }

/-- The end of `loadParams` by adapter `k` into object `o`, params_recipe_manager.cpp 438-440. -/
def M.load (m : M) (k o : Nat) (x : Obj) : M :=
  if k < m.ads.length ∧ o < m.objs.length then
    { m with objs := m.objs.set o x, ads := m.ads.modify k fun a => { a with loaded := true } }
  else m

/-- `setActiveState` of adapter `k` (params_recipe_manager.cpp 516-527): the adapter has to be saved. -/
def M.enable (m : M) (k : Nat) : M := { m with ads := m.ads.modify k fun a => { a with changed := true } }

/-- What happens to the manager. -/
inductive Ev
  | load (k o : Nat) (x : Obj) (now : Nat)
  | enable (k : Nat) (now : Nat)
  | eval (now : Nat) (ok : Bool)
  deriving DecidableEq

def M.step (m : M) : Ev → M
  | .load k o x _ => m.load k o x
  | .enable k _ => m.enable k
  | .eval now ok => m.eval now ok

def M.run (m : M) (es : List Ev) : M := es.foldl M.step m

end Ptusa.RecFile
