import Verif.Base.Fl

/-!
# Recipes

Model of `PAC/common/params_recipe_manager.cpp`: storage of recipes, adapters (mapping of recipes to
parameters of technological objects, published lists), the files and the commands of the server.

Simplifications.
* Counts, positions and quantities given by the project are natural numbers far below 2^31 (no wrap).
* A file is a list of items: a character or the text of a number as a whole (`File`).
* The published strings are lists of entries `(number, name)`.
-/
namespace Ptusa.Recipe

/-- `ParamsRecipe`, params_recipe_manager.h 13-24. -/
structure Rec where
  name : String
  params : List Fl
  deriving DecidableEq, Repr

/-- `ParamsRecipeStorage`, params_recipe_manager.h 26-50; `active` is `mActiveRecipe` (from 0). -/
structure Storage where
  count : Nat
  pcount : Nat
  recipes : List Rec
  active : Nat := 0
  changed : Bool := false
  deriving DecidableEq, Repr

/-- The constructor before a file is read, params_recipe_manager.cpp 234-247. -/
def Storage.new (count pcount : Nat) : Storage :=
  { count := count, pcount := pcount,
    recipes := List.replicate count ⟨"none", List.replicate pcount 0⟩ }

/-- Writing `recipes[ i ].params[ j ]`. -/
def Storage.write (s : Storage) (i j : Nat) (v : Fl) : Storage :=
  { s with recipes := s.recipes.modify i fun r => { r with params := r.params.set j v } }

/-- Reading `recipes[ i ].params[ j ]`; `none`: out of range. -/
def Storage.read (s : Storage) (i j : Nat) : Option Fl := s.recipes[i]?.bind fun r => r.params[j]?

/-- `setRecPar`, params_recipe_manager.cpp 264-274; `none`: access out of range. -/
def setRecPar (s : Storage) (recNo parNo : Int) (v : Fl) : Option Storage :=
  if recNo ≤ s.count ∧ parNo ≤ s.pcount ∧ recNo > 0 ∧ parNo > 0 then
    (s.read (recNo - 1).toNat (parNo - 1).toNat).map fun old =>
      if Fl.eq old v = true then s
      else { s.write (recNo - 1).toNat (parNo - 1).toNat v with changed := true }
  else some s

/-- `getRecPar`, params_recipe_manager.cpp 276-286: the arguments are 32-bit words compared as `int`. -/
def getRecPar (s : Storage) (recNo parNo : BitVec 32) : Option Fl :=
  if recNo.toInt ≤ s.count ∧ parNo.toInt ≤ s.pcount ∧ recNo.toInt > 0 ∧ parNo.toInt > 0 then
    s.read (recNo.toNat - 1) (parNo.toNat - 1)
  else some 0

/-- `setActiveRecipe`, params_recipe_manager.cpp 370-381. -/
def setActive (s : Storage) (recipe : Int) : Storage :=
  if recipe - 1 < s.count ∧ recipe > 0 then { s with active := (recipe - 1).toNat } else s

/-- The index `getActiveRecipeRef` refers to, params_recipe_manager.cpp 383-390. -/
def activeIdx (s : Storage) : Nat := if s.active < s.count then s.active else 0

/-! ### Files -/

/-- A piece of a file: a character, or the printed text of a number. -/
inductive Item
  | ch (c : Char)
  | num (v : Fl)
  deriving DecidableEq, Repr

/-- A file. -/
abbrev File := List Item

/-- `serialize`, params_recipe_manager.cpp 288-311; `pr v` is the number printed for `v` (six significant
digits). -/
def serRec (pr : Fl → Fl) (r : Rec) : File :=
  r.name.toList.map Item.ch ++ [Item.ch '\n'] ++
    r.params.flatMap (fun v => [Item.num (pr v), Item.ch ' ']) ++ [Item.ch '\n']

def serialize (pr : Fl → Fl) (s : Storage) : File :=
  [Item.num (Fl.num s.count), Item.ch ' ', Item.num (Fl.num s.pcount), Item.ch '\n'] ++
    s.recipes.flatMap (serRec pr)

/-- An input stream: the rest of the file and whether it is still good. -/
structure Stream where
  rest : File
  good : Bool := true
  deriving DecidableEq, Repr

/-- Blanks. -/
def isBlank : Item → Bool
  | .ch c => c == ' ' || c == '\n' || c == '\t'
  | .num _ => false

/-- `stream >> number`: `none` – the variable keeps its (indeterminate) value; a text that is no number
gives 0 and spoils the stream ("nan" is no number for `>>`). -/
def readNum (s : Stream) : Stream × Option Fl :=
  if s.good = false then (s, none)
  else match s.rest.dropWhile isBlank with
    | .num (.num q) :: rest => (⟨rest, true⟩, some (.num q))
    | [] => (⟨[], false⟩, none)
    | rest => (⟨rest, false⟩, some 0)

/-- `stream.ignore()`: one character. -/
def ignore1 (s : Stream) : Stream :=
  if s.good = false then s
  else match s.rest with
    | [] => ⟨[], false⟩
    | _ :: rest => ⟨rest, true⟩

/-- Characters up to the end of the line. -/
def lineOf : File → List Char × Option File
  | [] => ([], none)
  | .ch c :: rest => if c = '\n' then ([], some rest) else ((c :: (lineOf rest).1), (lineOf rest).2)
  | .num _ :: rest => lineOf rest

/-- `std::getline`: the text (empty on a spoiled stream). Simplification: the text of a number inside a
name line is dropped; files written by `serialize` have no numbers there. -/
def getLine (s : Stream) : Stream × String :=
  if s.good = false then (s, "")
  else match s.rest with
    | [] => (⟨[], false⟩, "")
    | _ => match (lineOf s.rest).2 with
      | some rest => (⟨rest, true⟩, String.ofList (lineOf s.rest).1)
      | none => (⟨[], true⟩, String.ofList (lineOf s.rest).1)

/-- The loop over the parameters of one recipe, params_recipe_manager.cpp 340-348: the values read;
an entry `none` is indeterminate. -/
def readPars : Nat → Stream → Stream × List (Option Fl)
  | 0, s => (s, [])
  | n + 1, s =>
    let r := readNum s
    let t := readPars n r.1
    (t.1, r.2 :: t.2)

/-- The new parameters: those of the file, then zeros, cut to the size of the storage; `none` if an
indeterminate value is stored. -/
def newPars (pcount : Nat) (vals : List (Option Fl)) : Option (List Fl) :=
  ((vals.take pcount).mapM id).map fun l => l ++ List.replicate (pcount - l.length) 0

/-- The loop over the recipes of the file, params_recipe_manager.cpp 332-357, from recipe `i`, `n` to go. -/
def readRecs (pcount pc : Nat) : Nat → Nat → Stream → List Rec → Option (List Rec)
  | 0, _, _, rs => some rs
  | n + 1, i, st, rs =>
    let s1 := ignore1 st
    let l := getLine s1
    let p := readPars pc l.1
    let s2 := ignore1 p.1
    if i < rs.length then
      (newPars pcount p.2).bind fun ps => readRecs pcount pc n (i + 1) s2 (rs.set i ⟨l.2, ps⟩)
    else readRecs pcount pc n (i + 1) s2 rs

/-- The value of an `int` read from the file (0 when none could be read; negative counts read nothing). -/
def asCount : Option Fl → Nat
  | some (.num q) => q.floor.toNat
  | _ => 0

/-- `deserialize`, params_recipe_manager.cpp 313-363; `none`: an indeterminate value was stored. -/
def deserialize (f : File) (s : Storage) : Option Storage :=
  let a := readNum ⟨f, true⟩
  let b := readNum a.1
  (readRecs s.pcount (asCount b.2) (asCount a.2) 0 b.1 s.recipes).map fun rs => { s with recipes := rs }

/-! ### Loading into a technological object -/

/-- A mapping, params_recipe_manager.h 52-58. -/
structure Map where
  startRec : Nat
  startObj : Nat
  quantity : Nat
  deriving DecidableEq, Repr

/-- What a load concerns in a technological object: `par_float` in memory (index 0 unused, as `par_float[ i ]`
for `i` in `1..count`), whether and what has been saved, name and number of the last recipe. -/
structure Obj where
  par : List Fl
  saved : List Fl
  recName : String := ""
  recNo : Nat := 0
  deriving DecidableEq, Repr

/-- The copying loop of one mapping, params_recipe_manager.cpp 431-434; indexes of `par_float` start at 1,
others go to the stub. -/
def copyMap (s : Storage) (recNo : Nat) (m : Map) (o : Obj) : Obj :=
  (List.range m.quantity).foldl (fun o i =>
    let v := (getRecPar s (BitVec.ofNat 32 recNo) (BitVec.ofNat 32 (m.startRec + i))).getD 0
    if 1 ≤ m.startObj + i then { o with par := o.par.set (m.startObj + i - 1) v } else o) o

/-- The loop over the mappings: `false` – left early, params_recipe_manager.cpp 426-435. -/
def copyMaps (s : Storage) (recNo : Nat) : List Map → Obj → Bool × Obj
  | [], o => (true, o)
  | m :: ms, o =>
    if m.startRec + m.quantity > s.pcount + 1 ∨ m.startObj + m.quantity > o.par.length then (false, o)
    else copyMaps s recNo ms (copyMap s recNo m o)

/-- `loadParams`, params_recipe_manager.cpp 418-441, for an existing object. -/
def loadParams (s : Storage) (maps : List Map) (recNo : Nat) (o : Obj) : Obj :=
  if recNo > s.count ∨ recNo = 0 then o
  else
    let r := copyMaps s recNo maps o
    if r.1 = true then
      { r.2 with saved := r.2.par, recNo := recNo,
                 recName := (s.recipes[recNo - 1]?.map Rec.name).getD "" }
    else r.2

/-! ### Adapters and the manager -/

/-- `ParamsRecipeAdapter`, params_recipe_manager.h 60-88. -/
structure Adapter where
  enabled : List Bool
  changed : Bool := false
  listChanged : Bool := false
  separate : Bool := false
  list : List (Nat × String) := []
  lists : List (List (Nat × String))
  deriving DecidableEq, Repr

/-- Entries of the enabled recipes numbered from `i`. -/
def entries : Nat → List Rec → List Bool → List (Nat × String)
  | i, r :: rs, b :: bs => if b = true then (i + 1, r.name) :: entries (i + 1) rs bs
      else entries (i + 1) rs bs
  | _, _, _ => []

/-- One `append` of `refreshRecipeList`. -/
def publish (a : Adapter) (en : Nat × String) : Adapter :=
  if a.separate = false then { a with list := a.list ++ [en] }
  else { a with lists := a.lists.modify ((en.1 - 1) / 10) (· ++ [en]) }

/-- `refreshRecipeList`, params_recipe_manager.cpp 580-606: the loop that should clear the lists clears
copies. -/
def refresh (s : Storage) (a : Adapter) : Adapter :=
  (entries 0 s.recipes a.enabled).foldl publish { a with list := [] }

/-- The constructor without a file, params_recipe_manager.cpp 443-453. -/
def Adapter.new (s : Storage) : Adapter :=
  refresh s { enabled := List.replicate s.count true,
              lists := List.replicate (s.count / 10 + if s.count % 10 > 0 then 1 else 0) [] }

/-- `setUseSeparateRecipeList`, params_recipe_manager.cpp 608-612. -/
def setSeparate (s : Storage) (b : Bool) (a : Adapter) : Adapter := refresh s { a with separate := b }

/-- A storage with its adapters. -/
structure Mgr where
  st : Storage
  ads : List Adapter
  deriving DecidableEq, Repr

/-- Commands of the server, params_recipe_manager.cpp 534-578 (loading into an object apart). -/
inductive Cmd
  | act (b : Bool)
  | name (n : String)
  | nmr (n : Int)
  | par (i : Int) (v : Fl)
  | reload (f : File)
  deriving Repr

/-- `set_cmd` of adapter `k`; `none`: undefined behaviour. -/
def setCmd (k : Nat) (c : Cmd) (m : Mgr) : Option Mgr :=
  match m.ads[k]? with
  | none => some m
  | some a =>
    match c with
    | .act b =>
      if m.st.active < a.enabled.length then
        some { m with ads := m.ads.set k { a with enabled := a.enabled.set m.st.active b,
                                                   changed := true, listChanged := true } }
      else none
    | .name n =>
      if activeIdx m.st < m.st.recipes.length then
        some { st := { m.st with recipes := m.st.recipes.modify (activeIdx m.st)
                                   fun r => { r with name := n },
                                 changed := true },
               ads := m.ads.set k { a with listChanged := true } }
      else none
    | .nmr n => some { m with st := setActive m.st n }
    | .par i v =>
      if i ≤ m.st.pcount ∧ i > 0 then
        (m.st.read (activeIdx m.st) (i - 1).toNat).map fun old =>
          if Fl.eq old v = true then m
          else { m with st := { m.st.write (activeIdx m.st) (i - 1).toNat v with changed := true } }
      else some m
    | .reload f => (deserialize f m.st).map fun st => { m with st := st }

/-- The loop over the adapters of `evaluate`, params_recipe_manager.cpp 133-158: it is left when an adapter
has been saved; `due` – the save interval has passed. -/
def evalAds (s : Storage) (due : Bool) : List Adapter → List Adapter
  | [] => []
  | a :: as =>
    if a.changed = true ∧ due = true then { a with changed := false } :: as
    else (if a.listChanged = true then refresh s { a with listChanged := false } else a)
      :: evalAds s due as

/-- `evaluate`, params_recipe_manager.cpp 130-177 (the lists). -/
def evaluate (due : Bool) (m : Mgr) : Mgr := { m with ads := evalAds m.st due m.ads }

/-! ### The command line of the server -/

/-- A command matched by the regular expression of `parseDriverCmd`, params_recipe_manager.cpp 104: the
digits of the two numbers, and a text or a string of digits and points. -/
structure CmdText where
  mgr : List (Fin 10)
  idx : List (Fin 10)
  value : Option (List (Option (Fin 10)))
  deriving Repr

/-- The number of a string of digits. -/
def digits (l : List (Fin 10)) : Nat := l.foldl (fun n d => 10 * n + d.val) 0

/-- What becomes of the command. -/
inductive Outcome
  | ignored
  | passed (adapter : Nat)
  | exception
  | undefined
  deriving DecidableEq, Repr

/-- `std::stoi` of digits throws above `INT_MAX`. -/
def stoiOk (l : List (Fin 10)) : Bool := digits l ≤ 2147483647

/-- `std::stof` of digits (`some d`) and points (`none`) throws unless it starts with a digit or with a point
followed by a digit (values beyond the `float` range are not considered). -/
def stofOk : List (Option (Fin 10)) → Bool
  | some _ :: _ => true
  | none :: some _ :: _ => true
  | _ => false

/-- `parseDriverCmd`, params_recipe_manager.cpp 99-121, of a matching command; `n` adapters.  The exceptions are
not caught (g_device.cpp 138-155). -/
def parseCmd (n : Nat) (c : CmdText) : Outcome :=
  if stoiOk c.mgr = false ∨ stoiOk c.idx = false then .exception
  else if (match c.value with | some v => stofOk v | none => true) = false then .exception
  else if (digits c.mgr : Int) - 1 < n then
    if digits c.mgr = 0 then .undefined else .passed (digits c.mgr - 1)
  else .ignored

end Ptusa.Recipe
