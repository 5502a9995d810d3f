import Verif.CipRec.Model

/-!
# Recipes of the washing media

Model of `TMediumRecipeManager` (PAC/common/mcaRec.cpp lines 636-1032, mcaRec.h lines 304-430) apart from names, lists and
files, of the choice of a recipe (`EvalRecipes`, PAC/common/cip_tech_def.cpp lines 1648-1686), of the commands `PAR_MAIN`,
`CAUSTIC_PAR`, `ACID_PAR` and of the numbers 1976-1987 of `CMD` (lines 508-556), and of what `initline` does with the choice (lines
1092-1116).

The memory of a medium is 1280 bytes, ten recipes of 128 bytes: 32 bytes for the name, then 24 values.  All accesses here
are to whole words, so it is modelled by 320 words.  The name is written by other functions (see `CipRec`); here an event says
what its eight words are afterwards.  The lists of recipes and the files (see C85, C86) are left out.  `unsigned long` has 32 bits,
as on the ARM controllers (see C84).
-/
namespace Ptusa.Medium

open CipRec (trunc nonzero)

abbrev Word := BitVec 32

/-- `MT_CAUSTIC`, `MT_ACID` (mcaRec.h lines 322-326). -/
inductive Med where
  | caustic
  | acid
  deriving DecidableEq, Repr

/-- A manager: the words of the memory, `currentRecipe`. -/
structure Mgr where
  mem : Nat → Word
  cur : Nat := 0

/-- `startAddr( recNo ) + startRecipeParamsOffset + 4 * valueNo` (mcaRec.cpp lines 763-766, 770, 786) in words; `none`: outside of the
memory. -/
def place (r : Nat) (k : Int) : Option Nat :=
  let a : Int := 32 * r + 8 + k
  if 0 ≤ a ∧ a < 320 then some a.toNat else none

/-- `getRecipeValue` (mcaRec.cpp lines 768-780); 0xC47A0000 is -1000. -/
def Mgr.get (m : Mgr) (r : Nat) (k : Int) : Option Word :=
  (place r k).map fun a => if m.mem a = 0xFFFFFFFF then 0xC47A0000 else m.mem a

/-- `setRecipeValue` (mcaRec.cpp lines 782-788). -/
def Mgr.set (m : Mgr) (r : Nat) (k : Int) (v : Word) : Option Mgr :=
  (place r k).map fun a => { m with mem := fun i => if i = a then v else m.mem i }

/-- A whole recipe, the name included (32 words). -/
def Mgr.block (m : Mgr) (r : Nat) : Nat → Word := fun i => m.mem (32 * r + i)

/-- Writing a whole recipe. -/
def Mgr.putBlock (m : Mgr) (r : Nat) (b : Nat → Word) : Mgr :=
  { m with mem := fun i => if 32 * r ≤ i ∧ i < 32 * r + 32 then b (i - 32 * r) else m.mem i }

/-- `SaveRecipeName` (mcaRec.cpp lines 806-809): the words of the name of the current recipe. -/
def Mgr.putName (m : Mgr) (nm : Nat → Word) : Mgr :=
  { m with mem := fun i => if 32 * m.cur ≤ i ∧ i < 32 * m.cur + 8 then nm (i - 32 * m.cur) else m.mem i }

/-- `NextRecipe`, `PrevRecipe` (mcaRec.cpp lines 685-715); `nm` is the name that is saved. -/
def Mgr.next (m : Mgr) (nm : Nat → Word) : Mgr := if m.cur < 9 then { m.putName nm with cur := m.cur + 1 } else m
def Mgr.prev (m : Mgr) (nm : Nat → Word) : Mgr := if 0 < m.cur then { m.putName nm with cur := m.cur - 1 } else m

/-- The order of the value `RV_TO_DEFAULTS` (mcaRec.cpp lines 732-755): 1 "defaults" (865-877), 2 copy (920-928), 3 paste
(930-937), 4 clear (939-947).  `getValue( RV_TO_DEFAULTS != 0 )` reads the value 1, which is `RV_TO_DEFAULTS`.  `copy` is
`recipeCopyBuffer`, one for both media. -/
def Mgr.order (m : Mgr) (copy : Option (Nat → Word)) : Option (Mgr × Option (Nat → Word)) :=
  (m.get m.cur 1).bind fun v =>
    if nonzero v = false then some (m, copy)
    else
      (trunc v).bind fun n =>
        (if n = 1 then ((m.set m.cur 0 0).bind (·.set m.cur 1 0)).map fun m => (m, copy)
        else if n = 2 then some (m, some (m.block m.cur))
        else if n = 3 then some (match copy with | some b => m.putBlock m.cur b | none => m, copy)
        else if n = 4 then some (m.putBlock m.cur fun _ => 0, copy)
        else some (m, copy)).bind fun (m, copy) => (m.set m.cur 1 0).map fun m => (m, copy)

/-- `EvalRecipe` (mcaRec.cpp lines 717-756); `nm`: ten seconds have passed, the name is saved. -/
def Mgr.eval (m : Mgr) (copy : Option (Nat → Word)) (nm : Option (Nat → Word)) : Option (Mgr × Option (Nat → Word)) :=
  (match nm with | some w => m.putName w | none => m).order copy

/-- What the lines share: the managers, the copy buffer, the parameters of the station, the loaded recipes
(`causticLoadedRecipe`, `acidLoadedRecipe`) and the names shown (eight words). -/
structure Sys where
  mgr : Med → Mgr
  copy : Option (Nat → Word) := none
  par : Nat → Word
  loaded : Med → Int
  name : Med → Nat → Word

/-- `P_CAUSTIC_SELECTED`, `P_ACID_SELECTED` (cip_tech_def.h lines 100-101). -/
def selected : Med → Nat
  | .caustic => 36
  | .acid => 37

/-- The parameters that `LoadRecipeToParams` sets, with the values of the recipe (mcaRec.cpp lines 812-843, mcaRec.h lines 307-320,
cip_tech_def.h lines 64-98). -/
def pairs : Med → List (Nat × Nat)
  | .caustic => [(1, 3), (2, 4), (3, 5), (12, 6), (13, 7), (15, 8), (17, 9), (18, 10), (33, 2)]
  | .acid => [(4, 3), (5, 4), (6, 5), (11, 6), (14, 7), (16, 8), (19, 9), (20, 10), (34, 2)]

/-- `float` of an `int` between -1 and 9. -/
def floatOf (n : Int) : Word :=
  if n = -1 then 0xBF800000
  else ([0, 0x3F800000, 0x40000000, 0x40400000, 0x40800000, 0x40A00000, 0x40C00000, 0x40E00000, 0x41000000, 0x41100000] :
    List Word).getD n.toNat 0

/-- One parameter set. -/
def setPar (p : Nat → Word) (i : Nat) (v : Word) : Nat → Word := fun j => if j = i then v else p j

/-- `LoadRecipeToParams` (mcaRec.cpp lines 812-843). -/
def load (m : Mgr) (r : Nat) : List (Nat × Nat) → (Nat → Word) → Option (Nat → Word)
  | [], p => some p
  | (i, k) :: l, p => (m.get r k).bind fun v => load m r l (setPar p i v)

/-- The choice of a recipe (cip_tech_def.cpp lines 1655-1684). -/
def Sys.choose (s : Sys) (m : Med) : Option Sys :=
  (trunc (s.par (selected m))).bind fun n =>
    if n = s.loaded m then some s
    else if 0 ≤ n ∧ n < 10 then
      (load (s.mgr m) n.toNat (pairs m) s.par).map fun p =>
        { s with
          par := p
          loaded := fun x => if x = m then n else s.loaded x
          name := fun x => if x = m then (fun i => (s.mgr m).mem (32 * n.toNat + i)) else s.name x }
    else some { s with par := setPar s.par (selected m) (floatOf (s.loaded m)) }

/-- `EvalRecipe` of one medium. -/
def Sys.evalOne (s : Sys) (m : Med) (nm : Option (Nat → Word)) : Option Sys :=
  ((s.mgr m).eval s.copy nm).map fun (g, c) => { s with mgr := fun x => if x = m then g else s.mgr x, copy := c }

/-- The part of `EvalRecipes` about the media (cip_tech_def.cpp lines 1650-1685), for line 1 with `use_internal_medium_recipes`. -/
def Sys.eval (s : Sys) (na nc : Option (Nat → Word)) : Option Sys :=
  (s.evalOne .acid na).bind fun s => (s.evalOne .caustic nc).bind fun s => (s.choose .caustic).bind (·.choose .acid)

/-- What `initline` of line 1 does (cip_tech_def.cpp lines 1092-1116). -/
def Sys.initOne (s : Sys) (m : Med) : Option Sys :=
  (trunc (s.par (selected m))).map fun n =>
    if 0 ≤ n ∧ n < 10 then
      { s with
        loaded := fun x => if x = m then n else s.loaded x
        name := fun x => if x = m then (fun i => (s.mgr m).mem (32 * n.toNat + i)) else s.name x }
    else
      { s with
        loaded := fun x => if x = m then -1 else s.loaded x
        par := setPar s.par (selected m) (floatOf (-1)) }

/-- The start of the program with what the files hold and the saved parameters. -/
def start (mem : Med → Nat → Word) (par : Nat → Word) : Option Sys :=
  (Sys.initOne ⟨fun m => ⟨mem m, 0⟩, none, par, fun _ => -1, fun _ _ => 0⟩ .caustic).bind (·.initOne .acid)

/-- What happens: commands of the server, and cycles of line 1. -/
inductive Ev where
  /-- `CAUSTIC_PAR`, `ACID_PAR` (cip_tech_def.cpp lines 546-556). -/
  | set (m : Med) (idx : BitVec 32) (v : Word)
  /-- `PAR_MAIN` (cip_tech_def.cpp lines 508-520). -/
  | par (idx : Nat) (v : Word)
  /-- Going through the recipes (cip_tech_def.cpp lines 1976-1987). -/
  | next (m : Med) (nm : Nat → Word)
  | prev (m : Med) (nm : Nat → Word)
  | eval (na nc : Option (Nat → Word))

/-- One event.  `save` of a parameter ignores numbers outside of 1 to 50 (see the model `Params`). -/
def Sys.step (s : Sys) : Ev → Option Sys
  | .set m idx v => ((s.mgr m).set (s.mgr m).cur (idx - 1).toInt v).map fun g =>
      { s with mgr := fun x => if x = m then g else s.mgr x }
  | .par idx v =>
    some { s with
      loaded := fun x => if idx = selected x then -1 else s.loaded x
      par := if 1 ≤ idx ∧ idx ≤ 50 then setPar s.par idx v else s.par }
  | .next m nm => some { s with mgr := fun x => if x = m then (s.mgr m).next nm else s.mgr x }
  | .prev m nm => some { s with mgr := fun x => if x = m then (s.mgr m).prev nm else s.mgr x }
  | .eval na nc => s.eval na nc

/-- A history. -/
def Sys.run (s : Sys) : List Ev → Option Sys
  | [] => some s
  | e :: es => (s.step e).bind (·.run es)

end Ptusa.Medium
