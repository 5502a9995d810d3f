import Verif.Cip.Model

/-!
# What the washing lines are for their user

A line washes with a recipe.  Its first ten valve numbers are opened, the other five closed.  A program is a set of
parts, washed in a fixed order.
-/
namespace Ptusa.Cip

variable {n : Nat}

/-! ## Recipes -/

/-- The recipe `a` opens (closes) the valve `v`. -/
def Opens (a : Nat → Rat) (v : Rat) : Prop := ∃ k, 105 ≤ k ∧ k ≤ 114 ∧ a k = v
def Closes (a : Nat → Rat) (v : Rat) : Prop := ∃ k, 115 ≤ k ∧ k ≤ 119 ∧ a k = v

/-- Two recipes need the same valve with a number below 1000, and not both only closed. -/
def Clash (a b : Nat → Rat) : Prop :=
  ∃ v, v ≠ 0 ∧ v < 1000 ∧ (Opens a v ∧ (Opens b v ∨ Closes b v) ∨ Closes a v ∧ Opens b v)

/-- A wash is going on; step 555 is the time after a wash or a reset. -/
def Line.Washing (l : Line) : Prop := 0 < l.state ∧ l.curstep ≠ 555

/-- The values of a recipe are whole numbers of 32 bits. -/
def Whole (v : Rat) : Prop := ∃ m : Nat, v = m ∧ m < 2 ^ 32

/-- Different numbers are different devices. -/
def Cfg.Distinct (c : Cfg) : Prop :=
  (∀ l l' n n' d, c.find l n = some d → c.find l' n' = some d → n = n')

/-! ## Ways of working -/

/-- `P` holds before every event of a history. -/
def Along (c : Cfg) (P : Sys n → Ev n → Prop) (s : Sys n) : List (Ev n) → Prop
  | [] => True
  | e :: es => P s e ∧ ∀ s', c.step s e = some s' → Along c P s' es

/-- Steps of a line that was refused its start (conflict of valves, wrong recipe, acid wash required) are not skipped. -/
def NoSkip (s : Sys n) : Ev n → Prop
  | .cycle i _ => (s.line i).ncmd = cmdNext → (s.line i).state ∉ [errWrongOs, errConflict, errAcid]
  | _ => True

/-- Recipes and programs are chosen for idle lines only, and the recipe of a line that is not idle is not edited. -/
def NoChange (s : Sys n) : Ev n → Prop
  | .select i _ => (s.line i).state = 0
  | .program i _ => (s.line i).state = 0
  | .edit i r _ _ => (s.line i).state ≠ 0 → (s.line i).recipe ≠ some r
  | _ => True

/-- Only locked lines are unlocked. -/
def NoUnlock (s : Sys n) : Ev n → Prop
  | .cycle i _ => (s.line i).ncmd = cmdUnlock → (s.line i).blocked = true
  | _ => True

/-- Line `i` is not unlocked before it came to its first step. -/
def NoEarlyUnlock (i : Fin n) (s : Sys n) : Ev n → Prop
  | .cycle j _ => j = i → (s.line j).ncmd = cmdUnlock → 0 < (s.line j).curstep
  | _ => True

/-- Line `i` is not idle. -/
def Busy (i : Fin n) (s : Sys n) (_ : Ev n) : Prop := (s.line i).state ≠ 0

/-- The devices of the washed object can always be set up. -/
def ObjectsOk (_ : Sys n) : Ev n → Prop
  | .cycle _ e => e.objErr = false
  | _ => True

/-- Values of recipes are whole numbers. -/
def WholeEdits (_ : Sys n) : Ev n → Prop
  | .edit _ _ _ v => Whole v
  | _ => True

/-- Programs are among those below 4096 that an operator can choose. -/
def selectable : List Nat := [0, 1, 3, 5, 128, 133, 144, 147, 149, 160, 163, 165, 176, 179, 181, 256, 512, 1024, 2048]

def Selectable (_ : Sys n) : Ev n → Prop
  | .program _ p => p ∈ selectable
  | _ => True

/-- An acid wash is due for the object of line `i`. -/
def AcidDue (i : Fin n) (_ : Sys n) : Ev n → Prop
  | .cycle j e => j = i → e.acidDue = true
  | _ => True

/-- Programs are chosen for idle lines only. -/
def NoReprogram (s : Sys n) : Ev n → Prop
  | .program i _ => (s.line i).state = 0
  | _ => True

/-- The line is at rest, perhaps locked. -/
def Line.AtRest (l : Line) : Prop := l.curstep = 0 ∧ (l.state = 0 ∨ l.state = lockedState)

/-- None of the commands `cs` is given to line `i`. -/
def Without (i : Fin n) (cs : List Nat) (_ : Sys n) : Ev n → Prop
  | .cmd j x => j = i → x ∉ cs
  | _ => True

/-- The program of line `i` is not chosen anew. -/
def NoProgram (i : Fin n) (_ : Sys n) : Ev n → Prop
  | .program j _ => j ≠ i
  | _ => True

/-! ## Devices of a line -/

/-- The pumps and the valves of a line are off. -/
def Line.Stopped (l : Line) : Prop :=
  l.dev.pump = false ∧ l.dev.ret = false ∧ (∀ k, l.dev.v k = false) ∧ l.dev.ns = false ∧ l.dev.nk = false

/-- Only the valve `V11` of the line is on, as in the time after a wash or a reset. -/
def Line.Draining (l : Line) : Prop :=
  l.dev.pump = false ∧ l.dev.ret = false ∧ (∀ k, l.dev.v k = true ↔ k = 11) ∧ l.dev.ns = false ∧ l.dev.nk = false

/-! ## Programs -/

/-- The sequences of steps of part `b` of the program `p`.  7: first rinse; 6: circulation; 5 and 3: caustic; 4: acid;
2: hot water; 1: sanitizer; 0: last rinse; 9 and 8: preparation of caustic and acid; 10: remote; 11: self-cleaning of the
tanks. -/
inductive Part (p : Nat) : Nat → List Int → Prop
  | rinse : p ≠ 128 → Part p 7 [5, 7, 8, 16]
  | rinseOnly : p = 128 → Part p 7 [5, 7, 8, 16, 9]
  | circ : Part p 6 [10, 11, 12, 13, 14, 15]
  | caustic (b : Nat) : b = 5 ∨ b = 3 → Part p b [22, 23, 24, 26, 28, 29, 31, 33, 34, 35, 37, 39, 40]
  | causticTank (b : Nat) : b = 5 ∨ b = 3 → Part p b [22, 23, 24, 28, 29, 31, 33, 34, 35, 37, 39, 40]
  | acid : Part p 4 [42, 43, 44, 46, 48, 49, 53, 54, 55, 57, 59, 60]
  | acidTank : Part p 4 [42, 43, 44, 48, 49, 53, 54, 55, 57, 59, 60]
  | hotAfter : p &&& 56 ≠ 0 → Part p 2 [61, 66, 67]
  | hot : p &&& 56 = 0 → Part p 2 [61, 62, 63, 64, 65, 66, 67]
  | sanitizer : Part p 1 [71, 72, 73, 74, 75, 76, 77, 78, 79]
  | last : p ≠ 1 → Part p 0 [81, 83, 84, 85, 86, 91]
  | lastOnly : p = 1 → Part p 0 [83, 84, 85, 86, 91]
  | noLast : Part p 0 [91]
  | makeCaustic (k : Nat) : Part p 9 ([105, 106, 108] ++ (List.replicate k [109, 106, 108]).flatten ++ [111])
  | makeAcid (k : Nat) : Part p 8 ([115, 116, 118] ++ (List.replicate k [119, 116, 118]).flatten ++ [121])
  | remote : Part p 10 [300]
  | selfClean (ts tk tw ts' : List Int) : ts = [160] ∨ ts = [] → tk = [167] ∨ tk = [] → tw = [173] ∨ tw = [] →
      ts' = [179] ∨ ts' = [] →
      Part p 11 ([151, 152, 153, 154, 155, 156, 157] ++ ts ++ [161, 162, 163, 164] ++ tk ++ [168, 169, 170] ++ tw ++
        [174, 175, 176] ++ ts' ++ [180, 181, 182, 183, 184, 185, 186, 187, 188])

/-- Parts one after another, then the end of the wash. -/
inductive Parts (p : Nat) : List Nat → List Int → Prop
  | nil : Parts p [] [555]
  | cons {b bs t u} : Part p b t → Parts p bs u → Parts p (b :: bs) (t ++ u)

/-- The parts of a program in their order. -/
def parts (p : Nat) : List Nat := [11, 10, 9, 8, 7, 6, 5, 4, 3, 2, 1, 0].filter fun b => p.testBit b

/-- The steps of a complete wash with program `p`. -/
def Wash (p : Nat) (t : List Int) : Prop := Parts p (parts p) t

/-- The steps line `i` goes through. -/
def visited (c : Cfg) (i : Fin n) (s : Sys n) : List (Ev n) → List Int
  | [] => []
  | e :: es =>
    match c.step s e with
    | none => []
    | some s' => (if (s'.line i).curstep = (s.line i).curstep then [] else [(s'.line i).curstep]) ++ visited c i s' es

end Ptusa.Cip
