import Verif.Params.Model

/-!
Specification of persistent parameters, independent of bytes, offsets and memory layout:
two tables, the current values and the stored values, indexed by set and element number.
-/
namespace Ptusa.Params
open Ptusa.Mem

/-- Current and stored value of element `idx` (1-based) of set `i`. -/
structure Spec where
  cur    : Nat → Nat → Val
  stored : Nat → Nat → Val

/-- Replace one entry of a table. -/
def upd (t : Nat → Nat → Val) (i k : Nat) (v : Val) : Nat → Nat → Val :=
  fun j l => if j = i ∧ l = k then v else t j l

/-- Replace a row of a table. -/
def updRow (t : Nat → Nat → Val) (i : Nat) (row : Nat → Val) : Nat → Nat → Val :=
  fun j l => if j = i then row l else t j l

/-- What an operation means; `count i` is the number of elements of set `i`. -/
def Spec.step (count : Nat → Nat) (a : Spec) : Op → Spec
  | .assign i idx v =>
    if 1 ≤ idx.toNat ∧ idx.toNat ≤ count i then { a with cur := upd a.cur i idx.toNat v } else a
  | .save i idx v =>
    if 1 ≤ idx.toNat ∧ idx.toNat ≤ count i then
      { cur := upd a.cur i idx.toNat v, stored := upd a.stored i idx.toNat v }
    else a
  | .saveAll i => { a with stored := updRow a.stored i (a.cur i) }
  | .reset i => { cur := updRow a.cur i (fun _ => 0), stored := updRow a.stored i (fun _ => 0) }

/-- A history. -/
def Spec.run (count : Nat → Nat) (a : Spec) (ops : List Op) : Spec :=
  ops.foldl (Spec.step count) a

/-- After a restart the current values are the stored ones. -/
def Spec.restart (a : Spec) : Spec := { cur := a.stored, stored := a.stored }

/-- Number of elements of set `i` in a layout. -/
def countOf (layout : List (Word × Word)) (i : Nat) : Nat :=
  match layout[i]? with
  | some (c, _) => c.toNat
  | none => 0

/-- The parameter sets fit in the parameter area; the first set is the one-element system
set every controller creates (`param_ex.cpp:195`), so it is not empty. -/
def Fits (layout : List (Word × Word)) : Prop :=
  4 * (layout.map fun p => p.1.toNat).sum ≤ 30720 ∧ 0 < countOf layout 0

instance (layout : List (Word × Word)) : Decidable (Fits layout) := by
  unfold Fits; infer_instance

/-- The partial saves made while defaults are set are inside the parameter area. -/
def Defaults.Valid (df : Defaults) : Prop :=
  ∀ w ∈ df.partialSaves, ∃ ram st n, w = .par ram st n ∧ st.toNat + n.toNat ≤ 30720 ∧ n ≠ 0

/-- Life of a controller: application operations and restarts (each with the defaults of
the application version then running). -/
inductive Ev where
  | op (o : Op)
  | restart (df : Defaults)

/-- Run the code. -/
def life (layout : List (Word × Word)) (sys : Sys) : List Ev → Option Sys
  | [] => some sys
  | .op o :: es => (step sys o).bind fun s => life layout s es
  | .restart df :: es => life layout (boot layout df sys.disk) es

/-- Run the specification. -/
def specLife (layout : List (Word × Word)) (a : Spec) : List Ev → Spec
  | [] => a
  | .op o :: es => specLife layout (a.step (countOf layout) o) es
  | .restart _ :: es => specLife layout a.restart es

/-- The set an operation works on. -/
def Op.target : Op → Nat
  | .assign i _ _ => i
  | .save i _ _ => i
  | .saveAll i => i
  | .reset i => i

/-- The last value in a history that was written to an index satisfying `q`. -/
def lastWrite (q : Word → Bool) (ws : List (Word × Val)) : Option Val :=
  (ws.reverse.find? fun w => q w.1).map (·.2)

end Ptusa.Params
