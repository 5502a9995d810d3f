import Verif.Column.Model

/-!
# What a signal column should show
-/
namespace Ptusa.Column

/-- Importance of the events; running batches and running operations are signalled alike. -/
def importance : Show → Nat
  | .error => 5
  | .message => 4
  | .batchNot => 3
  | .opNot => 2
  | .batchRun => 1
  | .opRun => 1
  | .idle => 0

/-- How a light is driven. -/
inductive Light
  | dark
  | steady
  | blinking
  deriving DecidableEq, Repr

/-- How a lamp is driven. -/
def Lamp.light (l : Lamp) : Light :=
  match l.step with
  | .off => .dark
  | .on => .steady
  | _ => .blinking

/-- Red, yellow, green, siren. -/
structure Picture where
  red : Light
  yellow : Light
  green : Light
  siren : Bool
  deriving DecidableEq, Repr

/-- The picture shown by the column. -/
def Col.picture (c : Col) : Picture := ⟨c.red.light, c.yellow.light, c.green.light, c.siren⟩

/-- The picture belonging to an event of the given importance. -/
def pictureOf (constRed : Bool) : Nat → Picture
  | 5 => ⟨if constRed then .blinking else .steady, .dark, .dark, true⟩
  | 4 => ⟨.dark, .blinking, .dark, false⟩
  | 3 => ⟨.dark, .steady, .dark, false⟩
  | 2 => ⟨.dark, .steady, .dark, false⟩
  | 1 => ⟨.dark, .dark, .steady, false⟩
  | _ => ⟨.dark, .dark, .dark, false⟩

/-- The importance of the most important of the events. -/
def top (es : List Show) : Nat := es.foldr (fun e n => max (importance e) n) 0

/-- Batch programs and plain operations are not mixed: no running batch is posted together with a stopped
operation. -/
def Unmixed (es : List Show) : Prop := ¬ (.batchRun ∈ es ∧ .opNot ∈ es)

end Ptusa.Column
