import Verif.Rfid.Model

/-!
# Tags in the field

The specification knows the connection and the reports only.
-/
namespace Ptusa.Rfid

/-- Two reports are about the same tag at the same antenna. -/
def Same (a b : Tag) : Prop := a.words = b.words ∧ a.port = b.port

instance (a b : Tag) : Decidable (Same a b) := inferInstanceAs (Decidable (_ ∧ _))

/-- The tags after one more tag of a report. -/
def after (flag : Flag) (l : List Tag) (t : Tag) : List Tag :=
  match flag with
  | .coming => l ++ [t]
  | .going => l.filter fun u => ¬ Same t u
  | .changing => l

/-- The field as seen from outside: connected with which handle, failures since the last success, tags. -/
structure Field where
  handle : Nat := 0
  failures : Nat := 0
  tags : List Tag := []

/-- A command failed: the driver did not take it or did not answer. -/
def Failed (c : Cmd) : Prop := c = .timeout ∨ c = .sendFailed

instance (c : Cmd) : Decidable (Failed c) := inferInstanceAs (Decidable (_ ∨ _))

/-- After the attempt to connect. -/
def Field.connect (f : Field) (reachable : Bool) (h : Nat) : Field :=
  if f.handle = 0 ∧ reachable then { f with handle := h } else f

/-- After the first command: with the fourth failure in a row the connection is given up, and the field is not known any more. -/
def Field.command (f : Field) (c : Cmd) : Field :=
  if f.handle = 0 then f
  else if c = .ok then { f with failures := 0 }
  else if Failed c then
    if f.failures < 3 then { f with failures := f.failures + 1 } else { handle := 0, failures := f.failures + 1, tags := [] }
  else f

/-- The field after an event. -/
def Field.next (f : Field) : Ev → Field
  | .evaluate reachable h flag _ => (f.connect reachable h).command flag
  | .report h flag ts => if f.handle = h then { f with tags := ts.foldl (after flag) f.tags } else f

/-- The field after a history. -/
def field (h : List Ev) : Field := h.foldl Field.next {}

/-- The driver reports only what the class is made for: words of 16 bits, at most nine of them; a tag that comes is not in the field, and there
are less than ten. -/
def FitsTag (flag : Flag) (l : List Tag) (t : Tag) : Prop :=
  t.words.length ≤ 9 ∧ (∀ w ∈ t.words, w < 65536) ∧ (flag = .coming → l.length < 10 ∧ ∀ u ∈ l, ¬ Same t u)

/-- The same for a whole report. -/
def FitsReport (flag : Flag) : List Tag → List Tag → Prop
  | _, [] => True
  | l, t :: ts => FitsTag flag l t ∧ FitsReport flag (after flag l t) ts

/-- The same for a history, from a field on. -/
def Fits : Field → List Ev → Prop
  | _, [] => True
  | f, e :: es =>
    (match e with
      | .report h flag ts => f.handle = h → FitsReport flag f.tags ts
      | _ => True) ∧ Fits (f.next e) es

instance (flag : Flag) (l : List Tag) (t : Tag) : Decidable (FitsTag flag l t) := inferInstanceAs (Decidable (_ ∧ _ ∧ (_ → _ ∧ _)))

instance decFitsReport (flag : Flag) : (l ts : List Tag) → Decidable (FitsReport flag l ts)
  | _, [] => isTrue trivial
  | l, t :: ts => @instDecidableAnd _ _ inferInstance (decFitsReport flag (after flag l t) ts)

instance decFits : (f : Field) → (h : List Ev) → Decidable (Fits f h)
  | _, [] => isTrue trivial
  | f, .report h flag ts :: es => @instDecidableAnd _ _ (inferInstanceAs (Decidable (f.handle = h → FitsReport flag f.tags ts))) (decFits (f.next _) es)
  | f, .evaluate .. :: es => @instDecidableAnd _ _ (isTrue trivial) (decFits (f.next _) es)

/-- A word of 16 bits as four hexadecimal digits, the highest first. -/
def wordText (w : Nat) : List Char := [3, 2, 1, 0].map fun i => "0123456789ABCDEF".toList.getD (w / 16 ^ i % 16) '?'

/-- What the class shows of a tag: the words of its code, the last one first. -/
def shown (t : Tag) : Entry := ⟨t.words.reverse.flatMap wordText, t.port, t.rssi⟩

/-- The error is shown after a list of calls of the manager. -/
def Shown (o : List Out) : Prop := o.getLast? = some .setError

/-- The event is an evaluation. -/
def Ev.isEval : Ev → Prop
  | .evaluate .. => True
  | _ => False

/-- Calls alternate, beginning with `b` as the state before. -/
def Alternate : Bool → List Out → Prop
  | _, [] => True
  | b, .setError :: l => b = false ∧ Alternate true l
  | b, .resetError :: l => b = true ∧ Alternate false l

end Ptusa.Rfid
