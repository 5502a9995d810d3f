import Verif.SaveDev.Model

/-!
# Reading the text as Lua does

A reader for the part of Lua which the text uses: a table of tables, whose fields are numbers, names of globals, or lists of
numbers. It is written from the grammar of Lua, without the program. And what a reader should find: the `want` of a device.
-/
namespace Ptusa.SaveDev

/-- A value which Lua finds: a number, a list, or `nil` for a name of a global variable which does not exist. -/
inductive Val
  | num (q : Rat)
  | list (l : List Val)
  | nil
  deriving Inhabited

/-- Letters, digits and the underscore: the characters of a Lua name. -/
def isWord (c : Char) : Bool := c.isAlphanum || c == '_'

/-- A Lua name: it does not begin with a digit. -/
def isName (l : Txt) : Bool := l.all isWord && (match l with | [] => false | c :: _ => ! c.isDigit)

/-- The number which a text of digits means. -/
def digitsVal (l : Txt) : Nat := l.foldl (fun a c => 10 * a + (c.toNat - 48)) 0

/-- A number without a sign: digits, and maybe a point with further digits. -/
def readPos (s : Txt) : Option (Rat × Txt) :=
  let i := s.takeWhile Char.isDigit
  if i.isEmpty then none
  else match s.dropWhile Char.isDigit with
    | '.' :: r =>
      let f := r.takeWhile Char.isDigit
      some (digitsVal i + digitsVal f / 10 ^ f.length, r.dropWhile Char.isDigit)
    | r => some (digitsVal i, r)

/-- A word: the longest run of characters of a name. -/
def readName (s : Txt) : Option (Txt × Txt) :=
  let n := s.takeWhile isWord
  if isName n then some (n, s.dropWhile isWord) else none

/-- A number, or a name of a global variable. The minus of a name is an error at run time: arithmetic on `nil`. -/
def readItem (s : Txt) : Option (Val × Txt) :=
  match s with
  | '-' :: r => (readPos r).map fun p => (.num (-p.1), p.2)
  | s => match readPos s with
    | some p => some (.num p.1, p.2)
    | none => (readName s).map fun p => (.nil, p.2)

/-- The rest of a list after its opening brace. -/
def readList : Nat → Txt → Option (List Val × Txt)
  | 0, _ => none
  | n + 1, s => match readItem s with
    | none => none
    | some (v, r) => match r with
      | ',' :: r => (readList n r).map fun p => (v :: p.1, p.2)
      | '}' :: r => some ([v], r)
      | _ => none

/-- A value of a field. -/
def readVal (s : Txt) : Option (Val × Txt) :=
  match s with
  | '{' :: r => (readList r.length r).map fun p => (.list p.1, p.2)
  | s => readItem s

/-- The rest of a table after its opening brace: `key=value`, separated by a comma and a space. -/
def readFields : Nat → Txt → Option (List (Txt × Val) × Txt)
  | 0, _ => none
  | n + 1, s => match readName s with
    | some (k, '=' :: r) => match readVal r with
      | some (v, ',' :: ' ' :: r) => (readFields n r).map fun p => ((k, v) :: p.1, p.2)
      | some (v, '}' :: r) => some ([(k, v)], r)
      | _ => none
    | _ => none

/-- The tables of the devices up to the end of the chunk. -/
def readDevs : Nat → Txt → Option (List (Txt × List (Txt × Val)))
  | 0, _ => none
  | n + 1, s => match s with
    | ['\t', '}', '\n'] => some []
    | '\t' :: s => match readName s with
      | some (k, '=' :: '{' :: r) => match readFields r.length r with
        | some (fs, ',' :: '\n' :: r) => (readDevs n r).map fun l => (k, fs) :: l
        | _ => none
      | _ => none
    | _ => none

/-- The chunk: the global `t` is a table with a table for every device. -/
def readAll (s : Txt) : Option (List (Txt × List (Txt × Val))) :=
  match s with
  | 't' :: '=' :: '\n' :: '\t' :: '{' :: '\n' :: r => readDevs s.length r
  | _ => none

/-- What Lua finds under a key: a later field with the same key replaces an earlier one. -/
def lookup (t : List (Txt × Val)) (key : String) : Option Val :=
  ((t.filter fun p => p.1 == key.toList).getLast?).map (·.2)

/-- What should be found. -/
inductive Want
  | int (z : Int)
  /-- a float with so many places -/
  | real (k : Nat) (x : Fv)
  /-- a float without a fraction, or with two places -/
  | short (x : Fv)
  | list (l : List Want)

/-- A number is found up to half of the last place. -/
def Near (k : Nat) (q : Rat) (v : Val) : Prop := ∃ r, v = .num r ∧ |r - q| ≤ 1 / (2 * 10 ^ k)

mutual
/-- The value found is the one which should be found. Only numbers can be written in the text. -/
def Want.found : Want → Val → Prop
  | .int z, v => v = .num z
  | .real k (.num q), v => Near k q v
  | .real _ _, _ => False
  | .short (.num q), v => Near 2 q v ∧ (q.den = 1 → v = .num q)
  | .short _, _ => False
  | .list l, v => ∃ vs, v = .list vs ∧ foundAll l vs
/-- The same for lists. -/
def foundAll : List Want → List Val → Prop
  | [], [] => True
  | w :: l, v :: vs => w.found v ∧ foundAll l vs
  | _, _ => False
end

/-- One or zero. -/
def flag (b : Bool) : Want := .int (if b then 1 else 0)

/-- Fields of the feedbacks. -/
def fbWant (onFb offFb : Option Int) : List (String × Want) :=
  (onFb.map fun z => ("FB_ON_ST", Want.int z)).toList ++ (offFb.map fun z => ("FB_OFF_ST", Want.int z)).toList

/-- Fields of a counter. -/
def counterWant (a t1 p1 t2 p2 : Int) : List (String × Want) :=
  [("ABS_V", .int a), ("DAY_T1", .int t1), ("PREV_DAY_T1", .int p1), ("DAY_T2", .int t2), ("PREV_DAY_T2", .int p2)]

/-- The additional fields of a kind of device. -/
def Kind.want : Kind → List (String × Want)
  | .plain => []
  | .analog e m s => [("E", flag e), ("M_EXP", .real 1 m), ("S_DEV", .real 1 s)]
  | .valve a b => fbWant a b
  | .mixProof a b bl cs err v => fbWant a b ++ [("BLINK", flag bl), ("CS", flag cs), ("ERR", .int err), ("V", .real 1 v)]
  | .shutOff bl cs err v => [("BLINK", flag bl), ("CS", flag cs), ("ERR", .int err), ("V", .real 1 v)]
  | .tvis a b cs sup err v => fbWant a b ++ [("CS", .int cs), ("SUP", .int sup), ("ERR", .int err), ("V", .real 1 v)]
  | .analogValve n o c b => [("NAMUR_ST", .int n), ("OPENED", flag o), ("CLOSED", flag c), ("BLINK", flag b)]
  | .counter a t1 p1 t2 p2 => counterWant a t1 p1 t2 p2
  | .counterF a t1 p1 t2 p2 f => counterWant a t1 p1 t2 p2 ++ [("F", .real 2 f)]
  | .counterIol a t1 p1 t2 p2 f t => counterWant a t1 p1 t2 p2 ++ [("F", .real 2 f), ("T", .real 1 t)]
  | .counterVirt a f => [("ABS_V", .int a), ("F", .real 2 f)]
  | .level v => [("CLEVEL", .int v)]
  | .wages w => [("W", .real 3 w)]
  | .motor r e => (r.map fun z => ("R", Want.int z)).toList ++ (e.map fun z => ("ERRT", Want.int z)).toList
  | .altivar r f rpm est a mf => [("R", .int r), ("FRQ", .real 1 f), ("RPM", .int rpm), ("EST", .int est), ("AMP", .real 1 a),
      ("MAX_FRQ", .real 1 mf)]
  | .column g y r b s => [("L_GREEN", flag g), ("L_YELLOW", flag y), ("L_RED", flag r), ("L_BLUE", flag b), ("L_SIREN", flag s)]
  | .concIol t => [("T", .real 1 t)]
  | .concOk _ ok => [("OK", .int ok)]
  | .power n l s sum u p err => [("NOMINAL_CURRENT_CH", .list (n.map .int)), ("LOAD_CURRENT_CH", .list (l.map (.real 1))),
      ("ST_CH", .list (s.map .int)), ("SUM_CURRENTS", .real 1 sum), ("VOLTAGE", .real 1 u), ("OUT_POWER_90", .int p),
      ("ERR", .int err)]
  | .breaker err m n l s ec => [("ERR", .int err), ("M", .int m), ("NOMINAL_CURRENT_CH", .list (n.map .int)),
      ("LOAD_CURRENT_CH", .list (l.map (.real 1))), ("ST_CH", .list (s.map .int)), ("ERR_CH", .list (ec.map .int))]
  | .camera r y => [("RESULT", .int r), ("READY", .int y)]

/-- All fields of a device. -/
def Dev.want (d : Dev) : List (String × Want) :=
  [("M", flag d.manual)] ++ (d.state.map fun z => ("ST", Want.int z)).toList ++
  (d.value.map fun x => ("V", Want.short x)).toList ++ d.kind.want ++ d.pars.map fun p => (p.1, .short p.2)

/-- All floats of it are numbers, and the lists are not empty. -/
def Want.finite : Want → Bool
  | .int _ => true
  | .real _ (.num _) => true
  | .short (.num _) => true
  | .list l => ! l.isEmpty && l.attach.all fun w => w.1.finite
  | _ => false
  decreasing_by
    have := w.2
    simp_wf
    have := List.sizeOf_lt_of_mem this
    omega

/-- The names of the device and of its parameters are Lua names, its values are numbers. -/
def Dev.Good (d : Dev) : Prop :=
  isName d.name.toList ∧ (∀ p ∈ d.pars, isName p.1.toList) ∧ ∀ p ∈ d.want, p.2.finite

/-- The table found is the one of the device: the same keys in the same order, and the values. -/
def Dev.found (d : Dev) (t : Txt × List (Txt × Val)) : Prop :=
  t.1 = d.name.toList ∧ List.Forall₂ (fun w p => p.1 = w.1.toList ∧ w.2.found p.2) d.want t.2

/-- Not a camera and not the emulated concentration sensor, whose texts are broken. -/
def Kind.sound : Kind → Bool
  | .camera _ _ => false
  | .concOk e _ => ! e
  | _ => true

end Ptusa.SaveDev
