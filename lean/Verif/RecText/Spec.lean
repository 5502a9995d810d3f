import Verif.RecText.Model

/-! # What a reader of the recipes should find -/
namespace Ptusa.RecText
open SaveDev LuaText

/-- What a parameter is read as: exactly its value; not-a-number as nothing. -/
def Par.seen : Par → Lv
  | .dec neg n k m => .num ((if neg then -1 else 1) * ((n : Rat) + m / 10 ^ k))
  | .nan _ => .glob "nan".toList

/-- A field with a number. -/
def num (key : String) (q : Rat) : Option Txt × Lv := (some key.toList, .num q)

/-- A field with a text. -/
def text (key : Txt) (s : Txt) : Option Txt × Lv := (some key, .str s)

/-- The fields of the table of an adapter. -/
def want (a : Adapter) : List (Option Txt × Lv) :=
  [num "CMD" 0, num "ACT" a.act, num "NMR" a.nmr, text "NAME".toList a.name, text "LIST".toList a.list] ++
  ((a.lists.zipIdx 1).map fun p => text ("LIST".toList ++ natText p.2) p.1) ++
  [(some "PAR".toList, .table (a.params.map fun p => (none, p.seen)))]

/-- A parameter that can be read: a proper fraction; not-a-number without a sign. -/
def Par.Fine : Par → Prop
  | .dec _ _ k m => m < 10 ^ k
  | .nan neg => neg = false

/-- Texts without apostrophe, line feed and backslash; no piece of the text longer than what is copied. -/
structure Readable (a : Adapter) : Prop where
  name : Clean a.name
  list : Clean a.list
  lists : ∀ s ∈ a.lists, Clean s
  params : ∀ p ∈ a.params, p.Fine
  short : ∀ t ∈ a.pieces, t.length ≤ 1000

end Ptusa.RecText
