import Verif.CipRec.Model
import Verif.Text.Spec

/-!
# What the recipes of a line are for their user

A table of 25 recipes, each with a name of at most 23 characters and 120 values, one of them being edited.  Texts are
written in the code page 1251.
-/
namespace Ptusa.CipRec

open Ptusa.Text (Byte Plain toUtf8)
open Ptusa.Valve (Tm)

/-- Names and values of all recipes. -/
structure Table where
  name : Nat → List Byte
  val : Nat → Nat → BitVec 32

/-- A recipe. -/
structure Rec where
  name : List Byte
  val : Nat → BitVec 32

def Table.one (t : Table) (r : Nat) : Rec := ⟨t.name r, t.val r⟩

def Table.setVal (t : Table) (r k : Nat) (v : BitVec 32) : Table :=
  { t with val := fun r' k' => if r' = r ∧ k' = k then v else t.val r' k' }

def Table.setName (t : Table) (r : Nat) (n : List Byte) : Table :=
  { t with name := fun r' => if r' = r then n else t.name r' }

def Table.setRec (t : Table) (r : Nat) (x : Rec) : Table :=
  { name := fun r' => if r' = r then x.name else t.name r', val := fun r' => if r' = r then x.val else t.val r' }

def Table.empty : Table := ⟨fun _ => [], fun _ _ => 0⟩

/-- The recipes with the mark "used" and their numbers from 1. -/
def Table.used (t : Table) : List (Nat × List Byte) :=
  ((List.range 25).filter fun r => nonzero (t.val r 0)).map fun r => (r + 1, toUtf8 (t.name r))

/-- The recipes in memory and on the disk, the number and the name on the screen, the copied recipe. -/
structure Screen where
  tab : Table
  cur : Nat
  shown : List Byte
  copied : Option Rec
  disk : Table
  dirty : Bool
  tCheck : Tm
  tEval : Tm
  list : List (Nat × List Byte)

/-- The name on the screen goes into the table. -/
def Screen.keep (x : Screen) : Screen := { x with tab := x.tab.setName x.cur x.shown }

/-- The name of the current recipe is put on the screen. -/
def Screen.show (x : Screen) : Screen := { x with shown := x.tab.name x.cur }

def Screen.set (x : Screen) (now : Tm) (r k : Nat) (v : BitVec 32) : Screen :=
  { x with tab := x.tab.setVal r k v, dirty := true, tCheck := now }

def Screen.goto (x : Screen) (r : Int) : Screen :=
  if 0 ≤ r ∧ r < 25 then { x.keep with cur := r.toNat }.show else x

/-- What the value 1 of the current recipe orders: 1 defaults, 2 copy, 3 paste, 4 clear. -/
def Screen.order (x : Screen) (now : Tm) (c : Int) : Screen :=
  if c = 1 then
    { x with tab := x.tab.setRec x.cur ⟨x.tab.name x.cur, fun k => (defaults.lookup k).getD (x.tab.val x.cur k)⟩,
             dirty := true, tCheck := now }
  else if c = 2 then { x with copied := some (x.tab.one x.cur) }
  else if c = 3 then
    match x.copied with
    | none => x
    | some y => { x with tab := x.tab.setRec x.cur y }.show
  else if c = 4 then { x with tab := x.tab.setRec x.cur ⟨[], fun _ => 0⟩ }.show
  else x

def Screen.command (x : Screen) (now : Tm) : Screen :=
  if nonzero (x.tab.val x.cur 1) then
    match trunc (x.tab.val x.cur 1) with
    | none => x
    | some c => (x.order now c).set now x.cur 1 0
  else x

/-- Every ten seconds the name on the screen is kept and the list is made; half a minute after the last change the table is
written to the disk (`w` bytes of it arrive). -/
def Screen.eval (x : Screen) (now : Tm) (w : Nat) : Screen :=
  let x := if 10000#64 < Time.deltaMs now x.tEval then
      { x.keep with tEval := now, list := x.keep.tab.used } else x
  let x := if 30000#64 < Time.deltaMs now x.tCheck then
      { x with disk := if x.dirty ∧ w ≠ 0 then x.tab else x.disk, dirty := false, tCheck := now } else x
  x.command now

def Screen.start (disk : Table) (now : Tm) : Screen :=
  { tab := disk, cur := 0, shown := disk.name 0, copied := none, disk := disk, dirty := false, tCheck := now, tEval := now,
    list := disk.used }

/-- An event: what the user or the program does.  Names are given in the code page 1251. -/
inductive Act where
  | par (k : Nat) (v : BitVec 32)
  | value (r k : Nat) (v : BitVec 32)
  | name (l : List Byte)
  | goto (r : Int)
  | next
  | prev
  | reload
  | eval (w : Nat)
  | restart
  | shutdown (w : Nat)
  deriving DecidableEq, Repr

def Screen.step (x : Screen) (now : Tm) : Act → Screen
  | .par k v => x.set now x.cur k v
  | .value r k v => x.set now r k v
  | .name l => { x with shown := l }
  | .goto r => x.goto r
  | .next => x.goto (x.cur + 1)
  | .prev => x.goto (x.cur - 1)
  | .reload => { x with tab := x.disk }.show
  | .eval w => x.eval now w
  | .restart => .start x.disk now
  | .shutdown w => .start (if w ≠ 0 then x.keep.tab else x.disk) now

def Screen.run (x : Screen) : List (Tm × List Byte × Act) → Screen
  | [] => x
  | (now, _, a) :: as => (x.step now a).run as

/-- A name of at most 23 characters without the signs that the program does not convert. -/
def NameOk (l : List Byte) : Prop := l.length < 24 ∧ ∀ b ∈ l, Plain b

instance (l : List Byte) : Decidable (NameOk l) := inferInstanceAs (Decidable (_ ∧ _))

/-- A value that fits: the order in the value 1 is a number of an `int`. -/
def ValOk (k : Nat) (v : BitVec 32) : Prop := k < 120 ∧ (k = 1 → trunc v ≠ none)

instance (k : Nat) (v : BitVec 32) : Decidable (ValOk k v) := inferInstanceAs (Decidable (_ ∧ _))

/-- The disk is written completely or not at all. -/
def DiskOk (w : Nat) : Prop := w = 0 ∨ 12800 ≤ w

instance (w : Nat) : Decidable (DiskOk w) := inferInstanceAs (Decidable (_ ∨ _))

/-- Existing recipes and values, convertible names, no torn writes. -/
def Act.Ok : Act → Prop
  | .par k v => ValOk k v
  | .value r k v => r < 25 ∧ ValOk k v
  | .name l => NameOk l
  | .eval w => DiskOk w
  | .shutdown w => DiskOk w
  | _ => True

instance (a : Act) : Decidable a.Ok := by cases a <;> simp only [Act.Ok] <;> infer_instance

/-- The same event as it reaches the program: the server counts values from 1, names come in UTF-8. -/
def Act.op : Act → Op
  | .par k v => .par (BitVec.ofNat 32 (k + 1)) v
  | .value r k v => .value r k v
  | .name l => .name (toUtf8 l)
  | .goto r => .goto r
  | .next => .next
  | .prev => .prev
  | .reload => .reload
  | .eval w => .eval w
  | .restart => .restart
  | .shutdown w => .shutdown w

def event (e : Tm × List Byte × Act) : Ev := ⟨e.1, e.2.1, e.2.2.op⟩

/-- A history: allowed events, each with the clock and the 25 bytes found in a temporary buffer. -/
def History (es : List (Tm × List Byte × Act)) : Prop := ∀ e ∈ es, e.2.1.length = 25 ∧ e.2.2.Ok

instance (es : List (Tm × List Byte × Act)) : Decidable (History es) := inferInstanceAs (Decidable (∀ e ∈ es, _))

/-- The number that stands for "not set" on the screen. -/
def unset (v : BitVec 32) : BitVec 32 := if v = 0xFFFFFFFF then 0xC47A0000 else v

/-- No order waits in any recipe. -/
def NoOrder (m : List Byte) : Prop := ∀ r : Nat, r < 25 → getValue m r 1 = some 0

/-- Events that change no value: renaming, going about, and the cyclic call. -/
def Quiet : Act → Prop
  | .name l => NameOk l
  | .goto _ => True
  | .next => True
  | .prev => True
  | .eval w => DiskOk w
  | _ => False

end Ptusa.CipRec
