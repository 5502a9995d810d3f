import Verif.CipProg.Model

/-!
# What the choice of programs should do
-/
namespace Ptusa.CipProg

/-- The bit of the mask of an object that allows a program. -/
def bitOf : Nat → Option Nat
  | 5 => some 0
  | 128 => some 1
  | 133 => some 2
  | 144 => some 3
  | 149 => some 4
  | 160 => some 5
  | 165 => some 6
  | 181 => some 7
  | 176 => some 8
  | 9000 => some 9
  | 3 => some 10
  | 1024 => some 11
  | 9001 => some 12
  | 163 => some 13
  | 147 => some 14
  | 179 => some 15
  | 9010 => some 16
  | _ => none

/-- The number `n` is to be offered for an object with the mask `m` (0 means the usual programs) when the program `p` is
loaded: it is allowed, and to leave out the rinse is offered only for programs with hot disinfection (bit 2). -/
def Offered (m p n : Nat) : Prop :=
  ∃ b, bitOf n = some b ∧ (if m = 0 then 0x13FB else m).testBit b = true ∧ (n = 9010 → p.testBit 2 = true)

/-- The numbers in the list. -/
def numbers (l : List Row) : List Nat := l.map Prod.fst

/-- What is offered while no object was chosen: acid and caustic preparation, and cleaning of the tanks. -/
def prepared (sc : Bool) : List Nat := if sc then [256, 512, 2048] else [256, 512]

/-- The names under which a program may be shown: `p` runs, `r` tells that the final rinse is left out, `c` that the
final rinse goes to the canal. -/
def titles (p : Nat) (r c : Bool) : List String :=
  match p with
  | 0 => ["Не выбран"]
  | 1 => ["Опол.чист.водой", if c then "Опол.чист.водой в канал." else "Опол.чист.водой в танк"]
  | 3 => ["ДезРаствор"]
  | 5 => [if r then "ДезБО" else "Дезинфекция"]
  | 128 => ["Ополаскивание"]
  | 133 => ["Опол+Дезинф"]
  | 144 => ["Кислота"]
  | 147 => ["Кисл+ДезСР"]
  | 149 => [if r then "Кисл+ДезБО" else "Кислота+Дез"]
  | 160 => ["Щелочь"]
  | 163 => ["Щел+ДезСР"]
  | 165 => [if r then "Щел+ДезБО" else "Щел+Дезинф"]
  | 176 => ["Щел+Кислота"]
  | 179 => ["Щел+Кисл+ДезСР"]
  | 181 => [if r then "Щел+Кисл+ДезБО" else "Щел+Кисл+Дез"]
  | 256 => ["Нав. кислоты"]
  | 512 => ["Нав. щелочи"]
  | 1024 => ["Управляемая мойка"]
  | 2048 => ["Очистка танков"]
  | _ => []

/-- The programs that wash an object and can end without the final rinse. -/
def rinseOptional (p : Nat) : Bool := p == 5 || p == 149 || p == 165 || p == 181

/-- The program that runs when the number `n` is chosen: both ways of rinsing with clean water are program 1. -/
def runs (n : Nat) : Nat := if n = 9000 ∨ n = 9001 then 1 else n

end Ptusa.CipProg
