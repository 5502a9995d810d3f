import Verif.Text.Model

/-!
# What the conversions of texts mean

The code page 1251 and UTF-8 as the standards define them, written without the tables of the program.
-/
namespace Ptusa.Text

/-- The characters 0x80 to 0xBF of the code page 1251 (0x98 is not used). -/
def cpHigh : List Nat :=
  [0x402, 0x403, 0x201A, 0x453, 0x201E, 0x2026, 0x2020, 0x2021, 0x20AC, 0x2030, 0x409, 0x2039, 0x40A, 0x40C, 0x40B, 0x40F,
   0x452, 0x2018, 0x2019, 0x201C, 0x201D, 0x2022, 0x2013, 0x2014, 0, 0x2122, 0x459, 0x203A, 0x45A, 0x45C, 0x45B, 0x45F,
   0xA0, 0x40E, 0x45E, 0x408, 0xA4, 0x490, 0xA6, 0xA7, 0x401, 0xA9, 0x404, 0xAB, 0xAC, 0xAD, 0xAE, 0x407,
   0xB0, 0xB1, 0x406, 0x456, 0x491, 0xB5, 0xB6, 0xB7, 0x451, 0x2116, 0x454, 0xBB, 0x458, 0x405, 0x455, 0x457]

/-- The Unicode number of a character of the code page 1251: ASCII, signs, and the Russian letters from U+0410 on. -/
def cp (b : Byte) : Nat :=
  if b.toNat < 0x80 then b.toNat
  else if b.toNat < 0xC0 then cpHigh.getD (b.toNat - 0x80) 0
  else b.toNat - 0xC0 + 0x410

/-- UTF-8 of a number below 65536. -/
def utf8 (u : Nat) : List Byte :=
  if u < 0x80 then [BitVec.ofNat 8 u]
  else if u < 0x800 then [BitVec.ofNat 8 (0xC0 + u / 64), BitVec.ofNat 8 (0x80 + u % 64)]
  else [BitVec.ofNat 8 (0xE0 + u / 4096), BitVec.ofNat 8 (0x80 + u / 64 % 64), BitVec.ofNat 8 (0x80 + u % 64)]

/-- A text of the code page: no zero inside and no unused character. -/
def IsText (l : List Byte) : Prop := ∀ b ∈ l, b ≠ 0 ∧ b ≠ 0x98

instance (l : List Byte) : Decidable (IsText l) := inferInstanceAs (Decidable (∀ b ∈ l, _))

/-- The signs of the code page whose UTF-8 has three bytes, without the number sign: quotes, dashes, the ellipsis, daggers,
the euro, per mille, bullet and trade mark. -/
def isSign (b : Byte) : Prop := 0x800 ≤ cp b ∧ b ≠ 0xB9

instance (b : Byte) : Decidable (isSign b) := inferInstanceAs (Decidable (_ ∧ _))

/-- The Russian letters, the ASCII characters and the number sign. -/
def Plain (b : Byte) : Prop := b ≠ 0 ∧ b ≠ 0x98 ∧ ¬ isSign b

instance (b : Byte) : Decidable (Plain b) := inferInstanceAs (Decidable (_ ∧ _))

end Ptusa.Text
