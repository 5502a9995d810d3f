import Verif.Base.Fl

/-!
# Conversions of texts

Model of `common/util/utf2cp1251.cpp` (UTF-8 and Windows-1251) and of the conversions of the Modbus server between
Windows-1251, UTF-8 and the two-byte characters of panels (PAC/common/modbus_serv.cpp lines 14-144, 1185-1316).  A text is
the list of its bytes before the zero that ends it.
-/
namespace Ptusa.Text

abbrev Byte := BitVec 8

/-- `table` of `convert_windows1251_to_utf8` (utf2cp1251.cpp lines 131-148), the first byte of the character lowest. -/
def utfTable : List (BitVec 32) :=
  [0x82D0, 0x83D0, 0x9A80E2, 0x93D1, 0x9E80E2, 0xA680E2, 0xA080E2, 0xA180E2, 0xAC82E2, 0xB080E2, 0x89D0, 0xB980E2,
   0x8AD0, 0x8CD0, 0x8BD0, 0x8FD0, 0x92D1, 0x9880E2, 0x9980E2, 0x9C80E2, 0x9D80E2, 0xA280E2, 0x9380E2, 0x9480E2,
   0, 0xA284E2, 0x99D1, 0xBA80E2, 0x9AD1, 0x9CD1, 0x9BD1, 0x9FD1, 0xA0C2, 0x8ED0, 0x9ED1, 0x88D0,
   0xA4C2, 0x90D2, 0xA6C2, 0xA7C2, 0x81D0, 0xA9C2, 0x84D0, 0xABC2, 0xACC2, 0xADC2, 0xAEC2, 0x87D0,
   0xB0C2, 0xB1C2, 0x86D0, 0x96D1, 0x91D2, 0xB5C2, 0xB6C2, 0xB7C2, 0x91D1, 0x9684E2, 0x94D1, 0xBBC2,
   0x98D1, 0x85D0, 0x95D1, 0x97D1, 0x90D0, 0x91D0, 0x92D0, 0x93D0, 0x94D0, 0x95D0, 0x96D0, 0x97D0,
   0x98D0, 0x99D0, 0x9AD0, 0x9BD0, 0x9CD0, 0x9DD0, 0x9ED0, 0x9FD0, 0xA0D0, 0xA1D0, 0xA2D0, 0xA3D0,
   0xA4D0, 0xA5D0, 0xA6D0, 0xA7D0, 0xA8D0, 0xA9D0, 0xAAD0, 0xABD0, 0xACD0, 0xADD0, 0xAED0, 0xAFD0,
   0xB0D0, 0xB1D0, 0xB2D0, 0xB3D0, 0xB4D0, 0xB5D0, 0xB6D0, 0xB7D0, 0xB8D0, 0xB9D0, 0xBAD0, 0xBBD0,
   0xBCD0, 0xBDD0, 0xBED0, 0xBFD0, 0x80D1, 0x81D1, 0x82D1, 0x83D1, 0x84D1, 0x85D1, 0x86D1, 0x87D1,
   0x88D1, 0x89D1, 0x8AD1, 0x8BD1, 0x8CD1, 0x8DD1, 0x8ED1, 0x8FD1]

/-- `g_letters` (utf2cp1251.cpp lines 10-71). -/
def letters : List (Byte × Nat) :=
  [(0x82, 0x201A), (0x83, 0x0453), (0x84, 0x201E), (0x85, 0x2026), (0x86, 0x2020), (0x87, 0x2021), (0x88, 0x20AC), (0x89, 0x2030),
   (0x8A, 0x0409), (0x8B, 0x2039), (0x8C, 0x040A), (0x8D, 0x040C), (0x8E, 0x040B), (0x8F, 0x040F), (0x90, 0x0452), (0x91, 0x2018),
   (0x92, 0x2019), (0x93, 0x201C), (0x94, 0x201D), (0x95, 0x2022), (0x96, 0x2013), (0x97, 0x2014), (0x99, 0x2122), (0x9A, 0x0459),
   (0x9B, 0x203A), (0x9C, 0x045A), (0x9D, 0x045C), (0x9E, 0x045B), (0x9F, 0x045F), (0xA0, 0x00A0), (0xA1, 0x040E), (0xA2, 0x045E),
   (0xA3, 0x0408), (0xA4, 0x00A4), (0xA5, 0x0490), (0xA6, 0x00A6), (0xA7, 0x00A7), (0xA8, 0x0401), (0xA9, 0x00A9), (0xAA, 0x0404),
   (0xAB, 0x00AB), (0xAC, 0x00AC), (0xAD, 0x00AD), (0xAE, 0x00AE), (0xAF, 0x0407), (0xB0, 0x00B0), (0xB1, 0x00B1), (0xB2, 0x0406),
   (0xB3, 0x0456), (0xB4, 0x0491), (0xB5, 0x00B5), (0xB6, 0x00B6), (0xB7, 0x00B7), (0xB8, 0x0451), (0xBA, 0x0454), (0xBB, 0x00BB),
   (0xBC, 0x0458), (0xBD, 0x0405), (0xBE, 0x0455), (0xBF, 0x0457)]

/-- `UTable` (modbus_serv.cpp lines 14-144): the two bytes as one number. -/
def uTable : List Nat :=
  [0x402, 0x403, 0x201A, 0x453, 0x201E, 0x2026, 0x2020, 0x2021, 0x20AC, 0x2030, 0x409, 0x2039,
   0x40A, 0x40C, 0x40B, 0x40F, 0x452, 0x2018, 0x2019, 0x201C, 0x201D, 0x2022, 0x2013, 0x2014,
   0x0, 0x2122, 0x459, 0x203A, 0x45A, 0x45C, 0x45B, 0x45F, 0xA0, 0x40E, 0x45E, 0x408,
   0xA4, 0x490, 0xA6, 0xA7, 0x401, 0xA9, 0x404, 0xAB, 0xAC, 0xAD, 0xAE, 0x407,
   0xB0, 0xB1, 0x406, 0x456, 0x491, 0xB5, 0xB6, 0xB7, 0x451, 0x2116, 0x454, 0xBB,
   0x458, 0x405, 0x455, 0x457, 0x410, 0x411, 0x412, 0x413, 0x414, 0x415, 0x416, 0x417,
   0x418, 0x419, 0x41A, 0x41B, 0x41C, 0x41D, 0x41E, 0x41F, 0x420, 0x421, 0x422, 0x423,
   0x424, 0x425, 0x426, 0x427, 0x428, 0x429, 0x42A, 0x42B, 0x42C, 0x42D, 0x42E, 0x42F,
   0x430, 0x431, 0x432, 0x433, 0x434, 0x435, 0x436, 0x437, 0x438, 0x439, 0x43A, 0x43B,
   0x43C, 0x43D, 0x43E, 0x43F, 0x440, 0x441, 0x442, 0x443, 0x444, 0x445, 0x446, 0x447,
   0x448, 0x449, 0x44A, 0x44B, 0x44C, 0x44D, 0x44E, 0x44F]

/-- The bytes `convert_windows1251_to_utf8` writes for one character (utf2cp1251.cpp lines 149-161). -/
def encode (b : Byte) : List Byte :=
  if b.toNat < 128 then [b]
  else
    let v := utfTable.getD (b.toNat - 128) 0
    if v = 0 then []
    else [v.extractLsb' 0 8, v.extractLsb' 8 8] ++ (if v >>> 16 ≠ 0 then [v.extractLsb' 16 8] else [])

/-- `convert_windows1251_to_utf8`. -/
def toUtf8 (l : List Byte) : List Byte := l.flatMap encode

/-- The Windows-1251 character for a number of two UTF-8 bytes (utf2cp1251.cpp lines 95-114). -/
def letter (u : Nat) : Option Byte :=
  if 0x410 ≤ u ∧ u ≤ 0x44F then some (BitVec.ofNat 8 (u - 0x350))
  else if 0x80 ≤ u ∧ u ≤ 0xFF then some (BitVec.ofNat 8 u)
  else if 0x402 ≤ u ∧ u ≤ 0x403 then some (BitVec.ofNat 8 (u - 0x382))
  else (letters.find? fun p => p.2 == u).map Prod.fst

/-- The loop of `convert_utf8_to_windows1251` (utf2cp1251.cpp lines 73-126) with `k` bytes left of the limit: whether
everything was converted, and the bytes written.  A character of two bytes whose second byte is the closing zero makes the
loop go on behind the text: undefined. -/
def conv : Nat → List Byte → Option (Bool × List Byte)
  | 0, _ => some (true, [])
  | _, [] => some (true, [])
  | k + 1, p :: rest =>
    match rest with
    | [] =>
      if p.toNat < 128 then some (true, [p])
      else if p &&& 0x20 = 0 then
        match letter ((p &&& 0x1F).toNat * 64) with
        | some c => if k ≤ 1 then some (true, [c]) else none
        | none => some (false, [])
      else some (false, [])
    | s :: rest' =>
      if p = 0xE2 ∧ s = 0x84 ∧ rest'.head? = some 0x96 then
        (conv (k - 2) rest'.tail).map fun r => (r.1, 0xB9 :: r.2)
      else if p.toNat < 128 then (conv k (s :: rest')).map fun r => (r.1, p :: r.2)
      else if p &&& 0x20 = 0 then
        match letter ((p &&& 0x1F).toNat * 64 + (s &&& 0x3F).toNat) with
        | some c => (conv (k - 1) rest').map fun r => (r.1, c :: r.2)
        | none => some (false, [])
      else some (false, [])
  termination_by _ l => l.length
  decreasing_by all_goals (simp_all <;> try omega)

/-- `convert_utf8_to_windows1251` into a buffer of `n` zeros with the limit `n`, as in `Utf8toUnicode`
(modbus_serv.cpp lines 1303-1308): what the buffer holds.  The closing zero behind the buffer is undefined. -/
def toCp (n : Nat) (l : List Byte) : Option (List Byte) :=
  (conv n l).bind fun r => if r.1 && n ≤ r.2.length then none else some r.2

/-- One character of `CP1251toUnicode` (modbus_serv.cpp lines 1185-1219). -/
def wide (b : Byte) : Nat := if b.toNat < 128 then b.toNat else uTable.getD (b.toNat - 128) 0

/-- `CP1251toUnicode`: the words written, with the closing one. -/
def toWide (l : List Byte) : List Nat := l.map wide ++ [0]

/-- One character of `UnicodetoCP1251` (modbus_serv.cpp lines 1282-1297); an unknown one leaves the zero of the buffer. -/
def narrow (w : Nat) : Byte :=
  if w < 128 then BitVec.ofNat 8 w
  else
    match uTable.findIdx? (· == w) with
    | some j => BitVec.ofNat 8 (128 + j)
    | none => 0

/-- `UnicodetoCP1251` with `inputlen` = `n` (modbus_serv.cpp lines 1267-1301) into a buffer of zeros, read up to the first
zero. -/
def fromWide : Nat → List Nat → List Byte
  | 0, _ => []
  | 1, _ => []
  | _, [] => []
  | n + 2, w :: ws => if w = 0 then [] else if narrow w = 0 then [] else narrow w :: fromWide (n + 1) ws

/-- `Utf8toUnicode` (modbus_serv.cpp lines 1303-1308): `MAX_REC_NAME_LENGTH * UNICODE_MULTIPLIER` is 96. -/
def utf8ToWide (l : List Byte) : Option (List Nat) := (toCp 96 l).map toWide

/-- `UnicodetoUtf8` (modbus_serv.cpp lines 1310-1316). -/
def wideToUtf8 (n : Nat) (ws : List Nat) : List Byte := toUtf8 (fromWide n ws)

/-- How many bytes follow the first one of a character in `utf8_strlen` (utf2cp1251.cpp lines 164-175). -/
def follow (c : Byte) : Option Nat :=
  if c.toNat ≤ 127 then some 0
  else if c &&& 0xE0 = 0xC0 then some 1
  else if c &&& 0xF0 = 0xE0 then some 2
  else if c &&& 0xF8 = 0xF0 then some 3
  else none

/-- The loop of `utf8_strlen`; `none`: the invalid first byte. -/
def count : List Byte → Option Nat
  | [] => some 0
  | c :: t =>
    match follow c with
    | none => none
    | some w => (count (t.drop w)).map (· + 1)
  termination_by l => l.length
  decreasing_by simp; omega

/-- `utf8_strlen`. -/
def strlen (l : List Byte) : Nat := (count l).getD 0

/-- `strncpy( dst, val, n )` of a name of at most `limit - 1` characters into a field of `n` bytes
(cip_tech_def.cpp lines 605-690, not on Windows): `none` when the name was not accepted, otherwise the bytes before the end
of the text, or nothing when no zero was written and the text goes on behind the field. -/
def setName (limit n : Nat) (val : List Byte) : Option (Option (List Byte)) :=
  if strlen val < limit then some (if val.length < n then some val else none) else none

end Ptusa.Text
