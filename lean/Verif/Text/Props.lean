import Verif.Text.Lemmas

/-!
# Properties of the conversions of texts

C72 - a name typed at a panel is stored and shown again as it was typed, and every text of the program is shown as it is.
-/
namespace Ptusa.Text

/-- "Рецепт №7" in the code page 1251. -/
def sample : List Byte := [0xD0, 0xE5, 0xF6, 0xE5, 0xEF, 0xF2, 0x20, 0xB9, 0x37]

/-- **C72.**  Every text of the code page is written as the UTF-8 text of the same characters. -/
theorem C72_utf8 (l : List Byte) (h : IsText l) : toUtf8 l = l.flatMap fun b => utf8 (cp b) := by
  induction l with
  | nil => rfl
  | cons b l ih =>
    have hc : toUtf8 (b :: l) = encode b ++ toUtf8 l := by simp [toUtf8]
    rw [hc, ih (fun c hc => h c (by simp [hc])), (encode_cp b (h b (by simp)).2).1]
    simp

example : IsText sample ∧ (toUtf8 sample).length = 17 := by decide +kernel

/-- **C72.**  Panels get the Unicode numbers of the characters and a closing zero. -/
theorem C72_wide (l : List Byte) (h : IsText l) : toWide l = l.map cp ++ [0] := by
  have hm : l.map wide = l.map cp := List.map_congr_left fun b hb => (encode_cp b (h b hb).2).2
  rw [toWide, hm]

example : toWide sample = [0x420, 0x435, 0x446, 0x435, 0x43F, 0x442, 0x20, 0x2116, 0x37, 0] := by decide +kernel

/-- **C72.**  Every text of the code page typed at a panel arrives as its UTF-8, whatever the panel left behind the closing
zero, when it has less characters than the limit. -/
theorem C72_typed (l : List Byte) (h : IsText l) (n : Nat) (hn : l.length < n) (t : List Nat) :
    wideToUtf8 n (l.map cp ++ 0 :: t) = l.flatMap fun b => utf8 (cp b) := by
  have hm : l.map cp = l.map wide := List.map_congr_left fun b hb => ((encode_cp b (h b hb).2).2).symm
  rw [wideToUtf8, hm, fromWide_toWide l h n hn, C72_utf8 l h]

example : wideToUtf8 24 ([0x420, 0x435, 0x446] ++ 0 :: [0x41, 0x42]) = utf8 0x420 ++ utf8 0x435 ++ utf8 0x446 := by
  decide +kernel

/-- **C72.**  A longer text is cut after the last character the limit leaves room for, never inside a character. -/
theorem C72_typed_long (l : List Byte) (h : IsText l) (n : Nat) (hn : n < l.length) (t : List Nat) :
    wideToUtf8 (n + 1) (l.map cp ++ t) = (l.take n).flatMap fun b => utf8 (cp b) := by
  have hm : l.map cp = l.map wide := List.map_congr_left fun b hb => ((encode_cp b (h b hb).2).2).symm
  have ht : IsText (l.take n) := fun b hb => h b (List.mem_of_mem_take hb)
  rw [wideToUtf8, hm, ← C72_utf8 _ ht]
  congr 1
  clear ht hm
  induction l generalizing n with
  | nil => simp at hn
  | cons b l ih =>
    have hb := h b (by simp)
    have hw := narrow_wide b hb.2
    match n with
    | 0 => rfl
    | n + 1 =>
      simp only [List.map_cons, List.cons_append, fromWide, List.take_succ_cons]
      rw [if_neg (hw.2 hb.1), hw.1, if_neg hb.1, ih (fun c hc => h c (by simp [hc])) n (by simp at hn; omega)]

example : wideToUtf8 3 [0x420, 0x435, 0x446, 0x435] = utf8 0x420 ++ utf8 0x435 := by decide +kernel

/-- **C72, partial.**  A name of letters, ASCII characters and the number sign whose UTF-8 has less than 96 bytes is shown
again as it was typed.  Missing: the signs of three bytes and longer texts (see below). -/
theorem C72_shown_partial (l : List Byte) (h : ∀ b ∈ l, Plain b) (hn : (toUtf8 l).length < 96) (n : Nat)
    (hl : l.length < n) (t : List Nat) :
    utf8ToWide (wideToUtf8 n (l.map cp ++ 0 :: t)) = some (l.map cp ++ [0]) := by
  have hT : IsText l := fun b hb => ⟨(h b hb).1, (h b hb).2.1⟩
  rw [C72_typed l hT n hl t, ← C72_utf8 l hT]
  have hc := conv_plain l h 96 [] (by omega)
  rw [List.append_nil, conv_nil] at hc
  have hlen := toUtf8_length l fun b hb => (hT b hb).2
  have h96 : ¬ 96 ≤ l.length := by omega
  rw [utf8ToWide, toCp, hc]
  simp only [Option.map_some, Option.bind_some, List.append_nil, Bool.true_and, decide_eq_true_eq, if_neg h96]
  rw [C72_wide l hT]

example : (∀ b ∈ sample, Plain b) ∧ (toUtf8 sample).length < 96 := by decide +kernel

/-- **C72, partial.**  A recipe name typed at a panel (less than 24 characters, modbus_serv.cpp line 904) of letters, ASCII
characters and the number sign is always shown again. -/
theorem C72_recipe_partial (l : List Byte) (h : ∀ b ∈ l, Plain b) (hl : l.length < 24) (t : List Nat) :
    utf8ToWide (wideToUtf8 24 (l.map cp ++ 0 :: t)) = some (l.map cp ++ [0]) := by
  refine C72_shown_partial l h ?_ 24 hl t
  have := toUtf8_three l
  omega

example : utf8ToWide (wideToUtf8 24 ([0x420, 0x435, 0x446, 0x2116] ++ 0 :: [5])) = some [0x420, 0x435, 0x446, 0x2116, 0] := by
  decide +kernel

/-- **C72, violated.**  Every sign of three bytes cuts the text shown: all that follows it is lost. -/
theorem C72_signs_violated (a : List Byte) (b : Byte) (c : List Byte) (ha : ∀ x ∈ a, Plain x) (hb : isSign b)
    (hn : (toUtf8 a).length < 96) : utf8ToWide (toUtf8 (a ++ b :: c)) = some (a.map cp ++ [0]) := by
  have hT : IsText a := fun x hx => ⟨(ha x hx).1, (ha x hx).2.1⟩
  have hs : toUtf8 (a ++ b :: c) = toUtf8 a ++ (encode b ++ toUtf8 c) := by simp [toUtf8]
  rw [hs, utf8ToWide, toCp, conv_plain a ha 96 _ (by omega), conv_sign b hb _ _ (by omega)]
  simp only [Option.map_some, Option.bind_some, List.append_nil, Bool.false_and, Bool.false_eq_true, if_false]
  rw [C72_wide a hT]

/-- `Молоко – 1` with a dash is shown as `Молоко `. -/
example : isSign 0x96 ∧ utf8ToWide (toUtf8 [0xCC, 0xEE, 0x20, 0x96, 0x20, 0x31]) = some [0x41C, 0x43E, 0x20, 0] := by
  decide +kernel

/-- **C72, violated.**  Other letters of two bytes are shown as Russian letters: `À` as `А`, for every letter from U+00C0
to U+00FF and whatever follows. -/
theorem C72_latin_violated (u : Nat) (h1 : 0xC0 ≤ u) (h2 : u ≤ 0xFF) :
    utf8ToWide (utf8 u) = some [u + 0x350, 0] := by
  have : ∀ v : Fin 64, utf8ToWide (utf8 (0xC0 + v.val)) = some [0xC0 + v.val + 0x350, 0] := by decide +kernel
  have h := this ⟨u - 0xC0, by omega⟩
  simp only [Nat.add_sub_cancel' h1] at h
  exact h

example : utf8ToWide (utf8 0xC0) = utf8ToWide (utf8 0x410) := by decide +kernel

/-- **C72, violated.**  A UTF-8 text that was cut inside a letter of two bytes (ending in C2 or C3) makes the conversion
read behind the end of the text. -/
theorem C72_cut_violated (a : List Byte) (ha : ∀ x ∈ a, Plain x) (p : Byte) (hp : p = 0xC2 ∨ p = 0xC3)
    (hn : (toUtf8 a).length < 94) : utf8ToWide (toUtf8 a ++ [p]) = none := by
  rw [utf8ToWide, toCp, conv_plain a ha 96 _ (by omega)]
  obtain ⟨k, hk⟩ : ∃ k, 96 - (toUtf8 a).length = k + 3 := ⟨93 - (toUtf8 a).length, by omega⟩
  rw [hk]
  have h2 : letter ((0xC2 &&& 0x1F : Byte).toNat * 64) = some 0x80 := by decide +kernel
  have h3 : letter ((0xC3 &&& 0x1F : Byte).toNat * 64) = some 0xC0 := by decide +kernel
  have hk1 : ¬ k + 2 ≤ 1 := by omega
  rcases hp with rfl | rfl
  · simp only [conv]
    rw [if_neg (by decide), if_pos (by decide), h2]
    simp [hk1]
  · simp only [conv]
    rw [if_neg (by decide), if_pos (by decide), h3]
    simp [hk1]

example : utf8ToWide [0x41, 0xC3] = none := by decide +kernel

/-- **C72, violated.**  A text of 96 or more ASCII characters makes the conversion write behind its buffer. -/
theorem C72_long_violated (a : List Byte) (c : List Byte) (ha : ∀ x ∈ a, x.toNat < 128) (hn : a.length = 96) :
    utf8ToWide (a ++ c) = none := by
  have hconv : ∀ (k : Nat) (a c : List Byte), (∀ x ∈ a, x.toNat < 128) → a.length = k →
      conv k (a ++ c) = some (true, a) := by
    intro k
    induction k with
    | zero =>
      intro a c _ h
      rw [List.length_eq_zero_iff.mp h]
      simp [conv]
    | succ k ih =>
      intro a c ha h
      match a, h with
      | b :: a, h =>
        have hb := ha b (by simp)
        have ih' := ih a c (fun x hx => ha x (by simp [hx])) (by simpa using h)
        have hne : b ≠ 0xE2 := by rintro rfl; simp at hb
        rw [List.cons_append]
        generalize a ++ c = t at ih' ⊢
        cases t with
        | nil =>
          rw [conv_nil] at ih'
          simp only [Option.some.injEq, Prod.mk.injEq, true_and] at ih'
          rw [← ih']
          simp [conv, hb]
        | cons s t =>
          simp only [conv]
          rw [if_neg (fun hh => hne hh.1), if_pos hb, ih']
          rfl
  rw [utf8ToWide, toCp, hconv 96 a c ha hn]
  simp [hn]

example : utf8ToWide (List.replicate 96 0x41) = none ∧
    utf8ToWide (List.replicate 95 0x41) = some (List.replicate 95 0x41 ++ [0]) := by decide +kernel

/-- **C72.**  The length of a name counts its characters: a name of the code page is refused exactly when it has too many,
and an accepted one always fits into its field of three bytes for each character. -/
theorem C72_length (l : List Byte) (h : IsText l) (limit : Nat) :
    setName limit (3 * limit) (l.flatMap fun b => utf8 (cp b)) =
      if l.length < limit then some (some (l.flatMap fun b => utf8 (cp b))) else none := by
  have hc := count_toUtf8 l fun b hb => (h b hb).2
  have h3 := toUtf8_three l
  rw [← C72_utf8 l h, setName, strlen, hc]
  simp only [Option.getD_some]
  by_cases hl : l.length < limit
  · rw [if_pos hl, if_pos hl, if_pos (by omega)]
  · rw [if_neg hl, if_neg hl]

example : setName 15 45 (toUtf8 sample) = some (some (toUtf8 sample)) ∧ setName 9 27 (toUtf8 sample) = none := by
  decide +kernel

/-- **C72, violated.**  A name that begins with a byte that begins no character counts as empty: it is accepted at every
length, and from the size of the field on it is stored without its end. -/
theorem C72_invalid_violated (c : Byte) (t : List Byte) (hc : 0x80 ≤ c.toNat) (hc' : c.toNat < 0xC0) (limit : Nat)
    (hl : 0 < limit) (ht : 3 * limit ≤ t.length) : setName limit (3 * limit) (c :: t) = some none := by
  have hf : follow c = none := by
    revert hc hc'
    revert c
    intro c
    revert c
    apply byte_cases
    decide +kernel
  rw [setName, strlen, count, hf]
  simp only [Option.getD_none, if_pos hl, List.length_cons]
  rw [if_neg (by omega)]

example : setName 15 45 (0x90 :: List.replicate 45 0x41) = some none := by decide +kernel

/-- **C72, violated.**  Characters of four bytes are counted but need more room than the field has: fourteen are accepted
as the number of a tank and stored without their end. -/
theorem C72_four_violated : setName 15 45 (List.replicate 14 [0xF0, 0x9F, 0x98, 0x80]).flatten = some none := by
  decide +kernel

end Ptusa.Text
