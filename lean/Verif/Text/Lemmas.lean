import Verif.Text.Spec

/-!
# Lemmas on conversions of texts
-/
namespace Ptusa.Text

theorem byte_cases (P : Byte → Prop) (h : ∀ n : Fin 256, P (BitVec.ofNat 8 n.val)) (b : Byte) : P b := by
  have hb := h ⟨b.toNat, b.isLt⟩
  simpa using hb

theorem encode_cp (b : Byte) (h : b ≠ 0x98) : encode b = utf8 (cp b) ∧ wide b = cp b := by
  revert h
  revert b
  apply byte_cases
  decide +kernel

theorem encode_cases (b : Byte) : Plain b →
    (b.toNat < 128 ∧ encode b = [b]) ∨
    (b = 0xB9 ∧ encode b = [0xE2, 0x84, 0x96]) ∨
    (128 ≤ (utf8 (cp b)).head!.toNat ∧ (utf8 (cp b)).head! &&& 0x20 = 0 ∧ (utf8 (cp b)).head! ≠ 0xE2 ∧
      letter (((utf8 (cp b)).head! &&& 0x1F).toNat * 64 + ((utf8 (cp b)).getLast! &&& 0x3F).toNat) = some b ∧
      encode b = [(utf8 (cp b)).head!, (utf8 (cp b)).getLast!]) := by
  revert b
  apply byte_cases
  decide +kernel

theorem conv_nil (k : Nat) : conv k [] = some (true, []) := by
  cases k <;> simp [conv]

/-- One plain character in front of a text. -/
theorem conv_encode (b : Byte) (hb : Plain b) (k : Nat) (t : List Byte) (hk : (encode b).length ≤ k) :
    conv k (encode b ++ t) = (conv (k - (encode b).length) t).map fun r => (r.1, b :: r.2) := by
  rcases encode_cases b hb with ⟨h, he⟩ | ⟨h, he⟩ | ⟨h1, h2, h3, h4, he⟩
  · rw [he] at hk ⊢
    obtain ⟨k, rfl⟩ : ∃ m, k = m + 1 := ⟨k - 1, by simp at hk; omega⟩
    have hne : b ≠ 0xE2 := by rintro rfl; simp at h
    cases t with
    | nil => simp [conv, h, conv_nil]
    | cons s t =>
      simp only [List.cons_append, List.nil_append, conv]
      rw [if_neg (fun hh => hne hh.1), if_pos h]
      simp
  · rw [he] at hk ⊢
    obtain ⟨k, rfl⟩ : ∃ m, k = m + 1 := ⟨k - 1, by simp at hk; omega⟩
    simp [conv, h]
  · rw [he] at hk ⊢
    obtain ⟨k, rfl⟩ : ∃ m, k = m + 1 := ⟨k - 1, by simp at hk; omega⟩
    generalize (utf8 (cp b)).head! = p at *
    generalize (utf8 (cp b)).getLast! = s at *
    have h1' : ¬ p.toNat < 128 := by omega
    simp only [List.cons_append, List.nil_append, conv]
    rw [if_neg (fun hh => h3 hh.1), if_neg h1', if_pos h2, h4]
    simp

/-- A plain text in front of anything. -/
theorem conv_plain (l : List Byte) (hl : ∀ b ∈ l, Plain b) (k : Nat) (t : List Byte) (hk : (toUtf8 l).length ≤ k) :
    conv k (toUtf8 l ++ t) = (conv (k - (toUtf8 l).length) t).map fun r => (r.1, l ++ r.2) := by
  induction l generalizing k with
  | nil => simp [toUtf8]
  | cons b l ih =>
    have hc : toUtf8 (b :: l) = encode b ++ toUtf8 l := by simp [toUtf8]
    rw [hc] at hk ⊢
    rw [List.length_append] at hk ⊢
    rw [List.append_assoc, conv_encode b (hl b (by simp)) k _ (by omega),
      ih (fun c h => hl c (by simp [h])) _ (by omega), Option.map_map, Nat.sub_sub]
    congr 1

theorem encode_length (b : Byte) : b ≠ 0x98 → 1 ≤ (encode b).length := by
  revert b
  apply byte_cases
  decide +kernel

theorem toUtf8_length (l : List Byte) (h : ∀ b ∈ l, b ≠ 0x98) : l.length ≤ (toUtf8 l).length := by
  induction l with
  | nil => simp
  | cons b l ih =>
    have hc : toUtf8 (b :: l) = encode b ++ toUtf8 l := by simp [toUtf8]
    have h1 := encode_length b (h b (by simp))
    have h2 := ih (fun c hc => h c (by simp [hc]))
    rw [hc, List.length_append, List.length_cons]
    omega

/-- A sign of three bytes stops the conversion. -/
theorem encode_sign (b : Byte) : isSign b → ∃ p s r, encode b = [p, s, r] ∧ 128 ≤ p.toNat ∧ p &&& 0x20 ≠ 0 ∧
    ¬ (p = 0xE2 ∧ s = 0x84 ∧ r = 0x96) := by
  intro h
  have hd : isSign b → (encode b).length = 3 ∧ 128 ≤ ((encode b).getD 0 0).toNat ∧ (encode b).getD 0 0 &&& 0x20 ≠ 0 ∧
      ¬ ((encode b).getD 0 0 = 0xE2 ∧ (encode b).getD 1 0 = 0x84 ∧ (encode b).getD 2 0 = 0x96) := by
    revert b
    intro b _
    revert b
    apply byte_cases
    decide +kernel
  obtain ⟨h0, h1, h2, h3⟩ := hd h
  match he : encode b, h0 with
  | [p, s, r], _ =>
    rw [he] at h1 h2 h3
    exact ⟨p, s, r, rfl, h1, h2, h3⟩

theorem conv_sign (b : Byte) (hb : isSign b) (k : Nat) (t : List Byte) (hk : 1 ≤ k) :
    conv k (encode b ++ t) = some (false, []) := by
  obtain ⟨p, s, r, he, h1, h2, h3⟩ := encode_sign b hb
  obtain ⟨k, rfl⟩ : ∃ m, k = m + 1 := ⟨k - 1, by omega⟩
  rw [he]
  simp only [List.cons_append, List.nil_append, conv]
  rw [if_neg (by simpa using h3), if_neg (by omega), if_neg h2]

theorem narrow_wide (b : Byte) : b ≠ 0x98 → narrow (wide b) = b ∧ (b ≠ 0 → wide b ≠ 0) := by
  revert b
  apply byte_cases
  decide +kernel

theorem fromWide_toWide (l : List Byte) (h : IsText l) (n : Nat) (hn : l.length < n) (t : List Nat) :
    fromWide n (l.map wide ++ 0 :: t) = l := by
  induction l generalizing n with
  | nil =>
    match n, hn with
    | 1, _ => rfl
    | n + 2, _ => simp [fromWide]
  | cons b l ih =>
    have hb := h b (by simp)
    have hw := narrow_wide b hb.2
    match n, hn with
    | n + 2, hn =>
      simp only [List.map_cons, List.cons_append, fromWide]
      rw [if_neg (hw.2 hb.1), hw.1, if_neg hb.1, ih (fun c hc => h c (by simp [hc])) (n + 1) (by simp at hn; omega)]

theorem follow_encode (b : Byte) : b ≠ 0x98 → follow ((encode b).getD 0 0) = some ((encode b).length - 1) := by
  revert b
  apply byte_cases
  decide +kernel

theorem count_encode (b : Byte) (h : b ≠ 0x98) (t : List Byte) : count (encode b ++ t) = (count t).map (· + 1) := by
  have hf := follow_encode b h
  have hl := encode_length b h
  match he : encode b, hl with
  | c :: r, _ =>
    rw [he] at hf
    simp only [List.getD_cons_zero, List.length_cons, Nat.add_sub_cancel] at hf
    rw [List.cons_append, count, hf]
    simp

theorem count_toUtf8 (l : List Byte) (h : ∀ b ∈ l, b ≠ 0x98) : count (toUtf8 l) = some l.length := by
  induction l with
  | nil => simp [toUtf8, count]
  | cons b l ih =>
    have hc : toUtf8 (b :: l) = encode b ++ toUtf8 l := by simp [toUtf8]
    rw [hc, count_encode b (h b (by simp)), ih (fun c hc => h c (by simp [hc]))]
    rfl

theorem encode_three (b : Byte) : (encode b).length ≤ 3 := by
  revert b
  apply byte_cases
  decide +kernel

theorem toUtf8_three (l : List Byte) : (toUtf8 l).length ≤ 3 * l.length := by
  induction l with
  | nil => simp [toUtf8]
  | cons b l ih =>
    have hc : toUtf8 (b :: l) = encode b ++ toUtf8 l := by simp [toUtf8]
    have := encode_three b
    rw [hc, List.length_append, List.length_cons]
    omega

end Ptusa.Text
