import Verif.CipStats.Spec
import Verif.Registry.Lemmas
import Mathlib.Data.List.Perm.Subperm
import Mathlib.Data.List.Nodup

namespace Ptusa.CipStats

open Ptusa.Tcp (Byte)
open Ptusa.Registry (Name cmp cmp_eq cmp_lt cmp_gt cmp_self)

/-! ### Numbers -/

theorem byte_digit (d : Nat) (h : d < 10) : (BitVec.ofNat 8 (48 + d)).toNat = 48 + d := by
  simp only [BitVec.toNat_ofNat]; omega

theorem isDigit_digit (d : Nat) (h : d < 10) : isDigit (BitVec.ofNat 8 (48 + d)) = true := by
  simp only [isDigit, byte_digit d h, Bool.and_eq_true, decide_eq_true_eq]; omega

theorem number_snoc (l : List Byte) (d : Byte) : number (l ++ [d]) = 10 * number l + (d.toNat - 48) := by
  simp [number, List.foldl_append]

theorem dec_ne (n : Nat) : dec n ≠ [] := by
  unfold dec; split <;> simp

theorem dec_digits (n : Nat) : ∀ x ∈ dec n, isDigit x = true := by
  induction n using Nat.strongRecOn with
  | _ n ih =>
    unfold dec
    split
    · next h => intro x hx; simp only [List.mem_singleton] at hx; subst hx; exact isDigit_digit n h
    · next h =>
      intro x hx
      rcases List.mem_append.1 hx with hx | hx
      · exact ih (n / 10) (by omega) x hx
      · simp only [List.mem_singleton] at hx; subst hx; exact isDigit_digit _ (by omega)

theorem dec_number (n : Nat) : number (dec n) = n := by
  induction n using Nat.strongRecOn with
  | _ n ih =>
    unfold dec
    split
    · next h => simp only [number, List.foldl_cons, List.foldl_nil, byte_digit n h]; omega
    · next h => rw [number_snoc, ih (n / 10) (by omega), byte_digit _ (by omega)]; omega

theorem foldl_mono (l : List Byte) (a : Nat) : a ≤ l.foldl (fun n d => 10 * n + (d.toNat - 48)) a := by
  induction l generalizing a with
  | nil => simp
  | cons x l ih => simp only [List.foldl_cons]; have := ih (10 * a + (x.toNat - 48)); omega

theorem number_prefix {p l : List Byte} (h : p <+: l) : number p ≤ number l := by
  obtain ⟨z, rfl⟩ := h
  simp only [number, List.foldl_append]
  exact foldl_mono z _

theorem decInt_nat (n : Nat) : decInt (n : Int) = dec n := by
  simp [decInt]

theorem decInt_nonneg (i : Int) (h : 0 ≤ i) : decInt i = dec i.toNat := by
  obtain ⟨n, rfl⟩ := Int.eq_ofNat_of_zero_le h
  simpa using decInt_nat n

/-! ### Streams -/

theorem digit_not_ws {x : Byte} (h : isDigit x = true) : isWs x = false := by
  simp only [isDigit, Bool.and_eq_true, decide_eq_true_eq] at h
  simp only [isWs, Bool.or_eq_false_iff, Bool.and_eq_false_iff, decide_eq_false_iff_not, beq_eq_false_iff_ne]
  refine ⟨?_, by omega⟩
  rintro rfl
  simp at h

theorem digit_not_sign {x : Byte} (h : isDigit x = true) : ¬ (x = 0x2D ∨ x = 0x2B) := by
  rintro (rfl | rfl) <;> simp [isDigit] at h

/-- A prefix of a list in two parts. -/
theorem prefix_split {p a b : List Byte} (h : p <+: a ++ b) :
    (p <+: a ∧ p.length ≤ a.length) ∨ ∃ z, p = a ++ z ∧ z <+: b ∧ z ≠ [] := by
  obtain ⟨q, hq⟩ := h
  rcases List.append_eq_append_iff.1 hq with ⟨c, h1, h2⟩ | ⟨c, h1, h2⟩
  · left; subst h1; exact ⟨List.prefix_append _ _, by simp⟩
  · cases c with
    | nil => left; simp at h1; subst h1; exact ⟨List.prefix_rfl, Nat.le_refl _⟩
    | cons x c => right; exact ⟨x :: c, h1, ⟨q, h2.symm⟩, by simp⟩

theorem dropWhile_ws {w : List Byte} (hw : ∀ x ∈ w, isWs x = true) (l : List Byte) :
    (w ++ l).dropWhile isWs = l.dropWhile isWs := by
  induction w with
  | nil => rfl
  | cons x w ih =>
    simp only [List.cons_append, List.dropWhile_cons, hw x (List.mem_cons_self ..), ↓reduceIte]
    exact ih fun y hy => hw y (List.mem_cons_of_mem _ hy)

theorem takeWhile_digits {d : List Byte} (hd : ∀ x ∈ d, isDigit x = true) (l : List Byte) :
    (d ++ l).takeWhile isDigit = d ++ l.takeWhile isDigit ∧ (d ++ l).dropWhile isDigit = l.dropWhile isDigit := by
  induction d with
  | nil => simp
  | cons x d ih =>
    have h := ih fun y hy => hd y (List.mem_cons_of_mem _ hy)
    simp [List.takeWhile_cons, List.dropWhile_cons, hd x (List.mem_cons_self ..), h]

/-- A number at the place of the stream, with something that is no digit behind it. -/
theorem int_num {w d r : List Byte} (hw : ∀ x ∈ w, isWs x = true) (hd : ∀ x ∈ d, isDigit x = true) (hne : d ≠ [])
    (hr : r.takeWhile isDigit = []) (hm : number d ≤ 2147483647) (old : Int) :
    (In.mk (w ++ (d ++ r)) true).int old = (⟨r, !r.isEmpty⟩, (number d : Int)) := by
  obtain ⟨x, d', rfl⟩ := List.exists_cons_of_ne_nil hne
  have hx := hd x (List.mem_cons_self ..)
  have hdr : r.dropWhile isDigit = r := by
    cases r with
    | nil => rfl
    | cons y r =>
      simp only [List.takeWhile_cons] at hr
      split at hr
      · simp at hr
      · next h => simp [List.dropWhile_cons, h]
  have ht := takeWhile_digits hd r
  have hs := digit_not_sign hx
  have hs1 : ¬ x = 0x2D := fun h => hs (Or.inl h)
  have hs2 : ¬ x = 0x2B := fun h => hs (Or.inr h)
  simp only [In.int, Bool.true_eq_false, ↓reduceIte]
  have hdw : (x :: d' ++ r).dropWhile isWs = x :: (d' ++ r) := by
    simp [List.dropWhile_cons, digit_not_ws hx]
  rw [dropWhile_ws hw, hdw]
  simp only [↓reduceIte, hs1, hs2, or_self]
  rw [List.cons_append] at ht
  rw [ht.1, ht.2, hr, hdr, List.append_nil]
  have h1 : ¬ ((number (x :: d') : Int) < -2147483648) := by omega
  have h2 : ¬ (2147483647 < (number (x :: d') : Int)) := by omega
  simp [h1, h2]

theorem int_fail (s : In) (h : s.ok = false) (old : Int) : s.int old = (s, old) := by simp [In.int, h]

theorem char_fail (s : In) (h : s.ok = false) : s.char = s := by simp [In.char, h]

theorem text_fail (s : In) (h : s.ok = false) (b : List Byte) (sl : Int) :
    s.text b sl = some (s, if 0 ≤ sl ∧ sl < b.length then b.set sl.toNat 0 else b) := by
  simp [In.text, h]

theorem field_fail (s : In) (h : s.ok = false) (b : List Byte) (sl : Int) :
    s.field b sl = some (s, (if 0 ≤ sl ∧ sl < b.length then b.set sl.toNat 0 else b), sl) := by
  simp [In.field, char_fail s h, int_fail s h, text_fail s h]

theorem char_num {c : Byte} (hc : isWs c = false) (r : List Byte) : (In.mk (c :: r) true).char = ⟨r, true⟩ := by
  simp [In.char, List.dropWhile_cons, hc]

/-! ### The end of what is written -/

/-- `s` reads what `r` is, as far as it goes. -/
def Pre (s : In) (r : List Byte) : Prop := s.ok = false ∨ s.ok = true ∧ s.rest <+: r

theorem pre_fail {s : In} (h : s.ok = false) (r : List Byte) : Pre s r := Or.inl h

theorem dropWhile_all {p : List Byte} (h : ∀ x ∈ p, isWs x = true) : p.dropWhile isWs = [] := by
  have := dropWhile_ws h []
  simpa using this

theorem int_pre {s : In} {w r : List Byte} {n : Nat} (hw : ∀ x ∈ w, isWs x = true) (hr : r.takeWhile isDigit = [])
    (hm : n ≤ 2147483647) (h : Pre s (w ++ (dec n ++ r))) (old : Int) :
    Pre (s.int old).1 r ∧ ((s.int old).2 = old ∨ 0 ≤ (s.int old).2 ∧ (s.int old).2 ≤ n) ∧
      ((s.int old).1.ok = true → (s.int old).2 = n) := by
  obtain ⟨rest, ok⟩ := s
  rcases h with h | ⟨h, hp⟩
  · rw [int_fail _ h]; exact ⟨Or.inl h, Or.inl rfl, fun hh => by rw [h] at hh; cases hh⟩
  simp only at h hp
  subst h
  rcases prefix_split hp with ⟨h1, -⟩ | ⟨z, rfl, hz, hzne⟩
  · have : rest.dropWhile isWs = [] := dropWhile_all fun x hx => hw x (h1.subset hx)
    simp [In.int, this, Pre]
  rcases prefix_split hz with ⟨h1, -⟩ | ⟨y, rfl, hy, hyne⟩
  · have hd : ∀ x ∈ z, isDigit x = true := fun x hx => dec_digits n x (h1.subset hx)
    have hnum : number z ≤ n := by have := number_prefix h1; rwa [dec_number] at this
    have := int_num hw hd hzne (r := []) rfl (by omega) old
    simp only [List.append_nil] at this
    rw [this]
    simp [Pre]
    omega
  · have hy' : y.takeWhile isDigit = [] := by
      obtain ⟨q, rfl⟩ := hy
      cases y with
      | nil => rfl
      | cons c y =>
        simp only [List.cons_append, List.takeWhile_cons] at hr ⊢
        split at hr <;> simp_all
    rw [int_num hw (dec_digits n) (dec_ne n) hy' (by rw [dec_number]; exact hm) old, dec_number]
    refine ⟨Or.inr ⟨?_, hy⟩, Or.inr ⟨by simp, by simp⟩, fun _ => rfl⟩
    cases y <;> simp_all

theorem char_pre {s : In} {c : Byte} {r : List Byte} (hc : isWs c = false) (h : Pre s (c :: r)) : Pre s.char r := by
  obtain ⟨rest, ok⟩ := s
  rcases h with h | ⟨h, hp⟩
  · rw [char_fail _ h]; exact Or.inl h
  simp only at h hp
  subst h
  cases rest with
  | nil => simp [In.char, Pre]
  | cons x t =>
    obtain ⟨q, hq⟩ := hp
    simp only [List.cons_append, List.cons.injEq] at hq
    obtain ⟨rfl, rfl⟩ := hq
    rw [char_num hc]
    exact Or.inr ⟨rfl, List.prefix_append _ _⟩

theorem mem_set_zero {b : List Byte} (h : (0 : Byte) ∈ b) (k : Nat) : (0 : Byte) ∈ b.set k 0 := by
  obtain ⟨i, hi, he⟩ := List.getElem_of_mem h
  refine List.mem_of_getElem? (i := i) ?_
  rw [List.getElem?_set]
  split
  · next h => subst h; simp [hi]
  · rw [List.getElem?_eq_getElem hi, he]

/-- Reading a text of which a part is there. -/
theorem text_pre {s : In} {b str r : List Byte} (hb : (0 : Byte) ∈ b) (hl : str.length < b.length) (h : Pre s (str ++ r))
    (sl : Int) (hsl : s.ok = true → sl = str.length) :
    ∃ s' b', s.text b sl = some (s', b') ∧ Pre s' r ∧ b'.length = b.length ∧ (0 : Byte) ∈ b' := by
  obtain ⟨rest, ok⟩ := s
  rcases h with h | ⟨h, hp⟩
  · rw [text_fail _ h]
    refine ⟨_, _, rfl, Or.inl h, ?_, ?_⟩
    · split <;> simp
    · split
      · exact mem_set_zero hb _
      · exact hb
  simp only at h hp hsl
  subst h
  have hsl := hsl rfl
  subst hsl
  have hlen : (rest.take str.length).length ≤ str.length := by simp; omega
  have hcond : (0 : Int) ≤ str.length ∧ (str.length : Int) < b.length := ⟨by omega, by omega⟩
  refine ⟨⟨rest.drop (rest.take str.length).length, decide (((rest.take str.length).length : Int) = str.length)⟩,
    (rest.take str.length ++ b.drop (rest.take str.length).length).set str.length 0, ?_, ?_, ?_, ?_⟩
  · simp only [In.text, ↓reduceIte, Int.toNat_natCast]
    rw [if_neg (by omega), if_pos hcond]
  · by_cases hf : (rest.take str.length).length = str.length
    · refine Or.inr ⟨by simp [hf], ?_⟩
      rcases prefix_split hp with ⟨h1, h2⟩ | ⟨z, rfl, hz, -⟩
      · have : rest.length ≤ (rest.take str.length).length := by simp at hf ⊢; omega
        rw [show rest.drop (rest.take str.length).length = [] from List.drop_eq_nil_of_le this]
        exact List.nil_prefix
      · simpa using hz
    · exact Or.inl (by simp only [decide_eq_false_iff_not]; omega)
  · simp only [List.length_set, List.length_append, List.length_drop]; omega
  · refine List.mem_of_getElem? (i := str.length) ?_
    rw [List.getElem?_set_self]
    simp only [List.length_append, List.length_drop]; omega

/-- A text of a record as it is written. -/
def fieldBytes (str : List Byte) : List Byte := 0x23 :: (dec str.length ++ 0x23 :: str)

theorem sharp_not_digit (l : List Byte) : (0x23 :: l : List Byte).takeWhile isDigit = [] := by
  simp [List.takeWhile_cons, isDigit]

theorem sharp_not_ws : isWs (0x23 : Byte) = false := by decide

theorem field_pre {s : In} {b str r : List Byte} (hb : (0 : Byte) ∈ b) (hl : str.length < b.length)
    (hmax : b.length ≤ 2147483647) (h : Pre s (fieldBytes str ++ r)) (sl : Int) :
    ∃ s' b' sl', s.field b sl = some (s', b', sl') ∧ Pre s' r ∧ b'.length = b.length ∧ (0 : Byte) ∈ b' := by
  simp only [fieldBytes, List.cons_append, List.append_assoc] at h
  have h1 := char_pre sharp_not_ws h
  have h2 := int_pre (w := []) (by simp) (sharp_not_digit _) (by omega) h1 sl
  have h3 := char_pre sharp_not_ws h2.1
  obtain ⟨s', b', e, g1, g2, g3⟩ := text_pre hb hl h3 (s.char.int sl).2 (by
    intro hok
    apply h2.2.2
    by_contra hn
    have hn := Bool.eq_false_iff.2 hn
    rw [char_fail _ hn, hn] at hok
    cases hok)
  refine ⟨s', b', (s.char.int sl).2, ?_, g1, g2, g3⟩
  simp only [In.field]
  rw [e]
  rfl

/-- Reading a text that is there. -/
theorem field_num {b str r : List Byte} (hl : str.length < b.length) (hmax : b.length ≤ 2147483647) (sl : Int) :
    (In.mk (fieldBytes str ++ r) true).field b sl
      = some (⟨r, true⟩, str ++ 0 :: b.drop (str.length + 1), (str.length : Int)) := by
  simp only [fieldBytes, List.cons_append, List.append_assoc, In.field]
  rw [char_num sharp_not_ws]
  have := int_num (w := []) (d := dec str.length) (r := 0x23 :: (str ++ r)) (by simp) (dec_digits _) (dec_ne _)
    (sharp_not_digit _) (by rw [dec_number]; omega) sl
  simp only [List.nil_append] at this
  rw [this, dec_number]
  simp only [List.isEmpty_cons, Bool.not_false, char_num sharp_not_ws]
  have ht : (str ++ r).take str.length = str := by simp
  have hcond : (0 : Int) ≤ str.length ∧ (str.length : Int) < b.length := ⟨by omega, by omega⟩
  simp only [In.text, ↓reduceIte, Int.toNat_natCast, ht]
  rw [if_neg (by omega), if_pos hcond]
  have hd : b.drop str.length = b[str.length] :: b.drop (str.length + 1) := by simp
  rw [hd, List.set_append_right _ _ (Nat.le_refl _), Nat.sub_self, List.set_cons_zero]
  simp

end Ptusa.CipStats
