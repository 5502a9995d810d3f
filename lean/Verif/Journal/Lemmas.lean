import Verif.Journal.Model
import Verif.SaveDev.Lemmas

namespace Ptusa.Journal
open SaveDev (Txt intText natText digitsVal)

theorem format_cons (c : Char) (f : Txt) (as : List Arg) (h : c ≠ '%') : format (c :: f) as = (format f as).map (c :: ·) := by
  cases f with
  | nil => exact if_neg h
  | cons d f => exact if_neg h

theorem format_conv (d : Char) (f : Txt) (as : List Arg) : format ('%' :: d :: f) as = (conv d as).bind fun r => (format f r.2).map (r.1 ++ ·) :=
  if_pos rfl

theorem format_s (f : Txt) (t : Txt) (as : List Arg) : format ('%' :: 's' :: f) (.str t :: as) = (format f as).map (t ++ ·) := by
  rw [format_conv]
  rfl

theorem format_d (f : Txt) (z : Int) (as : List Arg) : format ('%' :: 'd' :: f) (.int z :: as) = (format f as).map (intText z ++ ·) := by
  rw [format_conv]
  rfl

theorem format_plain (a : Txt) (f : Txt) (as : List Arg) (h : '%' ∉ a) : format (a ++ f) as = (format f as).map (a ++ ·) := by
  induction a with
  | nil => simp
  | cons c a ih =>
    rw [List.cons_append, format_cons c _ _ (fun e => h (by simp [e])), ih (fun e => h (by simp [e])), Option.map_map]
    rfl

theorem format_text (a : Txt) (as : List Arg) (h : '%' ∉ a) : format a as = some a := by
  have := format_plain a [] as h
  rw [List.append_nil] at this
  rw [this]
  simp [format]

theorem format_bad (c : Char) (b : Txt) (h : c ≠ '%') : format ('%' :: c :: b) [] = none := by
  rw [format_conv]
  unfold conv
  rw [if_neg h]
  by_cases c1 : c = 's'
  · rw [if_pos c1]
    rfl
  rw [if_neg c1]
  by_cases c2 : c = 'd'
  · rw [if_pos c2]
    rfl
  rw [if_neg c2]
  rfl

theorem oneLine_eq (t : Txt) (c : Char) : oneLine (t ++ [c]) = t.map (fun x => if x = '\n' then ';' else x) ++ [c] := by
  induction t with
  | nil => rfl
  | cons x t ih =>
    cases t with
    | nil => rfl
    | cons y t => exact congrArg _ ih

theorem oneLine_plain (t : Txt) (h : '\n' ∉ t) : oneLine t = t := by
  induction t with
  | nil => rfl
  | cons x t ih =>
    cases t with
    | nil => rfl
    | cons y t =>
      show (if x = '\n' then ';' else x) :: oneLine (y :: t) = _
      rw [if_neg (fun e => h (by simp [e])), ih (fun e => h (by simp [e]))]

theorem digits_eq (t : Txt) (ht : ∀ c u, t = c :: u → c.isDigit = false) (l : Txt) (acc : Nat) (h : ∀ c ∈ l, c.isDigit = true) :
    digits acc (l ++ t) = l.foldl (fun a c => 10 * a + (c.toNat - 48)) acc := by
  induction l generalizing acc with
  | nil =>
    cases t with
    | nil => rfl
    | cons c u =>
      show (if c.isDigit = true then _ else acc) = acc
      rw [if_neg (by rw [ht c u rfl]; simp)]
  | cons c l ih =>
    show (if c.isDigit = true then _ else acc) = _
    rw [if_pos (h c (by simp))]
    exact ih _ (fun d hd => h d (by simp [hd]))

theorem blank_digit (c : Char) (h : isBlank c = true) : c.isDigit = false := by
  simp only [isBlank, Bool.or_eq_true, decide_eq_true_eq] at h
  rcases h with ((((rfl | rfl) | rfl) | rfl) | rfl) | rfl <;> decide

theorem dropBlanks (b t : Txt) (hb : ∀ c ∈ b, isBlank c = true) (ht : ∀ c u, t = c :: u → isBlank c = false) : (b ++ t).dropWhile isBlank = t := by
  induction b with
  | nil =>
    cases t with
    | nil => rfl
    | cons c u => rw [List.nil_append, List.dropWhile_cons, ht c u rfl]; rfl
  | cons c b ih => rw [List.cons_append, List.dropWhile_cons, if_pos (hb c (by simp)), ih (fun d hd => hb d (by simp [hd]))]

theorem scanInt_nat (n : Nat) (t : Txt) (ht : ∀ c u, t = c :: u → c.isDigit = false) : scanInt (natText n ++ t) = n := by
  have hd := SaveDev.natText_digits n
  have hne := SaveDev.natText_ne n
  have : ∀ l : Txt, l ≠ [] → (∀ c ∈ l, c.isDigit = true) → scanInt (l ++ t) = digits 0 (l ++ t) := by
    intro l h1 h2
    cases l with
    | nil => exact absurd rfl h1
    | cons c l =>
      have hc := h2 c (by simp)
      have a1 : c ≠ '-' := fun e => by rw [e] at hc; exact absurd hc (by decide)
      have a2 : c ≠ '+' := fun e => by rw [e] at hc; exact absurd hc (by decide)
      rw [List.cons_append]
      unfold scanInt
      split
      · rename_i e; exact absurd (List.cons.inj e).1 a1
      · rename_i e; exact absurd (List.cons.inj e).1 a2
      · rfl
  have hw := this _ hne hd
  rw [hw, digits_eq t ht _ 0 hd]
  exact congrArg _ (SaveDev.natText_val n)

theorem firstLine_eq (l rest : Txt) (hn : '\n' ∉ l) (hl : l.length ≤ 98) : firstLine (l ++ '\n' :: rest) = l ++ ['\n'] := by
  unfold firstLine
  dsimp only
  have e : (l ++ '\n' :: rest).take 99 = l ++ '\n' :: rest.take (98 - l.length) := by
    rw [List.take_append, List.take_of_length_le (by omega), show 99 - l.length = (98 - l.length) + 1 by omega, List.take_succ_cons]
  rw [e, if_pos (by simp), List.takeWhile_append_of_pos (by
    intro c hc
    simp only [ne_eq, decide_eq_true_eq]
    exact fun x => hn (x ▸ hc))]
  simp

end Ptusa.Journal
