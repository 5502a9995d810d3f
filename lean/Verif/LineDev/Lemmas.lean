import Verif.LineDev.Spec
import Verif.RecFile.Lemmas

namespace Ptusa.LineDev
open SaveDev

theorem natText_inj {a b : Nat} (h : natText a = natText b) : a = b := by
  rw [← natText_val a, h, natText_val]

/-- Letters: not empty, no digits. -/
def Letters (s : Txt) : Prop := s ≠ [] ∧ ∀ c ∈ s, c.isDigit = false

theorem split_letters {s t : Txt} (hs : ∀ c ∈ s, c.isDigit = false) (ht : ∀ c ∈ t, c.isDigit = false) (a b : Nat)
    (h : s ++ natText a = t ++ natText b) : s = t ∧ a = b := by
  induction s generalizing t with
  | nil =>
    cases t with
    | nil => exact ⟨rfl, natText_inj h⟩
    | cons c r =>
      obtain ⟨d, q, e, hd⟩ := RecFile.natText_cons' a
      rw [List.nil_append, e, List.cons_append, List.cons.injEq] at h
      rw [h.1, ht c (List.mem_cons_self ..)] at hd
      exact absurd hd (by decide)
  | cons x s ih =>
    cases t with
    | nil =>
      obtain ⟨d, q, e, hd⟩ := RecFile.natText_cons' b
      rw [List.nil_append, e, List.cons_append, List.cons.injEq] at h
      rw [← h.1, hs x (List.mem_cons_self ..)] at hd
      exact absurd hd (by decide)
    | cons c r =>
      rw [List.cons_append, List.cons_append, List.cons.injEq] at h
      obtain ⟨e1, e2⟩ := ih (fun c hc => hs c (List.mem_cons_of_mem _ hc)) (fun c hc => ht c (List.mem_cons_of_mem _ hc)) h.2
      exact ⟨by rw [h.1, e1], e2⟩

theorem dev_inj {n m a b : Nat} {s t : Txt} (hs : Letters s) (ht : Letters t)
    (h : "LINE".toList ++ natText n ++ s ++ natText a = "LINE".toList ++ natText m ++ t ++ natText b) : n = m ∧ s = t ∧ a = b := by
  simp only [List.append_assoc] at h
  have h1 := List.append_cancel_left h
  obtain ⟨c, s', rfl⟩ := List.exists_cons_of_ne_nil hs.1
  obtain ⟨d, t', rfl⟩ := List.exists_cons_of_ne_nil ht.1
  have e1 := RecFile.natText_takeWhile n c (hs.2 c (List.mem_cons_self ..)) (s' ++ natText a)
  have e2 := RecFile.natText_takeWhile m d (ht.2 d (List.mem_cons_self ..)) (t' ++ natText b)
  have h2 : natText n ++ c :: (s' ++ natText a) = natText m ++ d :: (t' ++ natText b) := h1
  rw [h2] at e1
  have hn : natText n = natText m := by
    exact e1.1.symm.trans e2.1
  rw [hn] at h1
  have h3 := List.append_cancel_left h1
  obtain ⟨e3, e4⟩ := split_letters hs.2 ht.2 a b h3
  exact ⟨natText_inj hn, e3, e4⟩

theorem place_letters (r : Own) : Letters (place r).1.toList := by
  cases r with
  | V k => exact ⟨by show "V".toList ≠ []; decide, by show ∀ c ∈ "V".toList, c.isDigit = false; decide⟩
  | _ => exact ⟨by decide, by decide⟩

theorem oldName_eq (n : Nat) (r : Own) : oldName n r = if r = .pressure then none else some (planned true n r) := by
  have c : n * 100 = 100 * n := Nat.mul_comm _ _
  cases r <;> simp [oldName, planned, place, dev, c]

theorem newName_eq (n : Nat) (r : Own) : newName n r = some (planned false n r) := by
  cases r <;> rfl

theorem natText_len {n k : Nat} (h : 10 ^ k ≤ n) : k < (natText n).length := by
  induction k generalizing n with
  | zero =>
    have := natText_ne n
    cases e : natText n with
    | nil => exact absurd e this
    | cons _ _ => simp
  | succ k ih =>
    have h10 : 10 ≤ n := by
      have : 10 ^ 1 ≤ 10 ^ (k + 1) := Nat.pow_le_pow_right (by omega) (by omega)
      omega
    rw [natText, if_neg (by omega), List.length_append, List.length_singleton]
    have : 10 ^ k ≤ n / 10 := by
      rw [Nat.le_div_iff_mul_le (by omega), ← Nat.pow_succ]
      exact h
    have := ih this
    omega

theorem natText_le {n k : Nat} (h : n < 10 ^ (k + 1)) : (natText n).length ≤ k + 1 := by
  induction k generalizing n with
  | zero =>
    rw [natText, if_pos (by omega)]
    simp
  | succ k ih =>
    rw [natText]
    by_cases c : n < 10
    · rw [if_pos c]; simp
    · rw [if_neg c, List.length_append, List.length_singleton]
      have : n / 10 < 10 ^ (k + 1) := by
        rw [Nat.div_lt_iff_lt_mul (by omega), ← Nat.pow_succ]
        exact h
      have := ih this
      omega

theorem place_le (r : Own) : (place r).1.toList.length ≤ 3 ∧ (place r).2.1 ≤ 14 ∧ (place r).2.2 ≤ 14 := by
  cases r with
  | V k => exact ⟨by simp [place], by show k.val ≤ 14; omega, by show k.val ≤ 14; omega⟩
  | _ => exact ⟨by decide, by decide, by decide⟩

theorem planned_fits {n : Nat} (hn : n < 100000) (old : Bool) (r : Own) : fits (planned old n r) = true := by
  obtain ⟨h1, h2, h3⟩ := place_le r
  have a := natText_le (n := n) (k := 4) (by omega)
  have b := natText_le (n := if old then 100 * n + (place r).2.1 else (place r).2.2) (k := 6) (by
    cases old
    · show (place r).2.2 < _; omega
    · show 100 * n + (place r).2.1 < _; omega)
  have l : (planned old n r).length = 4 + (natText n).length + (place r).1.toList.length +
      (natText (if old then 100 * n + (place r).2.1 else (place r).2.2)).length := by
    unfold planned
    simp only [List.length_append]
    rfl
  unfold fits
  rw [decide_eq_true_eq, l]
  omega

theorem dev_a (n : Nat) : dev n "V" (n * 100) = planned true n (.V 0) := by
  simp [dev, planned, place, Nat.mul_comm]

theorem dev_b (n : Nat) : dev n "V" (n * 100 + 11) = planned true n (.V 11) := by
  simp [dev, planned, place, Nat.mul_comm]

theorem form_iff (find : Find) (n : Nat) :
    ((find (dev n "V" (n * 100))).isSome && (find (dev n "V" (n * 100 + 11))).isSome) = true ↔ OldForm find n := by
  rw [dev_a, dev_b, Bool.and_eq_true, Option.isSome_iff_ne_none, Option.isSome_iff_ne_none]
  rfl

theorem search_some {find : Find} {n : Nat} {old : Bool} {l : Line} (h : search find n old = some l) :
    l.tank = (fun t => find (tankName t)) ∧
      l.NS = pump find old "M1".toList "V101".toList ∧ l.NK = pump find old "M2".toList "V102".toList := by
  unfold search at h
  by_cases c : owns.all (fun r => ((if old then oldName n else newName n) r).all fits) = true
  · rw [if_pos c] at h
    cases h
    exact ⟨rfl, rfl, rfl⟩
  · rw [if_neg c] at h
    exact absurd h (by simp)

theorem initline_some {find : Find} {n : Nat} {l : Line} (h : initline find n = some l) :
    ∃ old : Bool, (old = true ↔ OldForm find n) ∧ search find n old = some l := by
  unfold initline at h
  by_cases c : (fits (dev n "V" (n * 100)) && fits (dev n "V" (n * 100 + 11))) = true
  · rw [if_pos c] at h
    exact ⟨_, form_iff find n, h⟩
  · rw [if_neg c] at h
    exact absurd h (by simp)

/-- The place from the letters and the number. -/
def back (old : Bool) (s : Txt) (k : Nat) : Own :=
  if s = ['V'] then .V (if h : k < 14 then ⟨k, h⟩ else 0)
  else if s = ['M'] then .NP
  else if s = ['L', 'S'] then (if k = 3 then .LL else if k = 2 then .LM else .LH)
  else if s = ['T', 'E'] then (if k = 1 then .TP else .TR)
  else if s = ['F', 'Q', 'T'] then .cnt
  else if s = ['Q', 'T'] then .Q
  else if s = ['F', 'S'] then .FL
  else if s = ['V', 'C'] then .ao
  else .pressure

theorem back_place (old : Bool) (r : Own) : back old (place r).1.toList (if old then (place r).2.1 else (place r).2.2) = r := by
  cases r with
  | V k =>
    have : (if old then (place (.V k)).2.1 else (place (.V k)).2.2) = k.val := by cases old <;> rfl
    rw [this]
    show (if "V".toList = ['V'] then Own.V (if h : k.val < 14 then ⟨k.val, h⟩ else 0) else _) = _
    rw [if_pos (by decide), dif_pos k.isLt]
  | _ => cases old <;> decide

end Ptusa.LineDev
