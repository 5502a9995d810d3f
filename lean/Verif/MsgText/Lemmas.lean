import Verif.MsgText.Spec
import Mathlib.Data.List.Induction

namespace Ptusa.MsgText
open SaveDev

theorem enc_append (a b : Txt) : enc (a ++ b) = enc a ++ enc b := List.flatMap_append ..

theorem enc_dot : enc ['.'] = [46] := by decide

theorem printed_fit {n : Nat} {t : Txt} (h : (enc t).length < n) : printed n t = enc t :=
  List.take_of_length_le (by omega)

theorem printed_length (n : Nat) (t : Txt) : (printed n t).length ≤ n - 1 := by
  unfold printed; rw [List.length_take]; omega

theorem append_length {m : List Nat} (h : m.length ≤ 599) (why : Txt) : (append m why).length ≤ 599 := by
  unfold append
  by_cases w : why = []
  · rw [if_pos w]; exact h
  · rw [if_neg w]
    show (if size - m.length - 1 = 0 then m else m.dropLast ++ printed (size - m.length - 1) (reason why)).length ≤ 599
    by_cases r : size - m.length - 1 = 0
    · rw [if_pos r]; exact h
    · rw [if_neg r, List.length_append, List.length_dropLast]
      have := printed_length (size - m.length - 1) (reason why)
      unfold size at *
      omega

/-- The appended reason takes the place of the full stop. -/
theorem append_fit (t why : Txt) (h : (enc (t ++ if why = [] then ['.'] else reason why)).length ≤ 597) :
    append (printed size (t ++ ['.'])) why = enc (t ++ if why = [] then ['.'] else reason why) := by
  unfold append
  by_cases w : why = []
  · rw [if_pos w] at h ⊢
    rw [if_pos w]
    exact printed_fit (by unfold size; omega)
  · rw [if_neg w] at h ⊢
    rw [if_neg w]
    rw [enc_append, List.length_append] at h
    have hr : 0 < (enc (reason why)).length := by
      show 0 < (enc (" - ".toList ++ why ++ ['.'])).length
      rw [enc_append, List.length_append, enc_dot]
      simp
    have hp : printed size (t ++ ['.']) = enc t ++ [46] := by
      rw [printed_fit (by rw [enc_append, enc_dot, List.length_append, List.length_singleton]; unfold size; omega), enc_append, enc_dot]
    rw [hp]
    have hl : (enc t ++ [46]).length = (enc t).length + 1 := by rw [List.length_append]; rfl
    show (if size - (enc t ++ [46]).length - 1 = 0 then enc t ++ [46]
      else (enc t ++ [46]).dropLast ++ printed (size - (enc t ++ [46]).length - 1) (reason why)) = _
    rw [hl, if_neg (by unfold size; omega), List.dropLast_concat, printed_fit (by unfold size; omega), ← enc_append]

/-- No text ends with the first byte of a longer character. -/
theorem encChar_last (c : Char) : ∃ p b, encChar c = p ++ [b] ∧ b < 0xC0 := by
  unfold encChar
  show ∃ p b, (if c.toNat < 0x80 then _ else _) = p ++ [b] ∧ _
  by_cases h1 : c.toNat < 0x80
  · rw [if_pos h1]; exact ⟨[], _, rfl, by omega⟩
  · rw [if_neg h1]
    by_cases h2 : c.toNat < 0x800
    · rw [if_pos h2]; exact ⟨[_], _, rfl, by omega⟩
    · rw [if_neg h2]
      by_cases h3 : c.toNat < 0x10000
      · rw [if_pos h3]; exact ⟨[_, _], _, rfl, by omega⟩
      · rw [if_neg h3]; exact ⟨[_, _, _], _, rfl, by omega⟩

theorem not_utf8 (m : List Nat) (b : Nat) (hb : 0xC0 ≤ b) : ¬Utf8 (m ++ [b]) := by
  rintro ⟨t, e⟩
  rcases List.eq_nil_or_concat t with rfl | ⟨t', c, rfl⟩
  · exact absurd e (by simp [enc])
  · obtain ⟨p, x, e1, e2⟩ := encChar_last c
    rw [List.concat_eq_append, enc_append] at e
    have : enc [c] = p ++ [x] := by rw [← e1]; simp [enc]
    rw [this, ← List.append_assoc] at e
    have := (List.append_inj' e rfl).2
    simp only [List.cons.injEq, and_true] at this
    omega

/-- `я` many times, cut after an odd number of bytes. -/
theorem enc_ya (n : Nat) : enc (List.replicate n 'я') = (List.replicate n [0xD1, 0x8F]).flatten := by
  induction n with
  | zero => rfl
  | succ n ih =>
    rw [List.replicate_succ, List.replicate_succ, List.flatten_cons, ← ih]
    rfl

theorem take_ya (n j : Nat) (h : j < n) (r : List Nat) :
    ((List.replicate n [0xD1, 0x8F]).flatten ++ r).take (2 * j + 1) = (List.replicate j [0xD1, 0x8F]).flatten ++ [0xD1] := by
  induction j generalizing n with
  | zero =>
    obtain ⟨n, rfl⟩ : ∃ k, n = k + 1 := ⟨n - 1, by omega⟩
    rfl
  | succ j ih =>
    obtain ⟨n, rfl⟩ : ∃ k, n = k + 1 := ⟨n - 1, by omega⟩
    rw [List.replicate_succ, List.replicate_succ, List.flatten_cons, List.flatten_cons]
    show 0xD1 :: 0x8F :: (((List.replicate n [0xD1, 0x8F]).flatten ++ r).take (2 * j + 1)) = _
    rw [ih n (by omega)]
    rfl

/-! ### The list -/

theorem run_snoc (h : List Ev) (e : Ev) : run (h ++ [e]) = step (run h) e := by simp [run, List.foldl_append]

theorem unacked_post (h : List Ev) (n : Nat) (k : Kind) : unacked (h ++ [.post n k]) = unacked h ++ [(n, k)] := by
  induction h with
  | nil => simp [unacked]
  | cons e t ih =>
    cases e with
    | ack m => exact ih
    | post m j =>
      have c : (Ev.ack m ∈ t ++ [.post n k]) ↔ Ev.ack m ∈ t := by simp
      show (if Ev.ack m ∈ t ++ [.post n k] then _ else _) = (if Ev.ack m ∈ t then _ else _) ++ _
      by_cases w : Ev.ack m ∈ t
      · rw [if_pos w, if_pos (c.2 w)]; exact ih
      · rw [if_neg w, if_neg (fun x => w (c.1 x))]; exact congrArg ((m, j) :: ·) ih

theorem unacked_ack (h : List Ev) (n : Nat) : unacked (h ++ [.ack n]) = (unacked h).filter fun e => e.1 != n := by
  induction h with
  | nil => rfl
  | cons e t ih =>
    cases e with
    | ack m => exact ih
    | post m j =>
      show (if Ev.ack m ∈ t ++ [.ack n] then unacked (t ++ [.ack n]) else (m, j) :: unacked (t ++ [.ack n])) =
        (if Ev.ack m ∈ t then unacked t else (m, j) :: unacked t).filter _
      rw [ih]
      by_cases w : Ev.ack m ∈ t
      · rw [if_pos w, if_pos (by simp [w])]
      · rw [if_neg w]
        by_cases e : m = n
        · subst e
          rw [if_pos (by simp), List.filter_cons_of_neg (by simp)]
        · rw [if_neg (by simp [w, e]), List.filter_cons_of_pos (by simp [e])]

theorem unacked_numbers (h : List Ev) : ((unacked h).map Prod.fst).Sublist (numbers h) := by
  induction h with
  | nil => exact List.Sublist.refl _
  | cons e t ih =>
    cases e with
    | ack m => exact ih
    | post m j =>
      show ((if Ev.ack m ∈ t then unacked t else (m, j) :: unacked t).map Prod.fst).Sublist (m :: numbers t)
      by_cases w : Ev.ack m ∈ t
      · rw [if_pos w]; exact ih.cons _
      · rw [if_neg w]; exact ih.cons_cons _

theorem numbers_append (a b : List Ev) : numbers (a ++ b) = numbers a ++ numbers b := by
  induction a with
  | nil => rfl
  | cons e t ih => cases e <;> simp [numbers, ih]

theorem erase_filter (l : List (Nat × Kind)) (n : Nat) (h : (l.map Prod.fst).Nodup) :
    l.eraseP (fun e => e.1 == n) = l.filter fun e => e.1 != n := by
  induction l with
  | nil => rfl
  | cons e t ih =>
    rw [List.map_cons, List.nodup_cons] at h
    by_cases c : e.1 = n
    · rw [List.eraseP_cons_of_pos (by simp [c]), List.filter_cons_of_neg (by simp [c])]
      symm
      rw [List.filter_eq_self]
      intro x hx
      rw [bne_iff_ne]
      intro y
      exact h.1 (by rw [c, ← y]; exact List.mem_map_of_mem hx)
    · rw [List.eraseP_cons_of_neg (by simp [c]), List.filter_cons_of_pos (by simp [c]), ih h.2]

theorem run_unacked (h : List Ev) (hn : (numbers h).Nodup) (hc : NotCrowded h) : run h = unacked h := by
  induction h using List.reverseRecOn with
  | nil => rfl
  | append_singleton h e ih =>
    rw [numbers_append] at hn
    have i := ih (List.nodup_append.1 hn).1 (fun a n k b x => hc a n k (b ++ [e]) (by rw [x]; simp))
    rw [run_snoc, i]
    cases e with
    | post n k =>
      rw [unacked_post]
      exact if_pos (hc h n k [] rfl)
    | ack n =>
      rw [unacked_ack]
      exact erase_filter _ _ ((unacked_numbers h).nodup (List.nodup_append.1 hn).1)

theorem step_full (l : List (Nat × Kind)) (hl : l.length = 10) (more : List (Nat × Kind)) :
    (more.map fun e => Ev.post e.1 e.2).foldl step l = l := by
  induction more with
  | nil => rfl
  | cons e t ih =>
    show (t.map fun e => Ev.post e.1 e.2).foldl step (if l.length < maxErrors then _ else l) = l
    rw [if_neg (by unfold maxErrors; omega)]
    exact ih

theorem run_posts (l : List (Nat × Kind)) (a : List (Nat × Kind)) (h : a.length + l.length ≤ 10) :
    (l.map fun e => Ev.post e.1 e.2).foldl step a = a ++ l := by
  induction l generalizing a with
  | nil => simp
  | cons e t ih =>
    rw [List.length_cons] at h
    show (t.map fun e => Ev.post e.1 e.2).foldl step (if a.length < maxErrors then a ++ [(e.1, e.2)] else a) = _
    rw [if_pos (by unfold maxErrors; omega), ih _ (by rw [List.length_append, List.length_singleton]; omega)]
    simp

end Ptusa.MsgText
