import Verif.TextFile.Spec

namespace Ptusa.TextFile

open Spec

theorem not_snoc {x c : Byte} {l : List Byte} (h : x ∉ l) (hc : c ≠ x) : x ∉ l ++ [c] := by
  intro e
  rcases List.mem_append.mp e with e | e
  · exact h e
  · exact hc (List.mem_singleton.mp e).symm

theorem not_one {x c : Byte} (h : x ≠ c) : x ∉ [c] := fun e => h (List.mem_singleton.mp e)

/-- The loop stops at the first line feed. -/
theorem loop_full (a rest acc : List Byte) (ha : 10 ∉ a) (hacc : 10 ∉ acc) (hl : acc.length + a.length + 1 < size) :
    loop (a ++ [10] ++ rest) acc = acc ++ a ++ [10] := by
  induction a generalizing acc with
  | nil =>
    show loop (10 :: rest) acc = _
    unfold loop
    rw [if_neg fun h => hacc (List.mem_of_getLast? h)]
    simp only
    rw [if_neg (by simp at hl ⊢; omega)]
    cases rest with
    | nil => simp [loop]
    | cons c r => unfold loop; rw [if_pos (by simp)]; simp
  | cons c a ih =>
    have hc : c ≠ 10 := fun h => ha (h ▸ List.mem_cons_self)
    have ha' : 10 ∉ a := fun h => ha (List.mem_cons_of_mem _ h)
    show loop (c :: (a ++ [10] ++ rest)) acc = _
    unfold loop
    rw [if_neg fun h => hacc (List.mem_of_getLast? h)]
    simp only
    simp only [List.length_cons] at hl
    rw [if_neg (by simp; omega), ih (acc ++ [c]) ha' (not_snoc hacc hc) (by simp; omega)]
    simp

theorem loop_end (a acc : List Byte) (ha : 10 ∉ a) (hacc : 10 ∉ acc) (hl : acc.length + a.length < size) :
    loop a acc = acc ++ a := by
  induction a generalizing acc with
  | nil => simp [loop]
  | cons c a ih =>
    have hc : c ≠ 10 := fun h => ha (h ▸ List.mem_cons_self)
    have ha' : 10 ∉ a := fun h => ha (List.mem_cons_of_mem _ h)
    unfold loop
    rw [if_neg fun h => hacc (List.mem_of_getLast? h)]
    simp only
    simp only [List.length_cons] at hl
    rw [if_neg (by simp; omega), ih (acc ++ [c]) ha' (not_snoc hacc hc) (by simp; omega)]
    simp

theorem line_full {l : List Byte} (rest : List Byte) (h : Full l) (hl : l.length < size) : line (l ++ rest) = some l := by
  obtain ⟨a, rfl, ha⟩ := h
  cases a with
  | nil =>
    have : loop rest [10] = [10] := by
      cases rest with
      | nil => rfl
      | cons c r => unfold loop; rw [if_pos (by simp)]
    show (if (loop rest [10]).length < size then some (loop rest [10]) else none) = _
    rw [this, if_pos (by decide)]; rfl
  | cons c a =>
    have hc : (10 : Byte) ≠ c := fun h => ha (h ▸ List.mem_cons_self)
    have ha' : 10 ∉ a := fun h => ha (List.mem_cons_of_mem _ h)
    simp only [List.length_append, List.length_cons, List.length_nil] at hl
    have : loop (a ++ [10] ++ rest) [c] = c :: a ++ [10] := by
      rw [loop_full a rest [c] ha' (not_one hc) (by simp; omega)]; simp
    show (if (loop (a ++ [10] ++ rest) [c]).length < size then some (loop (a ++ [10] ++ rest) [c]) else none) = _
    rw [this, if_pos (by simp; omega)]

theorem line_end {l : List Byte} (h0 : l ≠ []) (h : 10 ∉ l) (hl : l.length < size) : line l = some l := by
  cases l with
  | nil => exact absurd rfl h0
  | cons c a =>
    have hc : (10 : Byte) ≠ c := fun e => h (e ▸ List.mem_cons_self)
    have ha' : 10 ∉ a := fun e => h (List.mem_cons_of_mem _ e)
    simp only [List.length_cons] at hl
    have : loop a [c] = c :: a := by
      rw [loop_end a [c] ha' (not_one hc) (by simp; omega)]; rfl
    show (if (loop a [c]).length < size then some (loop a [c]) else none) = _
    rw [this, if_pos (by simp; omega)]

theorem cstr_self {l : List Byte} (h : 0 ∉ l) : cstr l = l := by
  unfold cstr
  induction l with
  | nil => rfl
  | cons x l ih =>
    have hx : x ≠ 0 := fun e => h (e ▸ List.mem_cons_self)
    rw [List.takeWhile_cons, if_pos (decide_eq_true hx), ih fun e => h (List.mem_cons_of_mem _ e)]

/-- The next line of what is left. -/
theorem lines_next {data : List Byte} {ls : List (List Byte)} (h : Lines data ls) (hf : ∀ l ∈ ls, Fits l) :
    line data = some (ls.headD []) ∧ ∃ rest, data = ls.headD [] ++ rest ∧ Lines rest ls.tail := by
  match ls, h with
  | [], h => rw [show data = [] from h]; exact ⟨rfl, [], rfl, rfl⟩
  | [l], h =>
    obtain ⟨h1, h2⟩ := h
    have hl := (hf l (by simp)).1
    refine ⟨?_, [], by rw [h1]; simp, rfl⟩
    rw [h1]
    rcases h2 with h2 | ⟨h2, h3⟩
    · have := line_full [] h2 hl
      rw [List.append_nil] at this
      exact this
    · exact line_end h2 h3 hl
  | l :: m :: ls, h =>
    obtain ⟨rest, h1, h2, h3⟩ := h
    exact ⟨by rw [h1]; exact line_full rest h2 (hf l (by simp)).1, rest, h1, h3⟩

/-- An open file, read up to a place. -/
structure At (o : Obj) (n : Int) (pre rest : List Byte) : Prop where
  f : o.f = n
  op : o.open_ n = some ⟨pre ++ rest, pre.length⟩

theorem at_left {o : Obj} {n : Int} {pre rest : List Byte} (h : At o n pre rest) : o.left = rest := by
  unfold Obj.left
  rw [h.f, h.op]
  simp

theorem at_move {o : Obj} {n : Int} {pre l rest : List Byte} (h : At o n pre (l ++ rest)) : At (o.move l.length) n (pre ++ l) rest := by
  refine ⟨h.f, ?_⟩
  show (if n = o.f then _ else _) = _
  rw [if_pos h.f.symm, h.op]
  simp only [Option.map_some, Option.some.injEq, Stream.mk.injEq, List.append_assoc, true_and, List.length_append]
  omega

theorem at_back {o : Obj} {n : Int} {pre l rest : List Byte} (h : At o n (pre ++ l) rest) : At (o.move (-l.length)) n pre (l ++ rest) := by
  refine ⟨h.f, ?_⟩
  show (if n = o.f then _ else _) = _
  rw [if_pos h.f.symm, h.op]
  simp only [Option.map_some, Option.some.injEq, Stream.mk.injEq, List.append_assoc, true_and, List.length_append]
  omega

theorem zero_head {ls : List (List Byte)} (hf : ∀ l ∈ ls, Fits l) : 0 ∉ ls.headD [] := by
  cases ls with
  | nil => simp
  | cons l ls => exact (hf l (by simp)).2

theorem calls_lines {o : Obj} {n : Int} {pre rest : List Byte} (h : At o n pre rest) (ls : List (List Byte)) (hl : Lines rest ls)
    (hf : ∀ l ∈ ls, Fits l) (cs : List Call) : (o.calls cs).map (·.1) = some (expect ls cs) := by
  induction cs generalizing o pre rest ls with
  | nil => cases ls <;> rfl
  | cons c cs ih =>
    obtain ⟨h1, rest', h2, h3⟩ := lines_next hl hf
    have hg : o.getLine = some (ls.headD [], o.move (ls.headD []).length) := by
      unfold Obj.getLine
      rw [at_left h, h1]
      show some (cstr _, _) = _
      rw [cstr_self (zero_head hf)]
    rw [h2] at h
    have hm := at_move h
    cases c with
    | get =>
      have := ih hm ls.tail h3 fun l hx => hf l (List.mem_of_mem_tail hx)
      show Option.map _ (o.getLine.bind _) = _
      rw [hg, Option.bind_some]
      simp only
      cases hc : (o.move (ls.headD []).length).calls cs with
      | none => rw [hc] at this; simp at this
      | some r =>
        rw [hc] at this
        simp only [Option.map_some, Option.some.injEq] at this ⊢
        rw [this]
        cases ls <;> rfl
    | peek =>
      have hb := at_back hm
      rw [← h2] at hb
      have := ih hb ls hl hf
      show Option.map _ (o.peekLine.bind _) = _
      have hp : o.peekLine = some (ls.headD [], (o.move (ls.headD []).length).move (-(ls.headD []).length)) := by
        unfold Obj.peekLine; rw [hg]; rfl
      rw [hp, Option.bind_some]
      simp only
      cases hc : ((o.move (ls.headD []).length).move (-(ls.headD []).length)).calls cs with
      | none => rw [hc] at this; simp at this
      | some r =>
        rw [hc] at this
        simp only [Option.map_some, Option.some.injEq] at this ⊢
        rw [this]
        cases ls <;> rfl

theorem loop_long (a acc : List Byte) (ha : 10 ∉ a) (hacc : 10 ∉ acc) (hl : size ≤ acc.length + a.length) (hs : acc.length < size)
    (rest : List Byte) : size ≤ (loop (a ++ rest) acc).length := by
  induction a generalizing acc with
  | nil => simp at hl; omega
  | cons c a ih =>
    have hc : c ≠ 10 := fun h => ha (h ▸ List.mem_cons_self)
    have ha' : 10 ∉ a := fun h => ha (List.mem_cons_of_mem _ h)
    show size ≤ (loop (c :: (a ++ rest)) acc).length
    unfold loop
    rw [if_neg fun h => hacc (List.mem_of_getLast? h)]
    simp only
    simp only [List.length_cons] at hl
    by_cases e : size ≤ (acc ++ [c]).length
    · rw [if_pos e]; exact e
    · rw [if_neg e]
      exact ih (acc ++ [c]) ha' (not_snoc hacc hc) (by simp; omega) (by omega)

end Ptusa.TextFile
