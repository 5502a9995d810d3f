import Verif.TextFile.Lemmas

/-! # C200: the lines of a text file -/
namespace Ptusa.TextFile

open Spec

/-- **C200, partial.** Missing: lines of 200 bytes or more, zeros in the file, the result of opening.  A file whose lines fit is opened, and any
number of calls follows: the lines come one after the other, looking at the next line does not move on, and after the last line
the string is empty. -/
theorem C200_lines_partial (o : Obj) (n : Nat) (data : List Byte) (ls : List (List Byte)) (h : Lines data ls) (hf : ∀ l ∈ ls, Fits l)
    (cs : List Call) : ((o.fileOpen (some (n, data))).2.calls cs).map (·.1) = some (expect ls cs) :=
  calls_lines (pre := []) ⟨rfl, by show (if (n : Int) = n then _ else _) = _; rw [if_pos rfl]; rfl⟩ ls h hf cs

/-- "ab", "c" and an unfinished line "d". -/
example : Lines [97, 98, 10, 99, 10, 100] [[97, 98, 10], [99, 10], [100]] ∧ Fits [97, 98, 10] ∧
    expect [[97, 98, 10], [99, 10], [100]] [.get, .peek, .get, .get, .get] = [[97, 98, 10], [99, 10], [99, 10], [100], []] := by
  refine ⟨⟨[99, 10, 100], rfl, ⟨[97, 98], rfl, by decide⟩, [100], rfl, ⟨[99], rfl, by decide⟩, rfl, Or.inr ⟨by decide, by decide⟩⟩,
    ⟨by decide, by decide⟩, by decide⟩

/-- C200: calls on one file never change another open file, and reading a block gives the bytes that follow. -/
theorem C200_others (o : Obj) (count : Nat) (x : Int) (hx : x ≠ o.f) :
    (o.fileRead count).2.open_ x = o.open_ x ∧ ∀ s o', (o.getLine = some (s, o') ∨ o.peekLine = some (s, o')) → o'.open_ x = o.open_ x := by
  have hm : ∀ (p : Obj) (d : Int), p.f = o.f → p.open_ x = o.open_ x → (p.move d).open_ x = o.open_ x := by
    intro p d h1 h2
    show (if x = p.f then _ else _) = _
    rw [h1, if_neg hx, h2]
  constructor
  · unfold Obj.fileRead
    by_cases e : o.f ≠ 0
    · rw [if_pos e]; exact hm o _ rfl rfl
    · rw [if_neg e]
  · intro s o' h
    unfold Obj.peekLine Obj.getLine at h
    cases hl : line o.left with
    | none => rw [hl] at h; rcases h with h | h <;> cases h
    | some l =>
      rw [hl] at h
      simp only [Option.map_some, Option.some.injEq, Prod.mk.injEq] at h
      rcases h with ⟨_, h⟩ | ⟨_, h⟩
      · rw [← h]; exact hm o _ rfl rfl
      · rw [← h]; exact hm _ _ rfl (hm o _ rfl rfl)

/-- C200: blocks read one after the other are the file. -/
theorem C200_blocks (o : Obj) (n : Nat) (hn : n ≠ 0) (data : List Byte) (counts : List Nat) :
    ((counts.foldl (fun (x : List Byte × Obj) c => (x.1 ++ (x.2.fileRead c).1, (x.2.fileRead c).2))
      ([], (o.fileOpen (some (n, data))).2)).1) = data.take counts.sum := by
  have key : ∀ (cs : List Nat) (p : Obj) (pre rest : List Byte), At p n pre rest →
      (cs.foldl (fun (x : List Byte × Obj) c => (x.1 ++ (x.2.fileRead c).1, (x.2.fileRead c).2)) (pre, p)).1 = pre ++ rest.take cs.sum := by
    intro cs
    induction cs with
    | nil => intro p pre rest _; simp
    | cons c cs ih =>
      intro p pre rest h
      have hr : p.fileRead c = (rest.take c, p.move (rest.take c).length) := by
        unfold Obj.fileRead
        rw [if_pos (by rw [h.f]; omega), at_left h]
      have h' : At p n pre (rest.take c ++ rest.drop c) := by rw [List.take_append_drop]; exact h
      have hm := at_move h'
      rw [List.foldl_cons]
      simp only [hr]
      rw [ih _ _ _ hm, List.sum_cons, List.append_assoc]
      congr 1
      rw [List.take_add]
  have := key counts (o.fileOpen (some (n, data))).2 [] data ⟨rfl, by show (if (n : Int) = n then _ else _) = _; rw [if_pos rfl]; rfl⟩
  rw [List.nil_append] at this
  exact this

example : (((⟨0, fun _ => none⟩ : Obj).fileOpen (some (3, [1, 2, 3, 4]))).2.fileRead 3).1 = [1, 2, 3] := by decide

/-- C200 does not hold for long lines: where the next 199 bytes have no line feed and another byte follows, the zero at the end is written
behind the buffer. -/
theorem C200_long_violated (o : Obj) (n : Nat) (a : List Byte) (c : Byte) (rest : List Byte) (ha : a.length = 199) (hn : 10 ∉ a) :
    (o.fileOpen (some (n, a ++ c :: rest))).2.getLine = none := by
  have hat : At (o.fileOpen (some (n, a ++ c :: rest))).2 n [] (a ++ c :: rest) :=
    ⟨rfl, by show (if (n : Int) = n then _ else _) = _; rw [if_pos rfl]; rfl⟩
  unfold Obj.getLine
  rw [at_left hat]
  cases a with
  | nil => simp at ha
  | cons x a =>
    have hx : (10 : Byte) ≠ x := fun e => hn (e ▸ List.mem_cons_self)
    have ha' : 10 ∉ a := fun e => hn (List.mem_cons_of_mem _ e)
    simp only [List.length_cons] at ha
    have hlen : size ≤ (loop (a ++ c :: rest) [x]).length := by
      by_cases hc : c = 10
      · -- 199 bytes and the line feed
        have : ∀ (a acc : List Byte), 10 ∉ a → 10 ∉ acc → acc.length + a.length + 1 = size → size ≤ (loop (a ++ c :: rest) acc).length := by
          intro a
          induction a with
          | nil =>
            intro acc _ h2 h3
            show size ≤ (loop (c :: rest) acc).length
            unfold loop
            rw [if_neg fun h => h2 (List.mem_of_getLast? h)]
            simp only
            rw [if_pos (by simp at h3 ⊢; omega)]
            simp at h3 ⊢; omega
          | cons y a ih =>
            intro acc h1 h2 h3
            have hy : y ≠ 10 := fun h => h1 (h ▸ List.mem_cons_self)
            show size ≤ (loop (y :: (a ++ c :: rest)) acc).length
            unfold loop
            rw [if_neg fun h => h2 (List.mem_of_getLast? h)]
            simp only
            simp only [List.length_cons] at h3
            rw [if_neg (by simp; omega)]
            exact ih (acc ++ [y]) (fun h => h1 (List.mem_cons_of_mem _ h)) (not_snoc h2 hy) (by simp; omega)
        exact this a [x] ha' (not_one hx) (by simp [size]; omega)
      · have := loop_long (a ++ [c]) [x] (not_snoc ha' hc) (not_one hx) (by simp [size]; omega) (by simp [size]) rest
        rw [List.append_assoc] at this
        exact this
    show Option.map _ (if (loop (a ++ c :: rest) [x]).length < size then _ else none) = none
    rw [if_neg (by omega)]; rfl

example : ((⟨0, fun _ => none⟩ : Obj).fileOpen (some (3, List.replicate 199 65 ++ [10]))).2.getLine.isNone := by decide +kernel

/-- C200 does not hold for a line with a zero: looking at it moves on, and the next line read is not the one seen. -/
theorem C200_zero_violated (o : Obj) (n : Nat) (a b rest : List Byte) (ha : 0 ∉ a) (ha' : 10 ∉ a) (hb : 10 ∉ b)
    (hl : a.length + b.length < 190) :
    ∃ o', (o.fileOpen (some (n, a ++ [0] ++ b ++ [10] ++ rest))).2.peekLine = some (a, o') ∧ o'.left = (a ++ [0] ++ b ++ [10]).drop (b.length + 2) ++ rest := by
  have hat : At (o.fileOpen (some (n, a ++ [0] ++ b ++ [10] ++ rest))).2 n [] (a ++ [0] ++ b ++ [10] ++ rest) :=
    ⟨rfl, by show (if (n : Int) = n then _ else _) = _; rw [if_pos rfl]; rfl⟩
  generalize (o.fileOpen (some (n, a ++ [0] ++ b ++ [10] ++ rest))).2 = p at hat
  have not_three : (10 : Byte) ∉ a ++ [0] ++ b := by
    intro e
    rcases List.mem_append.mp e with e | e
    · exact not_snoc ha' (by decide) e
    · exact hb e
  have hline : line (a ++ [0] ++ b ++ [10] ++ rest) = some (a ++ [0] ++ b ++ [10]) :=
    line_full rest ⟨a ++ [0] ++ b, rfl, not_three⟩ (by simp [size]; omega)
  have hc : cstr (a ++ [0] ++ b ++ [10]) = a := by
    unfold cstr
    have : ∀ x ∈ a, decide (x ≠ 0) = true := fun x hx => by
      exact decide_eq_true fun e => ha (e ▸ hx)
    rw [List.append_assoc, List.append_assoc, List.takeWhile_append_of_pos this]
    simp
  refine ⟨(p.move (a ++ [0] ++ b ++ [10]).length).move (-(a.length : Int)), ?_, ?_⟩
  · unfold Obj.peekLine Obj.getLine
    rw [at_left hat, hline]
    simp only [Option.map_some, hc]
  · have hm := at_move hat
    unfold Obj.left
    have hf : ((p.move (a ++ [0] ++ b ++ [10]).length).move (-(a.length : Int))).f = n := hat.f
    rw [hf]
    have ho : ((p.move (a ++ [0] ++ b ++ [10]).length).move (-(a.length : Int))).open_ n =
        some ⟨a ++ [0] ++ b ++ [10] ++ rest, b.length + 2⟩ := by
      show (if (n : Int) = (p.move _).f then _ else _) = _
      rw [if_pos hm.f.symm, hm.op]
      simp only [List.nil_append, Option.map_some, Option.some.injEq, Stream.mk.injEq, true_and, List.length_append, List.length_cons, List.length_nil]
      omega
    rw [ho]
    simp only
    rw [List.drop_append_of_le_length (by simp)]

/-- "a", zero, "b": seen is "a"; the line that is read next is only the line feed. -/
example : (((⟨0, fun _ => none⟩ : Obj).fileOpen (some (3, [97, 0, 98, 10]))).2.calls [.peek, .get]).map (·.1) = some [[97], [10]] := by
  decide +kernel

/-- The result of opening is the opposite of what the interface says (0: done, positive: an error): it is positive for every file that
could be opened. -/
theorem C200_open_violated (o : Obj) (n : Nat) (hn : 0 < n) (data : List Byte) :
    0 < (o.fileOpen (some (n, data))).1 ∧ (o.fileOpen none).1 < 0 :=
  ⟨by show (0 : Int) < n; omega, by show (-1 : Int) < 0; decide⟩

/-- A file that is not open is read like one: lines come from the standard input of the program, and they are lost to it. -/
theorem C200_stdin_violated (others : Int → Option Stream) (pre l rest : List Byte) (hl : Full l) (hf : Fits l)
    (h : others 0 = some ⟨pre ++ (l ++ rest), pre.length⟩) :
    ∃ o', (⟨0, others⟩ : Obj).getLine = some (l, o') ∧ o'.open_ 0 = some ⟨pre ++ l ++ rest, (pre ++ l).length⟩ := by
  have hat : At ⟨0, others⟩ 0 pre (l ++ rest) := ⟨rfl, h⟩
  refine ⟨_, ?_, (at_move hat).op⟩
  unfold Obj.getLine
  rw [at_left hat, line_full rest hl hf.1]
  show some (cstr l, _) = _
  rw [cstr_self hf.2]

example : ((⟨0, fun x => if x = 0 then some ⟨[104, 105, 10], 0⟩ else none⟩ : Obj).getLine).map (·.1) = some [104, 105, 10] := by decide

/-- Opening a second file with the same object leaves the first one open for good. -/
theorem C200_leak_violated (o : Obj) (n m : Nat) (hm : m ≠ n) (d e : List Byte) :
    let o' := ((o.fileOpen (some (n, d))).2.fileOpen (some (m, e))).2.fileClose
    m ≠ 0 → o'.open_ n = some ⟨d, 0⟩ ∧ o'.f = 0 := by
  intro o' h0
  have hf : ((o.fileOpen (some (n, d))).2.fileOpen (some (m, e))).2.f = m := rfl
  have : o' = { f := 0, open_ := fun x => if x = (m : Int) then none else ((o.fileOpen (some (n, d))).2.fileOpen (some (m, e))).2.open_ x } := by
    show Obj.fileClose _ = _
    unfold Obj.fileClose
    rw [if_pos (by rw [hf]; omega)]
    rfl
  rw [this]
  refine ⟨?_, rfl⟩
  show (if (n : Int) = m then none else if (n : Int) = m then _ else if (n : Int) = n then _ else _) = _
  rw [if_neg (by omega), if_neg (by omega), if_pos rfl]

end Ptusa.TextFile
