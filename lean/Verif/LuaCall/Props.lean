import Verif.LuaCall.LemmasRun

/-!
# C102 and C103

C102: a call of the user's script returns what the script's function answers to exactly the given
object and parameters, a fixed number when there is no answer, and leaves the interpreter as it was.

C103: an error of the script is written to the log, once.
-/
namespace Ptusa.LuaCall

/-- A script with one object (global 1, table 7) whose function 2 (identity 5) returns its second
parameter, and a global function 3 (identity 6) that raises an error with the text `[101, 10]`. -/
def demo : World where
  global := fun g => if g = 1 then .tbl 7 else if g = 3 then .fn 6 else .nil
  field := fun t f => if t = 7 ∧ f = 2 then .fn 5 else .nil
  call := fun f args =>
    if f = 5 then
      match args with
      | [_, _, v] => .ok v
      | _ => .ok .nil
    else .error (.str [101, 10])
  numText := fun _ => [48]
  noFun := [97]

/-! ### C102 -/

/-- **C102.** Whatever was called before: a call that comes back gives the answer of the script (the
method called with the object and the parameters in their order) as a whole number, and the number
of its kind when there is no answer. -/
theorem C102_answer {l l' : Lua} {w : World} {c : Call} {n : Int} (h : l.step w c = some (n, l')) :
    c.expected w = some n := (step_done h).result

example : Lua.fresh.step demo (.int2 (some 1) 2 30 40) = some (40, Lua.fresh) := by decide +kernel

/-- **C102 (the number returned without an answer).** −1 for calls with parameters, 1 for calls
without, 0 for a check whose function the script does not define. -/
theorem C102_no_answer {l l' : Lua} {w : World} {n : Int} (o f : Nat) (p q : Int) (s : Bool)
    (hw : w.global o = .nil) :
    (l.step w (.int1 (some o) f p) = some (n, l') → n = -1) ∧
    (l.step w (.int2 (some o) f p q) = some (n, l') → n = -1) ∧
    (l.step w (.int0 (some o) f) = some (n, l') → n = 1) ∧
    (l.step w (.void (some o) f) = some (n, l') → n = 1) ∧
    (l.step w (.check o f p s) = some (n, l') → n = 0) := by
  refine ⟨fun h => ?_, fun h => ?_, fun h => ?_, fun h => ?_, fun h => ?_⟩ <;>
  · have := C102_answer h
    simp [Call.expected, World.outcome, hw, Outcome.int] at this
    exact this.symm

example : (Lua.fresh.step demo (.int1 (some 9) 2 30)).map (·.1) = some (-1) := by decide +kernel

/-- **C102 (interpreter unchanged), partial.** Missing: a call without an answer and every check of
an operation leave values behind (`C102_depth`).  A method or a global function that answers leaves
stack, memory and log as they were. -/
theorem C102_stack_partial {l l' : Lua} {w : World} {c : Call} {n : Int}
    (h : l.step w c = some (n, l')) (h0 : c.left w = 0) (he : c.error w = none) : l' = l := by
  have hd := step_done h
  obtain ⟨h1, h2⟩ := hd.quiet he
  obtain ⟨top, ht⟩ := hd.below
  have hl := hd.depth
  rw [ht, h0, List.length_append] at hl
  have : top = [] := List.eq_nil_of_length_eq_zero (by omega)
  subst this
  cases l; cases l'; simp_all

example : (Call.int2 (some 1) 2 30 40).left demo = 0 ∧ (Call.int2 (some 1) 2 30 40).error demo = none := by
  decide

/-- **C102 (nothing below is touched).** Values that were on the stack before a history of calls are
still there, at the same place. -/
theorem C102_below : ∀ (h : List (World × Call)) (l l' : Lua), l.run h = some l' →
    ∃ top, l'.stack = top ++ l.stack
  | [], l, l', hr => by
    simp only [Lua.run, Option.some.injEq] at hr
    exact ⟨[], by rw [← hr]; rfl⟩
  | (w, c) :: h, l, l', hr => by
    obtain ⟨n, l1, hs, hr'⟩ := run_cons hr
    obtain ⟨t1, h1⟩ := C102_below h l1 l' hr'
    obtain ⟨t2, h2⟩ := (step_done hs).below
    exact ⟨t1 ++ t2, by rw [h1, h2, List.append_assoc]⟩

/-- **C102 (does not end the program), partial.** Missing: error objects that are no texts, long
texts, numbers beyond the range of `int` and objects that are no tables (the theorems below).  A call
with an expected result and an error text (if any) shorter than 10229 bytes comes back with it. -/
theorem C102_safe_partial (l : Lua) (w : World) (c : Call) (n : Int) (he : c.expected w = some n)
    (hx : ∀ e, c.error w = some e → ∃ t, e.text w = some t ∧ t.length < 10229) :
    ∃ l', l.step w c = some (n, l') := step_some l w c n he hx

example : (Call.void none 3).expected demo = some 1 ∧
    ∀ e, (Call.void none 3).error demo = some e → ∃ t, e.text demo = some t ∧ t.length < 10229 := by
  refine ⟨by decide, fun e he => ?_⟩
  have : e = .str [101, 10] := by
    have h : (Call.void none 3).error demo = some (.str [101, 10]) := by decide
    rw [h] at he
    exact (Option.some.inj he).symm
  subst this
  exact ⟨_, rfl, by decide⟩

/-- **C102 (exact growth of the stack).** A history of calls leaves 1 value for every error of a
function, 2 for every missing object, 3 for every missing function, and 1 more for every check of an
operation whose object exists. -/
theorem C102_depth : ∀ (h : List (World × Call)) (l l' : Lua), l.run h = some l' →
    l'.stack.length = l.stack.length + (h.map fun x => x.2.left x.1).sum
  | [], l, l', hr => by
    simp only [Lua.run, Option.some.injEq] at hr
    simp [hr]
  | (w, c) :: h, l, l', hr => by
    obtain ⟨n, l1, hs, hr'⟩ := run_cons hr
    rw [C102_depth h l1 l' hr', (step_done hs).depth]
    simp only [List.map_cons, List.sum_cons]
    omega

example : (Lua.fresh.run [(demo, .void none 3), (demo, .int1 (some 9) 2 0), (demo, .int0 (some 1) 8),
    (demo, .check 1 2 30 true)]).map (fun l => l.stack.length) = some 7 := by decide +kernel

/-- **C102, violated.** A script whose function `f` fails, called once per cycle of the main program:
after `N` cycles there are `N` values on the stack, for every `N`. -/
theorem C102_failing_violated (l : Lua) (w : World) (f : Nat) (t : Text)
    (hf : (w.outcome none f []).error = some (.str t)) (ht : t.length < 10229) (N : Nat) :
    ∃ l', l.run (List.replicate N (w, .void none f)) = some l' ∧
      l'.stack.length = l.stack.length + N := by
  have ho : w.outcome none f [] = .failed (.str t) := by
    cases ho : w.outcome none f [] <;> rw [ho] at hf <;> simp [Outcome.error] at hf
    rw [hf]
  have hex : ∀ N (l : Lua), ∃ l', l.run (List.replicate N (w, .void none f)) = some l' := by
    intro N
    induction N with
    | zero => exact fun l => ⟨l, rfl⟩
    | succ N ih =>
      intro l
      obtain ⟨l1, h1⟩ := C102_safe_partial l w (.void none f) 1 (by simp [Call.expected, ho])
        (fun e he => ⟨t, by simp [Call.error, ho, Outcome.error] at he; subst he; rfl, ht⟩)
      obtain ⟨l2, h2⟩ := ih l1
      exact ⟨l2, by simp only [List.replicate_succ, Lua.run, h1]; exact h2⟩
  obtain ⟨l', h⟩ := hex N l
  refine ⟨l', h, ?_⟩
  rw [C102_depth _ _ _ h]
  simp [Call.left, ho, Outcome.left]

example : (demo.outcome none 3 []).error = some (.str [101, 10]) := by decide

/-- **C102, violated.** The same without any error: the checks of an operation, each of which is
answered, leave one value each. -/
theorem C102_check_violated (l : Lua) (w : World) (o f t g : Nat) (m : Int) (s : Bool) (n : Int)
    (hg : w.global o = .tbl t) (hf : w.field t f = .fn g)
    (ha : ∃ v, w.call g [.tbl t, .num (.num m), .num (.num (if s then 1 else 0))] = .ok v ∧ v.whole = some n)
    (N : Nat) :
    ∃ l', l.run (List.replicate N (w, .check o f m s)) = some l' ∧
      l'.stack.length = l.stack.length + N := by
  obtain ⟨v, hv, hn⟩ := ha
  have ho : w.outcome (some o) f [m, if s then 1 else 0] = .answer v := by
    simp only [World.outcome, hg, hf, World.callVal, nums, List.map_cons, List.map_nil]
    cases s <;> simp_all
  have hex : ∀ N (l : Lua), ∃ l', l.run (List.replicate N (w, .check o f m s)) = some l' := by
    intro N
    induction N with
    | zero => exact fun l => ⟨l, rfl⟩
    | succ N ih =>
      intro l
      obtain ⟨l1, h1⟩ := C102_safe_partial l w (.check o f m s) n
        (by simp only [Call.expected, hg, hf, ho, Outcome.int]; exact hn)
        (fun e he => by simp [Call.error, hg, hf, ho, Outcome.error] at he)
      obtain ⟨l2, h2⟩ := ih l1
      exact ⟨l2, by simp only [List.replicate_succ, Lua.run, h1]; exact h2⟩
  obtain ⟨l', h⟩ := hex N l
  refine ⟨l', h, ?_⟩
  rw [C102_depth _ _ _ h]
  simp [Call.left, hg, hf, ho, Outcome.left]

example : demo.global 1 = .tbl 7 ∧ demo.field 7 2 = .fn 5 := by decide

/-- **C102, violated.** A function that raises anything but a text or a number (`error({})`,
`error()`) ends the program. -/
theorem C102_error_object_violated (l : Lua) (w : World) (c : Call) (e : Val)
    (he : c.error w = some e) (ht : e.text w = none) : l.step w c = none := by
  cases hs : l.step w c with
  | none => rfl
  | some r =>
    obtain ⟨t, _, h1, _⟩ := (step_done hs).error e he
    rw [ht] at h1
    simp at h1

/-- The function 2 of the object 1 raises a table. -/
def raising : World := { demo with call := fun _ _ => .error (.tbl 0) }

example : (Call.int0 (some 1) 2).error raising = some (.tbl 0) ∧ Val.text raising (.tbl 0) = none := by
  decide

/-- **C102, violated.** An object that is neither missing nor a table ends the program. -/
theorem C102_not_table_violated (l : Lua) (w : World) (o f : Nat) (p : Int) (s : Bool)
    (h1 : w.global o ≠ .nil) (h2 : ∀ t, w.global o ≠ .tbl t) :
    l.step w (.int1 (some o) f p) = none ∧ l.step w (.check o f p s) = none := by
  have hex : ∀ c : Call, c.expected w = none → l.step w c = none := by
    intro c hc
    cases hs : l.step w c with
    | none => rfl
    | some r => rw [C102_answer hs] at hc; simp at hc
  constructor
  · refine hex _ ?_
    simp only [Call.expected, World.outcome]
    cases hg : w.global o with
    | nil => exact absurd hg h1
    | tbl t => exact absurd hg (h2 t)
    | _ => rfl
  · refine hex _ ?_
    simp only [Call.expected]

example : demo.global 3 ≠ .nil ∧ ∀ t, demo.global 3 ≠ .tbl t := by
  have h : demo.global 3 = .fn 6 := by decide
  rw [h]; simp

/-! ### C103 -/

theorem fresh_good : Good Lua.fresh := by
  refine ⟨?_, ?_⟩ <;> simp [Lua.fresh, maxErrors, Sorted]

/-- **C103.** After any history of calls every error that the script raised is in the log (without a
line feed at its end). -/
theorem C103_logged (h : List (World × Call)) (l' : Lua) (hr : Lua.fresh.run h = some l')
    (t : Text) (ht : t ∈ errorsOf h) : ∃ x ∈ l'.log, t = x ++ [10] ∨ t = x ∧ ∀ y, t ≠ y ++ [10] := by
  refine ⟨_, (run_written h Lua.fresh l' hr fresh_good (fun t ht => by simp [Lua.fresh] at ht)).2 t ht, ?_⟩
  rcases List.eq_nil_or_concat t with rfl | ⟨y, z, rfl⟩
  · exact .inr ⟨rfl, by simp⟩
  · by_cases hz : z = 10
    · subst hz
      left
      simp [noLf]
    · right
      refine ⟨by simp [noLf, hz], fun y' h => ?_⟩
      simp at h
      exact hz h.2

example : (Lua.fresh.run [(demo, .void none 3), (demo, .void none 4), (demo, .void none 3)]).map
    (fun l => l.log) = some [[101], [97]] := by decide +kernel

/-- **C103 (once), partial.** Missing: histories with more than 50 different errors
(`C103_repeats_violated`).  With at most 50 different errors the log has exactly each of them, once,
in the order of their first occurrence. -/
theorem C103_once_partial (h : List (World × Call)) (l' : Lua) (hr : Lua.fresh.run h = some l')
    (hn : (firsts [] (errorsOf h)).length ≤ 50) : l'.log = (firsts [] (errorsOf h)).map noLf := by
  have := run_log h Lua.fresh l' [] hr fresh_good (fun t => by simp [Lua.fresh])
    (by simpa [Lua.fresh, maxErrors] using hn)
  simpa [Lua.fresh] using this

example : firsts [] (errorsOf [(demo, .void none 3), (demo, .void none 4), (demo, .void none 3)]) =
    [[101, 10], [97]] := by decide +kernel

/-- **C103 (nothing else).** Every entry of the log is an error of the script. -/
theorem C103_only : ∀ (h : List (World × Call)) (l l' : Lua), Good l → l.run h = some l' →
    ∀ x ∈ l'.log, x ∈ l.log ∨ ∃ t ∈ errorsOf h, x = noLf t
  | [], l, l', _, hr, x, hx => by
    simp only [Lua.run, Option.some.injEq] at hr
    rw [← hr] at hx
    exact Or.inl hx
  | (w, c) :: h, l, l', hg, hr, x, hx => by
    obtain ⟨n, l1, hs, hr'⟩ := run_cons hr
    rw [errorsOf_cons]
    rcases C103_only h l1 l' (step_good hs hg) hr' x hx with h1 | ⟨t, h1, h2⟩
    · rcases step_note hs with ⟨_, _, h2⟩ | ⟨t, l2, h2, h3, _, h5⟩
      · rw [h2] at h1; exact Or.inl h1
      · rcases note_cases hg h3 with ⟨_, rfl⟩ | ⟨_, _, _, hl, _⟩
        · rw [h5] at h1; exact Or.inl h1
        · rw [h5, hl] at h1
          rcases List.mem_append.1 h1 with h1 | h1
          · exact Or.inl h1
          · refine Or.inr ⟨t, ?_, by simpa using h1⟩
            rw [h2]
            simp
    · exact Or.inr ⟨t, List.mem_append_right _ h1, h2⟩

/-- **C103 (bounded memory).** Never more than 50 texts are remembered. -/
theorem C103_bounded (h : List (World × Call)) (l' : Lua) (hr : Lua.fresh.run h = some l') :
    l'.memo.length ≤ 50 := (run_good h Lua.fresh l' hr fresh_good).2

/-- A script whose global function `k` is missing; the text of the error names it. -/
def naming (k : Nat) : World :=
  { demo with global := fun _ => .nil, noFun := [k] }

/-- **C103, violated.** After 51 different errors the oldest of them by alphabet are forgotten: when
they come back, they are written again (here the first error a second time). -/
theorem C103_repeats_violated :
    (Lua.fresh.run ((List.range 51 ++ [0]).map fun k => (naming k, Call.void none k))).map
      (fun l => l.log.count [0]) = some 2 := by decide +kernel

/-- **C103, violated.** An error text of 10229 bytes and more that is not remembered ends the
program: it does not fit the buffer of the log. -/
theorem C103_long_violated (w : World) (c : Call) (t : Text) (h : List (World × Call)) (l : Lua)
    (hr : Lua.fresh.run h = some l) (he : c.error w = some (.str t)) (ht : 10229 ≤ t.length)
    (hnew : t ∉ errorsOf h) : l.step w c = none := by
  cases hs : l.step w c with
  | none => rfl
  | some r =>
    exfalso
    obtain ⟨t', l1, h1, h2, _⟩ := (step_done hs).error _ he
    simp only [Val.text, Option.some.injEq] at h1
    subst h1
    have hg := run_good h Lua.fresh l hr fresh_good
    rcases note_cases hg h2 with ⟨hm, _⟩ | ⟨_, hlen, _⟩
    · have key : ∀ (h : List (World × Call)) (a b : Lua), Good a → a.run h = some b →
          ∀ x ∈ b.memo, x ∈ a.memo ∨ x ∈ errorsOf h := by
        intro h
        induction h with
        | nil =>
          intro a b _ hr x hx
          simp only [Lua.run, Option.some.injEq] at hr
          rw [← hr] at hx
          exact Or.inl hx
        | cons y h ih =>
          intro a b hga hr x hx
          obtain ⟨n, a1, hs, hr'⟩ := run_cons (w := y.1) (c := y.2) hr
          rw [show y = (y.1, y.2) from rfl, errorsOf_cons]
          rcases ih a1 b (step_good hs hga) hr' x hx with h1 | h1
          · rcases step_note hs with ⟨_, h2, _⟩ | ⟨u, a2, h2, h3, h4, _⟩
            · rw [h2] at h1; exact Or.inl h1
            · rcases note_cases hga h3 with ⟨_, rfl⟩ | ⟨_, _, _, _, _, hmem, _⟩
              · rw [h4] at h1; exact Or.inl h1
              · rw [h4] at h1
                rcases hmem x h1 with rfl | h1
                · exact Or.inr (by rw [h2]; simp)
                · exact Or.inl h1
          · exact Or.inr (List.mem_append_right _ h1)
      rcases key h Lua.fresh l fresh_good hr t hm with h1 | h1
      · simp [Lua.fresh] at h1
      · exact hnew h1
    · unfold prefixLen logSize at hlen
      omega

end Ptusa.LuaCall
