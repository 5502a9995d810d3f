import Verif.ObjMgr.Lemmas

namespace Ptusa.ObjMgr.Props

open ObjMgr Spec Lemmas

/-! ### C207: the objects of a project are evaluated each once, in their order, and found by their numbers -/

/-- Every evaluation evaluates all objects added so far, in their order, each as often as it was added, and then runs the function of the
project once if there is one - provided it is not defined or taken away later than the first evaluation. -/
theorem C207_evaluate_partial (h : List Ev) (hf : Fixed h) : Right h (defined h) ((St.run {} h).eval).2 := by
  have hc := cache_run h hf
  have hr := right_acts h (defined h)
  unfold St.eval
  rcases hc with hc | hc
  · simp only [hc, objs_run, fn_run]; exact hr
  · simp only [hc, objs_run]; exact hr

example : ((St.run {} [.add 7, .define true, .add 3, .eval]).eval).2 = [.obj 7, .obj 3, .luaEval] := by decide +kernel

example : Fixed [.add 7, .define true, .add 3, .eval] := by
  intro h1 h2 he b hb
  have hl := congrArg List.length he
  simp at hl
  rcases h1 with _ | ⟨a, _ | ⟨a2, _ | ⟨a3, _ | ⟨a4, t⟩⟩⟩⟩ <;> simp at he hl
  simp [he] at hb

/-- **Violated**: a function `eval` which appears after the first evaluation is never run. -/
theorem C207_late_eval_violated (h h2 : List Ev) (hd : defined h = false) (hn : Ev.eval ∉ h) :
    Act.luaEval ∉ ((St.run {} (h ++ .eval :: .define true :: h2)).eval).2 := by
  have hf : ∀ h : List Ev, Ev.eval ∉ h → (St.run {} h).cache = none := by
    intro h
    induction h using List.reverseRecOn with
    | nil => intro _; rfl
    | append_singleton h e ih =>
      intro hm
      have := ih (fun x => hm (List.mem_append_left _ x))
      rw [run_snoc]
      cases e with
      | add o => exact this
      | define b => exact this
      | eval => exact absurd (by simp) hm
  have hk : ∀ (l : List Ev) (s : St), s.cache = some false → (s.run l).cache = some false := by
    intro l
    induction l with
    | nil => intro s hs; exact hs
    | cons e l ih =>
      intro s hs
      refine ih _ ?_
      cases e with
      | add o => exact hs
      | define b => exact hs
      | eval => simp only [St.step, St.eval, hs]
  have h0 := hf h hn
  have h1 : ((St.run {} h).step .eval).1.cache = some false := by simp only [St.step, St.eval, h0, fn_run, hd]
  have h2' : (St.run {} (h ++ .eval :: .define true :: h2)).cache = some false := by
    have : St.run {} (h ++ .eval :: .define true :: h2) = St.run ((St.run {} h).step .eval).1 (.define true :: h2) := by
      simp [St.run, List.foldl_append]
    rw [this]; exact hk _ _ h1
  unfold St.eval
  rw [h2']; simp

example : ((St.run {} [.add 7, .eval, .define true]).eval).2 = [.obj 7] := by decide +kernel

/-- Every object knows its number: objects added once are numbered from one in the order they were added, so that no two have the same
number and each is found by its number. -/
theorem C207_numbers (h : List Ev) (hn : (added h).Nodup) (i o : Nat) :
    (St.run {} h).get i = some o ↔ o ∈ added h ∧ (St.run {} h).serial o = i + 1 := by
  unfold St.get
  rw [objs_run]
  constructor
  · intro he; exact ⟨List.mem_of_getElem? he, serial_run h hn i o he⟩
  · rintro ⟨hm, hs⟩
    obtain ⟨j, hj⟩ := List.getElem?_of_mem hm
    have := serial_run h hn j o hj
    have : j = i := by omega
    rw [← this]; exact hj

example : (St.run {} [.add 7, .add 3, .eval]).serial 3 = 2 ∧ (St.run {} [.add 7, .add 3]).get 1 = some 3 := by decide +kernel

/-- The search for an object where an operation is active finds the lowest number in the range, and -1 exactly when there is none. -/
theorem C207_search (on : List Bool) (i last : Nat) :
    (∀ k : Nat, search on i last = (k : Int) ↔ Lowest on i last k) ∧
      (search on i last = -1 ↔ ∀ k, i ≤ k → k ≤ last → on[k]? ≠ some true) := search_spec on i last

example : Lowest [true, false, true, true] 1 5 2 := by
  refine ⟨by decide, by decide, by decide, fun j h1 h2 => ?_⟩
  have : j = 1 := by omega
  subst this; rfl

/-- An additional step is switched exactly for an operation that exists and the commands 0 and 1, and the operation and step are those
named; a wrong number of the operation is answered with an error. -/
theorem C207_extra_step_partial (count op : Nat) (step cmd : Int) :
    (∀ e, (setExtra count op step cmd).2 = some e ↔
      (1 ≤ op ∧ op ≤ count) ∧ ((cmd = 1 ∧ e = .on op step) ∨ (cmd = 0 ∧ e = .off op step))) ∧
      ((setExtra count op step cmd).1 = 0 ↔ 1 ≤ op ∧ op ≤ count) := by
  unfold setExtra
  by_cases h1 : op > count ∨ op = 0
  · rw [if_pos h1]
    exact ⟨fun e => ⟨fun x => (nomatch x), fun x => absurd x.1 (by omega)⟩, fun x => absurd x (by simp), fun x => absurd x (by omega)⟩
  · rw [if_neg h1]
    have hr : 1 ≤ op ∧ op ≤ count := by omega
    by_cases h2 : cmd = 0
    · rw [if_pos h2]
      subst h2
      exact ⟨fun e => by simp [hr, eq_comm], fun _ => hr, fun _ => rfl⟩
    · rw [if_neg h2]
      by_cases h3 : cmd = 1
      · rw [if_pos h3]
        subst h3
        exact ⟨fun e => by simp [hr, eq_comm], fun _ => hr, fun _ => rfl⟩
      · rw [if_neg h3]
        exact ⟨fun e => by simp [h2, h3], fun _ => hr, fun _ => rfl⟩

example : setExtra 3 2 5 1 = (0, some (.on 2 5)) ∧ setExtra 3 4 5 1 = (1, none) := by decide +kernel

/-- **Violated**: a command that is neither 0 nor 1 is answered as done although nothing is done. -/
theorem C207_unknown_command_violated (count op : Nat) (step cmd : Int) (ho : 1 ≤ op ∧ op ≤ count) (hc : cmd ≠ 0 ∧ cmd ≠ 1) :
    setExtra count op step cmd = (0, none) := by
  unfold setExtra
  rw [if_neg (by omega), if_neg hc.1, if_neg hc.2]

example : setExtra 3 2 5 2 = (0, none) := by decide +kernel

end Ptusa.ObjMgr.Props
