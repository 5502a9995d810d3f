import Verif.VirtDev.Spec
import Verif.EmuDev.Lemmas

/-!
# Lemmas about virtual devices
-/
namespace Ptusa.VirtDev
open Ptusa.Valve (Tm)
open Ptusa.EmuDev (inManual stateOf valueOf)

theorem run_snoc (k : Kind) (h : List (Tm × Ev)) (e : Tm × Ev) : run k (h ++ [e]) = step k (run k h) e := by
  simp [run, List.foldl_append]

/-- The fields in terms of the history. -/
theorem run_spec (k : Kind) (hk : k ≠ .stub) (h : List (Tm × Ev)) :
    (run k h).manual = inManual (commands k h.reverse) ∧ (run k h).state = stateOf 0 (commands k h.reverse) ∧
      (run k h).value = valueOf (commands k h.reverse) := by
  induction h using List.reverseRecOn with
  | nil => exact ⟨rfl, rfl, rfl⟩
  | append_singleton h e ih =>
    obtain ⟨t, e⟩ := e
    obtain ⟨m, s, v⟩ := ih
    rw [run_snoc, List.reverse_append]
    simp only [List.reverse_cons, List.reverse_nil, List.nil_append, List.cons_append]
    have on : (directOn k (run k h)) = { run k h with state := 1 } := by cases k <;> first | rfl | exact absurd rfl hk
    have off : (directOff k (run k h)) = { run k h with state := 0, value := 0 } := by
      cases k <;> first | rfl | exact absurd rfl hk
    have st : ∀ n, (directSet k n (run k h)) = { run k h with state := n } := by
      intro n; cases k <;> first | rfl | exact absurd rfl hk
    have va : ∀ x, (setValue k x (run k h)) = { run k h with value := x } := by
      intro n; cases k <;> first | rfl | exact absurd rfl hk
    cases e with
    | dev e =>
      cases e with
      | on =>
        simp only [step, commands, inManual, stateOf, valueOf, on, ← m]
        split
        · exact ⟨rfl, s, v⟩
        · exact ⟨rfl, rfl, v⟩
      | off =>
        simp only [step, commands, inManual, stateOf, valueOf, off, ← m]
        split
        · exact ⟨rfl, s, v⟩
        · exact ⟨rfl, rfl, rfl⟩
      | set n =>
        simp only [step, commands, inManual, stateOf, valueOf, st, ← m]
        split
        · exact ⟨rfl, s, v⟩
        · exact ⟨rfl, rfl, v⟩
      | val x =>
        simp only [step, commands, inManual, stateOf, valueOf, va, ← m]
        split
        · exact ⟨rfl, s, v⟩
        · exact ⟨rfl, s, rfl⟩
      | operSet n =>
        exact ⟨(congrArg Dev.manual (st n)).trans m, congrArg Dev.state (st n), (congrArg Dev.value (st n)).trans v⟩
      | operVal x =>
        exact ⟨(congrArg Dev.manual (va x)).trans m, (congrArg Dev.state (va x)).trans s, congrArg Dev.value (va x)⟩
      | manual b => exact ⟨rfl, s, v⟩
      | noise b => exact ⟨m, s, v⟩
      | input b => exact ⟨m, s, v⟩
    | reverse =>
      by_cases c : k = .motor
      · simp only [step, commands, if_pos c, inManual, stateOf, valueOf, st, ← m]
        split
        · exact ⟨rfl, s, v⟩
        · exact ⟨rfl, rfl, v⟩
      · simp only [step, commands, if_neg c]
        exact ⟨m, s, v⟩
    | rt idx x =>
      have q : (setRt k idx x (run k h)).manual = (run k h).manual ∧ (setRt k idx x (run k h)).state = (run k h).state ∧
          (setRt k idx x (run k h)).value = (run k h).value := by
        cases k <;> simp only [setRt] <;> (try split) <;> simp
      simp only [step, commands]
      exact ⟨q.1.trans m, q.2.1.trans s, q.2.2.trans v⟩

theorem run_invert (h : List (Tm × Ev)) : (run .other h).invert = inverted h.reverse := by
  induction h using List.reverseRecOn with
  | nil => rfl
  | append_singleton h e ih =>
    obtain ⟨t, e⟩ := e
    rw [run_snoc, List.reverse_append]
    simp only [List.reverse_cons, List.reverse_nil, List.nil_append, List.cons_append]
    cases e with
    | dev e =>
      have q : (step .other (run .other h) (t, .dev e)).invert = (run .other h).invert := by
        cases e <;> simp only [step] <;> (try split) <;> rfl
      exact q.trans ih
    | reverse => exact ih
    | rt idx x =>
      by_cases c : idx = 1
      · subst c; rfl
      · have a : (step .other (run .other h) (t, .rt idx x)).invert = (run .other h).invert := by
          simp [step, setRt, c]
        have b : inverted ((t, .rt idx x) :: h.reverse) = inverted h.reverse := by
          rw [inverted]
          intro y z e; injection e with e1 e2; injection e2 with e3; exact c e3
        rw [a, b, ih]

end Ptusa.VirtDev
