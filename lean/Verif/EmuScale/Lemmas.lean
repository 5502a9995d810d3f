import Verif.EmuScale.Spec
import Mathlib.Data.List.Induction
import Mathlib.Tactic.Ring

/-!
# Lemmas about simulated scales
-/
namespace Ptusa.EmuScale

theorem run_snoc (k : Kind) (h : List Ev) (e : Ev) : run k (h ++ [e]) = step k (run k h) e := by
  simp [run, List.foldl_append]

theorem run_manual (k : Kind) (h : List Ev) : (run k h).manual = inManual h.reverse := by
  induction h using List.reverseRecOn with
  | nil => cases k <;> rfl
  | append_singleton h e ih =>
    rw [run_snoc, List.reverse_append]
    have q : ∀ e : Ev, (∀ m, e ≠ .manual m) → (step k (run k h) e).manual = (run k h).manual := by
      intro e he
      cases e with
      | manual m => exact absurd rfl (he m)
      | _ =>
        cases k <;> simp only [step, directOn, directOff, directSet, setValue, tare, evaluate] <;>
          (try split) <;> (try split) <;> rfl
    cases e with
    | manual m => rfl
    | _ => exact (q _ (by intro m e; cases e)).trans ih

theorem strain_spec (h : List Ev) :
    (run .strain h).weight = weightOf h.reverse ∧ (run .strain h).cz = zeroOf h.reverse := by
  induction h using List.reverseRecOn with
  | nil => exact ⟨rfl, rfl⟩
  | append_singleton h e ih =>
    rw [run_snoc, List.reverse_append]
    have m := run_manual .strain h
    obtain ⟨w, c⟩ := ih
    cases e with
    | on =>
      simp only [step]
      split <;> exact ⟨w, c⟩
    | off =>
      simp only [step]
      split <;> exact ⟨w, c⟩
    | set n =>
      simp only [List.reverse_cons, List.reverse_nil, List.nil_append, List.cons_append, step, weightOf, zeroOf, directSet, tare, ← m]
      cases (run .strain h).manual with
      | true => simpa using ⟨w, c⟩
      | false =>
        by_cases d : n = 1
        · simp [d, w]
        · simp [d, w, c]
    | val v =>
      simp only [List.reverse_cons, List.reverse_nil, List.nil_append, List.cons_append, step, weightOf, zeroOf, setValue, ← m]
      split
      · exact ⟨w, c⟩
      · exact ⟨rfl, c⟩
    | operSet n =>
      simp only [List.reverse_cons, List.reverse_nil, List.nil_append, List.cons_append, step, weightOf, zeroOf, directSet, tare]
      split
      · exact ⟨w, by rw [← w]⟩
      · exact ⟨w, c⟩
    | operVal v => exact ⟨rfl, c⟩
    | zero x => exact ⟨w, rfl⟩
    | manual b => exact ⟨w, c⟩
    | tare => exact ⟨w, congrArg Neg.neg w⟩
    | cycle => exact ⟨w, c⟩

theorem rs232_spec (h : List Ev) :
    (run .rs232 h).weight = weightOff (beforeCycle h.reverse) ∧ (run .rs232 h).dvalue = weightOff h.reverse ∧
      (run .rs232 h).cz = setZero h.reverse ∧ (run .rs232 h).state = 1 := by
  induction h using List.reverseRecOn with
  | nil => exact ⟨rfl, rfl, rfl, rfl⟩
  | append_singleton h e ih =>
    rw [run_snoc, List.reverse_append]
    have m := run_manual .rs232 h
    obtain ⟨w, d, c, s⟩ := ih
    cases e with
    | on =>
      simp only [step]
      split <;> exact ⟨w, d, c, s⟩
    | off =>
      simp only [List.reverse_cons, List.reverse_nil, List.nil_append, List.cons_append, step, weightOff, beforeCycle, setZero, directOff,
        ← m]
      split
      · exact ⟨w, d, c, s⟩
      · exact ⟨w, rfl, c, s⟩
    | set n =>
      simp only [step]
      split <;> exact ⟨w, d, c, s⟩
    | val v =>
      simp only [List.reverse_cons, List.reverse_nil, List.nil_append, List.cons_append, step, weightOff, beforeCycle, setZero, setValue,
        ← m]
      split
      · exact ⟨w, d, c, s⟩
      · exact ⟨w, rfl, c, s⟩
    | operSet n => exact ⟨w, d, c, s⟩
    | operVal v => exact ⟨w, rfl, c, s⟩
    | zero x => exact ⟨w, d, rfl, s⟩
    | manual b => exact ⟨w, d, c, s⟩
    | tare => exact ⟨w, d, c, s⟩
    | cycle => exact ⟨d, d, c, s⟩

theorem eth_spec (h : List Ev) (hh : ∀ e ∈ h, NonNeg e) :
    (run .eth h).weight = weightOf h.reverse ∧ (run .eth h).cz = setZero h.reverse := by
  induction h using List.reverseRecOn with
  | nil => exact ⟨rfl, rfl⟩
  | append_singleton h e ih =>
    rw [run_snoc, List.reverse_append]
    have m := run_manual .eth h
    have n := hh e (by simp)
    obtain ⟨w, c⟩ := ih (fun x hx => hh x (by simp [hx]))
    cases e with
    | on =>
      simp only [step]
      split <;> exact ⟨w, c⟩
    | off =>
      simp only [step]
      split <;> exact ⟨w, c⟩
    | set n =>
      simp only [step]
      split <;> exact ⟨w, c⟩
    | val v =>
      simp only [NonNeg] at n
      simp only [List.reverse_cons, List.reverse_nil, List.nil_append, List.cons_append, step, weightOf, setZero, setValue, ← m, if_pos n]
      split
      · exact ⟨w, c⟩
      · exact ⟨rfl, c⟩
    | operSet n => exact ⟨w, c⟩
    | operVal v =>
      simp only [NonNeg] at n
      simp only [List.reverse_cons, List.reverse_nil, List.nil_append, List.cons_append, step, weightOf, setZero, setValue, if_pos n]
      exact ⟨trivial, c⟩
    | zero x => exact ⟨w, rfl⟩
    | manual b => exact ⟨w, c⟩
    | tare => exact ⟨w, c⟩
    | cycle => exact ⟨w, c⟩

end Ptusa.EmuScale
