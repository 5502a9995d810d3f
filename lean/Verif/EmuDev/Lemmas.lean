import Verif.EmuDev.Spec
import Mathlib.Data.List.Induction

/-!
# Lemmas about simulated devices
-/
namespace Ptusa.EmuDev
open Ptusa.Valve (Tm)

theorem run_snoc (emu : Bool) (k : Kind) (h : List (Tm × Ev)) (e : Tm × Ev) :
    run emu k (h ++ [e]) = step emu k (run emu k h) e := by
  simp [run, List.foldl_append]

theorem manual_on (emu : Bool) (k : Kind) (t : Tm) (n : Int) (v : Rat) (d : Dev) :
    (directOn emu k t d).manual = d.manual ∧ (directOff emu k t d).manual = d.manual ∧
      (directSet emu k t n d).manual = d.manual ∧ (setValue emu k t v d).manual = d.manual := by
  have on : ∀ k, (directOn emu k t d).manual = d.manual := by
    intro k; cases k <;> cases emu <;> rfl
  have off : ∀ k, (directOff emu k t d).manual = d.manual := by
    intro k; cases k <;> cases emu <;> rfl
  refine ⟨on k, off k, ?_, ?_⟩
  · cases k with
    | inverter =>
      simp only [directSet]
      split
      · rfl
      · split
        · rfl
        · split
          · exact on _
          · exact off _
    | _ => cases emu <;> rfl
  · cases k with
    | breaker =>
      simp only [setValue]
      split
      · rfl
      · split
        · exact on _
        · exact off _
    | _ => cases emu <;> rfl

theorem noisy_on (emu : Bool) (k : Kind) (t : Tm) (n : Int) (v : Rat) (d : Dev) :
    (directOn emu k t d).noisy = d.noisy ∧ (directOff emu k t d).noisy = d.noisy ∧
      (directSet emu k t n d).noisy = d.noisy ∧ (setValue emu k t v d).noisy = d.noisy := by
  have on : ∀ k, (directOn emu k t d).noisy = d.noisy := by
    intro k; cases k <;> cases emu <;> rfl
  have off : ∀ k, (directOff emu k t d).noisy = d.noisy := by
    intro k; cases k <;> cases emu <;> rfl
  refine ⟨on k, off k, ?_, ?_⟩
  · cases k with
    | inverter =>
      simp only [directSet]
      split
      · rfl
      · split
        · rfl
        · split
          · exact on _
          · exact off _
    | _ => cases emu <;> rfl
  · cases k with
    | breaker =>
      simp only [setValue]
      split
      · rfl
      · split
        · exact on _
        · exact off _
    | _ => cases emu <;> rfl

theorem run_manual (emu : Bool) (k : Kind) (h : List (Tm × Ev)) : (run emu k h).manual = inManual h.reverse := by
  induction h using List.reverseRecOn with
  | nil => cases k <;> rfl
  | append_singleton h e ih =>
    obtain ⟨t, e⟩ := e
    rw [run_snoc, List.reverse_append]
    have m := fun n v => manual_on emu k t n v (run emu k h)
    cases e <;> simp only [List.reverse_cons, List.reverse_nil, List.nil_append, List.cons_append, inManual, step] <;>
      (try split) <;>
      (first | exact ih | exact (m 0 0).1.trans ih | exact (m 0 0).2.1.trans ih | exact (m _ 0).2.2.1.trans ih |
        exact (m 0 _).2.2.2.trans ih | rfl)

theorem run_noisy (emu : Bool) (k : Kind) (h : List (Tm × Ev)) : (run emu k h).noisy = noisyOf h.reverse := by
  induction h using List.reverseRecOn with
  | nil => cases k <;> rfl
  | append_singleton h e ih =>
    obtain ⟨t, e⟩ := e
    rw [run_snoc, List.reverse_append]
    have m := fun n v => noisy_on emu k t n v (run emu k h)
    cases e <;> simp only [List.reverse_cons, List.reverse_nil, List.nil_append, List.cons_append, noisyOf, step] <;>
      (try split) <;>
      (first | exact ih | exact (m 0 0).1.trans ih | exact (m 0 0).2.1.trans ih | exact (m _ 0).2.2.1.trans ih |
        exact (m 0 _).2.2.2.trans ih | rfl)

/-- The functions of a simulated device other than a breaker on its state. -/
theorem sim_state (k : Kind) (hk : k ≠ .breaker) (t : Tm) (n : Int) (v : Rat) (d : Dev) :
    (directOn true k t d).state = 1 ∧ (directOff true k t d).state = 0 ∧ (directSet true k t n d).state = n ∧
      (setValue true k t v d).state = d.state := by
  cases k <;> first | exact absurd rfl hk | exact ⟨rfl, rfl, rfl, rfl⟩

/-- The functions of a simulated device other than a breaker and an inverter on its value. -/
theorem sim_value (k : Kind) (hk : k ≠ .breaker) (hi : k ≠ .inverter) (t : Tm) (n : Int) (v : Rat) (d : Dev) :
    (directOn true k t d).value = d.value ∧ (directOff true k t d).value = 0 ∧ (directSet true k t n d).value = d.value ∧
      (setValue true k t v d).value = v := by
  cases k <;> first | exact absurd rfl hk | exact absurd rfl hi | exact ⟨rfl, rfl, rfl, rfl⟩

theorem run_state (k : Kind) (hk : k ≠ .breaker) (h : List (Tm × Ev)) :
    (run true k h).state = stateOf (first k) h.reverse := by
  induction h using List.reverseRecOn with
  | nil => cases k <;> rfl
  | append_singleton h e ih =>
    obtain ⟨t, e⟩ := e
    rw [run_snoc, List.reverse_append]
    have m := fun n v => sim_state k hk t n v (run true k h)
    have q := run_manual true k h
    cases e with
    | on =>
      simp only [List.reverse_cons, List.reverse_nil, List.nil_append, List.cons_append, stateOf, step, ← q]
      split
      · exact ih
      · exact (m 0 0).1
    | off =>
      simp only [List.reverse_cons, List.reverse_nil, List.nil_append, List.cons_append, stateOf, step, ← q]
      split
      · exact ih
      · exact (m 0 0).2.1
    | set n =>
      simp only [List.reverse_cons, List.reverse_nil, List.nil_append, List.cons_append, stateOf, step, ← q]
      split
      · exact ih
      · exact (m n 0).2.2.1
    | val v =>
      simp only [List.reverse_cons, List.reverse_nil, List.nil_append, List.cons_append, stateOf, step]
      split
      · exact ih
      · exact (m 0 v).2.2.2.trans ih
    | operSet n => exact (m n 0).2.2.1
    | operVal v => exact (m 0 v).2.2.2.trans ih
    | _ => exact ih

theorem run_value (k : Kind) (hk : k ≠ .breaker) (hi : k ≠ .inverter) (h : List (Tm × Ev)) :
    (run true k h).value = valueOf h.reverse := by
  induction h using List.reverseRecOn with
  | nil => cases k <;> rfl
  | append_singleton h e ih =>
    obtain ⟨t, e⟩ := e
    rw [run_snoc, List.reverse_append]
    have m := fun n v => sim_value k hk hi t n v (run true k h)
    have q := run_manual true k h
    cases e with
    | on =>
      simp only [List.reverse_cons, List.reverse_nil, List.nil_append, List.cons_append, valueOf, step]
      split
      · exact ih
      · exact (m 0 0).1.trans ih
    | off =>
      simp only [List.reverse_cons, List.reverse_nil, List.nil_append, List.cons_append, valueOf, step, ← q]
      split
      · exact ih
      · exact (m 0 0).2.1
    | set n =>
      simp only [List.reverse_cons, List.reverse_nil, List.nil_append, List.cons_append, valueOf, step]
      split
      · exact ih
      · exact (m n 0).2.2.1.trans ih
    | val v =>
      simp only [List.reverse_cons, List.reverse_nil, List.nil_append, List.cons_append, valueOf, step, ← q]
      split
      · exact ih
      · exact (m 0 v).2.2.2
    | operSet n => exact (m n 0).2.2.1.trans ih
    | operVal v => exact (m 0 v).2.2.2
    | _ => exact ih

theorem sim_outputs (k : Kind) (hk : k ≠ .breaker) (d : Dev) (e : Tm × Ev) : outputs (step true k d e) = outputs d := by
  obtain ⟨t, e⟩ := e
  cases e <;> simp only [step] <;> (try split) <;> first | rfl | (cases k <;> first | exact absurd rfl hk | rfl)

theorem run_out (h : List (Tm × Ev)) : (run false .do1 h).o = outOf h.reverse := by
  induction h using List.reverseRecOn with
  | nil => rfl
  | append_singleton h e ih =>
    obtain ⟨t, e⟩ := e
    rw [run_snoc, List.reverse_append]
    have q := run_manual false .do1 h
    cases e <;> simp only [List.reverse_cons, List.reverse_nil, List.nil_append, List.cons_append, outOf, step, ← q] <;>
      (try split) <;> first | exact ih | rfl

theorem run_ana (h : List (Tm × Ev)) : (run false .ao1 h).ao = anaOf h.reverse := by
  induction h using List.reverseRecOn with
  | nil => rfl
  | append_singleton h e ih =>
    obtain ⟨t, e⟩ := e
    rw [run_snoc, List.reverse_append]
    have q := run_manual false .ao1 h
    cases e <;> simp only [List.reverse_cons, List.reverse_nil, List.nil_append, List.cons_append, anaOf, step, ← q] <;>
      (try split) <;> first | exact ih | rfl

theorem real_motor (s : Motor.Sub) (d : Dev) (e : Tm × Ev) :
    (step false (.motor s) d e).mt = motorStep s d.mt d.manual e ∧
      (step false (.motor s) d e).state = d.state ∧ (step false (.motor s) d e).value = d.value := by
  obtain ⟨t, e⟩ := e
  have m : d.manual = true ∨ d.manual = false := by cases d.manual <;> simp
  rcases m with m | m <;> cases e <;> simp [step, motorStep, m, directOn, directOff, directSet, setValue]

/-- The state of a breaker is set by `set_state` and by the operator only. -/
theorem breaker_state (d : Dev) (e : Tm × Ev) (he : ∀ n, e.2 ≠ .set n ∧ e.2 ≠ .operSet n) :
    (step true .breaker d e).state = d.state := by
  obtain ⟨t, e⟩ := e
  cases e with
  | set n => exact absurd rfl (he n).1
  | operSet n => exact absurd rfl (he n).2
  | on => simp only [step]; split <;> rfl
  | off => simp only [step]; split <;> rfl
  | val v =>
    simp only [step, setValue]
    split
    · rfl
    · split
      · rfl
      · rfl
  | operVal v =>
    simp only [step, setValue]
    split
    · rfl
    · split
      · rfl
      · rfl
  | _ => rfl

end Ptusa.EmuDev
