import Verif.EmuPower.Spec
import Mathlib.Data.Rat.Floor
import Mathlib.Tactic.IntervalCases
import Mathlib.Tactic.FinCases
import Mathlib.Data.Fintype.Basic
import Mathlib.Data.List.Induction

/-! # Lemmas on the simulated power supply -/
namespace Ptusa.EmuPower

theorem run_snoc (h : List Ev) (e : Ev) : run (h ++ [e]) = (run h).bind (step · e) := by
  simp [run, List.foldlM_append]

theorem toI8_nat (n : Nat) (hn : n < 8) : toI8 (n : Rat) = some (n : Int) := by
  interval_cases n <;> decide +kernel

theorem toI32_01 (v : Rat) (hv : v = 0 ∨ v = 1) : toI32 v = some (if v ≠ 0 then 1 else 0) := by
  rcases hv with rfl | rfl <;> decide +kernel

theorem toI8_01 (v : Rat) (hv : v = 0 ∨ v = 1) : toI8 v = some (if v ≠ 0 then 1 else 0) := by
  rcases hv with rfl | rfl <;> decide +kernel

theorem bits3_nat (n : Nat) (hn : n < 8) : bits3 (n : Int) = n := by
  unfold bits3; omega

theorem anyOn_01 (f : Fin 8 → Int) : anyOn f = 1 ∨ anyOn f = 0 := by
  unfold anyOn; split <;> simp

theorem anyOn_iff (f : Fin 8 → Int) : anyOn f = 1 ↔ ∃ i, f i ≠ 0 := by
  unfold anyOn
  constructor
  · intro h
    split at h
    · rename_i c
      rcases c with c | c | c | c | c | c | c | c <;> exact ⟨_, c⟩
    · simp at h
  · rintro ⟨i, hi⟩
    rw [if_pos]
    fin_cases i <;> simp_all

/-- What holds after a history within the ranges. -/
structure Inv (h : List Ev) (s : Pu) : Prop where
  man : s.manual = inManual h.reverse
  ch : ∀ i : Fin 8, s.status i = if chanOn (i.val + 1) h.reverse then 1 else 0
  cur : ∀ i : Fin 8, (s.cur i : Rat) = current (i.val + 1) h.reverse
  st : s.st = anyOn s.status

theorem anyOn_const1 : anyOn (fun _ => 1) = 1 := by decide
theorem anyOn_const0 : anyOn (fun _ => 0) = 0 := by decide

theorem inv (h : List Ev) (hf : ∀ e ∈ h, Fits e) : ∃ s, run h = some s ∧ Inv h s := by
  induction h using List.reverseRecOn with
  | nil => exact ⟨{}, rfl, ⟨rfl, fun _ => rfl, fun _ => rfl, by decide⟩⟩
  | append_singleton h e ih =>
    obtain ⟨s, hs, hm, hc, hu, ht⟩ := ih (fun e he => hf e (by simp [he]))
    have hfe := hf e (by simp)
    rw [run_snoc, hs]
    cases e with
    | on =>
      refine ⟨_, rfl, ?_⟩
      simp only [EmuPower.on]
      by_cases m : s.manual = true
      · rw [if_pos m]; rw [hm] at m
        exact ⟨by simpa [inManual] using hm, by simpa [chanOn, m] using hc, by simpa [current] using hu, ht⟩
      · rw [if_neg m]; rw [hm] at m
        exact ⟨by simpa [inManual, directOn] using hm, by simp [chanOn, m, directOn, bits2],
          by simpa [current, directOn] using hu, by simp [directOn, bits2, anyOn]⟩
    | off =>
      refine ⟨_, rfl, ?_⟩
      simp only [EmuPower.off]
      by_cases m : s.manual = true
      · rw [if_pos m]; rw [hm] at m
        exact ⟨by simpa [inManual] using hm, by simpa [chanOn, m] using hc, by simpa [current] using hu, ht⟩
      · rw [if_neg m]; rw [hm] at m
        exact ⟨by simpa [inManual, directOff] using hm, by simp [chanOn, m, directOff, bits2],
          by simpa [current, directOff] using hu, by simp [directOff, bits2, anyOn]⟩
    | st v =>
      have hv : v = 0 ∨ v = 1 := hfe
      refine ⟨if (if v ≠ 0 then (1 : Int) else 0) ≠ 0 then EmuPower.on s else EmuPower.off s,
        by simp [step, toI32_01 v hv], ?_⟩
      by_cases m : s.manual = true
      · have e1 : EmuPower.on s = s := by simp [EmuPower.on, m]
        have e2 : EmuPower.off s = s := by simp [EmuPower.off, m]
        rw [e1, e2, ite_self]; rw [hm] at m
        exact ⟨by simpa [inManual] using hm, by simpa [chanOn, m] using hc, by simpa [current] using hu, ht⟩
      · have e1 : EmuPower.on s = directOn s := by simp [EmuPower.on, m]
        have e2 : EmuPower.off s = directOff s := by simp [EmuPower.off, m]
        rw [e1, e2]; rw [hm] at m
        rcases hv with rfl | rfl
        · simp only [ne_eq, not_true_eq_false, if_false]
          exact ⟨by simpa [inManual, directOff] using hm, by simp [chanOn, m, directOff, bits2],
            by simpa [current, directOff] using hu, by simp [directOff, bits2, anyOn]⟩
        · simp only [ne_eq, one_ne_zero, not_false_eq_true, if_true]
          exact ⟨by simpa [inManual, directOn] using hm, by simp [chanOn, m, directOn, bits2],
            by simpa [current, directOn] using hu, by simp [directOn, bits2, anyOn]⟩
    | ch idx v =>
      have hv : v = 0 ∨ v = 1 := hfe
      refine ⟨_, by simp only [step, toI8_01 v hv, Option.bind_some, Option.map_some]; rfl, ?_⟩
      refine ⟨by simpa [inManual] using hm, ?_, by simpa [current] using hu, rfl⟩
      intro i
      simp only [put, List.reverse_append, List.reverse_singleton, List.singleton_append, chanOn]
      by_cases c : i.val + 1 = idx
      · rw [if_pos c, if_pos c.symm]
        rcases hv with rfl | rfl <;> simp [bits2]
      · have c' : ¬ idx = i.val + 1 := fun a => c a.symm
        simp only [if_neg c, if_neg c']; exact hc i
    | nominal idx v =>
      obtain ⟨n, hn, rfl⟩ : ∃ n : Nat, n < 8 ∧ v = n := hfe
      refine ⟨_, by simp only [step, toI8_nat n hn, Option.bind_some, Option.map_some]; rfl, ?_⟩
      refine ⟨by simpa [inManual] using hm, by simpa [chanOn] using hc, ?_, ht⟩
      intro i
      simp only [put, List.reverse_append, List.reverse_singleton, List.singleton_append, current]
      by_cases c : i.val + 1 = idx
      · rw [if_pos c, if_pos c.symm, bits3_nat n hn]; simp
      · rw [if_neg c, if_neg (fun a => c a.symm)]; exact hu i
    | manual m =>
      exact ⟨_, rfl, by simp [inManual], by simpa [chanOn] using hc, by simpa [current] using hu, ht⟩
    | cycle =>
      exact ⟨_, rfl, by simpa [inManual] using hm, by simpa [chanOn] using hc, by simpa [current] using hu, ht⟩

end Ptusa.EmuPower
