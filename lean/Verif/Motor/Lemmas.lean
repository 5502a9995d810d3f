import Verif.Motor.Spec
import Verif.Valve.Lemmas
import Mathlib.Data.List.Induction

namespace Ptusa.Motor

open Valve (Tm passed passed_eq)

theorem run_snoc (s : Sub) (pOn : Fl) (m : Mt) (h : List (Tm × Ev)) (e : Tm × Ev) :
    run s pOn m (h ++ [e]) = step s pOn (run s pOn m h) e := by
  simp [run]

theorem late_iff (now start : Tm) (h : start ≤ now) (q : Rat) (h0 : 0 ≤ q) (h1 : q < 2 ^ 24) :
    late now start (.num q) = true ↔ q < ((now.toNat - start.toNat : Nat) : Rat) := by
  unfold late
  rw [Fl.lt_num, decide_eq_true_eq, passed_eq _ _ h]
  constructor
  · intro hl
    by_contra hc
    rw [not_lt] at hc
    have hs : now.toNat - start.toNat ≤ 2 ^ 24 := by
      have : ((now.toNat - start.toNat : Nat) : Rat) < 2 ^ 24 := lt_of_le_of_lt hc h1
      have : now.toNat - start.toNat < 2 ^ 24 := by exact_mod_cast this
      omega
    rw [Counter.rnd_small hs] at hl
    exact absurd hl (not_lt.mpr hc)
  · intro hl
    have hf : ⌊q⌋ < 2 ^ 24 := by rw [Int.floor_lt]; exact_mod_cast h1
    have hnn := Int.floor_nonneg.mpr h0
    have hfl : Counter.IsFloat (⌊q⌋.toNat + 1) := by
      by_cases hc : ⌊q⌋.toNat + 1 < 2 ^ 24
      · exact ⟨_, 0, hc, by simp⟩
      · exact ⟨1, 24, by norm_num, by omega⟩
    have hlt : ⌊q⌋ < ((now.toNat - start.toNat : Nat) : Int) := by
      rw [Int.floor_lt]; exact_mod_cast hl
    have := Counter.le_rnd hfl (show ⌊q⌋.toNat + 1 ≤ now.toNat - start.toNat by omega)
    exact Valve.floor_toNat_lt q h0 _ this

/-- Reachable outputs: the reverse output is on only where it is used, alone or beside the other one. -/
def Fits (s : Sub) (m : Mt) : Prop :=
  (m.r = true → (s.kind = .rev ∧ m.o = true) ∨ ((s.kind = .rev2 ∨ s.kind = .rev2err) ∧ m.o = false))

theorem fits_step (s : Sub) (pOn : Fl) (m : Mt) (e : Tm × Ev) (h : Fits s m) : Fits s (step s pOn m e) := by
  obtain ⟨t, e⟩ := e
  obtain ⟨k, f⟩ := s
  obtain ⟨o, r, i, sp, st⟩ := m
  cases e with
  | on => cases k <;> cases o <;> cases r <;> simp_all [step, directOn, Fits]
  | off => cases k <;> cases f <;> cases o <;> cases r <;> simp_all [step, directOff, setValue, Fits]
  | set n =>
    by_cases hn : n = 2
    · subst hn; cases k <;> cases o <;> cases r <;> simp_all [step, directSet, directOn, Fits]
    · by_cases hz : n = 0
      · subst hz
        cases k <;> cases f <;> cases o <;> cases r <;> simp_all [step, directSet, directOff, setValue, Fits]
      · cases k <;> cases o <;> cases r <;> simp_all [step, directSet, directOn, Fits]
  | speed v => cases f <;> simp_all [step, setValue, Fits]
  | input b => simp_all [step, Fits]
  | ask =>
    cases k <;> cases o <;> cases r <;> cases i <;> simp_all [step, getState, Fits] <;> split <;> simp_all

theorem fits_run (s : Sub) (pOn : Fl) (m : Mt) (hm : Fits s m) (h : List (Tm × Ev)) : Fits s (run s pOn m h) := by
  induction h using List.reverseRecOn with
  | nil => exact hm
  | append_singleton h e ih => rw [run_snoc]; exact fits_step s pOn _ e ih

/-- The moment kept is the time of the event that renewed it last. -/
theorem start_step (s : Sub) (pOn : Fl) (m : Mt) (hm : Fits s m) (e : Tm × Ev) :
    (step s pOn m e).start =
      if outputs (step s pOn m e) ≠ outputs m ∨ (e.2 = .ask ∧ agrees s.kind m = true) then e.1 else m.start := by
  obtain ⟨t, e⟩ := e
  obtain ⟨k, f⟩ := s
  obtain ⟨o, r, i, sp, st⟩ := m
  cases e with
  | on => cases k <;> cases o <;> cases r <;> simp_all [step, directOn, outputs, Fits]
  | off => cases k <;> cases f <;> cases o <;> cases r <;> simp_all [step, directOff, setValue, outputs, Fits]
  | set n =>
    by_cases hn : n = 2
    · subst hn; cases k <;> cases o <;> cases r <;> simp_all [step, directSet, directOn, outputs, Fits]
    · by_cases hz : n = 0
      · subst hz
        cases k <;> cases f <;> cases o <;> cases r <;> simp_all [step, directSet, directOff, setValue, outputs, Fits]
      · cases k <;> cases o <;> cases r <;> simp_all [step, directSet, directOn, outputs, Fits]
  | speed v => cases f <;> simp_all [step, setValue, outputs]
  | input b => simp_all [step, outputs]
  | ask =>
    cases k <;> cases o <;> cases r <;> cases i <;>
      simp_all [step, getState, outputs, agrees, Fits] <;> split <;> simp_all

theorem getState_spec (s : Sub) (now : Tm) (pOn : Fl) (m : Mt) (hm : Fits s m) :
    (getState s now pOn m).1 = -1 ↔ agrees s.kind m = false ∧ late now m.start pOn = true := by
  obtain ⟨k, f⟩ := s
  obtain ⟨o, r, i, sp, st⟩ := m
  cases k <;> cases o <;> cases r <;> cases i <;>
    simp_all [getState, agrees, Fits] <;> split <;> simp_all

theorem start_le (s : Sub) (pOn : Fl) (m0 : Mt) (hm : Fits s m0) (h : List (Tm × Ev)) (now : Tm)
    (h0 : m0.start.toNat ≤ now.toNat) (hle : ∀ e ∈ h, e.1.toNat ≤ now.toNat) :
    (run s pOn m0 h).start.toNat ≤ now.toNat := by
  induction h using List.reverseRecOn with
  | nil => exact h0
  | append_singleton h e ih =>
    rw [run_snoc, start_step s pOn _ (fits_run s pOn m0 hm h)]
    split
    · exact hle e (by simp)
    · exact ih (fun x hx => hle x (by simp [hx]))

/-- No event after the moment kept has renewed it. -/
theorem start_last (s : Sub) (pOn : Fl) (m0 : Mt) (hm : Fits s m0) (h : List (Tm × Ev))
    (ho : h.Pairwise (fun a b => a.1.toNat ≤ b.1.toNat)) :
    ∀ pre e post, h = pre ++ e :: post → Renews s pOn m0 pre e → e.1.toNat ≤ (run s pOn m0 h).start.toNat := by
  induction h using List.reverseRecOn with
  | nil => intro pre e post h; simp at h
  | append_singleton h x ih =>
    intro pre e post heq hr
    have hpw := List.pairwise_append.mp ho
    have hst := start_step s pOn (run s pOn m0 h) (fits_run s pOn m0 hm h) x
    rcases List.eq_nil_or_concat post with rfl | ⟨post', y, rfl⟩
    · have := List.append_inj' heq rfl
      obtain ⟨rfl, hx⟩ := this
      simp only [List.cons.injEq, and_true] at hx
      subst hx
      rw [run_snoc, hst, if_pos (by
        rcases hr with hr | hr
        · left; rw [run_snoc] at hr; exact hr
        · right; exact hr)]
    · rw [List.concat_eq_append, ← List.cons_append, ← List.append_assoc] at heq
      have := List.append_inj' heq rfl
      obtain ⟨heq', hx⟩ := this
      have h1 := ih hpw.1 pre e post' heq' hr
      rw [run_snoc, hst]
      split
      · exact hpw.2.2 e (by rw [heq']; simp) x (by simp)
      · exact h1

/-- Events that renew nothing leave the moment kept. -/
theorem start_kept (s : Sub) (pOn : Fl) (m0 : Mt) (hm : Fits s m0) (pre : List (Tm × Ev)) (post : List (Tm × Ev)) :
    (∀ a e b, post = a ++ e :: b → ¬ Renews s pOn m0 (pre ++ a) e) →
    (run s pOn m0 (pre ++ post)).start = (run s pOn m0 pre).start := by
  induction post using List.reverseRecOn with
  | nil => intro _; simp
  | append_singleton post x ih =>
    intro h
    have h1 := ih (fun a e b he => h a e (b ++ [x]) (by rw [he]; simp))
    rw [← List.append_assoc, run_snoc, start_step s pOn _ (fits_run s pOn m0 hm _), if_neg, h1]
    have := h post x [] rfl
    intro hc
    apply this
    rcases hc with hc | hc
    · left; rw [run_snoc]; exact hc
    · right; exact hc

end Ptusa.Motor
