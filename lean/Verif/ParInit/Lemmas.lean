import Verif.ParInit.Spec
import Mathlib.Data.List.Induction

namespace Ptusa.ParInit.Lemmas

open ParInit Spec

theorem last_nil (w : Which) (i : Nat) : last w i [] = none := rfl

theorem last_snoc (w : Which) (i : Nat) (l : List Asg) (a : Asg) :
    last w i (l ++ [a]) = if a.w = w ∧ a.i = i then some a.v else last w i l := by
  unfold last
  rw [List.reverse_append]
  show List.findSome? _ (a :: l.reverse) = _
  rw [List.findSome?_cons]
  by_cases e : a.w = w ∧ a.i = i
  · rw [if_pos e, if_pos e]
  · rw [if_neg e, if_neg e]

theorem last_append (w : Which) (i : Nat) (l m : List Asg) : last w i (l ++ m) = (last w i m).or (last w i l) := by
  unfold last
  rw [List.reverse_append, List.findSome?_append]

theorem assignAll_get (c : Which → Nat) (w : Which) (i : Nat) (hi : 1 ≤ i ∧ i ≤ c w) (l : List Asg) (v : Vals) :
    assignAll c v l w i = (last w i l).getD (v w i) := by
  induction l using List.reverseRecOn with
  | nil => rfl
  | append_singleton l a ih =>
    rw [last_snoc]
    have : assignAll c v (l ++ [a]) w i = assign c (assignAll c v l) a w i := by simp [assignAll, List.foldl_append]
    rw [this]
    unfold assign
    by_cases e : a.w = w ∧ a.i = i
    · rw [if_pos e, if_pos ⟨e.1.symm, e.2.symm, hi⟩]; rfl
    · rw [if_neg e, if_neg (fun x => e ⟨x.1.symm, x.2.1.symm⟩), ih]

theorem assignAll_append (c : Which → Nat) (l m : List Asg) (v : Vals) : assignAll c v (l ++ m) = assignAll c (assignAll c v l) m := by
  simp [assignAll, List.foldl_append]

theorem last_runtime (w : Which) (i : Nat) (l : List Asg) (hl : Runtime l) (hw : w.saved = true) : last w i l = none := by
  unfold last
  rw [List.findSome?_eq_none_iff]
  intro a ha
  have := hl a (List.mem_reverse.1 ha)
  rw [if_neg]
  rintro ⟨e, _⟩
  rw [e, hw] at this; exact absurd this (by simp)

theorem initParams_eq (p : Project) (v : Vals) :
    initParams p v = assignAll p.count (zero true v) (p.uint ++ p.float ++ p.rtUint ++ p.rtFloat ++ p.project) := by
  simp only [assignAll_append]; rfl

theorem reset_saved (p : Project) (s : St) (w : Which) (i : Nat) (hw : w.saved = true) (hi : 1 ≤ i ∧ i ≤ p.count w) :
    (s.reset p).ram w i = dflt p w i := by
  show assignAll p.count (zero false (initParams p (zero true s.ram))) p.runtime w i = _
  rw [assignAll_get p.count w i hi]
  unfold dflt
  rw [last_append]
  have hz : zero false (initParams p (zero true s.ram)) w i = initParams p (zero true s.ram) w i := by
    unfold zero; exact if_neg (by rw [hw]; simp)
  rw [hz, initParams_eq, assignAll_get p.count w i hi]
  have h0 : zero true (zero true s.ram) w i = 0 := by unfold zero; exact if_pos hw
  rw [h0]
  cases last w i p.runtime <;> simp

theorem reset_run (p : Project) (s : St) (w : Which) (i : Nat) (hw : w.saved = false) (hi : 1 ≤ i ∧ i ≤ p.count w) :
    (s.reset p).ram w i = (last w i p.runtime).getD 0 := by
  show assignAll p.count (zero false (initParams p (zero true s.ram))) p.runtime w i = _
  rw [assignAll_get p.count w i hi]
  have hz : zero false (initParams p (zero true s.ram)) w i = 0 := by unfold zero; exact if_pos hw
  rw [hz]

theorem run_snoc (p : Project) (s : St) (h : List Ev) (e : Ev) : s.run p (h ++ [e]) = (s.run p h).step p e := by
  simp [St.run, List.foldl_append]

theorem saved_run (p : Project) (ho : Runtime p.own) (s : St) (w : Which) (i : Nat) (v0 : Rat) (hw : w.saved = true)
    (hi : 1 ≤ i ∧ i ≤ p.count w) (h1 : s.ram w i = v0) (h2 : s.nv w i = v0) (h : List Ev) :
    (s.run p h).ram w i = savedVal p w i v0 h.reverse ∧ (s.run p h).nv w i = savedVal p w i v0 h.reverse := by
  induction h using List.reverseRecOn with
  | nil => exact ⟨h1, h2⟩
  | append_singleton h e ih =>
    rw [run_snoc, List.reverse_append]
    show _ = savedVal p w i v0 (e :: h.reverse) ∧ _ = savedVal p w i v0 (e :: h.reverse)
    cases e with
    | reset => exact ⟨reset_saved p _ w i hw hi, reset_saved p _ w i hw hi⟩
    | set a =>
      simp only [St.step, St.set, savedVal]
      by_cases e : a.w = w ∧ a.i = i
      · rw [if_pos e]
        have hs : a.w.saved = true := by rw [e.1]; exact hw
        rw [if_pos hs]
        unfold assign
        rw [if_pos ⟨e.1.symm, e.2.symm, hi⟩, if_pos ⟨e.1.symm, e.2.symm, hi⟩]; exact ⟨rfl, rfl⟩
      · rw [if_neg e]
        have ne : ¬ (w = a.w ∧ i = a.i ∧ 1 ≤ i ∧ i ≤ p.count w) := fun x => e ⟨x.1.symm, x.2.1.symm⟩
        have hk : ∀ v : Vals, assign p.count v a w i = v w i := by intro v; unfold assign; exact if_neg ne
        refine ⟨(hk _).trans ih.1, ?_⟩
        by_cases hs : a.w.saved = true
        · rw [if_pos hs]; exact (hk _).trans ih.2
        · rw [if_neg hs]; exact ih.2
    | start ch =>
      have hl := last_runtime w i p.own ho hw
      cases ch with
      | true =>
        exact ⟨reset_saved p _ w i hw hi, reset_saved p _ w i hw hi⟩
      | false =>
        refine ⟨?_, ih.2⟩
        show assignAll p.count (zero false (s.run p h).nv) p.own w i = savedVal p w i v0 h.reverse
        rw [assignAll_get p.count w i hi, hl]
        show zero false (s.run p h).nv w i = _
        unfold zero
        rw [if_neg (by rw [hw]; simp)]; exact ih.2

theorem runtime_run (p : Project) (s : St) (w : Which) (i : Nat) (v0 : Rat) (hw : w.saved = false)
    (hi : 1 ≤ i ∧ i ≤ p.count w) (h1 : s.ram w i = v0) (h : List Ev) :
    (s.run p h).ram w i = runVal p w i v0 h.reverse := by
  induction h using List.reverseRecOn with
  | nil => exact h1
  | append_singleton h e ih =>
    rw [run_snoc, List.reverse_append]
    show _ = runVal p w i v0 (e :: h.reverse)
    cases e with
    | reset => exact reset_run p _ w i hw hi
    | set a =>
      simp only [St.step, St.set, runVal, assign]
      by_cases e : a.w = w ∧ a.i = i
      · rw [if_pos e, if_pos ⟨e.1.symm, e.2.symm, hi⟩]
      · rw [if_neg e, if_neg (fun x => e ⟨x.1.symm, x.2.1.symm⟩)]; exact ih
    | start ch =>
      cases ch with
      | true =>
        exact reset_run p _ w i hw hi
      | false =>
        show assignAll p.count (zero false (s.run p h).nv) p.own w i = (last w i p.own).getD 0
        rw [assignAll_get p.count w i hi]
        have hz : zero false (s.run p h).nv w i = 0 := by unfold zero; exact if_pos hw
        rw [hz]

theorem last_shift (n k : Nat) (w : Which) (l : List Asg) :
    last w (n + k) (l.map fun a => ⟨a.w, n + a.i, a.v⟩) = last w k l := by
  unfold last
  rw [← List.map_reverse]
  induction l.reverse with
  | nil => rfl
  | cons a t ih =>
    rw [List.map_cons, List.findSome?_cons, List.findSome?_cons, ih]
    simp only [Nat.add_left_cancel_iff]

theorem line_last (n k : Nat) (hk : k < 26) : (last .rtF (n + k) (cipOwn n (n + 4) (n + 15))).getD 0 = lineSetup.getD k 0 := by
  have e : cipOwn n (n + 4) (n + 15) = (cipOwn 0 4 15).map fun a => ⟨a.w, n + a.i, a.v⟩ := rfl
  rw [e, last_shift]
  have all : ∀ k < 26, (last .rtF k (cipOwn 0 4 15)).getD 0 = lineSetup.getD k 0 := by decide +kernel
  exact all k hk

end Ptusa.ParInit.Lemmas
