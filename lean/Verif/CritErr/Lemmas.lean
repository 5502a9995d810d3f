import Verif.CritErr.Spec

namespace Ptusa.CritErr

theorem key_inj {c s c' s' : BitVec 32} {p p' : BitVec 64} (h : p.toNat < 2 ^ 32)
    (h' : p'.toNat < 2 ^ 32) : key c s p = key c' s' p' ↔ c = c' ∧ s = s' ∧ p = p' := by
  unfold key
  rw [Err.mk.injEq]
  constructor
  · rintro ⟨h1, h2, h3⟩
    refine ⟨h1, h2, BitVec.eq_of_toNat_eq ?_⟩
    have := congrArg BitVec.toNat h3
    simp at this
    omega
  · rintro ⟨rfl, rfl, rfl⟩; exact ⟨rfl, rfl, rfl⟩

theorem run_snoc (m : Mgr) (h : List Call) (c : Call) :
    m.run (h ++ [c]) = (m.run h).step c := by simp [Mgr.run]

theorem any_iff (l : List Err) (k : Err) : l.any (· == k) = true ↔ k ∈ l := by
  simp

/-- Joint invariant of list, count of changes and specification (history most recent first). -/
theorem run_inv (h : List Call) (hf : ∀ c ∈ h, c.Fits) :
    (Mgr.init.run h.reverse).errors.Nodup ∧
    (∀ c s p, p.toNat < 2 ^ 32 →
      (key c s p ∈ (Mgr.init.run h.reverse).errors ↔ active c s p h = true)) ∧
    (Mgr.init.run h.reverse).id = BitVec.ofNat 16 (changes h) ∧
    (∀ e ∈ (Mgr.init.run h.reverse).errors, ∃ c s p, p.toNat < 2 ^ 32 ∧ e = key c s p) := by
  induction h with
  | nil => simp [Mgr.run, Mgr.init, active, changes]
  | cons a t ih =>
    obtain ⟨i1, i2, i3, i4⟩ := ih (fun c hc => hf c (by simp [hc]))
    have ha := hf a (by simp)
    rw [List.reverse_cons, run_snoc]
    generalize Mgr.init.run t.reverse = m at *
    cases a with
    | set c s p =>
      simp only [Call.Fits] at ha
      simp only [Mgr.step]
      have hk := i2 c s p ha
      by_cases hm : key c s p ∈ m.errors
      · rw [if_pos ((any_iff _ _).2 hm)]
        have hact := hk.1 hm
        refine ⟨i1, ?_, ?_, i4⟩
        · intro c' s' p' hp'
          rw [i2 c' s' p' hp']
          simp only [active]
          split
          · rename_i he; obtain ⟨rfl, rfl, rfl⟩ := he; simp [hact]
          · rfl
        · simp [changes, hact, i3]
      · rw [if_neg (by rw [any_iff]; exact hm)]
        have hact : active c s p t = false := by
          rw [Bool.eq_false_iff]; intro hh; exact hm (hk.2 hh)
        refine ⟨?_, ?_, ?_, ?_⟩
        · rw [List.nodup_append]
          refine ⟨i1, by simp, ?_⟩
          intro x hx y hy hxy
          simp at hy; subst hy; subst hxy; exact hm hx
        · intro c' s' p' hp'
          simp only [List.mem_append, List.mem_singleton, active]
          rw [i2 c' s' p' hp', key_inj hp' ha]
          by_cases he : c = c' ∧ s = s' ∧ p = p'
          · rw [if_pos he]; obtain ⟨rfl, rfl, rfl⟩ := he; simp
          · rw [if_neg he]
            constructor
            · rintro (h | ⟨h1, h2, h3⟩)
              · exact h
              · exact absurd ⟨h1.symm, h2.symm, h3.symm⟩ he
            · intro h; exact Or.inl h
        · simp only [changes, hact, i3]
          apply BitVec.eq_of_toNat_eq
          simp
        · intro e he
          simp only [List.mem_append, List.mem_singleton] at he
          rcases he with he | rfl
          · exact i4 e he
          · exact ⟨c, s, p, ha, rfl⟩
    | reset c s p =>
      simp only [Call.Fits] at ha
      simp only [Mgr.step]
      have hk := i2 c s p ha
      by_cases hm : key c s p ∈ m.errors
      · rw [if_pos ((any_iff _ _).2 hm)]
        have hact := hk.1 hm
        refine ⟨i1.erase _, ?_, ?_, ?_⟩
        · intro c' s' p' hp'
          simp only [active]
          rw [List.Nodup.mem_erase_iff i1, i2 c' s' p' hp', Ne, key_inj hp' ha]
          by_cases he : c = c' ∧ s = s' ∧ p = p'
          · rw [if_pos he]; obtain ⟨rfl, rfl, rfl⟩ := he; simp
          · rw [if_neg he]
            constructor
            · rintro ⟨_, h⟩; exact h
            · intro h; exact ⟨fun hh => he ⟨hh.1.symm, hh.2.1.symm, hh.2.2.symm⟩, h⟩
        · simp only [changes, hact, i3]
          apply BitVec.eq_of_toNat_eq
          simp
        · intro e he
          exact i4 e (List.mem_of_mem_erase he)
      · rw [if_neg (by rw [any_iff]; exact hm)]
        have hact : active c s p t = false := by
          rw [Bool.eq_false_iff]; intro hh; exact hm (hk.2 hh)
        refine ⟨i1, ?_, ?_, i4⟩
        · intro c' s' p' hp'
          rw [i2 c' s' p' hp']
          simp only [active]
          split
          · rename_i he; obtain ⟨rfl, rfl, rfl⟩ := he; simp [hact]
          · rfl
        · simp [changes, hact, i3]

theorem nodup_step (m : Mgr) (h : m.errors.Nodup) (c : Call) : (m.step c).errors.Nodup := by
  cases c with
  | set c s p =>
    simp only [Mgr.step]
    split
    · exact h
    · rename_i hm
      rw [any_iff] at hm
      rw [List.nodup_append]
      refine ⟨h, by simp, ?_⟩
      intro x hx y hy hxy
      simp at hy; subst hy; subst hxy; exact hm hx
  | reset c s p =>
    simp only [Mgr.step]
    split
    · exact h.erase _
    · exact h

theorem nodup_run (m : Mgr) (h : m.errors.Nodup) (cs : List Call) : (m.run cs).errors.Nodup := by
  induction cs generalizing m with
  | nil => exact h
  | cons c t ih => exact ih _ (nodup_step m h c)

theorem step_id (m : Mgr) (hnd : m.errors.Nodup) (c : Call) :
    ((m.step c).errors ≠ m.errors ∧ (m.step c).id = m.id + 1) ∨ m.step c = m := by
  cases c with
  | set c s p =>
    simp only [Mgr.step]
    split
    · right; rfl
    · left; simp
  | reset c s p =>
    simp only [Mgr.step]
    split
    · rename_i hm
      rw [any_iff] at hm
      left
      refine ⟨?_, rfl⟩
      intro he
      have : key c s p ∈ m.errors.erase (key c s p) := by
        simp only [] at he; rw [he]; exact hm
      simp [List.Nodup.mem_erase_iff hnd] at this
    · right; rfl

theorem run_id (m : Mgr) (h : m.errors.Nodup) (cs : List Call) :
    (m.run cs).id = m.id + BitVec.ofNat 16 (listChanges m cs) := by
  induction cs generalizing m with
  | nil => simp [Mgr.run, listChanges]
  | cons c t ih =>
    have := ih (m.step c) (nodup_step m h c)
    simp only [Mgr.run, List.foldl_cons, listChanges] at this ⊢
    rw [this]
    rcases step_id m h c with ⟨h1, h2⟩ | h1
    · rw [h2, if_neg h1]
      apply BitVec.eq_of_toNat_eq
      simp
      omega
    · rw [h1, if_pos rfl]
      simp

end Ptusa.CritErr
