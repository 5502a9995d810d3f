import Verif.CritErr.Lemmas

/-!
# C08, C09: critical errors
-/
namespace Ptusa.CritErr

/-- C08 (missing: parameters of 2^32 and more, for which it is false): after any history the
list contains an error exactly once if its last call was a set, and not at all otherwise.
`h` lists the calls, most recent first. -/
theorem C08_list_is_set_partial (h : List Call) (hf : ∀ c ∈ h, c.Fits)
    (c s : BitVec 32) (p : BitVec 64) (hp : p.toNat < 2 ^ 32) :
    (Mgr.init.run h.reverse).errors.count (key c s p) = if active c s p h then 1 else 0 := by
  obtain ⟨i1, i2, _⟩ := run_inv h hf
  split
  · rename_i ha
    rw [List.Nodup.count i1, if_pos ((i2 c s p hp).2 ha)]
  · rename_i ha
    rw [List.count_eq_zero]
    intro hm
    exact ha ((i2 c s p hp).1 hm)

/-- C08: the list contains nothing but active errors, and `is_any_error` says whether there is
one. -/
theorem C08_any_error_iff_partial (h : List Call) (hf : ∀ c ∈ h, c.Fits) :
    (Mgr.init.run h.reverse).isAnyError = true ↔
      ∃ c s p, p.toNat < 2 ^ 32 ∧ active c s p h = true := by
  obtain ⟨i1, i2, _, i4⟩ := run_inv h hf
  unfold Mgr.isAnyError
  constructor
  · intro hne
    simp at hne
    obtain ⟨e, he⟩ := List.exists_mem_of_ne_nil _ hne
    obtain ⟨c, s, p, hp, rfl⟩ := i4 e he
    exact ⟨c, s, p, hp, (i2 c s p hp).1 he⟩
  · rintro ⟨c, s, p, hp, ha⟩
    have := (i2 c s p hp).2 ha
    simp
    intro hnil
    rw [hnil] at this
    simp at this

/-- C08, idempotence, in every state and for every parameter: repeating a set or a reset
changes nothing. -/
theorem C08_idempotent (m : Mgr) (hnd : m.errors.Nodup) (c : Call) :
    (m.step c).step c = m.step c := by
  cases c with
  | set c s p =>
    simp only [Mgr.step]
    by_cases hm : key c s p ∈ m.errors
    · simp [hm]
    · simp [hm]
  | reset c s p =>
    simp only [Mgr.step]
    by_cases hm : key c s p ∈ m.errors
    · simp [hm, List.Nodup.mem_erase_iff hnd]
    · simp [hm]

example : (⟨[⟨1, 1, 5⟩, ⟨1, 2, 5⟩], 7⟩ : Mgr).errors.Nodup := by decide

/-- C08 for parameters of 64 bits is false of the code: only the low 32 bits are kept, so
resetting one error removes another. -/
theorem C08_list_is_set_violated :
    ¬ ∀ (h : List Call) (c s : BitVec 32) (p : BitVec 64),
      (Mgr.init.run h.reverse).errors.count (key c s p) = if active c s p h then 1 else 0 := by
  intro hh
  have := hh [.reset 1 1 5, .set 1 1 4294967301] 1 1 4294967301
  revert this
  decide

/-- Non-vacuity of C08/C09: a history of five calls, two of them without effect. -/
example : (∀ c ∈ [Call.reset 1 1 3, .set 1 1 4, .reset 1 1 3, .set 1 1 3, .set 1 1 3], c.Fits) ∧
    active 1 1 4 [.reset 1 1 3, .set 1 1 4, .reset 1 1 3, .set 1 1 3, .set 1 1 3] = true ∧
    (Mgr.init.run [.set 1 1 3, .set 1 1 3, .reset 1 1 3, .set 1 1 4, .reset 1 1 3]) =
      ⟨[⟨1, 1, 4⟩], 3⟩ := by
  refine ⟨?_, by decide, by decide⟩
  intro c hc
  simp only [List.mem_cons, List.not_mem_nil, or_false] at hc
  rcases hc with rfl | rfl | rfl | rfl | rfl <;> simp [Call.Fits]

/-- The id and the set of active errors (missing: parameters of 2^32 and more): the id is the number of changes of the
set of active errors, modulo 2^16. -/
theorem C08_id_counts_active_partial (h : List Call) (hf : ∀ c ∈ h, c.Fits) :
    (Mgr.init.run h.reverse).id.toNat = changes h % 65536 := by
  obtain ⟨_, _, i3, _⟩ := run_inv h hf
  rw [i3]; simp

/-- C09: after any history, a call that changes the list adds one to the id, and a call that does not change the list
leaves the id. -/
theorem C09_id_moves_iff_list_changes (h : List Call) (c : Call) :
    ((Mgr.init.run (h ++ [c])).errors ≠ (Mgr.init.run h).errors →
      (Mgr.init.run (h ++ [c])).id = (Mgr.init.run h).id + 1) ∧
    ((Mgr.init.run (h ++ [c])).errors = (Mgr.init.run h).errors →
      (Mgr.init.run (h ++ [c])).id = (Mgr.init.run h).id) := by
  rw [run_snoc]
  rcases step_id _ (nodup_run Mgr.init (by simp [Mgr.init]) h) c with ⟨h1, h2⟩ | h1
  · exact ⟨fun _ => h2, fun he => absurd he h1⟩
  · rw [h1]; exact ⟨fun he => absurd rfl he, fun _ => rfl⟩

example : (Mgr.init.run ([.set 1 1 3] ++ [.set 1 1 4294967299])) = Mgr.init.run [.set 1 1 3] ∧
    (Mgr.init.run ([.set 1 1 3] ++ [.reset 1 1 3])) = ⟨[], 2⟩ := by decide

/-- C09 over histories: the id is the number of calls that changed the list, modulo 2^16. -/
theorem C09_id_counts_changes (h : List Call) :
    (Mgr.init.run h).id.toNat = listChanges Mgr.init h % 65536 := by
  rw [run_id _ (by simp [Mgr.init])]
  simp [Mgr.init]

example : listChanges Mgr.init [.set 1 1 3, .set 1 1 3, .reset 1 1 3, .set 1 1 4, .reset 1 1 3] = 3 := by decide

/-- C09, what a client may conclude from two reads of the id, `h2` being the calls in between: ids are equal exactly
when the number of changes in between is a multiple of 65536; so different ids prove a change. -/
theorem C09_client_view (h1 h2 : List Call) :
    ((Mgr.init.run (h1 ++ h2)).id = (Mgr.init.run h1).id ↔
      65536 ∣ listChanges (Mgr.init.run h1) h2) ∧
    ((Mgr.init.run (h1 ++ h2)).id ≠ (Mgr.init.run h1).id → 0 < listChanges (Mgr.init.run h1) h2) := by
  have hr : Mgr.init.run (h1 ++ h2) = (Mgr.init.run h1).run h2 := by simp [Mgr.run]
  have := run_id _ (nodup_run Mgr.init (by simp [Mgr.init]) h1) h2
  rw [hr, this]
  generalize listChanges (Mgr.init.run h1) h2 = n
  generalize (Mgr.init.run h1).id = x
  have key : x + BitVec.ofNat 16 n = x ↔ 65536 ∣ n := by
    have hx := x.isLt
    rw [← BitVec.toNat_inj, BitVec.toNat_add, BitVec.toNat_ofNat]
    omega
  refine ⟨key, fun hne => ?_⟩
  rcases Nat.eq_zero_or_pos n with rfl | h
  · exact absurd (key.2 (by simp)) hne
  · exact h

example : (Mgr.init.run ([.set 1 1 3] ++ [.set 1 2 3, .reset 1 1 3])).id = 3 ∧
    listChanges (Mgr.init.run [.set 1 1 3]) [.set 1 2 3, .reset 1 1 3] = 2 := by decide

end Ptusa.CritErr
