import Verif.SmartPtr.Lemmas

namespace Ptusa.SmartPtr.Props

open SmartPtr Spec Lemmas

/-! ### C212: objects held by owning pointers are deleted once and not used afterwards -/

/-- When pointers are only assigned new objects and freed, then after any history no object was deleted twice, every pointer shows what it
was assigned last, and every object is either held by exactly one pointer and alive, or deleted and held by none. -/
theorem C212_owned_partial (es : List Ev) (hp : ∀ e ∈ es, Plain e) (hn : (objects es).Nodup) :
    ∃ s, St.run {} es = some s ∧ Owned es s ∧ s.freed.Nodup ∧ (∀ v, s.held v = shows v es) ∧ ∀ x ∈ s.freed, x ∈ objects es := by
  obtain ⟨s, h1, h2, h3, h4, h5⟩ := run_owned es hp hn
  exact ⟨s, h1, h2, h3, h5, h4⟩

/-- Hence nothing is leaked: when every pointer was freed last, every object is deleted. -/
theorem C212_all_deleted_partial (es : List Ev) (hp : ∀ e ∈ es, Plain e) (hn : (objects es).Nodup)
    (hf : ∀ v, shows v es = none) : ∃ s, St.run {} es = some s ∧ s.freed.Perm (objects es) := by
  obtain ⟨s, h1, h2, h3, h4, h5⟩ := run_owned es hp hn
  refine ⟨s, h1, (List.perm_ext_iff_of_nodup h3 hn).2 (fun x => ⟨h4 x, fun hx => ?_⟩)⟩
  rcases h2 x hx with ⟨_, v, hv, _⟩ | ⟨h, _⟩
  · rw [h5, hf] at hv; exact absurd hv (by simp)
  · exact h

/-- An instance is replaced, another pointer is freed. -/
example : ((St.run {} [.assign 1 (some 70), .assign 2 (some 71), .assign 1 (some 72), .free 2]).map fun s => (s.held 1, s.held 2, s.freed)) =
    some (some 72, none, [71, 70]) := by decide +kernel

example : (objects [.assign 1 (some 70), .assign 2 (some 71), .assign 1 (some 72), .free 2]).Nodup ∧
    ∀ v, shows v [.assign 1 (some 70), .free 1] = none := by
  refine ⟨by decide, fun v => ?_⟩
  by_cases h : v = 1
  · subst h; rfl
  · have h' : ¬ (1 = v) := fun e => h e.symm
    simp [shows, target, h']

/-- **Violated**: a copy of an owning pointer makes two owners; freeing both, in whatever state, deletes the object twice. -/
theorem C212_copy_violated (s : St) (v w o : Nat) (hvw : v ≠ w) (hw : s.held w = some o) :
    St.run s [.copy v w, .free v, .free w] = none := by
  show ((s.put v (s.held w)).step (.free v)).bind _ = none
  have hd : (s.put v (s.held w)).held v = some o := by show (if v = v then _ else _) = _; rw [if_pos rfl, hw]
  show (((s.put v (s.held w)).del v).map _).bind _ = none
  by_cases hf : o ∈ (s.put v (s.held w)).freed
  · rw [del_freed _ v o hd hf]; rfl
  · rw [del_live _ v o hd hf]
    show (((({ s.put v (s.held w) with freed := o :: (s.put v (s.held w)).freed } : St).put v none).del w).map _).bind _ = none
    rw [del_freed _ w o ?_ List.mem_cons_self]
    · rfl
    · show (if w = v then none else if w = v then s.held w else s.held w) = some o
      rw [if_neg (Ne.symm hvw), if_neg (Ne.symm hvw)]; exact hw

/-- **Violated**: a pointer assigned to itself keeps an object that is deleted, and the next assignment deletes it again. -/
theorem C212_self_violated (s : St) (v o : Nat) (hv : s.held v = some o) (ho : o ∉ s.freed) :
    (∃ s', s.step (.assign v (s.held v)) = some s' ∧ s'.held v = some o ∧ o ∈ s'.freed) ∧
    ∀ o', St.run s [.assign v (s.held v), .assign v o'] = none := by
  have h1 : s.step (.assign v (s.held v)) = some (({ s with freed := o :: s.freed } : St).put v (some o)) := by
    show (s.del v).map _ = _
    rw [del_live s v o hv ho, hv]; rfl
  refine ⟨⟨_, h1, ?_, ?_⟩, fun o' => ?_⟩
  · show (if v = v then _ else _) = _; rw [if_pos rfl]
  · exact List.mem_cons_self
  · show (s.step _).bind _ = none
    rw [h1]
    show ((St.del _ v).map _).bind _ = none
    rw [del_freed _ v o (if_pos rfl) List.mem_cons_self]
    rfl

/-- **Violated**: replacing without freeing loses the object: no pointer holds it and it is not deleted. -/
theorem C212_replace_violated (v o : Nat) (o' : Option Nat) (ho : o' ≠ some o) :
    ∃ s, St.run {} [.assign v (some o), .replace v o'] = some s ∧ o ∉ s.freed ∧ ∀ w, s.held w ≠ some o := by
  refine ⟨(St.put (St.put {} v (some o)) v o'), rfl, ?_, fun w hw => ?_⟩
  · show o ∉ ([] : List Nat); simp
  · have hw : (if w = v then o' else if w = v then some o else none) = some o := hw
    by_cases e : w = v
    · rw [if_pos e] at hw; exact ho hw
    · rw [if_neg e, if_neg e] at hw; exact absurd hw (by simp)

end Ptusa.SmartPtr.Props
