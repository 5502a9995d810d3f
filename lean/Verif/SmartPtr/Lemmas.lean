import Verif.SmartPtr.Spec
import Mathlib.Data.List.Induction

namespace Ptusa.SmartPtr.Lemmas

open SmartPtr Spec

theorem run_append (s : St) (a b : List Ev) : s.run (a ++ b) = (s.run a).bind (fun s => s.run b) := by
  induction a generalizing s with
  | nil => rfl
  | cons e t ih =>
    show (s.step e).bind (fun s => s.run (t ++ b)) = ((s.step e).bind (fun s => s.run t)).bind (fun s => s.run b)
    cases s.step e with
    | none => rfl
    | some s' => exact ih s'

theorem run_snoc (s : St) (a : List Ev) (e : Ev) : s.run (a ++ [e]) = (s.run a).bind (fun s => s.step e) := by
  rw [run_append]
  congr 1; funext s'
  show (s'.step e).bind (fun s => some s) = _
  cases s'.step e <;> rfl

theorem shows_snoc (v : Nat) (es : List Ev) (e : Ev) : shows v (es ++ [e]) = if target e = v then given e else shows v es := by
  unfold shows
  rw [List.reverse_append]
  show (List.find? _ (e :: es.reverse)).bind given = _
  rw [List.find?_cons]
  by_cases h : target e = v
  · rw [if_pos h]; simp [h]
  · rw [if_neg h]; simp [h]

theorem objects_snoc (es : List Ev) (e : Ev) : objects (es ++ [e]) = objects es ++ (given e).toList := by
  unfold objects
  rw [List.filterMap_append]
  cases h : given e <;> simp [h]

/-- Freeing what the pointer `v` holds and storing `o`, an object that was not handed over before. -/
theorem move (es : List Ev) (s : St) (v : Nat) (o : Option Nat) (hO : Owned es s) (hF : s.freed.Nodup)
    (hfs : ∀ x ∈ s.freed, x ∈ objects es) (hhs : ∀ w x, s.held w = some x → x ∈ objects es) (hn : ∀ x ∈ o, x ∉ objects es) :
    ∃ s', (s.del v).map (fun s => s.put v o) = some s' ∧ s'.freed.Nodup ∧ (∀ w, s'.held w = if w = v then o else s.held w) ∧
      (∀ x ∈ s'.freed, x ∈ objects es) ∧
      ∀ x ∈ objects es ++ o.toList, (x ∉ s'.freed ∧ ∃ u, s'.held u = some x ∧ ∀ w, s'.held w = some x → w = u) ∨
        (x ∈ s'.freed ∧ ∀ w, s'.held w ≠ some x) := by
  have newcase : ∀ (f : List Nat), (∀ x ∈ f, x ∈ objects es) → ∀ x ∈ o.toList,
      (x ∉ f ∧ ∃ u, (fun w => if w = v then o else s.held w) u = some x ∧ ∀ w, (fun w => if w = v then o else s.held w) w = some x → w = u) := by
    intro f hf x hx
    have hox : o = some x := by cases o with
      | none => simp at hx
      | some y => simp at hx; rw [hx]
    have hxn : x ∉ objects es := hn x (by rw [hox]; rfl)
    refine ⟨fun h => hxn (hf x h), v, by simp [hox], fun w hw => ?_⟩
    by_cases e : w = v
    · exact e
    · have hw : (if w = v then o else s.held w) = some x := hw
      rw [if_neg e] at hw
      exact absurd (hhs w x hw) hxn
  cases hv : s.held v with
  | none =>
    refine ⟨s.put v o, by unfold St.del; rw [hv]; rfl, hF, fun w => rfl, hfs, fun x hx => ?_⟩
    rcases List.mem_append.1 hx with hx | hx
    · have hxo : o ≠ some x := fun e => hn x (by rw [e]; rfl) hx
      rcases hO x hx with ⟨h1, u, h2, h3⟩ | ⟨h1, h2⟩
      · have huv : u ≠ v := fun e => by rw [e, hv] at h2; exact absurd h2 (by simp)
        refine .inl ⟨h1, u, by show (if u = v then o else s.held u) = _; rw [if_neg huv]; exact h2, fun w hw => ?_⟩
        have hw : (if w = v then o else s.held w) = some x := hw
        by_cases e : w = v
        · rw [if_pos e] at hw; exact absurd hw hxo
        · rw [if_neg e] at hw; exact h3 w hw
      · refine .inr ⟨h1, fun w hw => ?_⟩
        have hw : (if w = v then o else s.held w) = some x := hw
        by_cases e : w = v
        · rw [if_pos e] at hw; exact absurd hw hxo
        · rw [if_neg e] at hw; exact h2 w hw
    · exact .inl (newcase s.freed hfs x hx)
  | some y =>
    have hy := hhs v y hv
    have hyf : y ∉ s.freed := by
      rcases hO y hy with ⟨h, _⟩ | ⟨_, h⟩
      · exact h
      · exact absurd hv (h v)
    have hf' : ∀ x ∈ y :: s.freed, x ∈ objects es := by
      intro x hx
      rcases List.mem_cons.1 hx with e | hx
      · rw [e]; exact hy
      · exact hfs x hx
    let s1 : St := { s with freed := y :: s.freed }
    refine ⟨s1.put v o, by unfold St.del; rw [hv]; simp only; rw [if_neg hyf]; rfl, List.nodup_cons.2 ⟨hyf, hF⟩, fun w => rfl, hf', fun x hx => ?_⟩
    rcases List.mem_append.1 hx with hx | hx
    · have hxo : o ≠ some x := fun e => hn x (by rw [e]; rfl) hx
      rcases hO x hx with ⟨h1, u, h2, h3⟩ | ⟨h1, h2⟩
      · by_cases hxy : x = y
        · refine .inr ⟨by rw [hxy]; exact List.mem_cons_self, fun w hw => ?_⟩
          have hw : (if w = v then o else s.held w) = some x := hw
          by_cases e : w = v
          · rw [if_pos e] at hw; exact hxo hw
          · rw [if_neg e] at hw
            exact e ((h3 w hw).trans (h3 v (by rw [hxy]; exact hv)).symm)
        · have huv : u ≠ v := fun e => by rw [e, hv] at h2; exact hxy (Option.some.inj h2).symm
          refine .inl ⟨fun h => (List.mem_cons.1 h).elim hxy h1, u, by show (if u = v then o else s.held u) = _; rw [if_neg huv]; exact h2, fun w hw => ?_⟩
          have hw : (if w = v then o else s.held w) = some x := hw
          by_cases e : w = v
          · rw [if_pos e] at hw; exact absurd hw hxo
          · rw [if_neg e] at hw; exact h3 w hw
      · refine .inr ⟨List.mem_cons_of_mem _ h1, fun w hw => ?_⟩
        have hw : (if w = v then o else s.held w) = some x := hw
        by_cases e : w = v
        · rw [if_pos e] at hw; exact absurd hw hxo
        · rw [if_neg e] at hw; exact h2 w hw
    · exact .inl (newcase _ hf' x hx)

theorem run_owned (es : List Ev) (hp : ∀ e ∈ es, Plain e) (hn : (objects es).Nodup) :
    ∃ s, St.run {} es = some s ∧ Owned es s ∧ s.freed.Nodup ∧ (∀ x ∈ s.freed, x ∈ objects es) ∧ ∀ v, s.held v = shows v es := by
  induction es using List.reverseRecOn with
  | nil => exact ⟨{}, rfl, fun o ho => by simp [objects] at ho, List.nodup_nil, by simp, fun v => rfl⟩
  | append_singleton es e ih =>
    rw [objects_snoc] at hn
    obtain ⟨s, h1, h2, h3, h4, h5⟩ := ih (fun x hx => hp x (List.mem_append_left _ hx)) (List.nodup_append.1 hn).1
    have hh : ∀ w x, s.held w = some x → x ∈ objects es := by
      intro w x hw
      rw [h5] at hw
      unfold shows at hw
      cases hf : es.reverse.find? (fun e => decide (target e = w)) with
      | none => rw [hf] at hw; exact absurd hw (by simp)
      | some e' =>
        rw [hf] at hw
        exact List.mem_filterMap.2 ⟨e', List.mem_reverse.1 (List.mem_of_find?_eq_some hf), hw⟩
    have hdis : ∀ x ∈ given e, x ∉ objects es := by
      intro x hx hxo
      exact (List.nodup_append.1 hn).2.2 x hxo x (by cases hg : given e with
        | none => rw [hg] at hx; exact absurd hx (by simp)
        | some y => rw [hg] at hx; simpa using hx.symm) rfl
    have hpe := hp e (by simp)
    have main : ∀ (v : Nat) (o : Option Nat), e = .assign v o ∨ (e = .free v ∧ o = none) →
        ∃ s, St.run {} (es ++ [e]) = some s ∧ Owned (es ++ [e]) s ∧ s.freed.Nodup ∧ (∀ x ∈ s.freed, x ∈ objects (es ++ [e])) ∧
          ∀ w, s.held w = shows w (es ++ [e]) := by
      intro v o he
      have hg : given e = o ∧ target e = v ∧ s.step e = (s.del v).map (fun s => s.put v o) := by
        rcases he with rfl | ⟨rfl, rfl⟩ <;> exact ⟨rfl, rfl, rfl⟩
      rw [hg.1] at hdis
      obtain ⟨s', m1, m2, m3, m4, m5⟩ := move es s v o h2 h3 h4 hh hdis
      refine ⟨s', by rw [run_snoc, h1, Option.bind_some, hg.2.2, m1], ?_, m2, ?_, fun w => ?_⟩
      · intro x hx
        rw [objects_snoc, hg.1] at hx
        exact m5 x hx
      · intro x hx; rw [objects_snoc]; exact List.mem_append_left _ (m4 x hx)
      · rw [m3, shows_snoc, hg.1, hg.2.1]
        by_cases e : w = v
        · rw [if_pos e, if_pos e.symm]
        · rw [if_neg e, if_neg (Ne.symm e)]; exact h5 w
    cases e with
    | assign v o => exact main v o (.inl rfl)
    | free v => exact main v none (.inr ⟨rfl, rfl⟩)
    | replace v o => exact absurd hpe (by simp [Plain])
    | copy v w => exact absurd hpe (by simp [Plain])

theorem del_freed (s : St) (v o : Nat) (h : s.held v = some o) (hf : o ∈ s.freed) : s.del v = none := by
  unfold St.del; rw [h]; exact if_pos hf

theorem del_live (s : St) (v o : Nat) (h : s.held v = some o) (hf : o ∉ s.freed) :
    s.del v = some { s with freed := o :: s.freed } := by
  unfold St.del; rw [h]; exact if_neg hf

end Ptusa.SmartPtr.Lemmas
