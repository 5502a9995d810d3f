import Verif.CipLines.Lemmas

namespace Ptusa.CipLines.Props

open CipLines Spec Lemmas

/-! ### C209: the checks among washing lines see every line -/

/-- When the lines are numbered from one without gaps, each is set up once and there are at most ten, the checks go over every line
exactly once, in the order of the numbers, whatever the order in which the lines were set up. -/
theorem C209_lines_partial (ls : List (Nat × Int)) (hn : Numbered ls) :
    ∃ s l, St.setUp {} ls = some s ∧ s.visit = some l ∧ l.length = ls.length ∧
      ∀ (k id : Nat), l[k]? = some id ↔ (id, (k : Int) + 1) ∈ ls := by
  obtain ⟨s, l, hs, hv⟩ := (visit_iff ls).2 hn
  obtain ⟨a, b, _, _, _⟩ := (setUp_some ls).1 s hs
  have hv' := hv
  unfold St.visit at hv'
  rw [b] at hv'
  obtain ⟨hl, hj⟩ := (loop_spec s _ 0 l).1 hv'
  refine ⟨s, l, hs, hv, hl, fun k id => ?_⟩
  have fwd : ∀ (k id : Nat), l[k]? = some id → (id, (k : Int) + 1) ∈ ls := by
    intro k id h
    have hk : k < ls.length := by rw [← hl]; exact (List.getElem?_eq_some_iff.1 h).1
    have h1 := hj k hk
    rw [Nat.zero_add, line_of ls s hs, h] at h1
    by_cases h10 : k < 10
    · rw [if_pos h10] at h1; exact lastOf_mem k id ls h1
    · rw [if_neg h10] at h1; exact absurd h1 (by simp)
  refine ⟨fwd k id, fun hm => ?_⟩
  have hk : k < ls.length := by
    have := hn.2.mem_iff.1 (List.mem_map.2 ⟨_, hm, rfl⟩)
    obtain ⟨k', hk', e⟩ := List.mem_map.1 this
    have := List.mem_range.1 hk'
    have : (k' : Int) + 1 = (k : Int) + 1 := e
    omega
  have hg : l[k]? = some (l[k]'(by omega)) := List.getElem?_eq_getElem _
  have hm2 := fwd k _ hg
  have hnd : (ls.map Prod.snd).Nodup := hn.2.nodup_iff.2 (nodup_numbers _)
  have := List.inj_on_of_nodup_map hnd hm hm2 rfl
  rw [hg]; exact congrArg some (congrArg Prod.fst this).symm

example : Numbered [(70, 2), (71, 1), (72, 3)] := by
  refine ⟨by decide, ?_⟩
  show [(2 : Int), 1, 3].Perm [1, 2, 3]
  exact List.Perm.swap 1 2 [3]

example : ((St.setUp {} [(70, 2), (71, 1), (72, 3)]).bind St.visit) = some [71, 70, 72] := by decide +kernel

/-- **Violated**: with any other numbers - a gap, a number twice, a line set up twice, a number above ten or below one - setting up the lines
writes outside the list, or every check among the lines uses a pointer which does not point to a line. -/
theorem C209_numbers_violated (ls : List (Nat × Int)) (hn : ¬ Numbered ls) :
    St.setUp {} ls = none ∨ ∃ s, St.setUp {} ls = some s ∧ s.visit = none := by
  cases hs : St.setUp {} ls with
  | none => exact .inl rfl
  | some s =>
    refine .inr ⟨s, rfl, ?_⟩
    cases hv : s.visit with
    | none => rfl
    | some l => exact absurd ((visit_iff ls).1 ⟨s, l, hs, hv⟩) hn

/-- A station with one line which has number 2. -/
example : ((St.setUp {} [(70, 2)]).bind St.visit) = none ∧ St.setUp {} [(70, 11)] = none ∧
    ((St.setUp {} [(70, 1), (70, 1)]).bind St.visit) = none := by decide +kernel

/-- **Violated**: when one of the lines is destroyed, the list still points to it. -/
theorem C209_destroyed_violated (ls : List (Nat × Int)) (s : St) (hs : St.setUp {} ls = some s) (l : List Nat) (hv : s.visit = some l)
    (id : Nat) (hid : id ∈ l) : (s.destroy id).visit = none := by
  unfold St.visit at hv ⊢
  cases h : (s.destroy id).loop 0 (s.destroy id).cnt with
  | none => rfl
  | some l' =>
    obtain ⟨h1, h2⟩ := (loop_spec _ _ 0 l').1 h
    obtain ⟨g1, g2⟩ := (loop_spec _ _ 0 l).1 hv
    obtain ⟨k, hk⟩ := List.getElem?_of_mem hid
    have hlt : k < s.cnt := by rw [← g1]; exact (List.getElem?_eq_some_iff.1 hk).1
    have e1 := g2 k hlt
    have e2 := h2 k hlt
    rw [Nat.zero_add] at e1 e2
    rw [hk] at e1
    have hslot : s.slots[k]? = some (some id) := by
      unfold St.line at e1
      split at e1
      · next x hx =>
        by_cases hf : x ∈ s.freed
        · rw [if_pos hf] at e1; exact absurd e1 (by simp)
        · rw [if_neg hf] at e1; rw [hx, Option.some.inj e1]
      · exact absurd e1 (by simp)
    have hn : (s.destroy id).line k = none := by
      unfold St.line St.destroy
      rw [hslot]; simp
    rw [hn, List.getElem?_eq_getElem (by rw [h1]; exact hlt)] at e2
    exact absurd e2 (by simp)

example : ((St.setUp {} [(70, 1), (71, 2)]).bind fun s => (s.destroy 70).visit) = none := by decide +kernel

end Ptusa.CipLines.Props
