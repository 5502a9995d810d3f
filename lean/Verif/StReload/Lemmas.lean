import Verif.StReload.Spec
import Verif.CipStats.LemmasSys

namespace Ptusa.StReload

open Ptusa.CipStats
open Ptusa.Registry (Name)

theorem target_of {lines : List Line} {k i : Nat} {me l : Line} (hk : lines[k]? = some me) (hi : lines[i]? = some l) (hw : l.Washes) :
    target lines k i = some (if me.car then l.number else l.recipe) := by
  unfold target
  rw [hk, hi]
  obtain ⟨h1, h2⟩ := hw
  unfold Own at h2
  have e1 : (l.prog != 512) = true := by rw [bne_iff_ne]; omega
  have e2 : (l.prog != 256) = true := by rw [bne_iff_ne]; omega
  have e3 : (l.prog != 2048) = true := by rw [bne_iff_ne]; omega
  show (if (l.running && l.prog != 512 && l.prog != 256 && l.prog != 2048) = true then _ else _) = _
  rw [h1, e1, e2, e3]
  rfl

theorem target_none {lines : List Line} {k i : Nat} {l : Line} (hi : lines[i]? = some l) (hw : ¬l.Washes) :
    target lines k i = none := by
  unfold target
  rw [hi]
  cases lines[k]? with
  | none => rfl
  | some me =>
    refine if_neg fun h => hw ?_
    simp only [Bool.and_eq_true, bne_iff_ne] at h
    exact ⟨h.1.1.1, by unfold Own; omega⟩

theorem target_fit {lines : List Line} (hn : ∀ l ∈ lines, Fits 96 l.number ∧ Fits 96 l.recipe) (k : Nat) (m : Mem) :
    (reload lines k m).Fit := by
  intro i n h
  unfold target at h
  split at h
  · rename_i me l _ hl
    have hm := hn l (List.mem_of_getElem? hl)
    by_cases c : (l.running && l.prog != 512 && l.prog != 256 && l.prog != 2048) = true
    · rw [if_pos c] at h
      cases h
      cases me.car
      · exact hm.2
      · exact hm.1
    · rw [if_neg c] at h
      exact absurd h (by simp)
  · exact absurd h (by simp)

/-- After a history that ends with the command. -/
theorem after_reload (js : Nat → Junk) (h more : List Ev) (hf : ∀ e ∈ h, e.Fit) (hc : ∀ e ∈ h, e.Calm) (hf' : ∀ e ∈ more, e.Fit)
    (hc' : ∀ e ∈ more, e.Calm) (hl : h.length + more.length < 500000000) {lines : List Line}
    (hn : ∀ l ∈ lines, Fits 96 l.number ∧ Fits 96 l.recipe) (k : Nat) (m : Mem) :
    ∃ s, (Sys.init js).run false (h ++ reload lines k m :: more) = some s ∧
      (∀ n, look s.base n = ((Tab.init.run h).step (reload lines k m) |>.run more).mem n) ∧
      s.at' = ((Tab.init.run h).step (reload lines k m) |>.run more).at' := by
  obtain ⟨s, e, -, r⟩ := run_inv (init_inv js) (h ++ reload lines k m :: more)
    (by
      intro e he
      rcases List.mem_append.1 he with he | he
      · exact hf e he
      · rcases List.mem_cons.1 he with rfl | he
        · exact target_fit hn k m
        · exact hf' e he)
    (by simp only [List.length_append, List.length_cons]; omega)
  have hr := r _ (init_rel js) (by
      intro e he
      rcases List.mem_append.1 he with he | he
      · exact hc e he
      · rcases List.mem_cons.1 he with rfl | he
        · trivial
        · exact hc' e he)
  have e2 : Tab.init.run (h ++ reload lines k m :: more) = ((Tab.init.run h).step (reload lines k m)).run more := by
    simp [Tab.run, List.foldl_append]
  rw [e2] at hr
  exact ⟨s, e, hr.mem, hr.at'⟩

end Ptusa.StReload
