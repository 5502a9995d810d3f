import Verif.CplSock.Spec
import Mathlib.Data.List.Nodup
import Mathlib.Data.List.Perm.Subperm
namespace Ptusa.CplSock

theorem lowest_spec (l : List Nat) : lowest l ∉ l ∧ lowest l ≤ l.length ∧ ∀ m, m < lowest l → m ∈ l := by
  unfold lowest
  cases h : (List.range (l.length + 1)).find? fun n => decide (n ∉ l) with
  | none =>
    exfalso
    rw [List.find?_eq_none] at h
    have hsub : List.range (l.length + 1) ⊆ l := by
      intro x hx
      simpa using h x hx
    have := (List.nodup_range.subperm hsub).length_le
    rw [List.length_range] at this
    omega
  | some n =>
    have h1 := List.find?_some h
    have h2 := List.mem_of_find?_eq_some h
    rw [List.find?_range_eq_some] at h
    simp only [Option.getD_some]
    refine ⟨by simpa using h1, by have := List.mem_range.mp h2; omega, ?_⟩
    intro m hm
    simpa using h.2.2 m hm

theorem closeFd_opened {files : List (Nat × Owner)} {fd : Nat} {o : Owner} (h : fd ∉ files.map Prod.fst) :
    closeFd ((fd, o) :: files) fd = files := by
  unfold closeFd
  rw [List.filter_cons]
  simp only [ne_eq, not_true_eq_false, decide_false, Bool.false_eq_true, if_false]
  rw [List.filter_eq_self]
  intro f hf
  simp only [decide_not, Bool.not_eq_true', decide_eq_false_iff_not]
  rintro rfl
  exact h (List.mem_map_of_mem hf)

/-- What holds at any time. -/
structure Inv (n : Nat) (s : Sys) : Prop where
  keys : (s.files.map Prod.fst).Nodup
  zero : (0, Owner.rest) ∈ s.files
  own : ∀ fd i, (fd, Owner.node i) ∈ s.files ↔ (s.nodes i).ok = true ∧ (s.nodes i).sock = fd
  none : ∀ i, (s.nodes i).ok = false → (s.nodes i).sock = 0
  count : ∀ i, n ≤ i → (s.nodes i).ok = false

theorem Inv.sock_ne {n : Nat} {s : Sys} (h : Inv n s) (i : Nat) (ho : (s.nodes i).ok = true) : (s.nodes i).sock ≠ 0 := by
  intro h0
  have h1 := (h.own 0 i).mpr ⟨ho, h0⟩
  have := List.inj_on_of_nodup_map h.keys h1 h.zero rfl
  cases this

theorem disconnect_inv {n : Nat} {s : Sys} (h : Inv n s) (i : Nat) :
    Inv n (disconnect s i) ∧ ((disconnect s i).nodes i).ok = false ∧ ((disconnect s i).nodes i).sock = 0 ∧
      ((disconnect s i).nodes i).active = (s.nodes i).active := by
  unfold disconnect
  simp only
  split
  · rename_i hs
    have hok : (s.nodes i).ok = true := by
      cases ho : (s.nodes i).ok with
      | true => rfl
      | false => exact absurd (h.none i ho) hs
    have hin := (h.own _ i).mpr ⟨hok, rfl⟩
    refine ⟨⟨?_, ?_, ?_, ?_, ?_⟩, ?_, ?_, ?_⟩
    · exact h.keys.sublist (List.filter_sublist.map _)
    · simp only [Sys.put, closeFd, List.mem_filter, h.zero, true_and, decide_eq_true_eq]
      exact fun hc => hs hc.symm
    · intro fd j
      simp only [Sys.put, closeFd, List.mem_filter, h.own, decide_eq_true_eq]
      by_cases hj : j = i
      · subst hj
        simp only [if_true, Bool.false_eq_true, false_and, iff_false, not_and]
        intro hc
        simp [hc.2]
      · simp only [if_neg hj]
        refine ⟨fun hc => hc.1, fun hc => ⟨hc, ?_⟩⟩
        rintro rfl
        have h2 := (h.own _ j).mpr hc
        have := List.inj_on_of_nodup_map h.keys h2 hin rfl
        simp only [Prod.mk.injEq, Owner.node.injEq, true_and] at this
        exact hj this
    · intro j hj
      simp only [Sys.put] at hj ⊢
      split
      · rfl
      · rename_i hne
        rw [if_neg hne] at hj
        exact h.none j hj
    · intro j hj
      simp only [Sys.put]
      split
      · rfl
      · exact h.count j hj
    · simp [Sys.put]
    · simp [Sys.put]
    · simp [Sys.put]
  · rename_i hs
    have hs : (s.nodes i).sock = 0 := by simpa using hs
    have hok : (s.nodes i).ok = false := by
      cases ho : (s.nodes i).ok with
      | false => rfl
      | true => exact absurd hs (h.sock_ne i ho)
    have hn : { s.nodes i with ok := false } = s.nodes i := by rw [← hok]
    have hput : s.put i { s.nodes i with ok := false } = s := by
      rw [hn]
      unfold Sys.put
      cases s
      simp only [Sys.mk.injEq, true_and]
      funext j
      split
      · rename_i hj; rw [hj]
      · rfl
    rw [hput]
    exact ⟨h, hok, hs, rfl⟩

theorem netInit_inv {n : Nat} {s t : Sys} (h : Inv n s) (i : Nat) (hi : i < n) (a : Ans) (hok : (s.nodes i).ok = false)
    (ht : netInit s i a = some t) : Inv n t ∧ ∀ j, j ≠ i → t.nodes j = s.nodes j := by
  have hl := lowest_spec (s.files.map Prod.fst)
  have hclose := closeFd_opened (o := .node i) hl.1
  unfold netInit at ht
  simp only [hclose] at ht
  split at ht
  · cases ht; exact ⟨h, fun _ _ => rfl⟩
  split at ht
  · cases ht; exact ⟨h, fun _ _ => rfl⟩
  split at ht
  · cases ht; exact ⟨h, fun _ _ => rfl⟩
  split at ht
  · cases ht
  split at ht
  · cases ht; exact ⟨h, fun _ _ => rfl⟩
  split at ht
  · cases ht; exact ⟨h, fun _ _ => rfl⟩
  · cases ht
    refine ⟨⟨?_, ?_, ?_, ?_, ?_⟩, fun j hj => by simp [Sys.put, hj]⟩
    · simp only [Sys.put, List.map_cons, List.nodup_cons]
      exact ⟨hl.1, h.keys⟩
    · simp only [Sys.put, List.mem_cons]
      exact .inr h.zero
    · intro fd j
      simp only [Sys.put, List.mem_cons, h.own, Prod.mk.injEq, Owner.node.injEq]
      by_cases hj : j = i
      · subst hj
        simp [hok, eq_comm]
      · simp [hj]
    · intro j hj
      simp only [Sys.put] at hj ⊢
      split
      · rename_i he; rw [if_pos he] at hj; cases hj
      · rename_i he; rw [if_neg he] at hj; exact h.none j hj
    · intro j hj
      simp only [Sys.put]
      rw [if_neg (by omega)]
      exact h.count j hj

theorem active_inv {n : Nat} {s : Sys} (h : Inv n s) (i : Nat) (b : Bool) : Inv n (s.put i { s.nodes i with active := b }) := by
  have hn : ∀ j, ((s.put i { s.nodes i with active := b }).nodes j).ok = (s.nodes j).ok ∧
      ((s.put i { s.nodes i with active := b }).nodes j).sock = (s.nodes j).sock := by
    intro j
    simp only [Sys.put]
    split
    · rename_i hj; subst hj; exact ⟨rfl, rfl⟩
    · exact ⟨rfl, rfl⟩
  refine ⟨h.keys, h.zero, fun fd j => ?_, fun j hj => ?_, fun j hj => ?_⟩
  · rw [(hn j).1, (hn j).2]
    exact h.own fd j
  · rw [(hn j).1] at hj
    rw [(hn j).2]
    exact h.none j hj
  · rw [(hn j).1]
    exact h.count j hj

theorem talk_inv {n : Nat} {s t : Sys} (h : Inv n s) (i : Nat) (hi : i < n) (due : Bool) (a : Ans) (sends receives : Bool)
    (ht : talk s i due a sends receives = some t) : Inv n t := by
  unfold talk at ht
  split at ht
  · cases ht; exact h
  simp only at ht
  split at ht
  · cases ht
  · rename_i c u hu
    have hinv : Inv n u := by
      split at hu
      · cases hu; exact h
      · split at hu
        · cases hu; exact h
        · rename_i ho _
          exact (netInit_inv h i hi a (by simpa using ho) hu).1
    split at ht
    · cases ht; exact hinv
    split at ht
    · cases ht
    split at ht
    · cases ht; exact (disconnect_inv hinv i).1
    split at ht
    · cases ht; exact (disconnect_inv hinv i).1
    · cases ht; exact hinv

theorem step_inv {n : Nat} {s t : Sys} (h : Inv n s) (e : Ev) (he : ∀ fd, e = .restClose fd → fd ≠ 0)
    (ht : step n s e = some t) : Inv n t := by
  cases e with
  | talk i due a sends receives =>
    simp only [step] at ht
    split at ht
    · rename_i hi; exact talk_inv h i hi due a sends receives ht
    · cases ht; exact h
  | disable i =>
    simp only [step] at ht
    split at ht
    · split at ht
      · cases ht; exact active_inv (disconnect_inv h i).1 i false
      · cases ht; exact h
    · cases ht; exact h
  | enable i =>
    simp only [step] at ht
    split at ht
    · cases ht; exact active_inv h i true
    · cases ht; exact h
  | restOpen =>
    simp only [step] at ht
    cases ht
    have hl := lowest_spec (s.files.map Prod.fst)
    refine ⟨?_, List.mem_cons_of_mem _ h.zero, fun fd i => ?_, h.none, h.count⟩
    · simp only [List.map_cons, List.nodup_cons]
      exact ⟨hl.1, h.keys⟩
    · simp [h.own]
  | restClose fd =>
    simp only [step] at ht
    cases ht
    have h0 := he fd rfl
    refine ⟨h.keys.sublist (List.filter_sublist.map _), ?_, fun fd' i => ?_, h.none, h.count⟩
    · simp [h.zero, Ne.symm h0]
    · simp [h.own]

theorem run_inv {n : Nat} {s t : Sys} (h : Inv n s) (l : List Ev) (hk : Keeps0 l) (ht : run n s l = some t) : Inv n t := by
  induction l generalizing s with
  | nil => cases ht; exact h
  | cons e l ih =>
    simp only [run] at ht
    cases hs : step n s e with
    | none => rw [hs] at ht; cases ht
    | some u =>
      rw [hs] at ht
      exact ih (step_inv h e (fun fd hfd => hk fd (hfd ▸ List.mem_cons_self)) hs) (fun fd hfd => hk fd (List.mem_cons_of_mem _ hfd)) ht

theorem init_inv (n : Nat) (rest : List Nat) (hn : rest.Nodup) (h0 : 0 ∈ rest) : Inv n (init rest) := by
  refine ⟨?_, ?_, ?_, fun _ _ => rfl, fun _ _ => rfl⟩
  · simpa [init, Function.comp_def] using hn
  · simpa [init] using h0
  · intro fd i
    simp [init]

theorem files_length {n : Nat} {s : Sys} (h : Inv n s) : s.files.length ≤ (restOf s).length + n := by
  have hsplit : s.files.length = (s.files.filter fun f => f.2 = .rest).length + (s.files.filter fun f => ¬ (f.2 = .rest)).length := by
    have := List.length_eq_length_filter_add (l := s.files) (fun f => decide (f.2 = .rest))
    simpa using this
  have hnd : ((s.files.filter fun f => ¬ (f.2 = .rest)).map fun f => match f.2 with | .rest => n | .node i => i).Nodup := by
    apply List.Nodup.map_on
    · intro x hx y hy hxy
      simp only [List.mem_filter, decide_eq_true_eq] at hx hy
      obtain ⟨fx, ox⟩ := x
      obtain ⟨fy, oy⟩ := y
      cases ox with
      | rest => exact absurd rfl hx.2
      | node i =>
        cases oy with
        | rest => exact absurd rfl hy.2
        | node j =>
          simp only at hxy
          subst hxy
          have h1 := ((h.own _ _).mp hx.1).2
          have h2 := ((h.own _ _).mp hy.1).2
          rw [← h1, ← h2]
    · exact (List.Nodup.of_map _ h.keys).filter _
  have hsub : ((s.files.filter fun f => ¬ (f.2 = .rest)).map fun f => match f.2 with | .rest => n | .node i => i) ⊆ List.range n := by
    intro i hi
    simp only [List.mem_map, List.mem_filter, decide_eq_true_eq] at hi
    obtain ⟨⟨fd, o⟩, ⟨hm, ho⟩, rfl⟩ := hi
    cases o with
    | rest => exact absurd rfl ho
    | node j =>
      simp only [List.mem_range]
      have := ((h.own _ _).mp hm).1
      refine Decidable.byContradiction fun hc => ?_
      rw [h.count j (by omega)] at this
      cases this
  have := (hnd.subperm hsub).length_le
  rw [List.length_map, List.length_range] at this
  unfold restOf
  rw [List.length_map]
  omega

end Ptusa.CplSock
