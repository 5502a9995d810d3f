import Verif.CplSock.Lemmas

/-!
# C156: sockets of the bus couplers are not leaked
-/
namespace Ptusa.CplSock

/-- C156 (part).  With the standard input of the process open, at any time the sockets that are open for a coupler are exactly the one
it is connected by: one when it is connected, none otherwise; and no descriptor is open twice. -/
theorem C156_sockets_partial (n : Nat) (rest : List Nat) (hn : rest.Nodup) (h0 : 0 ∈ rest) (h : List Ev) (hk : Keeps0 h) (s : Sys)
    (hs : run n (init rest) h = some s) (i : Nat) :
    socketsOf s i = (if (s.nodes i).ok then [(s.nodes i).sock] else []) ∧ (s.files.map Prod.fst).Nodup := by
  have hi := run_inv (init_inv n rest hn h0) h hk hs
  refine ⟨?_, hi.keys⟩
  have hnd : (socketsOf s i).Nodup := hi.keys.sublist (List.filter_sublist.map _)
  have hmem : ∀ fd, fd ∈ socketsOf s i ↔ (s.nodes i).ok = true ∧ (s.nodes i).sock = fd := by
    intro fd
    rw [← hi.own fd i]
    simp [socketsOf]
  cases ho : (s.nodes i).ok with
  | false =>
    simp only [Bool.false_eq_true, if_false]
    apply List.eq_nil_iff_forall_not_mem.mpr
    intro fd hfd
    rw [hmem, ho] at hfd
    cases hfd.1
  | true =>
    simp only [if_true]
    have hsub : ∀ fd, fd ∈ socketsOf s i ↔ fd = (s.nodes i).sock := by
      intro fd
      rw [hmem, ho]
      simp [eq_comm]
    generalize socketsOf s i = l at hnd hsub
    match l with
    | [] => exact absurd ((hsub _).mpr rfl) (by simp)
    | [x] => rw [(hsub x).mp (by simp)]
    | x :: y :: l =>
      have hx := (hsub x).mp (by simp)
      have hy := (hsub y).mp (by simp)
      rw [hx, hy] at hnd
      simp at hnd

example : ∃ s, run 2 (init [0, 1, 2]) [.talk 0 true {} true true, .talk 1 true { ready := false } true true, .restOpen,
    .talk 1 true {} true true, .talk 0 true {} true false] = some s ∧ socketsOf s 0 = [] ∧ socketsOf s 1 = [5] :=
  ⟨_, rfl, by decide, by decide⟩

/-- C156 (part).  A coupler that is switched off, or does not answer, has no socket any more. -/
theorem C156_off_partial (n : Nat) (rest : List Nat) (hn : rest.Nodup) (h0 : 0 ∈ rest) (h : List Ev) (hk : Keeps0 h) (i : Nat)
    (hi : i < n) (e : Ev) (s t : Sys)
    (he : (e = .disable i ∧ (s.nodes i).active = true) ∨ ∃ due a sends receives, e = .talk i due a sends receives ∧
      (sends = false ∨ receives = false) ∧ (s.nodes i).active = true)
    (hs : run n (init rest) h = some s) (ht : step n s e = some t) : socketsOf t i = [] := by
  have hinv := run_inv (init_inv n rest hn h0) h hk hs
  have key : ∀ t : Sys, Inv n t → (t.nodes i).ok = false → socketsOf t i = [] := by
    intro t ht ho
    apply List.eq_nil_iff_forall_not_mem.mpr
    intro fd hfd
    have : (fd, Owner.node i) ∈ t.files := by simpa [socketsOf] using hfd
    rw [ht.own, ho] at this
    cases this.1
  rcases he with ⟨rfl, ha⟩ | ⟨due, a, sends, receives, rfl, hf, ha⟩
  · have h2 := step_inv hinv (.disable i) (by intro fd hc; cases hc) ht
    apply key t h2
    simp only [step, if_pos hi, ha, if_true, Option.some.injEq] at ht
    subst ht
    simp [Sys.put, (disconnect_inv hinv i).2.1]
  · have h2 := step_inv hinv (.talk i due a sends receives) (by intro fd hc; cases hc) ht
    apply key t h2
    simp only [step, if_pos hi, talk, ha, Bool.true_eq_false, if_false] at ht
    split at ht
    · cases ht
    · rename_i c u hu
      have hu2 : Inv n u := by
        split at hu
        · cases hu; exact hinv
        · split at hu
          · cases hu; exact hinv
          · rename_i ho _
            exact (netInit_inv hinv i hi a (by simpa using ho) hu).1
      split at ht
      · rename_i ho; cases ht; exact ho
      split at ht
      · cases ht
      split at ht
      · cases ht; exact (disconnect_inv hu2 i).2.1
      split at ht
      · cases ht; exact (disconnect_inv hu2 i).2.1
      · rename_i h3 h4
        rcases hf with hf | hf
        · exact absurd hf h3
        · exact absurd hf h4

/-- C156 (part).  While the rest of the program and the couplers need less than 1024 descriptors together, no call is made with a descriptor
beyond `fd_set`. -/
theorem C156_safe_partial (n : Nat) (rest : List Nat) (hn : rest.Nodup) (h0 : 0 ∈ rest) (h : List Ev) (hk : Keeps0 h)
    (hb : ∀ pre, pre <+: h → ∀ s, run n (init rest) pre = some s → (restOf s).length + n < 1024)
    (hlow : ∀ fd ∈ rest, fd < 1024) : run n (init rest) h ≠ none := by
  -- all descriptors are below 1024 at any time
  have main : ∀ (l : List Ev) (s : Sys), Inv n s → (∀ f ∈ s.files, f.1 < 1024) → Keeps0 l →
      (∀ pre, pre <+: l → ∀ t, run n s pre = some t → (restOf t).length + n < 1024) → run n s l ≠ none := by
    intro l
    induction l with
    | nil => intro s _ _ _ _ hc; cases hc
    | cons e l ih =>
      intro s hi hfd hk hb
      have hb0 : (restOf s).length + n < 1024 := hb [] (List.nil_prefix) s rfl
      have hlen := files_length hi
      have hl := lowest_spec (s.files.map Prod.fst)
      have hlw : lowest (s.files.map Prod.fst) < 1024 := by
        have := hl.2.1
        rw [List.length_map] at this
        omega
      have hclose := fun i => closeFd_opened (o := .node i) hl.1
      have hnet : ∀ i a, ∃ u, netInit s i a = some u ∧ (∀ f ∈ u.files, f.1 < 1024) := by
        intro i a
        unfold netInit
        simp only [hclose]
        split
        · exact ⟨_, rfl, hfd⟩
        split
        · exact ⟨_, rfl, hfd⟩
        split
        · exact ⟨_, rfl, hfd⟩
        rw [if_neg (by unfold fdSetSize; omega)]
        split
        · exact ⟨_, rfl, hfd⟩
        split
        · exact ⟨_, rfl, hfd⟩
        · refine ⟨_, rfl, ?_⟩
          simp only [Sys.put]
          intro f hf
          rcases List.mem_cons.mp hf with rfl | hf
          · exact hlw
          · exact hfd f hf
      have hdis : ∀ (u : Sys) i, (∀ f ∈ u.files, f.1 < 1024) → ∀ f ∈ (disconnect u i).files, f.1 < 1024 := by
        intro u i hu f hf
        unfold disconnect at hf
        simp only at hf
        split at hf
        · simp only [Sys.put, closeFd, List.mem_filter] at hf
          exact hu f hf.1
        · exact hu f hf
      have hstep : ∃ t, step n s e = some t ∧ ∀ f ∈ t.files, f.1 < 1024 := by
        cases e with
        | talk i due a sends receives =>
          simp only [step]
          split
          · rename_i hin
            unfold talk
            split
            · exact ⟨s, rfl, hfd⟩
            · have hcon : ∃ u, (if (s.nodes i).ok = true then some s else if due = false then some s else netInit s i a) = some u ∧
                  Inv n u ∧ ∀ f ∈ u.files, f.1 < 1024 := by
                split
                · exact ⟨s, rfl, hi, hfd⟩
                · split
                  · exact ⟨s, rfl, hi, hfd⟩
                  · rename_i ho _
                    obtain ⟨u, hu, hf⟩ := hnet i a
                    exact ⟨u, hu, (netInit_inv hi i hin a (by simpa using ho) hu).1, hf⟩
              obtain ⟨u, hu, hui, huf⟩ := hcon
              simp only [hu]
              split
              · exact ⟨u, rfl, huf⟩
              · rename_i ho
                have hs := (hui.own _ i).mpr ⟨by simpa using ho, rfl⟩
                rw [if_neg (by have := huf _ hs; unfold fdSetSize; simp only at this; omega)]
                split
                · exact ⟨_, rfl, hdis u i huf⟩
                split
                · exact ⟨_, rfl, hdis u i huf⟩
                · exact ⟨u, rfl, huf⟩
          · exact ⟨s, rfl, hfd⟩
        | disable i =>
          simp only [step]
          split
          · split
            · exact ⟨_, rfl, hdis s i hfd⟩
            · exact ⟨s, rfl, hfd⟩
          · exact ⟨s, rfl, hfd⟩
        | enable i =>
          simp only [step]
          split
          · exact ⟨_, rfl, hfd⟩
          · exact ⟨s, rfl, hfd⟩
        | restOpen =>
          refine ⟨_, rfl, ?_⟩
          intro f hf
          rcases List.mem_cons.mp hf with rfl | hf
          · exact hlw
          · exact hfd f hf
        | restClose fd =>
          refine ⟨_, rfl, ?_⟩
          intro f hf
          simp only [List.mem_filter] at hf
          exact hfd f hf.1
      obtain ⟨t, ht, htf⟩ := hstep
      have hti := step_inv hi e (fun fd hc => hk fd (hc ▸ List.mem_cons_self)) ht
      simp only [run, ht, Option.bind_some]
      refine ih t hti htf (fun fd hc => hk fd (List.mem_cons_of_mem _ hc)) ?_
      intro pre hp u hu
      refine hb (e :: pre) (List.cons_prefix_cons.mpr ⟨rfl, hp⟩) u ?_
      simp only [run, ht, Option.bind_some]
      exact hu
  refine main h (init rest) (init_inv n rest hn h0) ?_ hk hb
  intro f hf
  simp only [init, List.mem_map] at hf
  obtain ⟨fd, hfd, rfl⟩ := hf
  exact hlow fd hfd

example : (restOf (init [0, 1, 2])).length + 5 < 1024 := by decide

/-- C156 does not hold for a process that is started without a standard input: 0 is the first descriptor, but for `disconnect` it
means that there is none.  The socket stays open when the connection is lost, and the coupler gets a second one. -/
theorem C156_zero_violated (n : Nat) (rest : List Nat) (h0 : 0 ∉ rest) (hl : rest.length < 1000) (i : Nat)
    (hi : i < n) : ∃ s, run n (init rest) [.talk i true {} true true, .talk i true {} true false, .talk i true {} true true] = some s ∧
      (socketsOf s i).length = 2 ∧ 0 ∈ socketsOf s i ∧ (s.nodes i).sock ≠ 0 := by
  have hl1 := lowest_spec rest
  have hz : lowest rest = 0 := by
    rcases Nat.eq_zero_or_pos (lowest rest) with h | h
    · exact h
    · exact absurd (hl1.2.2 0 h) h0
  have hl2 := lowest_spec (0 :: rest)
  generalize hm : lowest (0 :: rest) = m at hl2
  have hm0 : m ≠ 0 := fun hc => hl2.1 (by rw [hc]; exact List.mem_cons_self)
  have hm1 : m < 1024 := by
    have := hl2.2.1
    rw [List.length_cons] at this
    omega
  have hmap : (rest.map fun fd => (fd, Owner.rest)).map Prod.fst = rest := by
    rw [List.map_map]
    exact List.map_id _
  refine ⟨⟨(m, .node i) :: (0, .node i) :: rest.map fun fd => (fd, .rest), fun j => if j = i then { sock := m, ok := true } else {}⟩, ?_, ?_⟩
  · have e1 : step n (init rest) (.talk i true {} true true) =
        some ⟨(0, .node i) :: rest.map fun fd => (fd, .rest), fun j => if j = i then { sock := 0, ok := true } else {}⟩ := by
      simp [step, hi, talk, netInit, init, Sys.put, Function.comp_def, hz, fdSetSize]
    have e2 : step n ⟨(0, .node i) :: rest.map fun fd => (fd, .rest), fun j => if j = i then { sock := 0, ok := true } else {}⟩
        (.talk i true {} true false) =
        some ⟨(0, .node i) :: rest.map fun fd => (fd, .rest), fun j => if j = i then { sock := 0, ok := false } else {}⟩ := by
      simp only [step, if_pos hi, talk, disconnect, Sys.put, fdSetSize, if_true, Bool.true_eq_false, if_false, ne_eq, not_true_eq_false]
      rw [if_neg (by omega), Option.some.injEq, Sys.mk.injEq]
      refine ⟨rfl, ?_⟩
      funext j
      by_cases hj : j = i <;> simp [hj]
    have e3 : step n ⟨(0, .node i) :: rest.map fun fd => (fd, .rest), fun j => if j = i then { sock := 0, ok := false } else {}⟩
        (.talk i true {} true true) =
        some ⟨(m, .node i) :: (0, .node i) :: rest.map fun fd => (fd, .rest),
          fun j => if j = i then { sock := m, ok := true } else {}⟩ := by
      have hm2 : ¬ 1024 ≤ m := by omega
      simp [step, hi, talk, netInit, Sys.put, Function.comp_def, hm, fdSetSize, hm2]
    simp only [run, e1, e2, e3, Option.bind_some]
  · have : socketsOf ⟨(m, .node i) :: (0, .node i) :: rest.map fun fd => (fd, .rest),
        fun j => if j = i then { sock := m, ok := true } else {}⟩ i = [m, 0] := by
      simp [socketsOf, List.filter_map, Function.comp_def]
    rw [this]
    exact ⟨rfl, by simp, by simpa using hm0⟩

example : ∃ s, run 1 (init [1, 2]) [.talk 0 true {} true true, .talk 0 true {} true false, .talk 0 true {} true true] = some s ∧
    socketsOf s 0 = [3, 0] := ⟨_, rfl, by decide⟩

/-- C156 does not hold when the rest of the program has 1024 descriptors: a connection to a coupler then writes beyond `fd_set`. -/
theorem C156_many_violated (n : Nat) (i : Nat) (hi : i < n) :
    run n (init (List.range 1024)) [.talk i true {} true true] = none := by
  have hl := lowest_spec (List.range 1024)
  have hge : 1024 ≤ lowest (List.range 1024) := by
    refine Decidable.byContradiction fun hc => hl.1 (List.mem_range.mpr (by omega))
  have hmap : ((List.range 1024).map fun fd => (fd, Owner.rest)).map Prod.fst = List.range 1024 := by
    rw [List.map_map]
    exact List.map_id _
  simp only [run, step, if_pos hi, talk, init, netInit, hmap, fdSetSize, if_pos hge, Bool.true_eq_false, Bool.false_eq_true, if_false]
  rfl

end Ptusa.CplSock
