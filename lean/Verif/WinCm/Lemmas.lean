import Verif.WinCm.Spec
import Mathlib.Data.List.Nodup
import Mathlib.Data.List.Induction
/-! Helper lemmas for the Windows server. -/
namespace Ptusa.WinCm

/-- Sockets of entries. -/
abbrev socks (l : List Ent) : List Nat := l.map Ent.sock

/-- Invariant while walking: `todo` is still to come. -/
structure Walk (m : Nat) (todo : List Ent) (a : Acc) : Prop where
  once : (socks a.kept ++ socks todo ++ socks a.added).Nodup
  same : ∀ n, n ∈ a.opened ↔ n ∈ socks a.kept ++ socks todo ++ socks a.added
  wait : m ∈ a.rf → m ∈ socks todo → a.waiting ≠ []
  mem : m ∈ a.opened
  home : m ∉ socks a.added

theorem walk_keep {m : Nat} {todo : List Ent} {e : Ent} {a : Acc} (h : Walk m (e :: todo) a) :
    Walk m todo { a with kept := a.kept ++ [e] } := by
  have hl : socks (a.kept ++ [e]) ++ socks todo = socks a.kept ++ socks (e :: todo) := by simp [socks]
  refine ⟨?_, ?_, ?_, h.mem, h.home⟩
  · show (socks (a.kept ++ [e]) ++ socks todo ++ socks a.added).Nodup
    rw [hl]; exact h.once
  · intro n
    show n ∈ a.opened ↔ n ∈ socks (a.kept ++ [e]) ++ socks todo ++ socks a.added
    rw [hl]; exact h.same n
  · intro h1 h2; exact h.wait h1 (List.mem_cons_of_mem _ h2)

theorem not_later {m : Nat} {todo : List Ent} {e : Ent} {a : Acc} (h : Walk m (e :: todo) a) :
    e.sock ∉ socks a.kept ∧ e.sock ∉ socks todo ∧ e.sock ∉ socks a.added := by
  have := h.once
  simp only [socks, List.map_cons, List.nodup_append, List.mem_append, List.mem_cons, List.nodup_cons] at this
  obtain ⟨⟨k1, ⟨k2, k3⟩, k4⟩, k5, k6⟩ := this
  refine ⟨fun hc => k4 _ hc _ (.inl rfl) rfl, k2, fun hc => k6 e.sock (.inr (.inl rfl)) _ hc rfl⟩

theorem walk_visit {m : Nat} {echo : Nat → Echo} {todo : List Ent} {e : Ent} {a : Acc} (h : Walk m (e :: todo) a) :
    ∃ b k, visit m echo a e = some (b, k) ∧ Walk m todo b := by
  obtain ⟨n1, n2, n3⟩ := not_later h
  unfold visit
  by_cases h1 : e.sock ∉ a.rf
  · rw [if_pos h1]; exact ⟨_, _, rfl, walk_keep h⟩
  · rw [if_neg h1]
    have h1 : e.sock ∈ a.rf := Classical.not_not.mp h1
    by_cases h2 : e.sock = m
    · rw [if_pos h2]
      have hw : a.waiting ≠ [] := h.wait (h2 ▸ h1) (by rw [← h2]; exact List.mem_cons_self)
      have hm : m ∉ socks todo := h2 ▸ n2
      have plain : ∀ w, Walk m todo { a with kept := a.kept ++ [e], waiting := w } := by
        intro w
        have k := walk_keep h
        exact ⟨k.once, k.same, fun _ hc => absurd hc hm, k.mem, k.home⟩
      cases hwt : a.waiting with
      | nil => exact absurd hwt hw
      | cons x w =>
        cases x with
        | none => exact ⟨_, _, rfl, plain w⟩
        | some fd =>
          simp only
          by_cases h3 : fd ∈ a.opened
          · rw [if_pos h3]; exact ⟨_, _, rfl, plain w⟩
          · rw [if_neg h3]
            refine ⟨_, _, rfl, ?_⟩
            have k := walk_keep h
            have hnew : fd ∉ socks (a.kept ++ [e]) ++ socks todo ++ socks a.added := fun hc => h3 ((k.same fd).2 hc)
            have hl : socks (a.kept ++ [e]) ++ socks todo ++ socks (a.added ++ [⟨fd, false⟩]) =
                (socks (a.kept ++ [e]) ++ socks todo ++ socks a.added) ++ [fd] := by simp [socks]
            refine ⟨?_, ?_, fun _ hc => absurd hc hm, List.mem_cons_of_mem _ k.mem, ?_⟩
            · show (socks (a.kept ++ [e]) ++ socks todo ++ socks (a.added ++ [⟨fd, false⟩])).Nodup
              rw [hl, List.nodup_append]
              refine ⟨k.once, by simp, ?_⟩
              intro x hx y hy
              rw [List.mem_singleton] at hy
              subst hy
              intro hxy; exact hnew (hxy ▸ hx)
            · intro n
              show n ∈ fd :: a.opened ↔ n ∈ socks (a.kept ++ [e]) ++ socks todo ++ socks (a.added ++ [⟨fd, false⟩])
              rw [hl, List.mem_cons, List.mem_append, List.mem_singleton]
              constructor
              · rintro (hc | hc)
                · exact .inr hc
                · exact .inl ((k.same n).1 hc)
              · rintro (hc | hc)
                · exact .inr ((k.same n).2 hc)
                · exact .inl hc
            · show m ∉ socks (a.added ++ [⟨fd, false⟩])
              intro hc
              rw [show socks (a.added ++ [⟨fd, false⟩]) = socks a.added ++ [fd] by simp [socks], List.mem_append, List.mem_singleton] at hc
              rcases hc with hc | hc
              · exact h.home hc
              · exact h3 (hc ▸ h.mem)
    · rw [if_neg h2]
      cases echo e.sock with
      | kept again =>
        refine ⟨_, _, rfl, ?_⟩
        have hl : socks (a.kept ++ [⟨e.sock, !again⟩]) = socks (a.kept ++ [e]) := by simp [socks]
        have k := walk_keep h
        refine ⟨?_, ?_, ?_, k.mem, k.home⟩
        · show (socks (a.kept ++ [⟨e.sock, !again⟩]) ++ socks todo ++ socks a.added).Nodup
          rw [hl]; exact k.once
        · intro n
          show n ∈ a.opened ↔ n ∈ socks (a.kept ++ [⟨e.sock, !again⟩]) ++ socks todo ++ socks a.added
          rw [hl]; exact k.same n
        · intro h4 h5; exact k.wait (List.mem_of_mem_filter h4) h5
      | gone =>
        refine ⟨_, _, rfl, ?_⟩
        refine ⟨?_, ?_, ?_, ?_, h.home⟩
        · have hsub : (socks a.kept ++ socks todo ++ socks a.added).Sublist (socks a.kept ++ socks (e :: todo) ++ socks a.added) :=
            List.Sublist.append (List.Sublist.append (List.Sublist.refl _) (List.sublist_cons_self _ _)) (List.Sublist.refl _)
          exact h.once.sublist hsub
        · intro n
          show n ∈ a.opened.filter (· != e.sock) ↔ n ∈ socks a.kept ++ socks todo ++ socks a.added
          rw [List.mem_filter, h.same n]
          simp only [socks, List.map_cons, List.mem_append, List.mem_cons] at n1 n2 n3 ⊢
          constructor
          · rintro ⟨hc, hne⟩
            have hne : n ≠ e.sock := by simpa using hne
            rcases hc with (hc | hc | hc) | hc
            · exact .inl (.inl hc)
            · exact absurd hc hne
            · exact .inl (.inr hc)
            · exact .inr hc
          · intro hc
            refine ⟨?_, ?_⟩
            · rcases hc with (hc | hc) | hc
              · exact .inl (.inl hc)
              · exact .inl (.inr (.inr hc))
              · exact .inr hc
            · have : n ≠ e.sock := by
                rintro rfl
                rcases hc with (hc | hc) | hc
                · exact n1 hc
                · exact n2 hc
                · exact n3 hc
              simpa using this
        · intro h4 h5; exact h.wait (List.mem_of_mem_filter h4) (List.mem_cons_of_mem _ h5)
        · show m ∈ a.opened.filter (· != e.sock)
          rw [List.mem_filter]
          refine ⟨h.mem, ?_⟩
          have : m ≠ e.sock := fun hc => h2 hc.symm
          simpa using this

theorem walk_ok {m : Nat} {echo : Nat → Echo} (todo : List Ent) : ∀ (k : Bool) (a : Acc), Walk m todo a →
    ∃ b k', walk m echo todo k a = some (b, k') ∧ Walk m [] b := by
  induction todo with
  | nil => intro k a h; exact ⟨a, k, rfl, h⟩
  | cons e es ih =>
    intro k a h
    cases k with
    | true => exact ih false _ (walk_keep h)
    | false =>
      obtain ⟨b, k', hb, hw⟩ := walk_visit (echo := echo) h
      show ∃ b k', (match visit m echo a e with | none => none | some (b, k) => walk m echo es k b) = some (b, k') ∧ _
      rw [hb]
      exact ih k' b hw

theorem rfds_master {s : St} {r : Round} (h : s.master ∈ s.rfds r) : r.waiting ≠ [] := by
  unfold St.rfds at h
  have := (List.mem_filter.1 h).2
  rw [if_pos rfl] at this
  exact of_decide_eq_true this

theorem scan_tidy {s : St} (h : Tidy s) (hk : s.ok = true) (r : Round) :
    ∃ t, s.scan r = some t ∧ Tidy t ∧ t.ok = true := by
  have h0 : Walk s.master s.table ⟨[], [], s.rfds r, r.waiting, s.opened⟩ := by
    refine ⟨?_, ?_, fun h1 _ => rfds_master h1, h.up hk, by simp [socks]⟩
    · show ([] ++ socks s.table ++ []).Nodup
      simpa using h.once
    · intro n
      show n ∈ s.opened ↔ n ∈ [] ++ socks s.table ++ []
      simpa using h.same n
  obtain ⟨a, k, ha, hw⟩ := walk_ok (echo := r.echo) s.table false _ h0
  have h1 : Walk s.master a.added { a with added := [] } := by
    refine ⟨?_, ?_, fun _ hc => absurd hc hw.home, hw.mem, by simp [socks]⟩
    · show (socks a.kept ++ socks a.added ++ []).Nodup
      have := hw.once
      simpa using this
    · intro n
      show n ∈ a.opened ↔ n ∈ socks a.kept ++ socks a.added ++ []
      have := hw.same n
      simpa using this
  obtain ⟨b, k2, hb, hw2⟩ := walk_ok (echo := r.echo) a.added k _ h1
  refine ⟨{ s with table := b.kept ++ b.added, opened := b.opened }, ?_, ?_, hk⟩
  · unfold St.scan
    rw [ha]; simp only
    rw [hb]
  · have hl : socks (b.kept ++ b.added) = socks b.kept ++ socks [] ++ socks b.added := by simp [socks]
    refine ⟨?_, ?_, fun _ => hw2.mem, fun hc => ?_⟩
    · show (socks (b.kept ++ b.added)).Nodup
      rw [hl]; exact hw2.once
    · intro n
      show n ∈ b.opened ↔ n ∈ socks (b.kept ++ b.added)
      rw [hl]; exact hw2.same n
    · have hc : s.ok = false := hc
      rw [hk] at hc; cases hc

theorem terminate_opened {s : St} (h : ∀ n, n ∈ s.opened → n ∈ s.table.map Ent.sock) : s.terminate.opened = [] := by
  show s.opened.filter _ = []
  rw [List.filter_eq_nil_iff]
  intro n hn
  simp only [decide_eq_true_eq]
  exact fun hc => hc (h n hn)

theorem tidy_empty {s : St} (h1 : s.ok = false) (h2 : s.table = []) (h3 : s.opened = []) : Tidy s := by
  refine ⟨by rw [h2]; exact List.nodup_nil, fun n => by rw [h2, h3]; rfl, fun hc => ?_, fun _ => h3⟩
  rw [h1] at hc; cases hc

theorem terminate_tidy {s : St} (h : Tidy s) : Tidy s.terminate :=
  tidy_empty rfl rfl (terminate_opened fun n hn => (h.same n).1 hn)

theorem rounds_tidy (rs : List Round) : ∀ {s : St}, Tidy s → s.ok = true →
    ∃ t c, s.rounds rs = some (t, c) ∧ Tidy t := by
  induction rs with
  | nil =>
    intro s h hk
    refine ⟨_, _, rfl, ?_⟩
    have hl : ({ s with table := s.table.map fun e => { e with seen := false } } : St).table.map Ent.sock = s.table.map Ent.sock := by
      show (s.table.map _).map Ent.sock = _
      rw [List.map_map]; rfl
    exact ⟨by rw [hl]; exact h.once, fun n => by rw [hl]; exact h.same n, h.up, h.down⟩
  | cons r rs ih =>
    intro s h hk
    unfold St.rounds
    by_cases hf : s.selectFails r = true
    · rw [if_pos hf]; exact ⟨_, _, rfl, terminate_tidy h⟩
    · rw [if_neg hf]
      obtain ⟨t, ht, h1, h2⟩ := scan_tidy h hk r
      rw [ht]; exact ih h1 h2

theorem init_tidy {s : St} (h : Tidy s) (hk : s.ok = false) (o : InitOs) (ho : o.Bindable) : Tidy (s.init o) := by
  have h0 : s.opened = [] := h.down hk
  have h1 : s.table = [] := by
    cases ht : s.table with
    | nil => rfl
    | cons e es =>
      have : e.sock ∈ s.opened := (h.same e.sock).2 (by rw [ht]; exact List.mem_cons_self)
      rw [h0] at this; cases this
  unfold St.init
  by_cases hl : o.lib = false
  · rw [if_pos hl]; exact h
  · rw [if_neg hl]
    cases o.fd with
    | none => exact h
    | some fd =>
      simp only
      rw [if_neg (by rw [h0]; simp)]
      by_cases hm : o.mode = false
      · rw [if_pos hm]; exact tidy_empty hk h1 h0
      · rw [if_neg hm, if_neg (by rw [ho.1, ho.2]; simp)]
        refine ⟨?_, ?_, fun _ => List.mem_cons_self, fun hc => (by cases hc)⟩
        · rw [h1]; simp
        · intro n
          show n ∈ fd :: s.opened ↔ n ∈ socks (s.table ++ [(⟨fd, false⟩ : Ent)])
          rw [h0, h1]; simp

theorem evaluate_tidy {s : St} (h : Tidy s) (o : InitOs) (ho : o.Bindable) (rs : List Round) :
    ∃ t c, s.evaluate o rs = some (t, c) ∧ Tidy t := by
  unfold St.evaluate
  have ht : Tidy (if s.ok then s else s.init o) := by
    by_cases hk : s.ok = true
    · rw [if_pos hk]; exact h
    · rw [if_neg hk]; exact init_tidy h (by simpa using hk) o ho
  simp only
  generalize (if s.ok then s else s.init o) = t at ht
  by_cases hk : t.ok = false
  · rw [if_pos hk]; exact ⟨_, _, rfl, ht⟩
  · rw [if_neg hk]; exact rounds_tidy rs ht (by simpa using hk)

theorem run_snoc (o : InitOs) (h : List (InitOs × List Round)) (e : InitOs × List Round) :
    run o (h ++ [e]) = (run o h).bind fun t => (t.evaluate e.1 e.2).map Prod.fst := by
  unfold run; rw [List.foldl_append]; rfl

theorem run_tidy (o : InitOs) (ho : o.Bindable) (h : List (InitOs × List Round)) (hh : ∀ e ∈ h, e.1.Bindable) :
    ∃ t, run o h = some t ∧ Tidy t := by
  induction h using List.reverseRecOn with
  | nil => exact ⟨_, rfl, init_tidy (tidy_empty rfl rfl rfl) rfl o ho⟩
  | append_singleton h e ih =>
    obtain ⟨t, ht, hT⟩ := ih fun x hx => hh x (List.mem_append_left _ hx)
    obtain ⟨u, c, hu, hU⟩ := evaluate_tidy hT e.1 (hh e (by simp)) e.2
    refine ⟨u, ?_, hU⟩
    rw [run_snoc, ht]
    show ((t.evaluate e.1 e.2).map Prod.fst) = some u
    rw [hu]; rfl

end Ptusa.WinCm
