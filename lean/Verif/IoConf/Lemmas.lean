import Verif.IoConf.Spec

/-!
# Lemmas about the configuration
-/
namespace Ptusa.IoConf

/-- The manager agrees with what was said. -/
structure Inv (m : Mgr) (s : Said) : Prop where
  len : m.arr.length = s.count
  missing : ∀ i < s.count, s.node i = none → m.arr[i]? = some none
  present : ∀ i < s.count, ∀ a, s.node i = some a → ∃ id n, m.arr[i]? = some (some id) ∧ m.heap[id]? = some n ∧ AsSaid s i a n
  apart : ∀ (i j id : Nat), m.arr[i]? = some (some id) → m.arr[j]? = some (some id) → i = j
  old : ∀ c id off, m.bound c = some (id, off) → id < m.heap.length
  empty : ∀ i, s.count ≤ i → s.node i = none

theorem useless_iff (a : Args) : ((a.ip.getD [] = [] ∧ 100 ≤ a.type) ∨ a.type = -1) ↔ a.Useless := by
  unfold Args.Useless
  cases a.ip with
  | none => simp; exact Or.comm
  | some t => simp; exact or_comm.trans (or_congr_right And.comm)

theorem create_fit (a : Args) (h : a.Fit) : ∃ n, create a = some n := by
  obtain ⟨h1, h2, h3, h4, h5, h6, h7⟩ := h
  have e1 : ¬ 16 ≤ (a.ip.getD []).length := by
    cases hi : a.ip with
    | none => simp
    | some t => have := h1 t hi; simp; omega
  have e2 : ¬ 20 ≤ (a.name.getD []).length := by
    cases hi : a.name with
    | none => simp
    | some t => have := h2 t hi; simp; omega
  unfold create
  dsimp only
  rw [if_neg e1, if_neg (fun hc => h7 ((useless_iff a).1 hc.1) hc.2), if_neg e2, if_neg (by omega)]
  exact ⟨_, rfl⟩

theorem create_unfit (a : Args) (n : Node) (h : create a = some n) : a.Fit := by
  unfold create at h
  dsimp only at h
  split at h
  · cases h
  rename_i e1
  split at h
  · cases h
  rename_i e2
  split at h
  · cases h
  rename_i e3
  split at h
  · cases h
  rename_i e4
  refine ⟨fun t ht => ?_, fun t ht => ?_, by omega, by omega, by omega, by omega, fun hu hn => e2 ⟨(useless_iff a).2 hu, hn⟩⟩
  · rw [ht] at e1; simp at e1; omega
  · rw [ht] at e3; simp at e3; omega

theorem create_as (a : Args) (n : Node) (h : create a = some n) (s : Said) (i : Nat) (h1 : s.ao i = fun _ => (0, 0))
    (h2 : s.ai i = fun _ => (0, 0)) : AsSaid s i a n := by
  have hf := create_unfit a n h
  obtain ⟨f1, f2, f3, f4, f5, f6, f7⟩ := hf
  unfold create at h
  dsimp only at h
  split at h
  · cases h
  split at h
  · cases h
  split at h
  · cases h
  split at h
  · cases h
  cases h
  refine ⟨rfl, rfl, rfl, rfl, ?_, ?_, ?_, ?_, ?_, ?_, ?_⟩
  · rw [decide_eq_false_iff_not, Classical.not_not]; exact useless_iff a
  · simp; omega
  · simp; omega
  · simp; omega
  · simp; omega
  · intro j hj
    simp only [List.length_replicate] at hj
    simp [h1, hj]
  · intro j hj
    simp only [List.length_replicate] at hj
    simp [h2, hj]

theorem inv_init : Inv {} {} := by
  constructor <;> simp

/-- The condition under which a call is defined, and what it does. -/
theorem step_inv (m : Mgr) (s : Said) (c : Call) (h : Inv m s) (hg : Good s c) : ∃ m', m.step c = some m' ∧ Inv m' (s.next c) := by
  cases c with
  | init n =>
    simp only [Good] at hg
    refine ⟨_, by simp only [Mgr.step]; rw [if_neg (by omega)], ?_⟩
    refine ⟨by simp [Said.next], ?_, ?_, ?_, h.old, by simp [Said.next]⟩
    · intro i hi _
      simp only [Said.next] at hi
      simp [hi]
    · intro i _ a ha
      simp [Said.next] at ha
    · intro i j id hi
      simp only [List.getElem?_replicate] at hi
      split at hi <;> simp at hi
  | add i a =>
    simp only [Mgr.step, Said.next, h.len]
    by_cases hi : i < s.count
    · rw [if_pos hi, if_pos hi]
      obtain ⟨n, hn⟩ := create_fit a (hg hi)
      rw [hn]
      refine ⟨_, rfl, ?_⟩
      have hl : i < m.arr.length := by rw [h.len]; exact hi
      refine ⟨by simp [h.len], ?_, ?_, ?_, ?_, ?_⟩
      · intro k hk hn
        dsimp only at hn hk ⊢
        by_cases hki : k = i
        · rw [if_pos hki] at hn; cases hn
        · rw [if_neg hki] at hn
          rw [List.getElem?_set_ne (Ne.symm hki)]
          exact h.missing k hk hn
      · intro k hk b hb
        dsimp only at hb hk ⊢
        by_cases hki : k = i
        · subst hki
          rw [if_pos rfl] at hb
          cases hb
          refine ⟨m.heap.length, n, by simp [hl], by simp, create_as a n hn _ _ (by simp) (by simp)⟩
        · rw [if_neg hki] at hb
          obtain ⟨id, nd, e1, e2, e3⟩ := h.present k hk b hb
          refine ⟨id, nd, by rw [List.getElem?_set_ne (Ne.symm hki)]; exact e1, ?_, ?_⟩
          · rw [List.getElem?_append_left (List.getElem?_eq_some_iff.1 e2).1]; exact e2
          · exact ⟨e3.type, e3.number, e3.ip, e3.name, e3.active, e3.doCnt, e3.diCnt, e3.aoCnt, e3.aiCnt,
              fun j hj => by simpa [hki] using e3.ao j hj, fun j hj => by simpa [hki] using e3.ai j hj⟩
      · have key : ∀ (k id : Nat), m.arr[k]? = some (some id) → id < m.heap.length := by
          intro k id hk
          have hkc : k < s.count := by rw [← h.len]; exact (List.getElem?_eq_some_iff.1 hk).1
          cases hs : s.node k with
          | none => rw [h.missing k hkc hs] at hk; cases hk
          | some b =>
            obtain ⟨id', nd, e1, e2, _⟩ := h.present k hkc b hs
            rw [e1] at hk
            cases hk
            exact (List.getElem?_eq_some_iff.1 e2).1
        intro x y id hx hy
        dsimp only at hx hy
        by_cases hxi : x = i <;> by_cases hyi : y = i
        · rw [hxi, hyi]
        · subst hxi
          rw [List.getElem?_set_self hl] at hx
          rw [List.getElem?_set_ne (Ne.symm hyi)] at hy
          cases hx
          have := key y _ hy
          omega
        · subst hyi
          rw [List.getElem?_set_self hl] at hy
          rw [List.getElem?_set_ne (Ne.symm hxi)] at hx
          cases hy
          have := key x _ hx
          omega
        · rw [List.getElem?_set_ne (Ne.symm hxi)] at hx
          rw [List.getElem?_set_ne (Ne.symm hyi)] at hy
          exact h.apart x y id hx hy
      · intro c id off hc
        have := h.old c id off hc
        simp only [List.length_append, List.length_singleton]
        omega
      · intro k hk
        dsimp only at hk ⊢
        rw [if_neg (by omega)]
        exact h.empty k hk
    · rw [if_neg hi, if_neg hi]
      exact ⟨m, rfl, h⟩
  | initAo i j t o =>
    simp only [Mgr.step, Mgr.setAnalog, Said.next]
    by_cases hi : i < s.count
    · rw [if_pos hi]
      cases hs : s.node i with
      | none => exact absurd hs (hg hi)
      | some a =>
        obtain ⟨id, n, e1, e2, e3⟩ := h.present i hi a hs
        rw [e1]
        refine ⟨_, rfl, ?_⟩
        refine ⟨h.len, h.missing, ?_, h.apart, by simpa using h.old, h.empty⟩
        intro k hk b hb
        dsimp only at hb hk ⊢
        obtain ⟨id', n', f1, f2, f3⟩ := h.present k hk b hb
        by_cases hki : k = i
        · subst hki
          rw [e1] at f1
          cases f1
          rw [e2] at f2
          cases f2
          refine ⟨id, _, e1, by rw [List.getElem?_modify_eq, e2]; rfl, ?_⟩
          refine ⟨f3.type, f3.number, f3.ip, f3.name, f3.active, f3.doCnt, f3.diCnt, by simpa using f3.aoCnt, f3.aiCnt, ?_, f3.ai⟩
          intro l hl
          simp only [List.length_set] at hl
          by_cases hlj : l = j
          · subst hlj
            simp [hl]
          · rw [List.getElem?_set_ne (Ne.symm hlj)]
            simpa [hlj] using f3.ao l hl
        · have hid : id ≠ id' := fun e => hki (h.apart k i id' f1 (e ▸ e1))
          refine ⟨id', n', f1, by rw [List.getElem?_modify_ne _ _ hid, f2], ?_⟩
          exact ⟨f3.type, f3.number, f3.ip, f3.name, f3.active, f3.doCnt, f3.diCnt, f3.aoCnt, f3.aiCnt,
            fun l hl => by simpa [hki] using f3.ao l hl, f3.ai⟩
    · rw [if_neg hi, List.getElem?_eq_none (by rw [h.len]; omega)]
      exact ⟨m, rfl, h⟩
  | initAi i j t o =>
    simp only [Mgr.step, Mgr.setAnalog, Said.next]
    by_cases hi : i < s.count
    · rw [if_pos hi]
      cases hs : s.node i with
      | none => exact absurd hs (hg hi)
      | some a =>
        obtain ⟨id, n, e1, e2, e3⟩ := h.present i hi a hs
        rw [e1]
        refine ⟨_, rfl, ?_⟩
        refine ⟨h.len, h.missing, ?_, h.apart, by simpa using h.old, h.empty⟩
        intro k hk b hb
        dsimp only at hb hk ⊢
        obtain ⟨id', n', f1, f2, f3⟩ := h.present k hk b hb
        by_cases hki : k = i
        · subst hki
          rw [e1] at f1
          cases f1
          rw [e2] at f2
          cases f2
          refine ⟨id, _, e1, by rw [List.getElem?_modify_eq, e2]; rfl, ?_⟩
          refine ⟨f3.type, f3.number, f3.ip, f3.name, f3.active, f3.doCnt, f3.diCnt, f3.aoCnt, by simpa using f3.aiCnt, f3.ao, ?_⟩
          intro l hl
          simp only [List.length_set] at hl
          by_cases hlj : l = j
          · subst hlj
            simp [hl]
          · rw [List.getElem?_set_ne (Ne.symm hlj)]
            simpa [hlj] using f3.ai l hl
        · have hid : id ≠ id' := fun e => hki (h.apart k i id' f1 (e ▸ e1))
          refine ⟨id', n', f1, by rw [List.getElem?_modify_ne _ _ hid, f2], ?_⟩
          exact ⟨f3.type, f3.number, f3.ip, f3.name, f3.active, f3.doCnt, f3.diCnt, f3.aoCnt, f3.aiCnt, f3.ao,
            fun l hl => by simpa [hki] using f3.ai l hl⟩
    · rw [if_neg hi, List.getElem?_eq_none (by rw [h.len]; omega)]
      exact ⟨m, rfl, h⟩
  | bind c k i off =>
    refine ⟨_, rfl, ⟨h.len, h.missing, h.present, h.apart, ?_, h.empty⟩⟩
    intro d id o hd
    dsimp only at hd ⊢
    split at hd
    · unfold Mgr.place at hd
      split at hd
      · split at hd
        · rename_i e
          split at hd
          · cases hd
            exact (List.getElem?_eq_some_iff.1 e).1
          · cases hd
        · cases hd
      · cases hd
    · exact h.old d id o hd

/-- A call that is not in order is undefined. -/
theorem step_bad (m : Mgr) (s : Said) (c : Call) (h : Inv m s) (hg : ¬ Good s c) : m.step c = none := by
  cases c with
  | init n =>
    simp only [Good] at hg
    simp only [Mgr.step]
    rw [if_pos (by omega)]
  | add i a =>
    simp only [Good, Classical.not_imp] at hg
    simp only [Mgr.step, h.len]
    rw [if_pos hg.1]
    cases hc : create a with
    | none => rfl
    | some n => exact absurd (create_unfit a n hc) hg.2
  | initAo i j t o =>
    simp only [Good, Classical.not_imp, ne_eq, Classical.not_not] at hg
    simp [Mgr.step, Mgr.setAnalog, h.missing i hg.1 hg.2]
  | initAi i j t o =>
    simp only [Good, Classical.not_imp, ne_eq, Classical.not_not] at hg
    simp [Mgr.step, Mgr.setAnalog, h.missing i hg.1 hg.2]
  | bind c k i off => exact absurd trivial hg

theorem run_append (m : Mgr) (h g : List Call) : m.run (h ++ g) = (m.run h).bind (·.run g) := by
  induction h generalizing m with
  | nil => rfl
  | cons c h ih =>
    simp only [List.cons_append, Mgr.run]
    cases m.step c with
    | none => rfl
    | some m => exact ih m

theorem said_append (h : List Call) (c : Call) : said (h ++ [c]) = (said h).next c := by simp [said]

theorem run_inv (h : List Call) (hg : AllGood h) : ∃ m, Mgr.run {} h = some m ∧ Inv m (said h) := by
  induction hr : h.length generalizing h with
  | zero =>
    cases List.eq_nil_of_length_eq_zero hr
    exact ⟨{}, rfl, inv_init⟩
  | succ k ih =>
    have hne : h ≠ [] := by intro e; simp [e] at hr
    obtain ⟨p, c, rfl⟩ : ∃ p c, h = p ++ [c] := ⟨h.dropLast, h.getLast hne, (List.dropLast_concat_getLast hne).symm⟩
    obtain ⟨m, hm, hi⟩ := ih p (fun q d r e => hg q d (r ++ [c]) (by rw [e]; simp)) (by simpa using hr)
    obtain ⟨m', hs, hi'⟩ := step_inv m (said p) c hi (hg p c [] rfl)
    refine ⟨m', ?_, by rw [said_append]; exact hi'⟩
    rw [run_append, hm]
    simp [Mgr.run, hs]

theorem run_bad (h : List Call) (m : Mgr) (hm : Mgr.run {} h = some m) : AllGood h := by
  induction hr : h.length generalizing h m with
  | zero =>
    cases List.eq_nil_of_length_eq_zero hr
    intro p c q e
    simp at e
  | succ k ih =>
    have hne : h ≠ [] := by intro e; simp [e] at hr
    obtain ⟨p, c, rfl⟩ : ∃ p c, h = p ++ [c] := ⟨h.dropLast, h.getLast hne, (List.dropLast_concat_getLast hne).symm⟩
    rw [run_append] at hm
    cases hp : Mgr.run {} p with
    | none => simp [hp] at hm
    | some m1 =>
      rw [hp] at hm
      have hgp := ih p m1 hp (by simpa using hr)
      obtain ⟨m2, h2, hi⟩ := run_inv p hgp
      rw [hp] at h2
      cases h2
      intro q d r e
      rcases List.eq_nil_or_concat r with rfl | ⟨r', x, rfl⟩
      · have := List.append_inj' e rfl
        obtain ⟨rfl, h1⟩ := this
        cases h1
        apply Classical.byContradiction
        intro hng
        have := step_bad m1 (said p) c hi hng
        simp [Mgr.run, this] at hm
      · have e' : p ++ [c] = (q ++ d :: r') ++ [x] := by rw [e]; simp
        obtain ⟨rfl, h1⟩ := List.append_inj' e' rfl
        exact hgp q d r' rfl

theorem run_some (h : List Call) (m : Mgr) (hm : Mgr.run {} h = some m) : Inv m (said h) := by
  obtain ⟨m', h1, h2⟩ := run_inv h (run_bad h m hm)
  rw [hm] at h1
  cases h1
  exact h2

/-- The place of a channel depends only on the numbers of the node. -/
theorem place_eq (m : Mgr) (s : Said) (h : Inv m s) (k : Kind) (i off : Nat) :
    (m.place k i off).isSome = true ↔ ∃ a, s.node i = some a ∧ (off : Int) < a.room k := by
  unfold Mgr.place
  by_cases hi : i < s.count
  · cases hs : s.node i with
    | none => rw [h.missing i hi hs]; simp
    | some a =>
      obtain ⟨id, n, e1, e2, e3⟩ := h.present i hi a hs
      rw [e1]
      simp only [e2]
      have : off < n.limit k ↔ (off : Int) < a.room k := by
        have h3 := e3.doCnt
        have h4 := e3.diCnt
        cases k <;> simp only [Node.limit, Args.room, analogSize] <;> omega
      by_cases hl : off < n.limit k
      · rw [if_pos hl]; simp [this.1 hl]
      · rw [if_neg hl]; simpa using fun hc => hl (this.2 hc)
  · rw [List.getElem?_eq_none (by rw [h.len]; omega), h.empty i (by omega)]
    simp

theorem place_leaves (m m' : Mgr) (c : Call) (k : Kind) (i off x : Nat) (hl : c.Leaves i x) (h : m.step c = some m') :
    m'.bound x = m.bound x ∧ (m.arr[i]? = m'.arr[i]?) ∧
      (∀ id, id < m.heap.length → (m'.heap[id]?.map (·.limit k)) = (m.heap[id]?.map (·.limit k))) := by
  cases c with
  | init n => exact absurd hl (by simp [Call.Leaves])
  | add j a =>
    simp only [Mgr.step] at h
    split at h
    · split at h
      · cases h
      · cases h
        refine ⟨rfl, by dsimp only; rw [List.getElem?_set_ne hl], fun id hid => ?_⟩
        dsimp only
        rw [List.getElem?_append_left hid]
    · cases h; exact ⟨rfl, rfl, fun _ _ => rfl⟩
  | initAo j l t o =>
    simp only [Mgr.step, Mgr.setAnalog] at h
    split at h
    · cases h; exact ⟨rfl, rfl, fun _ _ => rfl⟩
    · cases h
    · rename_i id' _
      cases h
      refine ⟨rfl, rfl, fun id _ => ?_⟩
      dsimp only
      by_cases e : id' = id
      · subst e
        rw [List.getElem?_modify_eq]
        cases m.heap[id']? with
        | none => rfl
        | some n => cases k <;> rfl
      · rw [List.getElem?_modify_ne _ _ e]
  | initAi j l t o =>
    simp only [Mgr.step, Mgr.setAnalog] at h
    split at h
    · cases h; exact ⟨rfl, rfl, fun _ _ => rfl⟩
    · cases h
    · rename_i id' _
      cases h
      refine ⟨rfl, rfl, fun id _ => ?_⟩
      dsimp only
      by_cases e : id' = id
      · subst e
        rw [List.getElem?_modify_eq]
        cases m.heap[id']? with
        | none => rfl
        | some n => cases k <;> rfl
      · rw [List.getElem?_modify_ne _ _ e]
  | bind d k' j o =>
    cases h
    refine ⟨?_, rfl, fun _ _ => rfl⟩
    dsimp only
    rw [if_neg (Ne.symm hl)]

theorem kept (g : List Call) (k : Kind) (i off c : Nat) (hl : ∀ e ∈ g, e.Leaves i c) (m m' : Mgr) (h : m.run g = some m')
    (hb : m.bound c = m.place k i off) (hid : ∀ id, m.arr[i]? = some (some id) → id < m.heap.length) :
    m'.bound c = m'.place k i off := by
  induction g generalizing m with
  | nil => cases h; exact hb
  | cons e g ih =>
    simp only [Mgr.run] at h
    cases hs : m.step e with
    | none => simp [hs] at h
    | some m1 =>
      rw [hs] at h
      obtain ⟨p1, p2, p3⟩ := place_leaves m m1 e k i off c (hl e (by simp)) hs
      have hlen : m.heap.length ≤ m1.heap.length := by
        apply Classical.byContradiction
        intro hc
        have h3 := p3 m1.heap.length (by omega)
        rw [List.getElem?_eq_none (Nat.le_refl _), List.getElem?_eq_getElem (by omega)] at h3
        cases h3
      refine ih (fun x hx => hl x (by simp [hx])) m1 h ?_ ?_
      · rw [p1, hb]
        unfold Mgr.place
        rw [← p2]
        cases ha : m.arr[i]? with
        | none => rfl
        | some o =>
          cases o with
          | none => rfl
          | some id =>
            have h3 := p3 id (hid id ha)
            dsimp only
            cases h4 : m.heap[id]? with
            | none =>
              rw [h4] at h3
              cases h5 : m1.heap[id]? with
              | none => rfl
              | some n => rw [h5] at h3; cases h3
            | some n =>
              rw [h4] at h3
              cases h5 : m1.heap[id]? with
              | none => rw [h5] at h3; cases h3
              | some n1 =>
                rw [h5] at h3
                simp only [Option.map_some, Option.some.injEq] at h3
                dsimp only
                rw [h3]
      · intro id hx
        rw [← p2] at hx
        exact Nat.lt_of_lt_of_le (hid id hx) hlen

theorem id_old (h : List Call) (m : Mgr) (hm : Mgr.run {} h = some m) (i id : Nat) (ha : m.arr[i]? = some (some id)) :
    id < m.heap.length := by
  have hi := run_some h m hm
  have hc : i < (said h).count := by rw [← hi.len]; exact (List.getElem?_eq_some_iff.1 ha).1
  cases hs : (said h).node i with
  | none => rw [hi.missing i hc hs] at ha; cases ha
  | some a =>
    obtain ⟨id', n, e1, e2, _⟩ := hi.present i hc a hs
    rw [ha] at e1
    cases e1
    exact (List.getElem?_eq_some_iff.1 e2).1

end Ptusa.IoConf
