import Verif.PidLink.Spec

namespace Ptusa.PidLink.Lemmas

open PidLink Spec

variable {V : Type}

theorem upd_same (net : Net V) (a : Nat) (n : Node V) : upd net a n a = n := if_pos rfl

theorem upd_other (net : Net V) (a x : Nat) (n : Node V) (h : x ≠ a) : upd net a n x = net x := if_neg h

theorem passes_unique {net : Net V} {a b c : Nat} (h : Passes net a b) (g : Passes net a c) : b = c :=
  Option.some.inj (h.2.2.2.symm.trans g.2.2.2)

theorem chain_unique {net : Net V} {a : Nat} {p : List Nat} (h : Chain net a p) : ∀ q, Chain net a q → p = q := by
  induction h with
  | last a hn =>
    intro q hq
    cases hq with
    | last => rfl
    | step _ b p hb _ => exact absurd hb (hn b)
  | step a b p hb _ ih =>
    intro q hq
    cases hq with
    | last _ hn => exact absurd hb (hn b)
    | step _ c p' hc hp =>
      have := passes_unique hb hc
      subst this
      rw [ih _ hp]

/-- From every device of a chain the rest is a chain, not longer. -/
theorem chain_suffix {net : Net V} {a : Nat} {p : List Nat} (h : Chain net a p) :
    ∀ x ∈ p, ∃ q, Chain net x q ∧ q.length ≤ p.length := by
  induction h with
  | last a hn =>
    intro x hx
    rw [List.mem_singleton.1 hx]
    exact ⟨[a], .last a hn, Nat.le_refl _⟩
  | step a b p hb hp ih =>
    intro x hx
    rcases List.mem_cons.1 hx with e | hx
    · rw [e]; exact ⟨a :: p, .step a b p hb hp, Nat.le_refl _⟩
    · obtain ⟨q, h1, h2⟩ := ih x hx
      exact ⟨q, h1, Nat.le_succ_of_le h2⟩

theorem chain_fresh {net : Net V} {a b : Nat} {p : List Nat} (hb : Passes net a b) (hp : Chain net b p) : a ∉ p := by
  intro h
  obtain ⟨q, h1, h2⟩ := chain_suffix hp a h
  have := chain_unique h1 _ (.step a b p hb hp)
  rw [this, List.length_cons] at h2
  omega

/-- Chains depend only on the links. -/
theorem passes_congr {net net' : Net V} (h : ∀ x, (net' x).manual = (net x).manual ∧ (net' x).reg = (net x).reg ∧
    (net' x).sensor = (net x).sensor ∧ (net' x).act = (net x).act) (a b : Nat) : Passes net' a b ↔ Passes net a b := by
  obtain ⟨h1, h2, h3, h4⟩ := h a
  unfold Passes
  rw [h1, h2, h3, h4]

theorem chain_congr {net net' : Net V} (h : ∀ x, (net' x).manual = (net x).manual ∧ (net' x).reg = (net x).reg ∧
    (net' x).sensor = (net x).sensor ∧ (net' x).act = (net x).act) {a : Nat} {p : List Nat} (hc : Chain net a p) : Chain net' a p := by
  induction hc with
  | last a hn => exact .last a (fun b hb => hn b ((passes_congr h a b).1 hb))
  | step a b p hb _ ih => exact .step a b p ((passes_congr h a b).2 hb) ih

/-- Setting the value and switching on keep the links. -/
theorem prep_links (net : Net V) (a b : Nat) (v : V) : ∀ x,
    ((on (upd net a { net a with value := v }) b) x).manual = (net x).manual ∧ ((on (upd net a { net a with value := v }) b) x).reg = (net x).reg ∧
    ((on (upd net a { net a with value := v }) b) x).sensor = (net x).sensor ∧ ((on (upd net a { net a with value := v }) b) x).act = (net x).act := by
  have h1 : ∀ x, ((upd net a { net a with value := v }) x).manual = (net x).manual ∧ ((upd net a { net a with value := v }) x).reg = (net x).reg ∧
    ((upd net a { net a with value := v }) x).sensor = (net x).sensor ∧ ((upd net a { net a with value := v }) x).act = (net x).act := by
    intro x
    by_cases e : x = a
    · subst e; rw [upd_same]; exact ⟨rfl, rfl, rfl, rfl⟩
    · rw [upd_other _ _ _ _ e]; exact ⟨rfl, rfl, rfl, rfl⟩
  intro x
  unfold on
  by_cases e : (upd net a { net a with value := v } b).manual = true
  · rw [if_pos e]; exact h1 x
  · rw [if_neg e]
    by_cases e2 : x = b
    · subst e2; rw [upd_same]; exact h1 x
    · rw [upd_other _ _ _ _ e2]; exact h1 x

theorem setValue_pass (out : Nat → V → V) (k : Nat) (net : Net V) (a b : Nat) (v : V) (hb : Passes net a b) (hs : (net a).st ≠ .off) :
    setValue out (k + 1) net a v = setValue out k (on (upd net a { net a with value := v }) b) b (out a v) := by
  obtain ⟨h1, h2, h3, h4⟩ := hb
  show (if (net a).manual = true then _ else _) = _
  rw [if_neg (by simp [h1]), if_neg (by simp [h2, h3]), h4]
  exact if_neg hs

theorem setValue_last (out : Nat → V → V) (k : Nat) (net : Net V) (a : Nat) (v : V) (hn : ∀ b, ¬ Passes net a b) :
    setValue out (k + 1) net a v = some (if (net a).manual then net else upd net a { net a with value := v }) := by
  show (if (net a).manual = true then _ else _) = _
  cases h1 : (net a).manual with
  | true => rfl
  | false =>
    rw [if_neg (by simp)]
    by_cases h2 : (net a).reg = false ∨ (net a).sensor = false
    · rw [if_pos h2]; rfl
    · rw [if_neg h2]
      cases h4 : (net a).act with
      | none => rfl
      | some b =>
        refine absurd ⟨h1, ?_, ?_, h4⟩ (hn b)
        · cases h : (net a).reg with
          | true => rfl
          | false => exact absurd (.inl h) h2
        · cases h : (net a).sensor with
          | true => rfl
          | false => exact absurd (.inr h) h2

theorem on_st (net : Net V) (b : Nat) (hm : (net b).manual = false) : (on net b b).st = .on := by
  unfold on; rw [if_neg (by simp [hm]), upd_same]

theorem on_other (net : Net V) (b x : Nat) (h : x ≠ b) : on net b x = net x := by
  unfold on
  by_cases e : (net b).manual = true
  · rw [if_pos e]
  · rw [if_neg e, upd_other _ _ _ _ h]

theorem on_manual (net : Net V) (b x : Nat) (h : (net x).manual = true) : on net b x = net x := by
  by_cases e : x = b
  · subst e; unfold on; rw [if_pos h]
  · exact on_other net b x e

theorem chain_done (out : Nat → V → V) (p : List Nat) : ∀ (net : Net V) (a : Nat) (v : V), Chain net a p → (net a).st ≠ .off →
    ∀ k, p.length ≤ k → ∃ r, setValue out k net a v = some r ∧ Done out v p net r ∧ ((net a).manual = false → (r a).st = (net a).st) := by
  induction p with
  | nil => intro net a v hc; cases hc
  | cons y p ih =>
    intro net a v hc hs k hk
    cases hc with
    | last _ hn =>
      obtain ⟨j, rfl⟩ : ∃ j, k = j + 1 := ⟨k - 1, by simp at hk; omega⟩
      refine ⟨_, setValue_last out j net y v hn, ⟨?_, ?_⟩, ?_⟩
      · intro i x hi hm
        cases i with
        | zero =>
          have : x = y := by simpa using hi.symm
          subst this
          rw [if_neg (by simp [hm]), upd_same]
          exact ⟨rfl, fun h => absurd h (by omega)⟩
        | succ i => simp at hi
      · intro x hx
        by_cases hm : (net y).manual = true
        · rw [if_pos hm]
        · rw [if_neg hm]
          refine upd_other _ _ _ _ (fun e => ?_)
          subst e
          rcases hx with hx | hx
          · simp at hx
          · exact hm hx
      · intro hm; rw [if_neg (by simp [hm]), upd_same]
    | step _ b _ hb hp =>
      obtain ⟨j, rfl⟩ : ∃ j, k = j + 1 := ⟨k - 1, by simp at hk; omega⟩
      have hk' : p.length ≤ j := by simpa using hk
      have hfresh := chain_fresh hb hp
      have hl := prep_links net y b v
      have hp' := chain_congr hl hp
      have hyb : y ≠ b := by
        intro e; subst e
        have : y ∈ p := by cases hp <;> simp
        exact hfresh this
      rw [setValue_pass out j net y b v hb hs]
      have hyv : (on (upd net y { net y with value := v }) b) y = { net y with value := v } := by
        rw [on_other _ _ _ hyb, upd_same]
      by_cases hbm : (net b).manual = true
      · -- the next device is in manual mode: the chain ends there
        have hpe : p = [b] := by
          cases hp with
          | last => rfl
          | step _ c q hc _ => exact absurd hc.1 (by simp [hbm])
        have hnet : on (upd net y { net y with value := v }) b = upd net y { net y with value := v } := by
          unfold on
          rw [if_pos (by rw [upd_other _ _ _ _ (Ne.symm hyb)]; exact hbm)]
        have hr : setValue out j (on (upd net y { net y with value := v }) b) b (out y v) = some (upd net y { net y with value := v }) := by
          obtain ⟨i, rfl⟩ : ∃ i, j = i + 1 := ⟨j - 1, by rw [hpe] at hk'; simp at hk'; omega⟩
          rw [hnet]
          exact if_pos (by rw [upd_other _ _ _ _ (Ne.symm hyb)]; exact hbm)
        refine ⟨_, hr, ⟨?_, ?_⟩, ?_⟩
        · intro i x hi hm
          rw [hpe] at hi ⊢
          match i with
          | 0 =>
            have : x = y := by simpa using hi.symm
            subst this
            rw [upd_same]
            exact ⟨rfl, fun h => absurd h (by omega)⟩
          | 1 =>
            have : x = b := by simpa using hi.symm
            subst this
            rw [hbm] at hm; exact absurd hm (by simp)
          | i + 2 => simp at hi
        · intro x hx
          refine upd_other _ _ _ _ (fun e => ?_)
          subst e
          rcases hx with hx | hx
          · simp at hx
          · exact absurd hb.1 (by simp [hx])
        · intro _; rw [upd_same]
      · have hbm' : (net b).manual = false := by simpa using hbm
        have hst : ((on (upd net y { net y with value := v }) b) b).st = .on :=
          on_st _ _ (by rw [upd_other _ _ _ _ (Ne.symm hyb)]; exact hbm')
        obtain ⟨r, hr, ⟨d1, d2⟩, d3⟩ := ih (on (upd net y { net y with value := v }) b) b (out y v) hp' (by rw [hst]; simp) j hk'
        refine ⟨r, hr, ⟨?_, ?_⟩, ?_⟩
        · intro i x hi hm
          cases i with
          | zero =>
            have : x = y := by simpa using hi.symm
            subst this
            rw [d2 x (.inl hfresh), hyv]
            exact ⟨rfl, fun h => absurd h (by omega)⟩
          | succ i =>
            have hi' : p[i]? = some x := by simpa using hi
            obtain ⟨e1, e2⟩ := d1 i x hi' ((hl x).1.trans hm)
            refine ⟨e1, fun _ => ?_⟩
            rcases Nat.eq_zero_or_pos i with h0 | h0
            · subst h0
              have hx : x = b := by cases hp <;> simpa using hi'.symm
              subst hx
              rw [d3 ((hl x).1.trans hm)]
              exact hst
            · exact e2 h0
        · intro x hx
          have hxy : x ≠ y := by
            intro e; subst e
            rcases hx with hx | hx
            · simp at hx
            · exact absurd hb.1 (by simp [hx])
          rcases hx with hx | hx
          · have hxp : x ∉ p := fun h => hx (List.mem_cons_of_mem _ h)
            have hxb : x ≠ b := by
              intro e; subst e
              exact hxp (by cases hp <;> simp)
            rw [d2 x (.inl hxp), on_other _ _ _ hxb, upd_other _ _ _ _ hxy]
          · rw [d2 x (.inr ((hl x).1.trans hx)), on_manual _ _ _ (by rw [upd_other _ _ _ _ hxy]; exact hx), upd_other _ _ _ _ hxy]
        · intro _; rw [d2 y (.inl hfresh), hyv]

/-- A ring of regulators has no end. -/
theorem ring_none (out : Nat → V → V) (ring : Nat → Prop) (k : Nat) : ∀ (net : Net V) (a : Nat) (v : V),
    (∀ x, ring x → ∃ y, ring y ∧ Passes net x y) → ring a → (net a).st ≠ .off → setValue out k net a v = none := by
  induction k with
  | zero => intros; rfl
  | succ k ih =>
    intro net a v hr ha hs
    obtain ⟨b, hb, hp⟩ := hr a ha
    rw [setValue_pass out k net a b v hp hs]
    have hl := prep_links net a b v
    refine ih _ b _ (fun x hx => ?_) hb ?_
    · obtain ⟨y, hy, hxy⟩ := hr x hx
      exact ⟨y, hy, (passes_congr hl x y).2 hxy⟩
    · obtain ⟨_, _, h3⟩ := hr b hb
      have hm : (net b).manual = false := h3.1
      rw [on_st _ _ ?_]
      · simp
      · by_cases e : b = a
        · subst e; rw [upd_same]; exact hm
        · rw [upd_other _ _ _ _ e]; exact hm

/-- Switching off needs at most one call for every regulator that is stopping. -/
theorem off_some (k : Nat) : ∀ (net : Net V) (a : Nat) (s : List Nat), (∀ x, (net x).st = .stopping → x ∈ s) → s.length < k →
    ∃ r, off k net a = some r := by
  induction k with
  | zero => intro _ _ s _ h; exact absurd h (by omega)
  | succ k ih =>
    intro net a s hs hk
    show ∃ r, (if (net a).manual = true then _ else _) = some r
    by_cases h1 : (net a).manual = true
    · rw [if_pos h1]; exact ⟨_, rfl⟩
    rw [if_neg h1]
    by_cases h2 : (net a).reg = false
    · rw [if_pos h2]; exact ⟨_, rfl⟩
    rw [if_neg h2]
    cases h3 : (net a).st with
    | off => exact ⟨_, rfl⟩
    | on => exact ⟨_, rfl⟩
    | stopping =>
      cases h4 : (net a).act with
      | none => exact ⟨_, rfl⟩
      | some b =>
        refine ih _ b (s.erase a) (fun x hx => ?_) ?_
        · by_cases e : x = a
          · subst e; rw [upd_same] at hx; exact absurd hx (by simp)
          · rw [upd_other _ _ _ _ e] at hx
            exact (List.mem_erase_of_ne e).2 (hs x hx)
        · have := List.length_erase_of_mem (hs a h3)
          have hpos : 0 < s.length := List.length_pos_of_mem (hs a h3)
          omega

/-- Switching off sets no value and switches nothing on. -/
theorem off_keeps (k : Nat) : ∀ (net r : Net V) (a : Nat), off k net a = some r →
    ∀ x, (r x).value = (net x).value ∧ ((r x).st = .on → (net x).st = .on) := by
  induction k with
  | zero => intro net r a h; exact absurd h (by simp [off])
  | succ k ih =>
    intro net r a h x
    have up : ∀ (s : State), s ≠ .on → ((upd net a { net a with st := s }) x).value = (net x).value ∧
        (((upd net a { net a with st := s }) x).st = .on → (net x).st = .on) := by
      intro s hs
      by_cases e : x = a
      · subst e; rw [upd_same]; exact ⟨rfl, fun h => absurd h hs⟩
      · rw [upd_other _ _ _ _ e]; exact ⟨rfl, id⟩
    have h : (if (net a).manual = true then _ else _) = some r := h
    by_cases h1 : (net a).manual = true
    · rw [if_pos h1] at h; rw [← Option.some.inj h]; exact ⟨rfl, id⟩
    rw [if_neg h1] at h
    by_cases h2 : (net a).reg = false
    · rw [if_pos h2] at h; rw [← Option.some.inj h]; exact up .off (by simp)
    rw [if_neg h2] at h
    cases h3 : (net a).st with
    | off => rw [h3] at h; rw [← Option.some.inj h]; exact ⟨rfl, id⟩
    | on => rw [h3] at h; rw [← Option.some.inj h]; exact up .stopping (by simp)
    | stopping =>
      rw [h3] at h
      cases h4 : (net a).act with
      | none => rw [h4] at h; rw [← Option.some.inj h]; exact up .off (by simp)
      | some b =>
        rw [h4] at h
        obtain ⟨i1, i2⟩ := ih _ r b h x
        obtain ⟨u1, u2⟩ := up .off (by simp)
        exact ⟨i1.trans u1, fun e => u2 (i2 e)⟩

/-- One call of switching off ends in `off` or `stopping`. -/
theorem off_first (k : Nat) (net r : Net V) (a : Nat) (h : off k net a = some r) (hm : (net a).manual = false) : (r a).st ≠ .on := by
  cases k with
  | zero => exact absurd h (by simp [off])
  | succ k =>
    have h : (if (net a).manual = true then _ else _) = some r := h
    rw [if_neg (by simp [hm])] at h
    by_cases h2 : (net a).reg = false
    · rw [if_pos h2] at h; rw [← Option.some.inj h, upd_same]; simp
    rw [if_neg h2] at h
    cases h3 : (net a).st with
    | off => rw [h3] at h; rw [← Option.some.inj h, h3]; simp
    | on => rw [h3] at h; rw [← Option.some.inj h, upd_same]; simp
    | stopping =>
      rw [h3] at h
      cases h4 : (net a).act with
      | none => rw [h4] at h; rw [← Option.some.inj h, upd_same]; simp
      | some b =>
        rw [h4] at h
        intro e
        have := (off_keeps k _ r b h a).2 e
        rw [upd_same] at this; exact absurd this (by simp)

end Ptusa.PidLink.Lemmas
