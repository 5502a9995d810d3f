import Verif.PidLink.Lemmas

namespace Ptusa.PidLink.Props

open PidLink Spec Lemmas

/-! ### C211: setting the value of a regulator reaches its actuators and comes to an end -/

/-- When the chain of actuators from a running regulator has an end, setting the value of the regulator ends after as many calls as the chain has
devices; every device of the chain is given the output computed by the one before, is switched on, and nothing else changes. -/
theorem C211_chain_partial {V : Type} (out : Nat → V → V) (net : Net V) (a : Nat) (v : V) (p : List Nat) (hc : Chain net a p)
    (hs : (net a).st ≠ .off) : ∀ k, p.length ≤ k → ∃ r, setValue out k net a v = some r ∧ Done out v p net r := by
  intro k hk
  obtain ⟨r, h1, h2, _⟩ := chain_done out p net a v hc hs k hk
  exact ⟨r, h1, h2⟩

/-- A project: regulators 1 and 2 in a cascade with the pump 3. -/
def cascade : Net Nat := fun x =>
  if x = 1 then ⟨true, true, some 2, false, .on, 0⟩ else if x = 2 then ⟨true, true, some 3, false, .off, 0⟩ else ⟨false, false, none, false, .off, 0⟩

example : Chain cascade 1 [1, 2, 3] :=
  .step 1 2 _ ⟨rfl, rfl, rfl, rfl⟩ (.step 2 3 _ ⟨rfl, rfl, rfl, rfl⟩ (.last 3 (fun _ h => absurd h.2.1 (by decide))))

example : ((setValue (fun a v => v * 10 + a) 3 cascade 1 5).map fun r => [(r 1).value, (r 2).value, (r 3).value]) = some [5, 51, 512] ∧
    ((setValue (fun a v => v * 10 + a) 3 cascade 1 5).map fun r => (r 3).st) = some .on := by decide +kernel

/-- **Violated**: when the running regulator belongs to a ring of regulators, each with a sensor and none in manual mode, setting its value never
ends, whatever the regulators compute. -/
theorem C211_ring_violated {V : Type} (out : Nat → V → V) (net : Net V) (ring : Nat → Prop)
    (hr : ∀ x, ring x → ∃ y, ring y ∧ Passes net x y) (a : Nat) (ha : ring a) (hs : (net a).st ≠ .off) (v : V) :
    ∀ k, setValue out k net a v = none :=
  fun k => ring_none out ring k net a v hr ha hs

/-- The project does not prevent it: two assignments make such a ring of any two regulators with sensors. -/
theorem C211_two_violated {V : Type} (out : Nat → V → V) (net : Net V) (a b : Nat) (hab : a ≠ b)
    (hreg : ∀ x, x = a ∨ x = b → (net x).manual = false ∧ (net x).reg = true ∧ (net x).sensor = true) (hs : (net a).st ≠ .off) (v : V) :
    ∀ k, setValue out k (link (link net a b) b a) a v = none := by
  have ea : link (link net a b) b a a = { net a with act := some b } := by
    unfold link
    rw [upd_other _ _ _ _ hab, upd_same, if_neg hab]
  have eb : link (link net a b) b a b = { net b with act := some a } := by
    unfold link
    rw [upd_same, upd_other _ _ _ _ (Ne.symm hab), if_neg (Ne.symm hab)]
  refine C211_ring_violated out _ (fun x => x = a ∨ x = b) (fun x hx => ?_) a (.inl rfl) (by rw [ea]; exact hs) v
  rcases hx with rfl | rfl
  · exact ⟨b, .inr rfl, by obtain ⟨h1, h2, h3⟩ := hreg x (.inl rfl); unfold Passes; rw [ea]; exact ⟨h1, h2, h3, rfl⟩⟩
  · exact ⟨a, .inl rfl, by obtain ⟨h1, h2, h3⟩ := hreg x (.inr rfl); unfold Passes; rw [eb]; exact ⟨h1, h2, h3, rfl⟩⟩

/-- After any assignments of actuators to regulators without actuators, no regulator is its own actuator. -/
theorem C211_self {V : Type} (net : Net V) (h0 : ∀ a, (net a).act = none) (es : List (Nat × Nat)) (a : Nat) :
    ((es.foldl (fun n e => link n e.1 e.2) net) a).act ≠ some a := by
  have : ∀ (es : List (Nat × Nat)) (net : Net V), (∀ a, (net a).act ≠ some a) →
      ∀ a, ((es.foldl (fun n e => link n e.1 e.2) net) a).act ≠ some a := by
    intro es
    induction es with
    | nil => intro net h a; exact h a
    | cons e t ih =>
      intro net h
      refine ih _ (fun x => ?_)
      show (link net e.1 e.2 x).act ≠ some x
      unfold link
      by_cases hx : x = e.1
      · rw [hx, upd_same]
        by_cases e12 : e.1 = e.2
        · rw [if_pos e12]; simp
        · rw [if_neg e12]; exact fun he => e12 (Option.some.inj he).symm
      · rw [upd_other _ _ _ _ hx]; exact h x
  exact this es net (fun a => by rw [h0 a]; simp) a

example : ((link (link (fun _ => (⟨true, true, none, false, .off, 0⟩ : Node Nat)) 1 1) 2 1) 1).act = none ∧
    ((link (link (fun _ => (⟨true, true, none, false, .off, 0⟩ : Node Nat)) 1 1) 2 1) 2).act = some 1 := by decide +kernel

/-- Switching a device off always ends, also in a ring. -/
theorem C211_off {V : Type} (net : Net V) (a : Nat) (s : List Nat) (hs : ∀ x, (net x).st = .stopping → x ∈ s) :
    ∃ r, off (s.length + 1) net a = some r :=
  off_some _ net a s hs (Nat.lt_succ_self _)

/-- Two regulators that stop, each the actuator of the other. -/
example : ((off 3 (fun x => (⟨true, true, some (1 - x), false, .stopping, x⟩ : Node Nat)) 0).map fun r => ((r 0).st, (r 1).st)) =
    some (.off, .off) := by decide +kernel

/-- A regulator that is off keeps the new value for itself and switches its actuator off: no other device is given a value and none is switched
on. -/
theorem C211_regulator_off {V : Type} (out : Nat → V → V) (net r : Net V) (a b : Nat) (v : V) (k : Nat) (hp : Passes net a b)
    (hs : (net a).st = .off) (hab : a ≠ b) (hr : setValue out k net a v = some r) :
    (r a).value = v ∧ (∀ x, x ≠ a → (r x).value = (net x).value) ∧ (∀ x, (r x).st = .on → (net x).st = .on) ∧
      ((net b).manual = false → (r b).st ≠ .on) := by
  cases k with
  | zero => exact absurd hr (by simp [setValue])
  | succ k =>
    obtain ⟨h1, h2, h3, h4⟩ := hp
    have hr : (if (net a).manual = true then _ else _) = some r := hr
    rw [if_neg (by simp [h1]), if_neg (by simp [h2, h3]), h4] at hr
    simp only at hr
    rw [if_pos hs] at hr
    have key := off_keeps k _ r b hr
    refine ⟨?_, fun x hx => ?_, fun x hx => ?_, fun hm => ?_⟩
    · rw [(key a).1, upd_same]
    · rw [(key x).1, upd_other _ _ _ _ hx]
    · have := (key x).2 hx
      by_cases e : x = a
      · subst e; rw [upd_same] at this; exact this
      · rw [upd_other _ _ _ _ e] at this; exact this
    · exact off_first k _ r b hr (by rw [upd_other _ _ _ _ (Ne.symm hab)]; exact hm)

/-- Regulator 2 of the cascade is off; the pump is running. -/
example : ((setValue (fun a v => v * 10 + a) 3 (upd cascade 3 ⟨false, false, none, false, .on, 7⟩) 2 5).map fun r =>
    ((r 2).value, (r 3).value, (r 3).st)) = some (5, 7, .off) := by decide +kernel

end Ptusa.PidLink.Props
