import Verif.Medium.Lemmas

/-! # C198: the recipe chosen for a medium is in use;  C199: the values of the recipes -/
namespace Ptusa.Medium

open Spec
open CipRec (trunc nonzero)

/-! ### C198 -/

/-- C198: nothing undefined happens, whatever is set, ordered and chosen with numbers that are numbers. -/
theorem C198_defined_partial (mem : Med → Nat → Word) (par : Nat → Word) (h : FairStart mem par) (es : List Ev) (he : ∀ e ∈ es, Fair e) :
    ((start mem par).bind (·.run es)).isSome := by
  obtain ⟨s, h1, g1⟩ := start_good h
  obtain ⟨s', h2, _⟩ := run_good g1 es he
  rw [h1, Option.bind_some, h2]; rfl

/-- C198: after any history, when one of the ten recipes of a medium is chosen, the next cycle brings all nine values of this recipe into use,
shows its name, and changes no other parameter and no other name. -/
theorem C198_chosen_partial (s : Sys) (h : After s) (m : Med) (v : Word) (n : Nat) (hv : trunc v = some n) (hn : n < 10)
    (na nc : Option (Nat → Word)) :
    ∃ s', s.run [.par (choice m) v, .eval na nc] = some s' ∧ inUse s' m = ofRecipe s' m n ∧ s'.par (choice m) = v ∧
      (∀ i, s'.name m i = (s'.mgr m).mem (n * 32 + i)) ∧
      (∀ j, j ∉ numbers m → j ≠ choice m → s'.par j = s.par j) ∧ ∀ x, x ≠ m → s'.name x = s.name x := by
  obtain ⟨g, st⟩ := after_good h
  have hsel : choice m = selected m := by cases m <;> rfl
  rw [hsel]
  obtain ⟨t1, t2, t3⟩ := told_selected s m v
  refine ⟨_, told_eval g st m v n hv na nc, ?_⟩
  generalize hE : ((s.told (selected m) v).one .acid na).one .caustic nc = E
  have hpar : E.par = setPar s.par (selected m) v := by rw [← hE]; exact t1
  have hld : E.loaded m = -1 := by rw [← hE]; exact t2
  have hname : E.name = s.name := by rw [← hE]; rfl
  have hc : E.chosen m n = { E with
      par := loadPar (E.mgr m) n (pairs m) E.par
      loaded := fun x => if x = m then (n : Int) else E.loaded x
      name := fun x => if x = m then (fun i => (E.mgr m).mem (32 * n + i)) else E.name x } := by
    unfold Sys.chosen
    rw [if_neg (by rw [hld]; omega), if_pos (by omega)]
    rfl
  obtain ⟨o1, o2⟩ := chosen_other E m n
  refine ⟨?_, ?_, ?_, ?_, ?_⟩
  · rw [hc]
    exact loaded_numbers (E.mgr m) n m E.par
  · rw [hc]
    show loadPar _ _ _ _ _ = v
    rw [loaded_other _ _ _ _ _ (selected_ne m m), hpar, setPar, if_pos rfl]
  · intro i
    rw [hc]
    show (if m = m then (fun i => (E.mgr m).mem (32 * n + i)) else E.name m) i = (E.mgr m).mem (n * 32 + i)
    rw [if_pos rfl, Nat.mul_comm]
  · intro j h1 h2
    rw [o1 j h1 h2, hpar, setPar, if_neg h2]
  · intro x hx
    rw [(o2 x hx).2, hname]

/-- The fourth recipe is filled in and chosen. -/
example : ((start (fun _ _ => 0) (fun _ => 0)).bind fun s => s.run [.next .acid fun _ => 0, .set .acid 4 0x40000000, .eval none none,
    .par 37 0x3F800000, .eval none none]).map (fun s => (inUse s .acid, s.par 37)) =
    some ([0, 0x40000000, 0, 0, 0, 0, 0, 0, 0], 0x3F800000) := by decide +kernel

/-- C198: a number that is not one of the ten recipes is replaced by -1; no other parameter and no name changes. -/
theorem C198_refused_partial (s : Sys) (h : After s) (m : Med) (v : Word) (n : Int) (hv : trunc v = some n) (hn : n < 0 ∨ 10 ≤ n)
    (na nc : Option (Nat → Word)) :
    ∃ s', s.run [.par (choice m) v, .eval na nc] = some s' ∧ trunc (s'.par (choice m)) = some (-1) ∧
      (∀ j, j ≠ choice m → s'.par j = s.par j) ∧ s'.name = s.name := by
  obtain ⟨g, st⟩ := after_good h
  have hsel : choice m = selected m := by cases m <;> rfl
  rw [hsel]
  obtain ⟨t1, t2, t3⟩ := told_selected s m v
  refine ⟨_, told_eval g st m v n hv na nc, ?_⟩
  generalize hE : ((s.told (selected m) v).one .acid na).one .caustic nc = E
  have hpar : E.par = setPar s.par (selected m) v := by rw [← hE]; exact t1
  have hld : E.loaded m = -1 := by rw [← hE]; exact t2
  have hname : E.name = s.name := by rw [← hE]; rfl
  unfold Sys.chosen
  by_cases h1 : n = E.loaded m
  · rw [if_pos h1, hpar, hname]
    refine ⟨?_, fun j hj => if_neg hj, rfl⟩
    rw [setPar, if_pos rfl, hv, h1, hld]
  · rw [if_neg h1, if_neg (by omega)]
    refine ⟨?_, fun j hj => ?_, hname⟩
    · show trunc (setPar _ _ _ _) = _
      rw [setPar, if_pos rfl, hld]
      decide +kernel
    · show setPar _ _ _ j = _
      rw [setPar, if_neg hj, hpar, setPar, if_neg hj]

example : trunc 0x41200000 = some 10 ∧ ((start (fun _ _ => 0) (fun _ => 0)).bind fun s => s.run [.eval none none, .par 36 0x41200000,
    .eval none none]).map (fun s => s.par 36) = some 0xBF800000 := by decide +kernel

/-- C198: without a new choice, nothing that happens to the recipes changes what is in use. -/
theorem C198_kept_partial (s : Sys) (h : After s) (es : List Ev) (he : ∀ e ∈ es, NoPar e ∧ Fair e) :
    ∃ s', s.run es = some s' ∧ s'.par = s.par ∧ s'.name = s.name := by
  obtain ⟨g, st⟩ := after_good h
  obtain ⟨s', h1, _, _, h2, h3⟩ := noPar_run g st es he
  exact ⟨s', h1, h2, h3⟩

/-- There are such histories: recipe 1 of the caustic is chosen, and a value is changed afterwards. -/
example : (∃ s, After s) ∧ NoPar (.set .caustic 4 0x40000000) ∧ Fair (.set .caustic 4 0x40000000) := by
  have hf : FairStart (fun _ _ => 0) (fun _ => 0) := ⟨fun _ _ _ => ordOk_zero, by decide +kernel, by decide +kernel⟩
  have he : ∀ e ∈ [Ev.par 36 0x3F800000], Fair e := by
    intro e he
    rw [List.mem_singleton.mp he]
    exact fun _ => by decide +kernel
  obtain ⟨s0, h0, g0⟩ := start_good hf
  obtain ⟨s1, h1, g1⟩ := run_good g0 ([.par 36 0x3F800000] ++ [.eval none none]) (by
    intro e h
    rcases List.mem_append.mp h with h | h
    · exact he e h
    · rw [List.mem_singleton.mp h]; trivial)
  exact ⟨⟨s1, _, _, [.par 36 0x3F800000], none, none, s0, hf, he, h0, h1⟩, trivial, by decide, by decide, fun h => absurd h (by decide)⟩

/-- C198 does not hold when the recipe that is in use is changed: the new value is in the recipe, which is still the one chosen, but it
does not come into use, however many cycles pass and whatever else happens, until the recipe is chosen again. -/
theorem C198_stale_violated (s : Sys) (h : After s) (m : Med) (idx : BitVec 32) (v : Word) (h1 : 3 ≤ idx.toNat) (h2 : idx.toNat ≤ 11)
    (hu : inUse s m = ofRecipe s m (s.mgr m).cur) (hv : shown v ≠ value s m (s.mgr m).cur (idx.toNat - 1)) :
    ∃ s1, s.step (.set m idx v) = some s1 ∧ (s1.mgr m).cur = (s.mgr m).cur ∧ inUse s1 m ≠ ofRecipe s1 m (s1.mgr m).cur ∧
      ∀ es, (∀ e ∈ es, NoPar e ∧ Fair e) → ∃ s2, s1.run es = some s2 ∧ inUse s2 m = inUse s m := by
  obtain ⟨g, st⟩ := after_good h
  have hi : idx = 2 → trunc v ≠ none := by
    intro hx; rw [hx] at h1; exact absurd h1 (by decide)
  have hput : (s.put m idx v).mgr m =
      { s.mgr m with mem := fun i => if i = 32 * (s.mgr m).cur + 8 + (idx.toNat - 1) then v else (s.mgr m).mem i } := if_pos rfl
  refine ⟨_, set_step g m idx v (by omega) (by omega), by rw [hput], ?_, ?_⟩
  · intro hh
    rw [hput] at hh
    have e1 : inUse (s.put m idx v) m = inUse s m := rfl
    rw [e1, hu] at hh
    have hm := congrArg (fun l => l[idx.toNat - 3]?) hh
    have hlt : idx.toNat - 3 < 9 := by omega
    simp only [ofRecipe, List.getElem?_map, List.getElem?_range hlt, Option.map_some, Option.some.injEq] at hm
    have e2 : idx.toNat - 3 + 2 = idx.toNat - 1 := by omega
    rw [e2] at hm
    apply hv
    rw [hm]
    unfold value
    rw [hput]
    simp only
    rw [if_pos (by omega)]
  · intro es he
    obtain ⟨s2, a1, _, _, a2, _⟩ := noPar_run (put_good g m idx v (by omega) (by omega) hi) (s := s.put m idx v) st es he
    refine ⟨s2, a1, ?_⟩
    show (numbers m).map s2.par = (numbers m).map s.par
    rw [a2]
    rfl

/-- The concentration of the caustic recipe in use is raised to 2. -/
example : ((start (fun _ _ => 0) (fun _ => 0)).bind fun s => s.run [.eval none none, .set .caustic 4 0x40000000, .eval none none]).map
    (fun s => (s.par 36, value s .caustic 0 3, s.par 1)) = some (0, 0x40000000, 0) := by decide +kernel

/-- A recipe that nobody has filled in can be chosen: everything that describes the medium becomes 0, also the concentration wanted. -/
theorem C198_empty_violated (s : Sys) (h : After s) (m : Med) (v : Word) (n : Nat) (hv : trunc v = some n) (hn : n < 10)
    (he : ∀ i, 8 ≤ i → i < 32 → (s.mgr m).mem (n * 32 + i) = 0) (hc : (s.mgr m).cur ≠ n) :
    ∃ s', s.run [.par (choice m) v, .eval none none] = some s' ∧ value s' m n 0 = 0 ∧ inUse s' m = List.replicate 9 0 := by
  obtain ⟨s', h1, h2, _⟩ := C198_chosen_partial s h m v n hv hn none none
  refine ⟨s', h1, ?_⟩
  have hmem : ∀ i, 8 ≤ i → i < 32 → (s'.mgr m).mem (n * 32 + i) = 0 := by
    intro i hi hi'
    obtain ⟨g, st⟩ := after_good h
    have hsel : choice m = selected m := by cases m <;> rfl
    rw [hsel, told_eval g st m v n hv none none] at h1
    rw [← Option.some.inj h1, (chosen_mgr _ m n).1]
    have key : ∀ (t : Sys) (x : Med), (t.mgr m).cur = (s.mgr m).cur → ((t.one x none).mgr m).mem (n * 32 + i) = (t.mgr m).mem (n * 32 + i) ∧
        ((t.one x none).mgr m).cur = (s.mgr m).cur := by
      intro t x ht
      by_cases hx : m = x
      · subst hx
        have : (t.one m none).mgr m = evald (t.mgr m) t.copy none := if_pos rfl
        rw [this]
        refine ⟨?_, by rw [← ht]; rfl⟩
        show (if _ then _ else _) = _
        rw [ht, if_neg (by omega)]; rfl
      · have : (t.one x none).mgr m = t.mgr m := if_neg hx
        rw [this]; exact ⟨rfl, ht⟩
    have k1 := key (s.told (selected m) v) .acid rfl
    have k2 := key ((s.told (selected m) v).one .acid none) .caustic k1.2
    rw [k2.1, k1.1]
    exact he i hi hi'
  refine ⟨?_, ?_⟩
  · unfold value
    rw [show n * 32 + 8 + 0 = n * 32 + 8 by omega, hmem 8 (by omega) (by omega)]
    decide
  · rw [h2]
    have hz : ∀ j, j < 9 → value s' m n (j + 2) = 0 := by
      intro j hj
      unfold value
      rw [show n * 32 + 8 + (j + 2) = n * 32 + (10 + j) by omega, hmem (10 + j) (by omega) (by omega)]
      decide
    have e9 : List.range 9 = [0, 1, 2, 3, 4, 5, 6, 7, 8] := by decide
    simp [ofRecipe, e9, hz, List.replicate]

example : ((start (fun _ _ => 0) (fun i => if i = 1 then 0x3F800000 else 0)).bind fun s => s.run [.eval none none, .par 36 0x40A00000,
    .eval none none]).map (fun s => (value s .caustic 5 0, s.par 1)) = some (0, 0) := by decide +kernel

/-! ### C199 -/

/-- C199: a value of the current recipe that is set is read back, and no other value of any recipe, no parameter and no name changes. -/
theorem C199_set_partial (s : Sys) (h : Hist s) (m : Med) (idx : BitVec 32) (v : Word) (h1 : 1 ≤ idx.toNat) (h2 : idx.toNat ≤ 24) :
    ∃ s', s.step (.set m idx v) = some s' ∧ value s' m (s.mgr m).cur (idx.toNat - 1) = shown v ∧
      (∀ x r k, k < 24 → ¬ (x = m ∧ r = (s.mgr m).cur ∧ k = idx.toNat - 1) → value s' x r k = value s x r k) ∧
      (∀ x r k, k < 8 → (s'.mgr x).mem (r * 32 + k) = (s.mgr x).mem (r * 32 + k)) ∧
      s'.par = s.par ∧ s'.name = s.name ∧ ∀ x, (s'.mgr x).cur = (s.mgr x).cur := by
  have g := hist_good h
  have hput : (s.put m idx v).mgr m =
      { s.mgr m with mem := fun i => if i = 32 * (s.mgr m).cur + 8 + (idx.toNat - 1) then v else (s.mgr m).mem i } := if_pos rfl
  have hx : ∀ x, x ≠ m → (s.put m idx v).mgr x = s.mgr x := fun x hx => if_neg hx
  refine ⟨_, set_step g m idx v h1 h2, ?_, ?_, ?_, rfl, rfl, ?_⟩
  · unfold value
    rw [hput]
    simp only
    rw [if_pos (by omega)]
  · intro x r k hk hne
    unfold value
    by_cases e : x = m
    · subst e
      rw [hput]
      simp only
      rw [if_neg ?_]
      intro hh
      have : r = (s.mgr x).cur := by omega
      exact hne ⟨rfl, this, by omega⟩
    · rw [hx x e]
  · intro x r k hk
    by_cases e : x = m
    · subst e
      rw [hput]
      simp only
      rw [if_neg (by omega)]
    · rw [hx x e]
  · intro x
    by_cases e : x = m
    · subst e; rw [hput]
    · rw [hx x e]

example : ((start (fun _ _ => 0) (fun _ => 0)).bind fun s => s.run [.next .acid fun _ => 0, .set .acid 24 0x40000000]).map
    (fun s => (value s .acid 1 23, value s .acid 0 23, value s .caustic 1 23)) = some (0x40000000, 0, 0) := by decide +kernel

/-- C199: going from recipe to recipe changes no value, no parameter and no name in use. -/
theorem C199_moves_partial (s : Sys) (h : Hist s) (m : Med) (es : List Ev) (he : ∀ e ∈ es, Moves m e) :
    ∃ s', s.run es = some s' ∧ (∀ x r k, k < 24 → value s' x r k = value s x r k) ∧ s'.par = s.par ∧ s'.name = s.name := by
  obtain ⟨s', h1, _, h2, _, h3, _, h4, h5⟩ := moves_run (hist_good h) m es he
  refine ⟨s', h1, ?_, h2, h3⟩
  intro x r k hk
  unfold value
  by_cases e : x = m
  · subst e
    rw [show r * 32 + 8 + k = 32 * r + (8 + k) by omega, h5 r (8 + k) (by omega) (by omega)]
  · rw [h4 x e]

example : Moves .acid (.next .acid fun _ => 0) := rfl

/-- C199: the order "clear" makes every value and the name of the current recipe 0 at the next cycle, and changes nothing else. -/
theorem C199_clear_partial (s : Sys) (h : After s) (m : Med) (v : Word) (hv : trunc v = some 4) (hz : nonzero v = true) :
    ∃ s', s.run [.set m 2 v, .eval none none] = some s' ∧ (∀ i, i < 32 → (s'.mgr m).mem ((s.mgr m).cur * 32 + i) = 0) ∧
      (∀ r i, r ≠ (s.mgr m).cur → i < 32 → (s'.mgr m).mem (r * 32 + i) = (s.mgr m).mem (r * 32 + i)) ∧
      (∀ x, x ≠ m → s'.mgr x = s.mgr x) ∧ s'.par = s.par ∧ s'.name = s.name := by
  obtain ⟨g, st⟩ := after_good h
  obtain ⟨s', h1, _, _, _, h2, h3, _, h4, h5, h6, _⟩ := order_run g st (after_quiet h) m v 4 hv hz
  refine ⟨s', h1, ?_, ?_, h4, h2, h3⟩
  · intro i hi
    rw [Nat.mul_comm, h5 i hi]
    unfold orderWord
    simp
  · intro r i hr hi
    exact h6 _ (by omega)

example : trunc 0x40800000 = some 4 ∧ nonzero 0x40800000 = true := by decide +kernel

/-- C199: "copy", then going to another recipe of the same medium and "paste" there: the values of that recipe are those of the copied one,
as they were when they were copied. -/
theorem C199_copy_partial (s : Sys) (h : After s) (m : Med) (v w : Word) (hv : trunc v = some 2) (hz : nonzero v = true)
    (hw : trunc w = some 3) (hz' : nonzero w = true) (es : List Ev) (he : ∀ e ∈ es, Moves m e) :
    ∃ s1 s', s.run ([.set m 2 v, .eval none none] ++ es) = some s1 ∧ s1.run [.set m 2 w, .eval none none] = some s' ∧
      (∀ k, k < 24 → k ≠ 1 → value s' m (s1.mgr m).cur k = value s m (s.mgr m).cur k) ∧
      (∀ x r k, k < 24 → k ≠ 1 → ¬ (x = m ∧ r = (s1.mgr m).cur) → value s' x r k = value s x r k) ∧
      s'.par = s.par ∧ s'.name = s.name := by
  obtain ⟨g, st⟩ := after_good h
  obtain ⟨s1, a1, a2, a3, a4, a5, a6, a7, a8, a9, a10, a11⟩ := order_run g st (after_quiet h) m v 2 hv hz
  obtain ⟨s2, b1, b2, b3, b4, b5, b6, b7, b8⟩ := moves_run a2 m es he
  have st2 : Settled s2 := by intro x; rw [b3, b4]; exact a3 x
  have a11 : s1.copy = some (fun i => if i = 9 then v else (s.mgr m).block (s.mgr m).cur i) := a11
  -- an order of the other medium cannot be waiting; that of this medium is overwritten
  obtain ⟨s3, c1, c2, c3, c4, c5, c6, c7, c8, c9, c10, c11⟩ := order_run_other b2 st2 m
    (fun x hx => by rw [b7 x hx]; exact a4 x) w 3 hw hz'
  have hmem1 : ∀ r k, 8 ≤ k → k < 32 → k ≠ 9 → (s1.mgr m).mem (32 * r + k) = (s.mgr m).mem (32 * r + k) := by
    intro r k h1 h2 h3
    by_cases hr : r = (s.mgr m).cur
    · rw [hr, a9 k h2]
      unfold orderWord
      rw [if_neg h3]; rfl
    · exact a10 _ (by omega)
  refine ⟨s2, s3, ?_, c1, ?_, ?_, ?_, ?_⟩
  · rw [run_append, a1, Option.bind_some, b1]
  · intro k hk hk1
    unfold value
    rw [show (s2.mgr m).cur * 32 + 8 + k = 32 * (s2.mgr m).cur + (8 + k) by omega, c9 (8 + k) (by omega), b6, a11]
    unfold orderWord
    simp only
    rw [if_neg (by omega), if_neg (by omega), if_pos trivial, if_neg (by omega),
      show (s.mgr m).cur * 32 + 8 + k = 32 * (s.mgr m).cur + (8 + k) by omega]
    rfl
  · intro x r k hk hk1 hne
    unfold value
    by_cases e : x = m
    · subst e
      have hr : r ≠ (s2.mgr x).cur := fun hh => hne ⟨rfl, hh⟩
      rw [show r * 32 + 8 + k = 32 * r + (8 + k) by omega, c10 _ (by omega), b8 r _ (by omega) (by omega),
        hmem1 r _ (by omega) (by omega) (by omega)]
    · rw [c8 x e, b7 x e, a8 x e]
  · rw [c5, b3, a5]
  · rw [c6, b5, a6]

/-- Recipe 0 is copied to recipe 2. -/
example : ((start (fun _ _ => 0) (fun _ => 0)).bind fun s => s.run ([.set .acid 4 0x40A00000, .eval none none] ++
    [.set .acid 2 0x40000000, .eval none none] ++ [.next .acid fun _ => 0, .next .acid fun _ => 0] ++
    [.set .acid 2 0x40400000, .eval none none])).map (fun s => (value s .acid 2 3, value s .acid 1 3, value s .acid 0 3)) =
    some (0x40A00000, 0, 0x40A00000) := by decide +kernel

/-- C199 does not hold between the media: there is one copy for both.  "Paste" in the other medium brings the values of the medium where
"copy" was ordered. -/
theorem C199_mixed_violated (s : Sys) (h : After s) (m x : Med) (hx : x ≠ m) (v w : Word) (hv : trunc v = some 2) (hz : nonzero v = true)
    (hw : trunc w = some 3) (hz' : nonzero w = true) :
    ∃ s', s.run ([.set m 2 v, .eval none none] ++ [.set x 2 w, .eval none none]) = some s' ∧
      ∀ k, k < 24 → k ≠ 1 → value s' x (s.mgr x).cur k = value s m (s.mgr m).cur k := by
  obtain ⟨g, st⟩ := after_good h
  obtain ⟨s1, a1, a2, a3, a4, a5, a6, a7, a8, a9, a10, a11⟩ := order_run g st (after_quiet h) m v 2 hv hz
  have a11 : s1.copy = some (fun i => if i = 9 then v else (s.mgr m).block (s.mgr m).cur i) := a11
  obtain ⟨s3, c1, _, _, _, _, _, _, _, c9, _, _⟩ := order_run a2 a3 a4 x w 3 hw hz'
  refine ⟨s3, by rw [run_append, a1, Option.bind_some, c1], ?_⟩
  intro k hk hk1
  unfold value
  rw [a7 x] at c9
  rw [show (s.mgr x).cur * 32 + 8 + k = 32 * (s.mgr x).cur + (8 + k) by omega, c9 (8 + k) (by omega), a11]
  unfold orderWord
  simp only
  rw [if_neg (by omega), if_neg (by omega), if_pos trivial, if_neg (by omega),
    show (s.mgr m).cur * 32 + 8 + k = 32 * (s.mgr m).cur + (8 + k) by omega]
  rfl

/-- A caustic of 2 % becomes an acid of 2 %. -/
example : ((start (fun _ _ => 0) (fun _ => 0)).bind fun s => s.run ([.set .caustic 4 0x40000000, .eval none none] ++
    [.set .caustic 2 0x40000000, .eval none none] ++ [.set .acid 2 0x40400000, .eval none none])).map
    (fun s => value s .acid 0 3) = some 0x40000000 := by decide +kernel

/-- C199 does not hold for the order "defaults": it only marks the recipe as unused, and every other value and the name stay. -/
theorem C199_default_violated (s : Sys) (h : After s) (m : Med) (v : Word) (hv : trunc v = some 1) (hz : nonzero v = true) :
    ∃ s', s.run [.set m 2 v, .eval none none] = some s' ∧ value s' m (s.mgr m).cur 0 = 0 ∧
      (∀ x r k, k < 24 → k ≠ 1 → ¬ (x = m ∧ r = (s.mgr m).cur ∧ k = 0) → value s' x r k = value s x r k) ∧
      ∀ x r k, k < 8 → (s'.mgr x).mem (r * 32 + k) = (s.mgr x).mem (r * 32 + k) := by
  obtain ⟨g, st⟩ := after_good h
  obtain ⟨s', h1, _, _, _, h2, h3, _, h4, h5, h6, _⟩ := order_run g st (after_quiet h) m v 1 hv hz
  have hw : ∀ r i, i < 32 → i ≠ 9 → ¬ (r = (s.mgr m).cur ∧ i = 8) → (s'.mgr m).mem (32 * r + i) = (s.mgr m).mem (32 * r + i) := by
    intro r i hi h9 hne
    by_cases hr : r = (s.mgr m).cur
    · rw [hr, h5 i hi]
      unfold orderWord
      rw [if_neg h9, if_pos rfl, if_neg fun hh => hne ⟨hr, hh⟩]; rfl
    · exact h6 _ (by omega)
  refine ⟨s', h1, ?_, ?_, ?_⟩
  · unfold value
    rw [show (s.mgr m).cur * 32 + 8 + 0 = 32 * (s.mgr m).cur + 8 by omega, h5 8 (by omega)]
    have : orderWord s.copy ((s.mgr m).block (s.mgr m).cur) 1 8 = 0 := rfl
    rw [this]
    decide
  · intro x r k hk hk1 hne
    unfold value
    by_cases e : x = m
    · subst e
      rw [show r * 32 + 8 + k = 32 * r + (8 + k) by omega, hw r (8 + k) (by omega) (by omega) fun hh => hne ⟨rfl, hh.1, by omega⟩]
    · rw [h4 x e]
  · intro x r k hk
    by_cases e : x = m
    · subst e
      rw [Nat.mul_comm, hw r k (by omega) (by omega) (by omega)]
    · rw [h4 x e]

example : ((start (fun _ _ => 0) (fun _ => 0)).bind fun s => s.run ([.set .acid 4 0x40A00000, .eval none none] ++
    [.set .acid 2 0x3F800000, .eval none none])).map (fun s => value s .acid 0 3) = some 0x40A00000 := by decide +kernel

/-- C199 does not hold for the numbers 33 to 56: they are values of the next recipe.  In the last recipe, every number from 25 on is
behind the memory. -/
theorem C199_index_violated (s : Sys) (h : Hist s) (m : Med) (idx : BitVec 32) (v : Word) :
    (33 ≤ idx.toNat → idx.toNat ≤ 56 → (s.mgr m).cur < 9 →
      ∃ s', s.step (.set m idx v) = some s' ∧ value s' m ((s.mgr m).cur + 1) (idx.toNat - 33) = shown v) ∧
    (25 ≤ idx.toNat → idx.toNat < 2 ^ 31 → (s.mgr m).cur = 9 → s.step (.set m idx v) = none) := by
  have hi : 1 ≤ idx.toNat → idx.toNat < 2 ^ 31 → (idx - 1).toInt = ((idx.toNat - 1 : Nat) : Int) := by
    intro h1 h2
    have : (idx - 1).toNat = idx.toNat - 1 := by
      rw [BitVec.toNat_sub]; simp; omega
    rw [BitVec.toInt_eq_toNat_of_lt (by omega), this]
  constructor
  · intro h1 h2 h3
    have hp : place (s.mgr m).cur (idx - 1).toInt = some (32 * (s.mgr m).cur + 8 + (idx.toNat - 1)) := by
      rw [hi (by omega) (by omega)]
      unfold place
      simp only
      rw [if_pos (by omega)]
      congr 1
    refine ⟨{ s with mgr := fun x => if x = m then
      { s.mgr m with mem := fun i => if i = 32 * (s.mgr m).cur + 8 + (idx.toNat - 1) then v else (s.mgr m).mem i } else s.mgr x }, ?_, ?_⟩
    · show Option.map _ (Option.map _ (place (s.mgr m).cur (idx - 1).toInt)) = _
      rw [hp]
      rfl
    · unfold value
      simp only [if_true]
      rw [if_pos (by omega)]
  · intro h1 h2 h3
    have hp : place (s.mgr m).cur (idx - 1).toInt = none := by
      rw [hi (by omega) h2, h3]
      unfold place
      simp only
      rw [if_neg (by omega)]
    show Option.map _ (Option.map _ (place (s.mgr m).cur (idx - 1).toInt)) = _
    rw [hp]
    rfl

example : ((start (fun _ _ => 0) (fun _ => 0)).bind fun s => s.run [.set .acid 36 0x40A00000]).map (fun s => value s .acid 1 3) =
    some 0x40A00000 := by decide +kernel

example : ((start (fun _ _ => 0) (fun _ => 0)).bind fun s => s.run (List.replicate 9 (.next .acid fun _ => 0) ++
    [.set .acid 25 0x40A00000])).isNone := by decide +kernel

/-- **C199** (part). Going on `k` times leads to the recipe `k` numbers on, at most to the last one, and going back `k` times to the recipe `k`
numbers back, at most to the first one: every recipe can be reached. -/
theorem C199_reach_partial (s : Sys) (h : Hist s) (m : Med) (nm : Nat → Nat → Word) (k : Nat) :
    (∃ s', s.run ((List.range k).map fun i => .next m (nm i)) = some s' ∧ (s'.mgr m).cur = min 9 ((s.mgr m).cur + k)) ∧
    (∃ s', s.run ((List.range k).map fun i => .prev m (nm i)) = some s' ∧ (s'.mgr m).cur = (s.mgr m).cur - k) := by
  have h9 : (s.mgr m).cur ≤ 9 := by
    obtain ⟨s', h1, g, _⟩ := moves_run (hist_good h) m [] (fun _ h => absurd h List.not_mem_nil)
    cases h1
    have := g.cur m
    omega
  have run_append' : ∀ (a b : List Ev) (s : Sys), s.run (a ++ b) = (s.run a).bind (·.run b) := by
    intro a b s; exact run_append s a b
  constructor
  · induction k with
    | zero => exact ⟨s, rfl, by omega⟩
    | succ k ih =>
      obtain ⟨t, ht, hc⟩ := ih
      rw [List.range_succ, List.map_append, run_append', ht, Option.bind_some]
      refine ⟨_, rfl, ?_⟩
      show (if m = m then (t.mgr m).next (nm k) else t.mgr m).cur = _
      rw [if_pos rfl]
      unfold Mgr.next
      by_cases e : (t.mgr m).cur < 9
      · rw [if_pos e]; show (t.mgr m).cur + 1 = _; omega
      · rw [if_neg e]; omega
  · induction k with
    | zero => exact ⟨s, rfl, rfl⟩
    | succ k ih =>
      obtain ⟨t, ht, hc⟩ := ih
      rw [List.range_succ, List.map_append, run_append', ht, Option.bind_some]
      refine ⟨_, rfl, ?_⟩
      show (if m = m then (t.mgr m).prev (nm k) else t.mgr m).cur = _
      rw [if_pos rfl]
      unfold Mgr.prev
      by_cases e : 0 < (t.mgr m).cur
      · rw [if_pos e]; show (t.mgr m).cur - 1 = _; omega
      · rw [if_neg e]; omega

end Ptusa.Medium
