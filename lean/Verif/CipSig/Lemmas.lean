import Verif.CipSig.Spec

/-!
# Lemmas
-/
namespace Ptusa.CipSig

theorem search_eq (p : Proj) (s : Nat) : search p s = output p s := by
  unfold search output
  by_cases h : s = 0
  · simp [h]
  · rw [if_pos (by omega), if_neg h]
    cases h1 : p.byLine s <;> cases h2 : p.byDo s <;> cases h3 : p.byIndex s <;> simp [h1, h2, h3]

/-- Number of the known recipe. -/
def num : Option (Nat × Nat) → Int
  | some (n, _) => n
  | none => -1

/-- Invariant between cycles: `gone` as in `Calm`, `w` the wanted output. -/
structure Inv (p : Proj) (l : Line) (k : Known) (gone : Bool) (w : Option Nat) : Prop where
  last : l.last = num k.recipe
  on : ∀ d, l.on d = decide (l.dev = some d)
  loaded : l.loaded = if gone then -1 else num k.recipe
  dev : (k.ended = true → l.dev = none) ∧ (k.ended = false → l.dev = k.recipe.bind fun x => search p x.2)
  ended : k.ended = true → gone = true
  want : w = if gone then none else l.dev

theorem inv_init (p : Proj) : Inv p {} {} false none := ⟨rfl, fun _ => rfl, rfl, by simp, by simp, rfl⟩

theorem put_off (l : Line) (h : ∀ d, l.on d = decide (l.dev = some d)) : put l.on l.dev false = fun _ => false := by
  funext d
  simp only [put, h d]
  by_cases e : l.dev = some d <;> simp [e]

theorem put_on (d : Option Nat) : put (fun _ => false) d true = fun i => decide (d = some i) := by
  funext i
  simp only [put]
  by_cases e : d = some i <;> simp [e]

/-- State before the end of a cycle: nothing is reset. -/
structure Mid (p : Proj) (l : Line) (r : Option (Nat × Nat)) : Prop where
  last : l.last = num r
  loaded : l.loaded = num r
  on : ∀ d, l.on d = decide (l.dev = some d)
  dev : l.dev = r.bind fun x => search p x.2

theorem num_some (n s : Nat) : num (some (n, s)) = n := rfl

theorem mid (p : Proj) (l : Line) (k : Known) (gone : Bool) (w : Option Nat) (hi : Inv p l k gone w) (c : Cycle)
    (hc : ∀ n s, c.choice = some (n, s) → ∀ s', k.recipe = some (n, s') → k.ended = false ∧ s' = s) :
    Mid p (evalReady p (choose l c.choice)) (k.next c gone).recipe := by
  cases hch : c.choice with
  | some x =>
    obtain ⟨n, s⟩ := x
    simp only [choose, Known.next, hch]
    by_cases e : (n : Int) = l.last
    · -- the same recipe
      have hk : ∃ s', k.recipe = some (n, s') := by
        rw [hi.last] at e
        cases hr : k.recipe with
        | none => rw [hr] at e; simp only [num] at e; omega
        | some y =>
          rw [hr] at e
          simp only [num] at e
          exact ⟨y.2, by rw [show n = y.1 by omega]⟩
      obtain ⟨s', hk⟩ := hk
      obtain ⟨he, rfl⟩ := hc n s hch s' hk
      simp only [evalReady]
      rw [if_neg (by simp [e])]
      refine ⟨by rw [num_some]; exact e.symm, rfl, hi.on, ?_⟩
      simp only [hi.dev.2 he, hk, Option.bind_some]
    · simp only [evalReady]
      rw [if_pos (by simpa using e), if_pos (by simp), put_off l hi.on, put_on]
      exact ⟨rfl, rfl, fun _ => rfl, rfl⟩
  | none =>
    simp only [choose, Known.next, hch]
    cases gone with
    | false =>
      have h1 := hi.loaded
      simp only [Bool.false_eq_true, if_false] at h1 ⊢
      have he : k.ended = false := by
        cases h : k.ended with
        | false => rfl
        | true => exact absurd (hi.ended h) (by simp)
      simp only [evalReady]
      rw [if_neg (by simp [h1, hi.last])]
      exact ⟨hi.last, h1, hi.on, hi.dev.2 he⟩
    | true =>
      have h1 := hi.loaded
      simp only [if_true] at h1 ⊢
      simp only [evalReady]
      by_cases e : l.loaded = l.last
      · rw [if_neg (by simp [e])]
        have hk : k.recipe = none := by
          rw [h1, hi.last] at e
          cases hr : k.recipe with
          | none => rfl
          | some y => rw [hr] at e; simp only [num] at e; omega
        have hd : l.dev = none := by
          cases h : k.ended with
          | true => exact hi.dev.1 h
          | false => rw [hi.dev.2 h, hk]; rfl
        exact ⟨by rw [← e, h1]; rfl, h1, hi.on, by rw [hd]; rfl⟩
      · rw [if_pos e, if_neg (by simp [h1]), put_off l hi.on]
        exact ⟨h1, h1, fun _ => by simp, rfl⟩

theorem step (p : Proj) (l : Line) (k : Known) (gone : Bool) (w : Option Nat) (hi : Inv p l k gone w) (c : Cycle)
    (hc : ∀ n s, c.choice = some (n, s) → ∀ s', k.recipe = some (n, s') → k.ended = false ∧ s' = s) :
    Inv p (cycle p l c) (k.next c gone) (decide (c.fin ≠ .go))
      (want p w c) := by
  have hm := mid p l k gone w hi c hc
  simp only [cycle]
  generalize evalReady p (choose l c.choice) = m at hm
  have hend : (k.next c gone).ended = decide (c.fin = .washed) := rfl
  have hw : c.fin = .go → want p w c = (k.next c gone).recipe.bind fun x => search p x.2 := by
    intro hf
    cases hch : c.choice with
    | some x => simp [Known.next, hch, want, hf, search_eq]
    | none =>
      simp only [Known.next, hch, want, hf, if_true]
      cases gone with
      | true => rw [hi.want]; simp
      | false =>
        have he : k.ended = false := by
          cases h : k.ended with
          | false => rfl
          | true => exact absurd (hi.ended h) (by simp)
        rw [hi.want]
        simp [hi.dev.2 he]
  cases hf : c.fin with
  | go =>
    simp only [finish]
    refine ⟨hm.last, hm.on, by simp [hm.loaded], ⟨by simp [hend, hf], fun _ => hm.dev⟩, by simp [hend, hf], ?_⟩
    simp only [ne_eq, not_true, decide_false, Bool.false_eq_true, if_false]
    exact (hw hf).trans hm.dev.symm
  | resetIdle =>
    simp only [finish]
    exact ⟨hm.last, hm.on, by simp, ⟨by simp [hend, hf], fun _ => hm.dev⟩, by simp, by simp [want, hf]⟩
  | washed =>
    simp only [finish]
    refine ⟨hm.last, ?_, by simp, ⟨fun _ => rfl, by simp [hend, hf]⟩, by simp, by simp [want, hf]⟩
    intro d
    simp only [put_off m hm.on]
    simp

theorem run_inv (p : Proj) (h : List Cycle) : ∀ l k gone w, Inv p l k gone w → Calm k gone h →
    ∃ k' gone', Inv p (h.foldl (cycle p) l) k' gone' (h.foldl (want p) w) := by
  induction h with
  | nil => intro l k gone w hi _; exact ⟨k, gone, hi⟩
  | cons c h ih =>
    intro l k gone w hi hc
    exact ih _ _ _ _ (step p l k gone w hi c hc.1) hc.2

theorem waterRun_append (low delta : Rat) (a : List Reading) : ∀ (st : Bool) (b : List Reading),
    waterRun low delta st (a ++ b) = ((waterRun low delta (waterRun low delta st a).1 b).1,
      (waterRun low delta st a).2 ++ (waterRun low delta (waterRun low delta st a).1 b).2) := by
  induction a with
  | nil => intro st b; rfl
  | cons r a ih => intro st b; simp only [List.cons_append, waterRun, ih]

/-- The state is what the last level that decides says. -/
theorem water_state (low delta : Rat) (hl : 0 < low) (hd : 0 ≤ delta) (rs : List Reading) : ∀ st : Bool,
    (waterRun low delta st rs).1 = ((lastDecisive low delta rs).map fun v => decide (v < low)).getD st := by
  induction rs with
  | nil => intro st; rfl
  | cons r rs ih =>
    intro st
    simp only [waterRun, ih]
    simp only [lastDecisive]
    rw [List.filter_cons]
    have split : (waterEmpty low delta st r).1 = if r.lwl ∧ ¬ r.unused ∧ (r.level < low ∨ low + delta ≤ r.level) then decide (r.level < low) else st := by
      simp only [waterEmpty, hl, if_true]
      by_cases h0 : (!r.lwl || r.unused) = true
      · rw [if_pos h0, if_neg]
        cases h1 : r.lwl <;> cases h2 : r.unused <;> simp_all
      · rw [if_neg h0]
        have h1 : r.lwl = true := by cases h : r.lwl <;> simp_all
        have h2 : r.unused = false := by cases h : r.unused <;> simp_all
        simp only [h1, h2, Bool.false_eq_true, not_false_eq_true, true_and]
        by_cases a : r.level < low
        · have b : ¬ low + delta ≤ r.level := by intro hc; linarith
          cases st <;> simp [a, b]
        · by_cases b : low + delta ≤ r.level
          · cases st <;> simp [a, b]
          · cases st <;> simp [a, b]
    rw [split]
    by_cases h : r.lwl ∧ ¬ r.unused ∧ (r.level < low ∨ low + delta ≤ r.level)
    · rw [if_pos h, if_pos (decide_eq_true h), List.getLast?_cons]
      cases (List.filter (fun r => decide (r.lwl = true ∧ ¬r.unused = true ∧ (r.level < low ∨ low + delta ≤ r.level))) rs).getLast? <;> simp
    · rw [if_neg h, if_neg (by simpa using h)]

end Ptusa.CipSig
