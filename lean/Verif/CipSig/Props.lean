import Verif.CipSig.Lemmas

/-!
# C161 the signal ready for washing, C162 the empty water tank
-/
namespace Ptusa.CipSig

/-- C161 (part).  After any calm history whose last cycle is without a reset, exactly the output of the recipe chosen last is on, and none if a reset
or the end of a washing followed. -/
theorem C161_ready_partial (p : Proj) (h : List Cycle) (c : Cycle) (hc : Calm {} false (h ++ [c])) (hg : c.fin = .go) (d : Nat) :
    (run p (h ++ [c])).on d = true ↔ wanted p (h ++ [c]) = some d := by
  obtain ⟨k, gone, hi⟩ := run_inv p (h ++ [c]) {} {} false none (inv_init p) hc
  simp only [run, wanted]
  have hl : (List.foldl (cycle p) {} (h ++ [c])).loaded = (List.foldl (cycle p) {} (h ++ [c])).last := by
    simp only [List.foldl_append, List.foldl_cons, List.foldl_nil, cycle, hg, finish]
    generalize choose (List.foldl (cycle p) {} h) c.choice = m
    simp only [evalReady]
    split
    · split <;> rfl
    · next h => simpa using h
  generalize List.foldl (cycle p) {} (h ++ [c]) = l at hi hl
  have h1 := hi.want
  rw [hi.on d, h1]
  cases gone with
  | false => simp
  | true =>
    -- nothing is known any more
    have hn := hi.loaded
    simp only [if_true] at hn
    have hk : k.recipe = none := by
      rw [hl, hi.last] at hn
      cases hr : k.recipe with
      | none => rfl
      | some y => rw [hr] at hn; simp only [num] at hn; omega
    have hdv : l.dev = none := by
      cases h : k.ended with
      | true => exact hi.dev.1 h
      | false => rw [hi.dev.2 h, hk]; rfl
    simp [hdv]

/-- C161 (part).  After the end of a washing all outputs are off at once. -/
theorem C161_washed_partial (p : Proj) (h : List Cycle) (c : Cycle) (hc : Calm {} false (h ++ [c])) (hg : c.fin = .washed) (d : Nat) :
    (run p (h ++ [c])).on d = false := by
  obtain ⟨k, gone, hi⟩ := run_inv p (h ++ [c]) {} {} false none (inv_init p) hc
  simp only [run]
  have hd : (List.foldl (cycle p) {} (h ++ [c])).dev = none := by
    simp only [List.foldl_append, List.foldl_cons, List.foldl_nil, cycle, hg, finish]
  rw [hi.on d, hd]
  rfl

/-- A project: output 5 by the name with the line, 6 by its own name, 7 by its index. -/
def demo : Proj := { byLine := fun n => if n = 5 then some 50 else none, byDo := fun n => if n = 5 ∨ n = 6 then some 60 else none, byIndex := fun n => some n }

/-- A recipe, another, the end of a washing, and later the second again. -/
def demoH : List Cycle := [⟨some (3, 5), .go⟩, ⟨some (4, 6), .go⟩, ⟨none, .washed⟩, {}, ⟨some (4, 6), .go⟩]

example : Calm {} false demoH := by
  refine ⟨?_, ?_, ?_, ?_, ?_, trivial⟩ <;> intro n s h s' h2 <;> simp_all [Known.next] <;> omega

example : wanted demo demoH = some 60 ∧ (run demo demoH).on 60 = true ∧ (run demo demoH).on 50 = false := by decide +kernel

/-- C161 does not hold if the recipe of the washing that just ended is chosen again before the next cycle: its output stays off, until the recipe
is changed. -/
theorem C161_rush_violated (p : Proj) (n s : Nat) (h : List Cycle) (hh : ∀ c ∈ h, c = {}) (d : Nat) (hs : output p s = some d) :
    (run p (⟨some (n, s), .washed⟩ :: ⟨some (n, s), .go⟩ :: h)).on d = false ∧ wanted p (⟨some (n, s), .washed⟩ :: ⟨some (n, s), .go⟩ :: h) = some d := by
  have hr : h = List.replicate h.length {} := List.eq_replicate_of_mem hh
  have idle : ∀ (k : Nat) (l : Line), l.loaded = l.last → List.foldl (cycle p) l (List.replicate k {}) = l := by
    intro k
    induction k with
    | zero => intro l _; rfl
    | succ k ih =>
      intro l hl
      have h1 : cycle p l {} = l := by simp [cycle, choose, evalReady, hl, finish]
      rw [List.replicate_succ, List.foldl_cons, h1, ih l hl]
  have widle : ∀ (k : Nat) (w : Option Nat), List.foldl (want p) w (List.replicate k {}) = w := by
    intro k
    induction k with
    | zero => intro w; rfl
    | succ k ih => intro w; rw [List.replicate_succ, List.foldl_cons]; exact ih w
  rw [hr]
  constructor
  · simp only [run, List.foldl_cons]
    have hne : ¬ (n : Int) = -1 := by omega
    have h1 : cycle p (cycle p {} ⟨some (n, s), .washed⟩) ⟨some (n, s), .go⟩ =
        { loaded := n, last := n, dev := none, signal := s, on := put (put (put (fun _ => false) none false) (some d) true) (some d) false } := by
      simp [cycle, choose, evalReady, hne, search_eq, hs, finish]
    rw [h1, idle _ _ rfl]
    simp [put]
  · simp only [wanted, List.foldl_cons]
    rw [widle]
    simp [want, hs]

example : (run demo [⟨some (3, 5), .washed⟩, ⟨some (3, 5), .go⟩, {}, {}]).on 50 = false ∧
    (run demo [⟨some (3, 5), .washed⟩, {}, ⟨some (3, 5), .go⟩, {}, {}]).on 50 = true := by decide +kernel

/-- C161 does not hold if the output of a recipe is changed and the recipe is chosen again: the old output stays on. -/
theorem C161_edit_violated (p : Proj) (n s s' d d' : Nat) (hs : output p s = some d) (hs' : output p s' = some d') (hd : d ≠ d') :
    (run p [⟨some (n, s), .go⟩, ⟨some (n, s'), .go⟩]).on d = true ∧ (run p [⟨some (n, s), .go⟩, ⟨some (n, s'), .go⟩]).on d' = false ∧
    wanted p [⟨some (n, s), .go⟩, ⟨some (n, s'), .go⟩] = some d' := by
  have hne : ¬ (n : Int) = -1 := by omega
  simp [run, cycle, choose, evalReady, hne, search_eq, hs, finish, put, hd, wanted, want, hs']

example : (run demo [⟨some (3, 5), .go⟩, ⟨some (3, 6), .go⟩]).on 50 = true := (C161_edit_violated demo 3 5 6 50 60 rfl rfl (by decide)).1

/-- C162.  With a limit and a difference that is not negative the water tank counts as empty exactly when the switch for the low level is off, the tank
is not used, or the last level that was below the limit or not below the limit plus the difference was below the limit. -/
theorem C162_water (low delta : Rat) (hl : 0 < low) (hd : 0 ≤ delta) (rs : List Reading) (r : Reading) :
    (waterRun low delta false (rs ++ [r])).2.getLast? = some (decide (r.lwl = false ∨ r.unused = true ∨
      ∃ v, lastDecisive low delta (rs ++ [r]) = some v ∧ v < low)) := by
  rw [waterRun_append]
  simp only [waterRun, List.getLast?_append, List.getLast?_singleton, Option.some_or, Option.some.injEq]
  have hs := water_state low delta hl hd (rs ++ [r]) false
  rw [waterRun_append] at hs
  simp only [waterRun] at hs
  generalize (waterRun low delta false rs).1 = st at hs
  by_cases h0 : (!r.lwl || r.unused) = true
  · have hx : (waterEmpty low delta st r).2 = true := by simp only [waterEmpty]; rw [if_pos h0]
    rw [hx]
    symm
    apply decide_eq_true
    cases h1 : r.lwl <;> cases h2 : r.unused <;> simp_all
  · have h1 : r.lwl = true := by cases h : r.lwl <;> simp_all
    have h2 : r.unused = false := by cases h : r.unused <;> simp_all
    have hx : (waterEmpty low delta st r).2 = (waterEmpty low delta st r).1 := by
      simp only [waterEmpty, hl, if_true]
      rw [if_neg h0]
      (repeat' split) <;> rfl
    rw [hx, hs]
    simp only [h1, h2, Bool.true_eq_false, Bool.false_eq_true, false_or]
    cases lastDecisive low delta (rs ++ [r]) <;> simp

/-- C162 (part).  Without a limit the switch alone decides. -/
theorem C162_switch (low delta : Rat) (hl : low ≤ 0) (st : Bool) (r : Reading) :
    (waterEmpty low delta st r).2 = (!r.lwl || r.unused) := by
  simp only [waterEmpty]
  have : ¬ 0 < low := not_lt.mpr hl
  rw [if_neg this]
  split <;> simp_all

example : (waterRun 10 5 false [⟨true, false, 12⟩, ⟨true, false, 9⟩, ⟨true, false, 12⟩, ⟨false, false, 20⟩, ⟨true, false, 15⟩, ⟨true, false, 12⟩]).2 =
    [false, true, true, true, false, false] := by decide +kernel

end Ptusa.CipSig
