import Verif.Cip.Inv
import Mathlib.Tactic.IntervalCases

/-!
# Lemmas on the order of the steps
-/
namespace Ptusa.Cip

variable {n : Nat}

/-! ## Paths inside a part -/

/-- The value of the conditions that only depend on the program. -/
def Fits (p : Nat) (x : Int) (b : Bool) : Prop := (x = 16 → b = (p == 128)) ∧ (x = 61 → b = (p &&& 56 != 0))

/-- The steps from `x` to the end of the part. -/
inductive Seg (p : Nat) : Int → List Int → Prop
  | fin {x b} : Fits p x b → succ x b = none → Seg p x []
  | cons {x b y t} : Fits p x b → succ x b = some y → Seg p y t → Seg p x (y :: t)

def options (h16 h61 : Bool) (x : Int) : List Bool :=
  if x = 16 then [h16] else if x = 61 then [h61] else if succ x true = succ x false then [true] else [true, false]

theorem mem_options {p : Nat} {x : Int} {b : Bool} (h : Fits p x b) :
    ∃ b' ∈ options (p == 128) (p &&& 56 != 0) x, succ x b' = succ x b := by
  unfold options
  by_cases h1 : x = 16
  · rw [if_pos h1, h.1 h1]; exact ⟨_, List.mem_singleton.2 rfl, rfl⟩
  · rw [if_neg h1]
    by_cases h2 : x = 61
    · rw [if_pos h2, h.2 h2]; exact ⟨_, List.mem_singleton.2 rfl, rfl⟩
    · rw [if_neg h2]
      by_cases h3 : succ x true = succ x false
      · rw [if_pos h3]
        refine ⟨true, List.mem_singleton.2 rfl, ?_⟩
        cases b
        · exact h3
        · rfl
      · rw [if_neg h3]
        exact ⟨b, by cases b <;> decide, rfl⟩

/-- All paths of at most `k` steps, and whether these are all. -/
def paths (h16 h61 : Bool) : Nat → Int → List (List Int)
  | 0, _ => []
  | k + 1, x => (options h16 h61 x).flatMap fun b => match succ x b with
    | none => [[]]
    | some y => (paths h16 h61 k y).map (y :: ·)

def closed (h16 h61 : Bool) : Nat → Int → Bool
  | 0, _ => false
  | k + 1, x => (options h16 h61 x).all fun b => match succ x b with
    | none => true
    | some y => closed h16 h61 k y

theorem seg_paths (p : Nat) : ∀ (k : Nat) (x : Int) (t : List Int), closed (p == 128) (p &&& 56 != 0) k x = true →
    Seg p x t → t ∈ paths (p == 128) (p &&& 56 != 0) k x
  | 0, _, _, h, _ => by cases h
  | k + 1, x, t, h, hs => by
    simp only [closed, List.all_eq_true] at h
    simp only [paths, List.mem_flatMap]
    cases hs with
    | fin hf hn =>
      obtain ⟨b', hb', he⟩ := mem_options hf
      exact ⟨b', hb', by rw [he, hn]; exact List.mem_singleton.2 rfl⟩
    | cons hf hn hs =>
      obtain ⟨b', hb', he⟩ := mem_options hf
      refine ⟨b', hb', ?_⟩
      have := h b' hb'
      rw [he, hn] at this ⊢
      exact List.mem_map.2 ⟨_, seg_paths p k _ _ this hs, rfl⟩

/-- A path from every step, with all conditions true that are not given. -/
def onePath (h16 h61 : Bool) : Nat → Int → Option (List Int)
  | 0, _ => none
  | k + 1, x => match succ x (if x = 16 then h16 else if x = 61 then h61 else true) with
    | none => some []
    | some y => (onePath h16 h61 k y).map (y :: ·)

theorem onePath_seg (p : Nat) : ∀ (k : Nat) (x : Int) (t : List Int), onePath (p == 128) (p &&& 56 != 0) k x = some t → Seg p x t
  | 0, _, _, h => by cases h
  | k + 1, x, t, h => by
    simp only [onePath] at h
    have hf : Fits p x (if x = 16 then (p == 128) else if x = 61 then (p &&& 56 != 0) else true) := by
      refine ⟨fun z => by rw [if_pos z], fun z => ?_⟩
      rw [if_neg (by omega), if_pos z]
    split at h
    next hn => injection h with h; subst h; exact .fin hf hn
    next y hn =>
      obtain ⟨u, hu, h⟩ := Option.map_eq_some_iff.1 h
      subst h
      exact .cons hf hn (onePath_seg p k y u hu)

theorem onePath_all : ∀ h16 h61 : Bool, ∀ x ∈ knownSteps, x ≠ 555 → (onePath h16 h61 60 x).isSome = true := by
  decide +kernel

theorem seg_exists (p : Nat) (x : Int) (h : x ∈ knownSteps) (h5 : x ≠ 555) : ∃ t, Seg p x t := by
  obtain ⟨t, ht⟩ := Option.isSome_iff_exists.1 (onePath_all (p == 128) (p &&& 56 != 0) x h h5)
  exact ⟨t, onePath_seg p 60 x t ht⟩

theorem Seg.zero {p : Nat} {t : List Int} (h : Seg p 0 t) : t = [] := by
  cases h with
  | fin => rfl
  | cons hf hn hs => exact absurd hn (by rw [show succ 0 _ = none from rfl]; simp)

/-! ## Parts -/

theorem seg_106 (p : Nat) : ∀ (m : Nat) (t : List Int), t.length ≤ m → Seg p 106 t →
    ∃ k, 106 :: t = [106, 108] ++ (List.replicate k [109, 106, 108]).flatten ++ [111]
  | 0, t, hl, h => by
    cases h with
    | fin hf hn => cases hn
    | cons hf hn hs => simp at hl
  | m + 1, t, hl, h => by
    cases h with
    | fin hf hn => cases hn
    | cons hf hn hs =>
      cases hn
      cases hs with
      | fin hf hn => rename_i b; cases b <;> cases hn
      | cons hf hn hs =>
        rename_i b _ _
        cases b with
        | true =>
          cases hn
          cases hs with
          | fin hf hn => exact ⟨0, rfl⟩
          | cons hf hn hs => cases hn
        | false =>
          cases hn
          cases hs with
          | fin hf hn => cases hn
          | cons hf hn hs =>
            cases hn
            simp only [List.length_cons] at hl
            obtain ⟨k, hk⟩ := seg_106 p m _ (by omega) hs
            refine ⟨k + 1, ?_⟩
            rw [hk]
            simp [List.replicate_succ]

theorem seg_116 (p : Nat) : ∀ (m : Nat) (t : List Int), t.length ≤ m → Seg p 116 t →
    ∃ k, 116 :: t = [116, 118] ++ (List.replicate k [119, 116, 118]).flatten ++ [121]
  | 0, t, hl, h => by
    cases h with
    | fin hf hn => cases hn
    | cons hf hn hs => simp at hl
  | m + 1, t, hl, h => by
    cases h with
    | fin hf hn => cases hn
    | cons hf hn hs =>
      cases hn
      cases hs with
      | fin hf hn => rename_i b; cases b <;> cases hn
      | cons hf hn hs =>
        rename_i b _ _
        cases b with
        | true =>
          cases hn
          cases hs with
          | fin hf hn => exact ⟨0, rfl⟩
          | cons hf hn hs => cases hn
        | false =>
          cases hn
          cases hs with
          | fin hf hn => cases hn
          | cons hf hn hs =>
            cases hn
            simp only [List.length_cons] at hl
            obtain ⟨k, hk⟩ := seg_116 p m _ (by omega) hs
            refine ⟨k + 1, ?_⟩
            rw [hk]
            simp [List.replicate_succ]

theorem closed_all : ∀ h16 h61 : Bool, ∀ x ∈ ([5, 10, 22, 42, 61, 71, 81, 83, 91, 300, 151] : List Int),
    closed h16 h61 60 x = true := by
  decide +kernel

theorem path_5 (h61 : Bool) : paths false h61 60 5 = [[7, 8, 16]] ∧ paths true h61 60 5 = [[7, 8, 16, 9]] := by
  revert h61; decide +kernel

theorem path_61 (h16 : Bool) : paths h16 true 60 61 = [[66, 67]] ∧ paths h16 false 60 61 = [[62, 63, 64, 65, 66, 67]] := by
  revert h16; decide +kernel

theorem path_simple : ∀ h16 h61 : Bool,
    (∀ t ∈ paths h16 h61 60 10, t = [11, 12, 13, 14, 15]) ∧
    (∀ t ∈ paths h16 h61 60 22, t = [23, 24, 26, 28, 29, 31, 33, 34, 35, 37, 39, 40] ∨
      t = [23, 24, 28, 29, 31, 33, 34, 35, 37, 39, 40]) ∧
    (∀ t ∈ paths h16 h61 60 42, t = [43, 44, 46, 48, 49, 53, 54, 55, 57, 59, 60] ∨
      t = [43, 44, 48, 49, 53, 54, 55, 57, 59, 60]) ∧
    (∀ t ∈ paths h16 h61 60 71, t = [72, 73, 74, 75, 76, 77, 78, 79]) ∧
    (∀ t ∈ paths h16 h61 60 81, t = [83, 84, 85, 86, 91]) ∧
    (∀ t ∈ paths h16 h61 60 83, t = [84, 85, 86, 91]) ∧
    (∀ t ∈ paths h16 h61 60 91, t = []) ∧
    (∀ t ∈ paths h16 h61 60 300, t = []) := by
  decide +kernel

theorem path_151 : ∀ h16 h61 : Bool, ∀ t ∈ paths h16 h61 60 151, ∃ ts ∈ [[(160 : Int)], []], ∃ tk ∈ [[(167 : Int)], []],
    ∃ tw ∈ [[(173 : Int)], []], ∃ ts' ∈ [[(179 : Int)], []],
      151 :: t = [151, 152, 153, 154, 155, 156, 157] ++ ts ++ [161, 162, 163, 164] ++ tk ++ [168, 169, 170] ++ tw ++
        [174, 175, 176] ++ ts' ++ [180, 181, 182, 183, 184, 185, 186, 187, 188] := by
  decide +kernel

/-- From the first step of a part the line goes through one of its sequences. -/
theorem seg_part (p b : Nat) (hb : b ≤ 11) (o : Opt) (t : List Int) (h : Seg p (startStep b p o) t) :
    Part p b (startStep b p o :: t) := by
  have hp := fun x hx => seg_paths p 60 x t (closed_all (p == 128) (p &&& 56 != 0) x hx)
  have hsim := path_simple (p == 128) (p &&& 56 != 0)
  interval_cases b
  · have : startStep ((0 : Nat) : Int) p o = if o.noFinal then 91 else if p = 1 then 83 else 81 := rfl
    rw [this] at h ⊢
    by_cases h1 : o.noFinal = true
    · rw [if_pos h1] at h ⊢
      rw [hsim.2.2.2.2.2.2.1 t (hp 91 (by decide) h)]
      exact Part.noLast
    · rw [if_neg h1] at h ⊢
      by_cases h2 : p = 1
      · rw [if_pos h2] at h ⊢
        rw [hsim.2.2.2.2.2.1 t (hp 83 (by decide) h)]
        exact Part.lastOnly h2
      · rw [if_neg h2] at h ⊢
        rw [hsim.2.2.2.2.1 t (hp 81 (by decide) h)]
        exact Part.last h2
  · change Seg p 71 t at h
    rw [hsim.2.2.2.1 t (hp 71 (by decide) h)]
    exact Part.sanitizer
  · change Seg p 61 t at h
    have := hp 61 (by decide) h
    by_cases h1 : p &&& 56 = 0
    · rw [show (p &&& 56 != 0) = false by simp [h1], (path_61 _).2, List.mem_singleton] at this
      rw [this]
      exact Part.hot h1
    · rw [show (p &&& 56 != 0) = true by simp [h1], (path_61 _).1, List.mem_singleton] at this
      rw [this]
      exact Part.hotAfter h1
  · change Seg p 22 t at h
    rcases hsim.2.1 t (hp 22 (by decide) h) with h | h <;> rw [h]
    · exact Part.caustic 3 (Or.inr rfl)
    · exact Part.causticTank 3 (Or.inr rfl)
  · change Seg p 42 t at h
    rcases hsim.2.2.1 t (hp 42 (by decide) h) with h | h <;> rw [h]
    · exact Part.acid
    · exact Part.acidTank
  · change Seg p 22 t at h
    rcases hsim.2.1 t (hp 22 (by decide) h) with h | h <;> rw [h]
    · exact Part.caustic 5 (Or.inl rfl)
    · exact Part.causticTank 5 (Or.inl rfl)
  · change Seg p 10 t at h
    rw [hsim.1 t (hp 10 (by decide) h)]
    exact Part.circ
  · change Seg p 5 t at h
    have := hp 5 (by decide) h
    by_cases h1 : p = 128
    · rw [show (p == 128) = true by simp [h1], (path_5 _).2, List.mem_singleton] at this
      rw [this]
      exact Part.rinseOnly h1
    · rw [show (p == 128) = false by simp [h1], (path_5 _).1, List.mem_singleton] at this
      rw [this]
      exact Part.rinse h1
  · change Seg p 115 t at h
    show Part p 8 (115 :: t)
    cases h with
    | fin hf hn => cases hn
    | cons hf hn hs =>
      cases hn
      obtain ⟨k, hk⟩ := seg_116 p _ _ (le_refl _) hs
      have h2 := congrArg (List.cons (115 : Int)) hk
      rw [h2]
      exact Part.makeAcid k
  · change Seg p 105 t at h
    show Part p 9 (105 :: t)
    cases h with
    | fin hf hn => cases hn
    | cons hf hn hs =>
      cases hn
      obtain ⟨k, hk⟩ := seg_106 p _ _ (le_refl _) hs
      have h2 := congrArg (List.cons (105 : Int)) hk
      rw [h2]
      exact Part.makeCaustic k
  · change Seg p 300 t at h
    rw [hsim.2.2.2.2.2.2.2 t (hp 300 (by decide) h)]
    exact Part.remote
  · change Seg p 151 t at h
    obtain ⟨ts, h1, tk, h2, tw, h3, ts', h4, h5⟩ := path_151 _ _ t (hp 151 (by decide) h)
    show Part p 11 (151 :: t)
    rw [h5]
    refine Part.selfClean ts tk tw ts' ?_ ?_ ?_ ?_
    · simpa using h1
    · simpa using h2
    · simpa using h3
    · simpa using h4

/-! ## The rest of a wash -/

/-- The steps after the part `b` ... -/
inductive After (p : Nat) : Int → List Int → Prop
  | fin : After p (-1) [555]
  | part {b : Nat} {o t u} : b ≤ 11 → Seg p (startStep b p o) t → After p (nextPrg b p) u →
      After p b (startStep b p o :: (t ++ u))

/-- ... and after the step `x` of the part `b`. -/
def Rest (p : Nat) (x b : Int) (u : List Int) : Prop := ∃ t v, u = t ++ v ∧ Seg p x t ∧ After p (nextPrg b p) v

theorem nextPrg_pos (p b : Nat) (h : b ≤ 11) : nextPrg b p = if b = 0 then -1 else nextBit p (b - 1) := by
  unfold nextPrg
  cases b with
  | zero => rfl
  | succ b =>
    have h1 : ¬ ((b + 1 : Nat) : Int) < 0 := by omega
    have h2 : ((b + 1 : Nat) : Int) - 1 = b := by omega
    simp only [if_neg h1, h2]
    rw [if_pos (by omega), if_neg (by omega)]
    rfl

theorem nextBit_lt (p : Nat) (hp : p < 4096) : nextBit p 15 = nextBit p 11 := by
  have h : ∀ k, 12 ≤ k → p.testBit k = false := fun k hk =>
    Nat.testBit_lt_two_pow (lt_of_lt_of_le hp (by
      calc 4096 = 2 ^ 12 := by norm_num
        _ ≤ 2 ^ k := Nat.pow_le_pow_right (by norm_num) hk))
  have h15 := h 15 (by norm_num)
  have h14 := h 14 (by norm_num)
  have h13 := h 13 (by norm_num)
  have h12 := h 12 (by norm_num)
  show nextBit p (14 + 1) = _
  rw [nextBit, show 14 + 1 = 15 from rfl, h15]
  simp only [Bool.false_eq_true, if_false]
  show nextBit p (13 + 1) = _
  rw [nextBit, show 13 + 1 = 14 from rfl, h14]
  simp only [Bool.false_eq_true, if_false]
  show nextBit p (12 + 1) = _
  rw [nextBit, show 12 + 1 = 13 from rfl, h13]
  simp only [Bool.false_eq_true, if_false]
  show nextBit p (11 + 1) = _
  rw [nextBit, show 11 + 1 = 12 from rfl, h12]
  simp only [Bool.false_eq_true, if_false]

/-- The parts from `k` down. -/
def below (p : Nat) : Nat → List Nat
  | 0 => if p.testBit 0 then [0] else []
  | k + 1 => if p.testBit (k + 1) then (k + 1) :: below p k else below p k

theorem parts_below (p : Nat) : parts p = below p 11 := by
  simp only [parts, below, List.filter_cons, List.filter_nil]

theorem after_neg {p : Nat} {u : List Int} (h : After p (-1) u) : u = [555] := by
  generalize hb : (-1 : Int) = b at h
  cases h with
  | fin => rfl
  | part => omega

theorem after_part {p : Nat} {b : Nat} {u : List Int} (h : After p (b : Int) u) :
    ∃ (o : Opt) (t v : List Int), b ≤ 11 ∧ u = startStep b p o :: (t ++ v) ∧ Seg p (startStep b p o) t ∧
      After p (nextPrg b p) v := by
  generalize hb : (b : Int) = z at h
  cases h with
  | fin => omega
  | part h1 h2 h3 =>
    obtain rfl : b = _ := by exact_mod_cast hb
    exact ⟨_, _, _, h1, rfl, h2, h3⟩

theorem after_parts (p : Nat) : ∀ (k : Nat) (u : List Int), k ≤ 11 → After p (nextBit p k) u → Parts p (below p k) u
  | 0, u, hk, h => by
    simp only [nextBit, below] at h ⊢
    split at h
    next ht =>
      rw [if_pos ht]
      obtain ⟨o, t, v, h1, h2, h3, h4⟩ := after_part (b := 0) h
      have : nextPrg ((0 : Nat) : Int) p = -1 := nextPrg_pos p 0 (by omega)
      rw [this] at h4
      rw [h2, after_neg h4]
      exact Parts.cons (t := startStep ((0 : Nat) : Int) p o :: t) (seg_part p 0 (by omega) o t h3) Parts.nil
    next ht =>
      rw [if_neg ht, after_neg h]
      exact Parts.nil
  | k + 1, u, hk, h => by
    simp only [nextBit, below] at h ⊢
    split at h
    next ht =>
      rw [if_pos ht]
      obtain ⟨o, t, v, h1, h2, h3, h4⟩ := after_part (b := k + 1) h
      rw [nextPrg_pos p (k + 1) (by omega), if_neg (by omega)] at h4
      rw [h2]
      exact Parts.cons (t := startStep ((k + 1 : Nat) : Int) p o :: t) (seg_part p (k + 1) hk o t h3)
        (after_parts p k v (by omega) h4)
    next ht =>
      rw [if_neg ht]
      exact after_parts p k u (by omega) h

theorem nextPrg_start (p : Nat) (hp : p < 4096) : nextPrg (-1) p = nextBit p 11 := by
  rw [← nextBit_lt p hp]; rfl

/-- From step 0 on a line goes through a complete wash. -/
theorem rest_wash (p : Nat) (hp : p < 4096) (u : List Int) (h : Rest p 0 (-1) u) : Wash p u := by
  obtain ⟨t, v, rfl, h1, h2⟩ := h
  rw [h1.zero, List.nil_append, Wash, parts_below]
  rw [nextPrg_start p hp] at h2
  exact after_parts p 11 v (by omega) h2

theorem start_ne (b : Nat) (hb : b ≤ 11) (p : Nat) (o : Opt) : startStep b p o ≠ 555 ∧ startStep b p o ≠ 0 := by
  interval_cases b
  · have : startStep ((0 : Nat) : Int) p o = if o.noFinal then 91 else if p = 1 then 83 else 81 := rfl
    rw [this]
    split
    · decide
    · split <;> decide
  all_goals simp [startStep]

theorem after_exists (p : Nat) : ∀ k : Nat, k ≤ 11 → ∃ u, After p (nextBit p k) u
  | 0, _ => by
    simp only [nextBit]
    split
    · obtain ⟨t, ht⟩ := seg_exists p (startStep ((0 : Nat) : Int) p {}) (start_known _ _ _) (start_ne 0 (by omega) p {}).1
      refine ⟨_, After.part (b := 0) (by omega) ht (u := [555]) ?_⟩
      rw [nextPrg_pos p 0 (by omega)]
      exact After.fin
    · exact ⟨_, After.fin⟩
  | k + 1, hk => by
    obtain ⟨u, hu⟩ := after_exists p k (by omega)
    simp only [nextBit]
    split
    · obtain ⟨t, ht⟩ := seg_exists p (startStep ((k + 1 : Nat) : Int) p {}) (start_known _ _ _) (start_ne (k + 1) hk p {}).1
      refine ⟨_, After.part (b := k + 1) hk ht (u := u) ?_⟩
      rw [nextPrg_pos p (k + 1) hk, if_neg (by omega)]
      exact hu
    · exact ⟨u, hu⟩

/-- The part of a line that is in a step. -/
def InPart (b : Int) : Prop := -1 ≤ b ∧ b ≤ 11

theorem next_exists (p : Nat) (hp : p < 4096) (b : Int) (hb : InPart b) : ∃ u, After p (nextPrg b p) u := by
  obtain ⟨h1, h2⟩ := hb
  by_cases h : b = -1
  · subst h; rw [nextPrg_start p hp]; exact after_exists p 11 (le_refl _)
  · obtain ⟨k, rfl⟩ : ∃ k : Nat, b = k := ⟨b.toNat, by omega⟩
    rw [nextPrg_pos p k (by omega)]
    split
    · exact ⟨_, After.fin⟩
    · exact after_exists p (k - 1) (by omega)

theorem rest_exists (p : Nat) (hp : p < 4096) (x b : Int) (hx : x ∈ knownSteps) (h5 : x ≠ 555) (hb : InPart b) :
    ∃ u, Rest p x b u := by
  obtain ⟨t, ht⟩ := seg_exists p x hx h5
  obtain ⟨u, hu⟩ := next_exists p hp b hb
  exact ⟨t ++ u, t, u, rfl, ht, hu⟩

theorem nextPrg_range (p : Nat) (hp : p < 4096) (b : Int) (hb : InPart b) :
    -1 ≤ nextPrg b p ∧ nextPrg b p ≤ 11 := by
  obtain ⟨h1, h2⟩ := hb
  by_cases h : b = -1
  · subst h; rw [nextPrg_start p hp]; have := nextBit_range p 11; omega
  · obtain ⟨k, rfl⟩ : ∃ k : Nat, b = k := ⟨b.toNat, by omega⟩
    rw [nextPrg_pos p k (by omega)]
    split
    · omega
    · have := nextBit_range p (k - 1); omega

end Ptusa.Cip
