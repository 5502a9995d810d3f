import Verif.Scales.Spec
import Mathlib.Tactic.NormNum
import Mathlib.Tactic.Ring
import Mathlib.Tactic.Linarith
import Mathlib.Tactic.Positivity
import Mathlib.Tactic.FieldSimp

namespace Ptusa.Scales

/-! ### Axl -/

theorem sent_eq (a b : BitVec 16) : ((a ++ b : BitVec 32)).toInt = sent a b := by
  have h : ((a ++ b : BitVec 32)).toNat = 65536 * a.toNat + b.toNat := by
    rw [BitVec.toNat_append, ← Nat.shiftLeft_add_eq_or_of_lt b.isLt, Nat.shiftLeft_eq]
    omega
  rw [BitVec.toInt_eq_toNat_cond, h]
  unfold sent
  have := a.isLt
  have := b.isLt
  split <;> split <;> omega

theorem axlState_eq (x : BitVec 32) : axlState x = faultOf x.toInt := by
  have key : ∀ y : BitVec 32, (x = y) ↔ (x.toInt = y.toInt) :=
    fun y => ⟨fun h => by rw [h], fun h => BitVec.eq_of_toInt_eq h⟩
  have e1 : (0x80000001 : BitVec 32).toInt = -2147483647 := by decide
  have e2 : (0x80000002 : BitVec 32).toInt = -2147483646 := by decide
  have e3 : (0x80000003 : BitVec 32).toInt = -2147483645 := by decide
  have e4 : (0x80000004 : BitVec 32).toInt = -2147483644 := by decide
  have e5 : (0x80000020 : BitVec 32).toInt = -2147483616 := by decide
  have e6 : (0x80000040 : BitVec 32).toInt = -2147483584 := by decide
  have e7 : (0x80000080 : BitVec 32).toInt = -2147483520 := by decide
  unfold axlState
  simp only [key 0x80000001, key 0x80000002, key 0x80000003, key 0x80000004, key 0x80000020, key 0x80000040,
    key 0x80000080, e1, e2, e3, e4, e5, e6, e7]
  generalize x.toInt = z
  unfold faultOf faults
  simp only [List.lookup]
  by_cases h1 : z = -2147483647
  · subst h1; rfl
  by_cases h2 : z = -2147483646
  · subst h2; rfl
  by_cases h3 : z = -2147483645
  · subst h3; rfl
  by_cases h4 : z = -2147483644
  · subst h4; rfl
  by_cases h5 : z = -2147483616
  · subst h5; rfl
  by_cases h6 : z = -2147483584
  · subst h6; rfl
  by_cases h7 : z = -2147483520
  · subst h7; rfl
  have c : ∀ y : Int, z ≠ y → (z == y) = false := fun y h => by simpa using h
  simp only [if_neg h1, if_neg h2, if_neg h3, if_neg h4, if_neg h5, if_neg h6, if_neg h7, c _ h1, c _ h2,
    c _ h3, c _ h4, c _ h5, c _ h6, c _ h7, Option.getD_none]

theorem axl_eval (s : Axl) : s.eval = { s with
    r0 := s.r1, r1 := s.r0, w := .num (1 / 1000) * .num (sent s.r0 s.r1 : Int) * s.k,
    st := faultOf (sent s.r0 s.r1) } := by
  unfold Axl.eval
  simp only [axlState_eq, sent_eq]

theorem axl_evals (n : Nat) (s : Axl) : (s.run (List.replicate (n + 1) .eval)) =
    if n % 2 = 0 then s.eval else s.eval.eval := by
  induction n generalizing s with
  | zero => rfl
  | succ n ih =>
    rw [List.replicate_succ]
    show (s.eval).run _ = _
    rw [ih]
    by_cases h : n % 2 = 0
    · rw [if_pos h, if_neg (by omega)]
    · rw [if_neg h, if_pos (by omega), axl_eval, axl_eval, axl_eval]

/-! ### Texts -/

theorem enc_digit {d : Nat} (h : d < 10) : isDigit (BitVec.ofNat 8 (48 + d)) = true ∧
    (BitVec.ofNat 8 (48 + d)).toNat - 48 = d := by
  have e : (BitVec.ofNat 8 (48 + d)).toNat = 48 + d := by
    rw [BitVec.toNat_ofNat]; exact Nat.mod_eq_of_lt (by omega)
  unfold isDigit
  rw [e]
  constructor
  · simp only [Bool.and_eq_true, decide_eq_true_eq]; omega
  · omega

theorem digits_enc (ds : List Nat) (hd : Digits ds) (acc : Nat) (b : Byte) (hb : isDigit b = false)
    (r : List Byte) :
    digits acc (enc ds ++ b :: r) = (ds.foldl (fun a d => 10 * a + d) acc, b :: r) := by
  induction ds generalizing acc with
  | nil =>
    show digits acc (b :: r) = _
    unfold digits
    rw [if_neg (by rw [hb]; simp)]
    rfl
  | cons d ds ih =>
    obtain ⟨h1, h2⟩ := enc_digit (hd d (by simp))
    show digits acc (BitVec.ofNat 8 (48 + d) :: (enc ds ++ b :: r)) = _
    unfold digits
    rw [if_pos h1, h2, ih (fun x hx => hd x (by simp [hx]))]
    rfl

theorem dot_not_digit : isDigit (46 : Byte) = false := by decide

theorem unsigned_enc (i f : List Nat) (hi : Digits i) (hf : Digits f) (b : Byte) (hb : isDigit b = false)
    (r : List Byte) : unsignedPart (enc i ++ 46 :: (enc f ++ b :: r)) = some (number i f) := by
  unfold unsignedPart
  rw [digits_enc i hi 0 46 dot_not_digit]
  dsimp only
  rw [if_pos rfl, digits_enc f hf _ b hb]
  dsimp only
  congr 1
  unfold number ofDigits
  rw [List.foldl_append]
  congr 2
  have : (enc f).length = f.length := by simp [enc]
  simp only [List.length_append, List.length_cons, this]
  omega

theorem not_special {b : Byte} (h : isDigit b = true ∨ b = 46) : isSpace b = false ∧ b ≠ 45 ∧ b ≠ 43 := by
  have hn : 46 ≤ b.toNat ∧ b.toNat ≤ 57 := by
    rcases h with h | h
    · unfold isDigit at h
      simp only [Bool.and_eq_true, decide_eq_true_eq] at h
      omega
    · subst h; decide
  refine ⟨?_, ?_, ?_⟩
  · unfold isSpace
    simp only [Bool.or_eq_false_iff, Bool.and_eq_false_iff, decide_eq_false_iff_not]
    omega
  · rintro rfl; revert hn; decide
  · rintro rfl; revert hn; decide

/-- Blanks, a number, a character that ends it. -/
theorem atof_enc (pad : List Byte) (hp : ∀ x ∈ pad, isSpace x = true) (i f : List Nat) (hi : Digits i)
    (hf : Digits f) (b : Byte) (hb : isDigit b = false) (r : List Byte) :
    atof (pad ++ (enc i ++ 46 :: (enc f ++ b :: r))) = some (number i f) := by
  have hd : (pad ++ (enc i ++ 46 :: (enc f ++ b :: r))).dropWhile isSpace =
      enc i ++ 46 :: (enc f ++ b :: r) := by
    induction pad with
    | nil =>
      cases i with
      | nil =>
        show List.dropWhile isSpace ((46 : Byte) :: (enc f ++ b :: r)) = (46 : Byte) :: (enc f ++ b :: r)
        rw [List.dropWhile_cons, if_neg (by decide)]
      | cons d i =>
        obtain ⟨h1, _⟩ := enc_digit (hi d (by simp))
        show List.dropWhile isSpace (BitVec.ofNat 8 (48 + d) :: (enc i ++ 46 :: (enc f ++ b :: r))) = _
        rw [List.dropWhile_cons, if_neg (by rw [(not_special (Or.inl h1)).1]; simp)]
        rfl
    | cons x pad ih =>
      show List.dropWhile isSpace (x :: (pad ++ _)) = _
      rw [List.dropWhile_cons, if_pos (hp x (by simp))]
      exact ih (fun y hy => hp y (by simp [hy]))
  have hu := unsigned_enc i f hi hf b hb r
  unfold atof
  rw [hd]
  cases i with
  | nil =>
    show (if (46 : Byte) = 45 then _ else if (46 : Byte) = 43 then _ else _) = _
    rw [if_neg (by decide), if_neg (by decide)]
    exact hu
  | cons d i =>
    obtain ⟨h1, _⟩ := enc_digit (hi d (by simp))
    obtain ⟨_, h2, h3⟩ := not_special (Or.inl h1)
    show (if BitVec.ofNat 8 (48 + d) = (45 : Byte) then _ else
      if BitVec.ofNat 8 (48 + d) = (43 : Byte) then _ else _) = _
    rw [if_neg h2, if_neg h3]
    exact hu

theorem rs_run_append (s : Rs) (h k : List RsEv) : s.run (h ++ k) = (s.run h).bind fun s => s.run k := by
  induction h generalizing s with
  | nil => rfl
  | cons e h ih =>
    cases e with
    | recv m => exact ih _
    | eval =>
      simp only [List.cons_append, Rs.run]
      cases s.eval with
      | none => rfl
      | some s' => exact ih s'

/-! ### Analog scale -/

theorem an_run_snoc (p : Par) (s : An) (h : List Sample) (x : Sample) :
    An.run p s (h ++ [x]) = ((An.run p s h).get p x.now x.ud x.uref).2 := by
  unfold An.run
  rw [List.foldl_append]
  rfl

/-! ### Volume -/

theorem tdiv_nonneg_floor (x : Rat) (h : 0 ≤ x) : Int.tdiv x.num x.den = ⌊x⌋ := by
  rw [Int.tdiv_eq_ediv_of_nonneg (Rat.num_nonneg.2 h), Rat.floor_def']

theorem kilograms_eq {v : Rat} {n : Int} (hv : 0 ≤ v) (h : kilograms v = some n) :
    n = 10 * ⌊v * 100 + 1 / 2⌋ := by
  unfold kilograms at h
  dsimp only at h
  rw [tdiv_nonneg_floor _ (by positivity)] at h
  split at h
  · simpa using h.symm
  · simp at h

/-- The kept weight is a number when all measured ones are. -/
theorem weight_num (p : Par) {h0 : BitVec 64} : ∀ h : List Sample,
    (∀ x ∈ h, ∃ q, p.measure x.ud x.uref = .num q) → ∃ q, (An.run p ⟨0, h0⟩ h).weight = .num q := by
  intro h
  induction h using List.reverseRecOn with
  | nil => intro _; exact ⟨0, rfl⟩
  | append_singleton h x ih =>
    intro hx
    obtain ⟨q, hq⟩ := ih (fun y hy => hx y (by simp [hy]))
    obtain ⟨m, hm⟩ := hx x (by simp)
    rw [an_run_snoc]
    unfold An.get
    split
    · dsimp only
      split
      · exact ⟨q, hq⟩
      · split
        · exact ⟨q, hq⟩
        · rw [hm]
          split <;> split <;>
          first
          | exact ⟨q, hq⟩
          | exact ⟨⌈q⌉, by show flCeil (An.run p _ h).weight = _; rw [hq]; rfl⟩
          | exact ⟨⌈m⌉, rfl⟩
          | exact ⟨m, rfl⟩
    · exact ⟨q, hq⟩

/-- Invariant: with a filter of 1 and more the kept weight is whole. -/
theorem weight_whole (p : Par) {h0 : BitVec 64} (hdt : Fl.le 1 p.dt = true) : ∀ h : List Sample,
    (∀ x ∈ h, ∃ q, p.measure x.ud x.uref = .num q) →
      ∃ z : Int, (An.run p ⟨0, h0⟩ h).weight = .num z := by
  intro h
  induction h using List.reverseRecOn with
  | nil => intro _; exact ⟨0, by simp [An.run]; rfl⟩
  | append_singleton h x ih =>
    intro hx
    obtain ⟨z, hz⟩ := ih (fun y hy => hx y (by simp [hy]))
    obtain ⟨m, hm⟩ := hx x (by simp)
    rw [an_run_snoc]
    unfold An.get
    split
    · dsimp only
      split
      · exact ⟨z, hz⟩
      · split
        · exact ⟨z, hz⟩
        · rw [hm]
          simp only [hdt, if_true]
          split
          · exact ⟨⌈m⌉, rfl⟩
          · exact ⟨⌈(z : Rat)⌉, by show flCeil (An.run p _ h).weight = _; rw [hz]; rfl⟩
    · exact ⟨z, hz⟩

/-- The volume grows with the level. -/
theorem coneV_mono (pi r hCone h h' : Rat) (hpi : 0 ≤ pi) (hh : 0 < hCone) (h0 : 0 ≤ h) (hle : h ≤ h') :
    0 ≤ coneV pi r hCone h ∧ coneV pi r hCone h ≤ coneV pi r hCone h' := by
  have e : ∀ x, coneV pi r hCone x = pi * r ^ 2 *
      (if x ≤ hCone then x ^ 3 / (3 * hCone ^ 2) else hCone / 3 + (x - hCone)) := by
    intro x
    unfold coneV
    split
    · field_simp
    · ring
  have hc : 0 ≤ pi * r ^ 2 := by positivity
  have key : ∀ x y : Rat, 0 ≤ x → x ≤ y →
      0 ≤ (if x ≤ hCone then x ^ 3 / (3 * hCone ^ 2) else hCone / 3 + (x - hCone)) ∧
      (if x ≤ hCone then x ^ 3 / (3 * hCone ^ 2) else hCone / 3 + (x - hCone)) ≤
      (if y ≤ hCone then y ^ 3 / (3 * hCone ^ 2) else hCone / 3 + (y - hCone)) := by
    intro x y hx hxy
    have hd : 0 < 3 * hCone ^ 2 := by positivity
    by_cases h1 : x ≤ hCone
    · by_cases h2 : y ≤ hCone
      · rw [if_pos h1, if_pos h2]
        exact ⟨by positivity, div_le_div_of_nonneg_right (pow_le_pow_left₀ hx hxy 3) hd.le⟩
      · rw [if_pos h1, if_neg h2]
        refine ⟨by positivity, ?_⟩
        have : x ^ 3 / (3 * hCone ^ 2) ≤ hCone / 3 := by
          rw [div_le_iff₀ hd]
          have := pow_le_pow_left₀ hx h1 3
          nlinarith
        linarith
    · have h2 : ¬ y ≤ hCone := by linarith
      rw [if_neg h1, if_neg h2]
      constructor <;> linarith
  obtain ⟨k1, k2⟩ := key h h' h0 hle
  rw [e, e]
  exact ⟨mul_nonneg hc k1, mul_le_mul_of_nonneg_left k2 hc⟩

end Ptusa.Scales
