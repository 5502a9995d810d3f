import Verif.Analog.Lemmas

/-!
# C34, C35: analog outputs and inputs
-/
namespace Ptusa.Analog

/-- **C34** (part: the request is a number, and it differs from the limit of a degenerate scale) The raw value is in
the range of the module, for every request and scale. -/
theorem C34_range_partial (m : OutModule) (v min max : Rat) (h : ¬ (min = max ∧ v = min ∧ min ≠ 0)) :
    ∃ r, setAO m (some v) min max = some r ∧ 0 ≤ r ∧ r ≤ m.full := by
  have hma : ∃ ma, toMa v min max = some ma := by
    unfold toMa
    split
    · split
      · split
        · exfalso
          apply h
          rename_i h1 h2 h3
          have e1 : min = max := by linarith
          refine ⟨e1, by linarith, ?_⟩
          rcases h1 with h1 | h1
          · exact h1
          · rw [e1]; exact h1
        · exact ⟨_, rfl⟩
      · exact ⟨_, rfl⟩
    · exact ⟨_, rfl⟩
  obtain ⟨ma, hma⟩ := hma
  have hr := limitMa_range ma
  have hf := factor_pos m
  refine ⟨_, setAO_eq m v min max ma hma, ?_, ?_⟩
  · apply Int.floor_nonneg.mpr
    apply mul_nonneg hf.le
    linarith
  · have h1 : m.factor * (limitMa ma - 4) ≤ m.full := by
      rw [← factor_full]
      apply mul_le_mul_of_nonneg_left _ hf.le
      linarith
    exact_mod_cast (Int.floor_le _).trans h1

/-- **C34** The ends of the scale give the ends of the range, for any scale, also a reversed one. -/
theorem C34_ends (m : OutModule) (min max : Rat) (h : min ≠ max) :
    setAO m (some min) min max = some 0 ∧ setAO m (some max) min max = some m.full := by
  have hne : min ≠ 0 ∨ max ≠ 0 := by
    by_contra hc
    rw [not_or, not_not, not_not] at hc
    exact h (hc.1.trans hc.2.symm)
  have hd : max - min ≠ 0 := fun hc => h (by linarith)
  constructor
  · rw [setAO_eq m min min max 4 (by simp [toMa, hne, hd])]
    rw [limitMa_id 4 (le_refl _) (by norm_num)]
    simp
  · have h20 : toMa max min max = some 20 := by
      unfold toMa
      rw [if_pos hne, if_neg hd, mul_div_assoc, div_self hd]
      norm_num
    rw [setAO_eq m max min max 20 h20, limitMa_id 20 (by norm_num) (le_refl _),
      show m.factor * (20 - 4) = m.factor * 16 by norm_num, factor_full]
    simp

/-- **C34** The raw value follows the request monotonically; on a reversed scale it falls. -/
theorem C34_monotone (m : OutModule) (v w min max : Rat) (h : v ≤ w) (r s : Int)
    (hr : setAO m (some v) min max = some r) (hs : setAO m (some w) min max = some s) :
    (min ≤ max → r ≤ s) ∧ (max < min → s ≤ r) := by
  have hf := factor_pos m
  have key : ∀ a b : Rat, a ≤ b →
      ⌊m.factor * (limitMa a - 4)⌋ ≤ ⌊m.factor * (limitMa b - 4)⌋ := by
    intro a b hab
    apply Int.floor_le_floor
    apply mul_le_mul_of_nonneg_left _ hf.le
    have := limitMa_mono a b hab
    linarith
  obtain ⟨a, ha⟩ : ∃ a, toMa v min max = some a := by
    cases ha : toMa v min max with
    | none => simp [setAO, ha] at hr
    | some a => exact ⟨a, rfl⟩
  obtain ⟨b, hb⟩ : ∃ b, toMa w min max = some b := by
    cases hb : toMa w min max with
    | none => simp [setAO, hb] at hs
    | some b => exact ⟨b, rfl⟩
  rw [setAO_eq m v min max a ha] at hr
  rw [setAO_eq m w min max b hb] at hs
  simp only [Option.some.injEq] at hr hs
  subst hr
  subst hs
  unfold toMa at ha hb
  by_cases h0 : min ≠ 0 ∨ max ≠ 0
  · rw [if_pos h0] at ha hb
    by_cases hd : max - min = 0
    · rw [if_pos hd] at ha hb
      refine ⟨fun _ => ?_, fun hlt => by linarith⟩
      split at ha
      · simp at ha
      · split at hb
        · simp at hb
        · simp only [Option.some.injEq] at ha hb
          subst ha; subst hb
          apply key
          split <;> split <;> linarith
    · rw [if_neg hd] at ha hb
      simp only [Option.some.injEq] at ha hb
      subst ha; subst hb
      constructor
      · intro hle
        apply key
        have hpos : 0 < max - min := lt_of_le_of_ne (by linarith) (Ne.symm hd)
        have := div_le_div_of_nonneg_right (show 16 * (v - min) ≤ 16 * (w - min) by linarith) hpos.le
        linarith
      · intro hlt
        apply key
        have := div_le_div_of_nonpos_of_le (show max - min ≤ 0 by linarith)
          (show 16 * (v - min) ≤ 16 * (w - min) by linarith)
        linarith
  · rw [if_neg h0] at ha hb
    simp only [Option.some.injEq] at ha hb
    subst ha; subst hb
    rw [not_or, not_not, not_not] at h0
    exact ⟨fun _ => key _ _ h, fun hlt => by rw [h0.1, h0.2] at hlt; exact absurd hlt (lt_irrefl _)⟩

/-- Half of the scale 0 – 100 of the 554. -/
example : setAO .wago554 (some 50) 0 100 = some 16380 := by decide +kernel

example : setAO .axlSE (some 200) 0 100 = some 16000 ∧ setAO .axlAO4 (some (-3)) 0 100 = some 0 ∧
    setAO .axlSE (some 25) 100 0 = some 12000 := by decide +kernel

/-- **C34 is false of the code** for a request that is not a number, and for the request equal to both limits of a
degenerate scale: the conversion to an integer is undefined. -/
theorem C34_nan_violated : (∀ m min max, setAO m none min max = none) ∧
    (∀ m (x : Rat), x ≠ 0 → setAO m (some x) x x = none) := by
  refine ⟨fun _ _ _ => rfl, fun m x hx => ?_⟩
  simp [setAO, toMa, hx]

/-! ### C35 -/

/-- **C35** (part: the AXL output modules) The value read back differs from the request by less than one raw unit,
on any scale, also a reversed one. -/
theorem C35_read_back_partial (m : OutModule) (hm : m ≠ .wago554) (v min max : Rat) (hne : min ≠ max)
    (h : (min ≤ v ∧ v ≤ max) ∨ (max ≤ v ∧ v ≤ min)) :
    ∃ r : Int, setAO m (some v) min max = some r ∧ |v - getAO m r min max| < |max - min| / m.full := by
  obtain ⟨r, hr, h0, ha, hb⟩ := set_get m v min max hne h
  refine ⟨r, hr, ?_⟩
  have hne0 : ¬ (min = 0 ∧ max = 0) := fun hc => hne (hc.1.trans hc.2.symm)
  have hget : getAO m r min max = min + r / m.full * (max - min) := by
    have hr0 : ¬ r < 0 := by omega
    cases m with
    | wago554 => exact absurd rfl hm
    | axlAO4 =>
      simp only [getAO, if_neg hne0, if_neg hr0, OutModule.factor, OutModule.full]
      push_cast
      ring
    | axlSE =>
      simp only [getAO, if_neg hne0, if_neg hr0, OutModule.factor, OutModule.full]
      push_cast
      ring
  have hfp : (0 : Rat) < m.full := by cases m <;> norm_num [OutModule.full]
  rw [hget]
  exact unit_bound m.full v min max hfp hne r ha hb

/-- **C35** (part: module 554) From seven raw units upwards the value read back differs from the request by less than
one raw unit; below that it is the lower limit. -/
theorem C35_read_back_554_partial (v min max : Rat) (hne : min ≠ max)
    (h : (min ≤ v ∧ v ≤ max) ∨ (max ≤ v ∧ v ≤ min)) :
    ∃ r : Int, setAO .wago554 (some v) min max = some r ∧
      (7 ≤ r → |v - getAO .wago554 r min max| < |max - min| / 32760) ∧
      (r < 7 → getAO .wago554 r min max = min) := by
  obtain ⟨r, hr, h0, ha, hb⟩ := set_get .wago554 v min max hne h
  have hne0 : ¬ (min = 0 ∧ max = 0) := fun hc => hne (hc.1.trans hc.2.symm)
  refine ⟨r, hr, fun h7 => ?_, fun h7 => ?_⟩
  · have hget : getAO .wago554 r min max = min + r / 32760 * (max - min) := by
      simp only [getAO, if_neg hne0, if_neg (show ¬ r < 7 by omega)]
      ring
    rw [hget]
    exact unit_bound 32760 v min max (by norm_num) hne r ha hb
  · simp [getAO, hne0, h7]

/-- A quarter of a reversed scale. -/
example : ∃ r : Int, setAO .axlAO4 (some 25) 100 0 = some r ∧ getAO .axlAO4 r 100 0 = 25 :=
  ⟨22500, by decide +kernel⟩

/-- **C35 is false of the code** for the 554: six raw units above the lower limit are read back as the lower limit;
without scaling 4 mA is read back as 0. -/
theorem C35_read_back_violated :
    (setAO .wago554 (some 6) 0 32760 = some 6 ∧ getAO .wago554 6 0 32760 = 0) ∧
    (setAO .wago554 (some 4) 0 0 = some 0 ∧ getAO .wago554 0 0 0 = 0) := by decide +kernel

/-- **C35** (part: raw values that stand for a measurement) Current inputs map the raw range linearly onto the
configured range, also a reversed one, without error; with the limits 0 and 0 onto 4 – 20 mA. -/
theorem C35_input_linear_partial (m : InModule) (full : Int) (hm : m.full = some full) (raw : Int)
    (hv : m.valid raw) (min max : Rat) (hne : ¬ (min = 0 ∧ max = 0)) :
    getAI m raw min max = (min + raw * (max - min) / full, .noErr) ∧
    getAI m raw 0 0 = (4 + (raw : Rat) * (20 - 4) / full, AiErr.noErr) := by
  cases m with
  | pt450 => simp [InModule.full] at hm
  | strain491 => simp [InModule.full] at hm
  | rtd4 => simp [InModule.full] at hm
  | cur466 =>
    simp only [InModule.full, Option.some.injEq] at hm
    simp only [InModule.valid] at hv
    subst hm
    simp only [getAI, scaleIn, if_neg hne, and_self, if_true]
    rw [if_neg hv.2.2, if_neg (by omega), if_neg hv.2.2, if_neg (by omega)]
    constructor <;> congr 1 <;> push_cast <;> ring
  | axlAI4 =>
    simp only [InModule.full, Option.some.injEq] at hm
    simp only [InModule.valid] at hv
    subst hm
    simp only [getAI, scaleIn, if_neg hne, and_self, if_true]
    rw [if_neg (by omega), if_neg (by omega)]
    constructor <;> congr 1 <;> push_cast <;> ring
  | axlSE =>
    simp only [InModule.full, Option.some.injEq] at hm
    simp only [InModule.valid] at hv
    subst hm
    simp only [getAI, scaleIn, if_neg hne, and_self, if_true]
    rw [if_neg (by omega), if_neg (by omega)]
    constructor <;> congr 1 <;> push_cast <;> ring

/-- **C35** (part: the Pt and strain-gauge modules of WAGO) An error is reported exactly for raw values outside the
range of the module; inside the value is linear. -/
theorem C35_input_error_partial (raw : Int) (min max : Rat) :
    ((getAI .pt450 raw min max).2 = .noErr ↔ InModule.pt450.valid raw) ∧
    ((getAI .strain491 raw min max).2 = .noErr ↔ InModule.strain491.valid raw) ∧
    (InModule.pt450.valid raw → (getAI .pt450 raw min max).1 = raw / 10) ∧
    (InModule.strain491.valid raw → (getAI .strain491 raw min max).1 = raw / 2000) := by
  simp only [getAI, InModule.valid]
  refine ⟨?_, ?_, ?_, ?_⟩
  · split
    · simp; omega
    · split
      · simp; omega
      · simp; omega
  · split
    · simp; omega
    · simp; omega
  · intro h
    rw [if_neg (by omega), if_neg (by omega)]
  · intro h
    rw [if_pos (by omega)]

example : getAI .cur466 16380 0 100 = (50, .noErr) := by decide +kernel

example : getAI .pt450 8501 0 0 = (-1000, .over) := by decide +kernel

/-- **C35 is false of the code** for the other inputs: negative raw values of current inputs (wire break on the AXL
modules above −32000, any negative code on the 466) and raw values above the over-range are accepted without an error
and give values outside the configured range. -/
theorem C35_input_error_violated :
    (¬ InModule.cur466.valid (-100) ∧ (getAI .cur466 (-100) 0 100).2 = .noErr ∧
      (getAI .cur466 (-100) 0 100).1 < 0) ∧
    (¬ InModule.axlAI4.valid (-15000) ∧ getAI .axlAI4 (-15000) 0 100 = (-50, .noErr)) ∧
    (¬ InModule.axlSE.valid 32000 ∧ getAI .axlSE 32000 0 100 = (200, .noErr)) ∧
    (¬ InModule.rtd4.valid 9000 ∧ getAI .rtd4 9000 0 100 = (900, .noErr)) := by
  refine ⟨⟨by simp [InModule.valid], by decide +kernel, by decide +kernel⟩, ⟨by simp [InModule.valid], by decide +kernel⟩,
    ⟨by simp [InModule.valid], by decide +kernel⟩, ⟨by simp [InModule.valid], by decide +kernel⟩⟩

end Ptusa.Analog
