import Verif.Counter.Spec

namespace Ptusa.Counter

theorem rnd_small {n : Nat} (h : n ≤ 2 ^ 24) : rnd n = n := by
  unfold rnd
  by_cases h' : n < 2 ^ 24
  · rw [if_pos h']
  · have : n = 2 ^ 24 := by omega
    subst this
    decide +kernel

theorem sub_toNat {a b : BitVec 32} (h : a > b) : (a - b).toNat = a.toNat - b.toNat := by
  have h' : b.toNat < a.toNat := BitVec.lt_def.mp h
  rw [BitVec.toNat_sub]
  have := a.isLt
  have := b.isLt
  omega

/-- The last reading known. -/
def Ctr.known (c : Ctr) : List Nat := if c.first then [] else [c.last.toNat]

theorem increases_two (a b : Nat) (l : List Nat) : increases (a :: b :: l) = (b - a) + increases (b :: l) := by
  simp [increases]

theorem increases_one (a : Nat) : increases [a] = 0 := by simp [increases]

theorem increases_nil : increases [] = 0 := by simp [increases]

theorem known_eval (c : Ctr) (r a : BitVec 32) (f : Rat) : (c.eval r a f).known = [r.toNat] := by
  cases h : c.first <;> simp [Ctr.known, Ctr.eval, h]
  split <;> split <;> simp_all

/-- Relative value without rounding. -/
theorem eval_value (c : Ctr) (r a : BitVec 32) (f : Rat)
    (h : c.value + increases (c.known ++ [r.toNat]) ≤ 2 ^ 24) :
    (c.eval r a f).value = c.value + increases (c.known ++ [r.toNat]) := by
  cases hf : c.first
  · simp only [Ctr.known, hf, Bool.false_eq_true, if_false, List.cons_append, List.nil_append, increases_two,
      increases_one] at h ⊢
    by_cases hr : r > c.last
    · have e := sub_toNat hr
      have hle : rnd (r - c.last).toNat = r.toNat - c.last.toNat := by rw [e]; exact rnd_small (by omega)
      have : (c.eval r a f).value = rnd (c.value + rnd (r - c.last).toNat) := by
        simp [Ctr.eval, hf, hr]
        split <;> rfl
      rw [this, hle, rnd_small (by omega)]
      omega
    · have : (c.eval r a f).value = c.value := by
        simp only [Ctr.eval, hf, Bool.not_false, if_true, hr, if_false]
        split <;> rfl
      rw [this]
      have : ¬ c.last.toNat < r.toNat := fun h => hr (BitVec.lt_def.mpr h)
      omega
  · simp [Ctr.known, hf, increases_one, Ctr.eval]

theorem increases_append_cons (k : List Nat) (hk : k.length ≤ 1) (r : Nat) (l : List Nat) :
    increases (k ++ r :: l) = increases (k ++ [r]) + increases (r :: l) := by
  match k, hk with
  | [], _ => simp [increases_one]
  | [a], _ => simp [increases_two, increases_one]

theorem known_length (c : Ctr) : c.known.length ≤ 1 := by
  unfold Ctr.known; split <;> simp

theorem run_value (post : List Op) : ∀ c : Ctr, (∀ o ∈ post, KeepsRelative o) →
    c.value + increases (c.known ++ readings post) ≤ 2 ^ 24 →
    (c.run post).value = c.value + increases (c.known ++ readings post) := by
  induction post with
  | nil =>
    intro c _ _
    simp only [Ctr.run, List.foldl_nil, readings, List.filterMap_nil, List.append_nil]
    unfold Ctr.known; split <;> simp [increases_nil, increases_one]
  | cons o post ih =>
    intro c hk hle
    have hk' : ∀ o ∈ post, KeepsRelative o := fun x hx => hk x (List.mem_cons_of_mem _ hx)
    have ho := hk o List.mem_cons_self
    cases o with
    | eval r a f =>
      have hr : readings (.eval r a f :: post) = r.toNat :: readings post := rfl
      rw [hr, increases_append_cons _ (known_length c)] at hle ⊢
      have h1 := eval_value c r a f (by omega)
      have := ih (c.eval r a f) hk' (by rw [known_eval, h1]; simp only [List.cons_append, List.nil_append]; omega)
      show ((c.eval r a f).run post).value = _
      rw [this, known_eval, h1]
      simp only [List.cons_append, List.nil_append]
      omega
    | reset => exact absurd rfl ho.2
    | set v a f => exact absurd rfl (ho.1 v a f)
    | absReset => exact ih c.absReset hk' hle
    | start => exact ih c.start hk' hle
    | pause => exact ih c.pause hk' hle
    | cmdAbs a => exact ih (c.cmdAbs a) hk' hle
    | cmdFlow f => exact ih (c.cmdFlow f) hk' hle

theorem getLast_cons_toList (a : Nat) (l : List Nat) (k : List Nat) :
    (match (a :: l).getLast? with | some x => [x] | none => k) =
    (match l.getLast? with | some x => [x] | none => [a]) := by
  cases l with
  | nil => simp
  | cons b l => simp [List.getLast?_cons]

/-- The last known reading after a history. -/
theorem run_known (pre : List Op) : ∀ c : Ctr,
    (c.run pre).known = (match (readings pre).getLast? with | some x => [x] | none => c.known) := by
  induction pre with
  | nil => intro c; rfl
  | cons o pre ih =>
    intro c
    show ((c.step o).run pre).known = _
    rw [ih]
    cases o with
    | eval r a f =>
      have hr : readings (.eval r a f :: pre) = r.toNat :: readings pre := rfl
      rw [hr, getLast_cons_toList]
      show (match (readings pre).getLast? with | some x => [x] | none => (c.eval r a f).known) = _
      rw [known_eval]
    | _ => rfl

theorem run_known_init (pre : List Op) :
    (({} : Ctr).run pre).known = (readings pre).getLast?.toList := by
  rw [run_known]
  cases (readings pre).getLast? <;> rfl

theorem run_append (c : Ctr) (l m : List Op) : c.run (l ++ m) = (c.run l).run m := by
  simp [Ctr.run, List.foldl_append]

/-! Absolute counter. -/

/-- The last absolute reading known. -/
def Ctr.absKnown (c : Ctr) : List Nat := if c.first then [] else [c.absLast.toNat]

theorem absKnown_eval (c : Ctr) (r a : BitVec 32) (f : Rat) : (c.eval r a f).absKnown = [a.toNat] := by
  cases h : c.first <;> simp [Ctr.absKnown, Ctr.eval, h]
  split <;> split <;> simp_all

theorem eval_abs (c : Ctr) (r a : BitVec 32) (f : Rat) :
    (c.eval r a f).abs.toNat = (c.abs.toNat + increases (c.absKnown ++ [a.toNat])) % 2 ^ 32 := by
  cases hf : c.first
  · simp only [Ctr.absKnown, hf, Bool.false_eq_true, if_false, List.cons_append, List.nil_append, increases_two,
      increases_one]
    by_cases hr : a > c.absLast
    · have e := sub_toNat hr
      have : (c.eval r a f).abs = c.abs + (a - c.absLast) := by
        by_cases h1 : r > c.last <;> simp [Ctr.eval, hf, hr, h1]
      rw [this, BitVec.toNat_add, e]
      simp
    · have : (c.eval r a f).abs = c.abs := by
        by_cases h1 : r > c.last <;> simp only [Ctr.eval, hf, hr, h1, Bool.not_false, if_true, if_false]
      rw [this]
      have h2 : ¬ c.absLast.toNat < a.toNat := fun h => hr (BitVec.lt_def.mpr h)
      have := c.abs.isLt
      rw [Nat.sub_eq_zero_of_le (by omega)]
      omega
  · have := c.abs.isLt
    simp [Ctr.absKnown, hf, increases_one, Ctr.eval]
    omega

theorem absKnown_length (c : Ctr) : c.absKnown.length ≤ 1 := by
  unfold Ctr.absKnown; split <;> simp

theorem run_abs (post : List Op) : ∀ c : Ctr, (∀ o ∈ post, KeepsAbsolute o) →
    (c.run post).abs.toNat = (c.abs.toNat + increases (c.absKnown ++ absReadings post)) % 2 ^ 32 := by
  induction post with
  | nil =>
    intro c _
    have := c.abs.isLt
    have e : increases c.absKnown = 0 := by unfold Ctr.absKnown; split <;> simp [increases_nil, increases_one]
    simp only [Ctr.run, List.foldl_nil, absReadings, List.filterMap_nil, List.append_nil, e]
    omega
  | cons o post ih =>
    intro c hk
    have hk' : ∀ o ∈ post, KeepsAbsolute o := fun x hx => hk x (List.mem_cons_of_mem _ hx)
    have ho := hk o List.mem_cons_self
    cases o with
    | eval r a f =>
      have hr : absReadings (.eval r a f :: post) = a.toNat :: absReadings post := rfl
      rw [hr, increases_append_cons _ (absKnown_length c)]
      show ((c.eval r a f).run post).abs.toNat = _
      rw [ih _ hk', absKnown_eval, eval_abs]
      simp only [List.cons_append, List.nil_append]
      omega
    | absReset => exact absurd rfl ho.2.1
    | set v a f => exact absurd rfl (ho.1 v a f)
    | cmdAbs a => exact absurd rfl (ho.2.2 a)
    | reset => exact ih c.reset hk'
    | start => exact ih c.start hk'
    | pause => exact ih c.pause hk'
    | cmdFlow f => exact ih (c.cmdFlow f) hk'

theorem run_absKnown (pre : List Op) : ∀ c : Ctr,
    (c.run pre).absKnown = (match (absReadings pre).getLast? with | some x => [x] | none => c.absKnown) := by
  induction pre with
  | nil => intro c; rfl
  | cons o pre ih =>
    intro c
    show ((c.step o).run pre).absKnown = _
    rw [ih]
    cases o with
    | eval r a f =>
      have hr : absReadings (.eval r a f :: pre) = a.toNat :: absReadings pre := rfl
      rw [hr, getLast_cons_toList]
      show (match (absReadings pre).getLast? with | some x => [x] | none => (c.eval r a f).absKnown) = _
      rw [absKnown_eval]
    | _ => rfl

theorem run_absKnown_init (pre : List Op) :
    (({} : Ctr).run pre).absKnown = (absReadings pre).getLast?.toList := by
  rw [run_absKnown]
  cases (absReadings pre).getLast? <;> rfl

/-! Rounding never loses what was there. -/

/-- A number that is a `float`. -/
def IsFloat (v : Nat) : Prop := ∃ m k, m < 2 ^ 24 ∧ v = m * 2 ^ k

theorem rnd_isFloat (n : Nat) : IsFloat (rnd n) := by
  unfold rnd
  by_cases h : n < 2 ^ 24
  · rw [if_pos h]; exact ⟨n, 0, h, by simp⟩
  · rw [if_neg h]
    have hn : n ≠ 0 := by omega
    have hlog : 24 ≤ Nat.log 2 n := Nat.le_log_of_pow_le (by norm_num) (by omega)
    have hq : n / 2 ^ (Nat.log 2 n - 23) < 2 ^ 24 := by
      rw [Nat.div_lt_iff_lt_mul (by positivity), ← pow_add]
      have := Nat.lt_pow_succ_log_self (b := 2) (by norm_num) n
      have e : 24 + (Nat.log 2 n - 23) = Nat.log 2 n + 1 := by omega
      rw [e]; exact this
    simp only
    split
    · by_cases hq' : n / 2 ^ (Nat.log 2 n - 23) + 1 < 2 ^ 24
      · exact ⟨_, _, hq', rfl⟩
      · refine ⟨1, 24 + (Nat.log 2 n - 23), by norm_num, ?_⟩
        have : n / 2 ^ (Nat.log 2 n - 23) + 1 = 2 ^ 24 := by omega
        rw [this, pow_add, one_mul]
    · exact ⟨_, _, hq, rfl⟩

theorem le_rnd {v n : Nat} (hv : IsFloat v) (h : v ≤ n) : v ≤ rnd n := by
  unfold rnd
  by_cases hn : n < 2 ^ 24
  · rw [if_pos hn]; exact h
  · rw [if_neg hn]
    obtain ⟨m, k, hm, rfl⟩ := hv
    have hlog : 24 ≤ Nat.log 2 n := Nat.le_log_of_pow_le (by norm_num) (by omega)
    have hlow : 2 ^ Nat.log 2 n ≤ n := Nat.pow_log_le_self 2 (by omega)
    generalize hL : Nat.log 2 n = L at *
    have key : m * 2 ^ k ≤ n / 2 ^ (L - 23) * 2 ^ (L - 23) := by
      by_cases hk : L - 23 ≤ k
      · have e : 2 ^ k = 2 ^ (k - (L - 23)) * 2 ^ (L - 23) := by rw [← pow_add]; congr 1; omega
        rw [e, ← mul_assoc]
        apply Nat.mul_le_mul_right
        rw [Nat.le_div_iff_mul_le (by positivity), mul_assoc, ← e]
        exact h
      · have h1 : m * 2 ^ k ≤ 2 ^ 24 * 2 ^ k := Nat.mul_le_mul_right _ (by omega)
        have h2 : (2 : Nat) ^ 24 * 2 ^ k ≤ 2 ^ L := by
          rw [← pow_add]; exact Nat.pow_le_pow_right (by norm_num) (by omega)
        have h3 : 2 ^ 23 ≤ n / 2 ^ (L - 23) := by
          rw [Nat.le_div_iff_mul_le (by positivity), ← pow_add]
          have e : 23 + (L - 23) = L := by omega
          rw [e]; exact hlow
        have h4 : (2 : Nat) ^ 23 * 2 ^ (L - 23) = 2 ^ L := by rw [← pow_add]; congr 1; omega
        have h5 := Nat.mul_le_mul_right (2 ^ (L - 23)) h3
        omega
    simp only
    split
    · exact Nat.le_trans key (Nat.mul_le_mul_right _ (by omega))
    · exact key

theorem isFloat_step (c : Ctr) (h : IsFloat c.value) (o : Op) : IsFloat (c.step o).value := by
  cases o with
  | eval r a f =>
    show IsFloat (c.eval r a f).value
    by_cases hf : c.first = true
    · simp only [Ctr.eval, hf, Bool.not_true, Bool.false_eq_true, if_false]; exact h
    · by_cases h1 : r > c.last <;> by_cases h2 : a > c.absLast <;>
        simp only [Ctr.eval, hf, h1, h2, Bool.not_false, if_true, if_false] <;>
        first | exact h | exact rnd_isFloat _
  | reset => exact ⟨0, 0, by norm_num, rfl⟩
  | set v a f => exact rnd_isFloat _
  | _ => exact h

theorem isFloat_run (ops : List Op) : ∀ c : Ctr, IsFloat c.value → IsFloat (c.run ops).value := by
  induction ops with
  | nil => exact fun _ h => h
  | cons o ops ih => exact fun c h => ih _ (isFloat_step c h o)

theorem value_le_eval (c : Ctr) (h : IsFloat c.value) (r a : BitVec 32) (f : Rat) :
    c.value ≤ (c.eval r a f).value := by
  by_cases hf : c.first = true
  · simp only [Ctr.eval, hf, Bool.not_true, Bool.false_eq_true, if_false]; exact Nat.le_refl _
  · by_cases h1 : r > c.last <;> by_cases h2 : a > c.absLast <;>
      simp only [Ctr.eval, hf, h1, h2, Bool.not_false, if_true, if_false] <;>
      first | exact Nat.le_refl _ | exact le_rnd h (Nat.le_add_right _ _)

end Ptusa.Counter
