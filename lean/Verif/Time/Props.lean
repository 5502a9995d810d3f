import Verif.Time.Model

/-!
# C07: elapsed time
-/
namespace Ptusa.Time

/-- The counter of `w` bits after `e` milliseconds have passed since it showed `t`. -/
def counterAfter {w : Nat} (t : BitVec w) (e : Nat) : BitVec w := t + BitVec.ofNat w e

/-- C07 is false of the code: after a wrap of the counter the result is one too large. -/
theorem C07_elapsed_exact_violated :
    ¬ ∀ (t : BitVec 32) (e : Nat), e < 2 ^ 32 → (deltaMs (counterAfter t e) t).toNat = e := by
  intro h
  have := h 4294967295 10 (by decide)
  revert this
  decide

/-- C07 as long as the counter did not wrap (missing: the wrapped case, where it is false):
the exact number of milliseconds, for the 32-bit and the 64-bit counter. -/
theorem C07_elapsed_exact_partial :
    (∀ (t : BitVec 32) (e : Nat), t.toNat + e < 2 ^ 32 →
      (deltaMs (counterAfter t e) t).toNat = e) ∧
    (∀ (t : BitVec 64) (e : Nat), t.toNat + e < 2 ^ 64 →
      (deltaMs (counterAfter t e) t).toNat = e) := by
  constructor
  all_goals
    intro t e h
    have ht := t.isLt
    have hc : (counterAfter t e).toNat = t.toNat + e := by
      simp [counterAfter]; omega
    have h1 : ¬ counterAfter t e < t := by rw [BitVec.lt_def]; omega
    have h2 : t ≤ counterAfter t e := by rw [BitVec.le_def]; omega
    simp only [deltaMs, h1, h2, if_false, if_true]
    rw [BitVec.toNat_sub, hc]
    omega

example : (4294967000 : BitVec 32).toNat + 200 < 2 ^ 32 := by decide

/-- C07 after a wrap: the error is exactly one millisecond, unless the interval is within two
milliseconds of a full period. -/
theorem C07_wrap_error_is_one_partial :
    (∀ (t : BitVec 32) (e : Nat), 2 ^ 32 ≤ t.toNat + e → e + 2 < 2 ^ 32 →
      (deltaMs (counterAfter t e) t).toNat = e + 1) ∧
    (∀ (t : BitVec 64) (e : Nat), 2 ^ 64 ≤ t.toNat + e → e + 2 < 2 ^ 64 →
      (deltaMs (counterAfter t e) t).toNat = e + 1) := by
  constructor
  · intro t e h h2
    have ht := t.isLt
    have hc : (counterAfter t e).toNat = t.toNat + e - 2 ^ 32 := by
      simp [counterAfter]; omega
    have h3 : (counterAfter t e + 2).toNat = t.toNat + e - 2 ^ 32 + 2 := by
      rw [BitVec.toNat_add, hc]; simp; omega
    have h4 : counterAfter t e < t := by rw [BitVec.lt_def]; omega
    have h5 : ¬ t ≤ counterAfter t e + 2 := by rw [BitVec.le_def]; omega
    simp only [deltaMs, h4, h5, if_false, if_true]
    rw [BitVec.toNat_add, h3, BitVec.toNat_sub,
      BitVec.toNat_allOnes]
    omega
  · intro t e h h2
    have ht := t.isLt
    have hc : (counterAfter t e).toNat = t.toNat + e - 2 ^ 64 := by
      simp [counterAfter]; omega
    have h3 : (counterAfter t e + 2).toNat = t.toNat + e - 2 ^ 64 + 2 := by
      rw [BitVec.toNat_add, hc]; simp; omega
    have h4 : counterAfter t e < t := by rw [BitVec.lt_def]; omega
    have h5 : ¬ t ≤ counterAfter t e + 2 := by rw [BitVec.le_def]; omega
    simp only [deltaMs, h4, h5, if_false, if_true]
    rw [BitVec.toNat_add, h3, BitVec.toNat_sub,
      BitVec.toNat_allOnes]
    omega

example : 2 ^ 32 ≤ (4294967295 : BitVec 32).toNat + 10 ∧ 10 + 2 < 2 ^ 32 := by decide

/-- What the `+ 2` of the code is for: a clock that runs back by one or two milliseconds gives
an elapsed time of at most one millisecond instead of a huge one. -/
theorem C07_small_backward_jitter_tolerated :
    (∀ (t : BitVec 32) (b : Nat), 1 ≤ b → b ≤ 2 → b ≤ t.toNat →
      (deltaMs (t - BitVec.ofNat 32 b) t).toNat ≤ 1) ∧
    (∀ (t : BitVec 64) (b : Nat), 1 ≤ b → b ≤ 2 → b ≤ t.toNat →
      (deltaMs (t - BitVec.ofNat 64 b) t).toNat ≤ 1) := by
  constructor
  all_goals
    intro t b h1 h2 h3
    have ht := t.isLt
    have hb : (t - BitVec.ofNat _ b).toNat = t.toNat - b := by
      rw [BitVec.toNat_sub, BitVec.toNat_ofNat]; omega
    have h4 : t - BitVec.ofNat _ b < t := by rw [BitVec.lt_def, hb]; omega
    simp only [deltaMs, h4, if_true]
    split
    · rename_i hle
      rw [BitVec.le_def] at hle
      rw [BitVec.toNat_sub, BitVec.toNat_add, hb]
      rw [BitVec.toNat_add, hb] at hle
      simp at hle ⊢
      omega
    · rename_i hle
      rw [BitVec.le_def] at hle
      rw [BitVec.toNat_add, BitVec.toNat_add, hb, BitVec.toNat_sub, BitVec.toNat_allOnes]
      rw [BitVec.toNat_add, hb] at hle
      simp at hle ⊢
      omega

example : 2 ≤ (1000 : BitVec 64).toNat := by decide

/-! ### C45: elapsed time of a step on a 64-bit clock -/

/-- C45 during the first 2^32 milliseconds of uptime (missing: later, where it is false): the elapsed
time of a step is exact. -/
theorem C45_step_elapsed_partial (t0 : BitVec 64) (e : Nat) (h : t0.toNat + e < 2 ^ 64)
    (ht : t0.toNat < 2 ^ 32) : (stepElapsed t0 (counterAfter t0 e)).toNat = e := by
  have h0 : (t0.truncate 32).zeroExtend 64 = t0 := by
    apply BitVec.eq_of_toNat_eq
    simp
    omega
  unfold stepElapsed
  rw [h0]
  exact C07_elapsed_exact_partial.2 t0 e h

example : (4294900000 : BitVec 64).toNat + 100000 < 2 ^ 64 ∧ (4294900000 : BitVec 64).toNat < 2 ^ 32 := by
  decide

/-- C45 is false of the code: a step started after 2^32 milliseconds (49.7 days) of uptime has at once
been running for at least 2^32 milliseconds, so every time limit has passed. -/
theorem C45_step_elapsed_late (t0 : BitVec 64) (e : Nat) (h : t0.toNat + e < 2 ^ 64)
    (ht : 2 ^ 32 ≤ t0.toNat) :
    2 ^ 32 + e ≤ (stepElapsed t0 (counterAfter t0 e)).toNat := by
  have hm : ((t0.truncate 32).zeroExtend 64).toNat = t0.toNat % 2 ^ 32 := by
    simp
    omega
  have hc : (counterAfter t0 e).toNat = t0.toNat + e := by
    simp [counterAfter]; omega
  have h1 : ¬ counterAfter t0 e < (t0.truncate 32).zeroExtend 64 := by
    rw [BitVec.lt_def, hm, hc]; omega
  have h2 : (t0.truncate 32).zeroExtend 64 ≤ counterAfter t0 e := by
    rw [BitVec.le_def, hm, hc]; omega
  simp only [stepElapsed, deltaMs, h1, h2, if_false, if_true]
  rw [BitVec.toNat_sub, hm, hc]
  omega

/-- C45 is false of the code. -/
theorem C45_step_elapsed_violated :
    ¬ ∀ (t0 : BitVec 64) (e : Nat), t0.toNat + e < 2 ^ 64 →
      (stepElapsed t0 (counterAfter t0 e)).toNat = e := by
  intro h
  have := h 4294967296 0 (by decide)
  revert this
  decide

end Ptusa.Time
