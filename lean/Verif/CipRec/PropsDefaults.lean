import Verif.CipRec.Props
import Mathlib.Data.Rat.Floor
import Mathlib.Tactic.Ring
import Mathlib.Tactic.Positivity

/-!
# The default values of a recipe and the number of an order (C84)
-/
namespace Ptusa.CipRec

open Ptusa.Text (Byte Plain toUtf8)
open Ptusa.Valve (Tm)

/-- The number that the bits of a `float` mean (binary32, not for infinities and NaN). -/
def floatVal (w : BitVec 32) : Rat :=
  let e := (w.extractLsb' 23 8).toNat
  let m := (w.extractLsb' 0 23).toNat
  (if w.getLsbD 31 then -1 else 1) * (if e = 0 then (m : Rat) / 2 ^ 149 else ((2 ^ 23 + m : Nat) : Rat) * 2 ^ e / 2 ^ 150)

/-- The values that `ResetRecipeToDefaults` is to set, in plain numbers (mcaRec.cpp lines 245-360; volumes in litres, temperatures, times in
seconds, parameters of the regulators); from 70 on all are 0. -/
def factory (k : Nat) : Rat :=
  ([0, 0, 200, 200, 1, 15, 0, 10, 30, 30, 30, 5, 80, 70, 90, 60, 200, 200, 200, 200, 40, 15, 30, 300, 600, 600, 500, 500, 600,
    600, 120, 0, 0, 0, 0, 0, 5, 600, 30, 500, 30, 8, 15, 2, 20, 20, 20, 95, 2, 30, 1/5, 500, 130, 0, 30, 0, 30, 0, 15, 1/2, 10,
    1/10, 1000, 40, 0, 2, 0, 15, 0, 300] : List Rat).getD k 0

theorem defaults_factory : ∀ k < 120, k ≠ 82 → ∃ w ∈ defaults.lookup k, unset w = w ∧
    floatVal w - factory k < 1 / 10 ^ 8 ∧ factory k - floatVal w < 1 / 10 ^ 8 := by
  have h : ∀ k < 120, k ≠ 82 → (defaults.lookup k).any (fun w => decide (unset w = w ∧
      floatVal w - factory k < 1 / 10 ^ 8 ∧ factory k - floatVal w < 1 / 10 ^ 8)) = true := by decide +kernel
  intro k hk h82
  have := h k hk h82
  rw [Option.any_eq_true] at this
  obtain ⟨w, h1, h2⟩ := this
  exact ⟨w, by simp [h1], by simpa using h2⟩

/-- The order 1 sets every value of the current recipe but the number 82 to its default (0.2 and 0.1 rounded to a `float`),
whatever it was; other recipes keep theirs.  Missing: the value 82. -/
theorem C84_defaults_partial (t0 : Tm) (es : List (Tm × List Byte × Act)) (hes : History es) (s : St)
    (hs : history t0 es = some s) (now now' : Tm) (w : Nat) (hw : DiskOk w) :
    ∃ s1 s2, s.step ⟨now, junk, (Act.par 1 0x3F800000).op⟩ = some s1 ∧ s1.step ⟨now', junk, (Act.eval w).op⟩ = some s2 ∧
      s2.cur = s.cur ∧
      (∀ k : Nat, k < 120 → k ≠ 82 → ∃ v, getValue s2.mem s.cur k = some v ∧
        floatVal v - factory k < 1 / 10 ^ 8 ∧ factory k - floatVal v < 1 / 10 ^ 8) ∧
      ∀ r k : Nat, r < 25 → k < 120 → r ≠ s.cur → getValue s2.mem r k = getValue s.mem r k := by
  obtain ⟨s0, h1, h2⟩ := reach t0 es hes
  obtain rfl : s0 = s := by simpa [history, h1] using hs
  generalize (Screen.start .empty t0).run es = x at h2
  obtain ⟨s1, h3, h4⟩ := Sim.step h2 now junk (by simp [junk]) (.par 1 0x3F800000) (show ValOk 1 _ by decide)
  obtain ⟨s2, h5, h6⟩ := Sim.step h4 now' junk (by simp [junk]) (.eval w) hw
  refine ⟨s1, s2, h3, h5, ?_, ?_⟩
  all_goals
    obtain ⟨y, he, hp⟩ := eval_pre (x.set now x.cur 1 0x3F800000) now' w
    have hy : y.cur = x.cur := hp.cur
    have hyv : y.tab.val = fun r k => if r = x.cur ∧ k = 1 then 0x3F800000 else x.tab.val r k := by
      rw [hp.val]; rfl
    have hc : y.command now' = (y.order now' 1).set now' y.cur 1 0 := by
      unfold Screen.command
      have : y.tab.val y.cur 1 = 0x3F800000 := by rw [hy, hyv]; simp
      rw [this, if_pos (by decide), show trunc 0x3F800000 = some 1 by decide]
    have hv : ((x.step now (.par 1 0x3F800000)).step now' (.eval w)).tab.val = fun r k =>
        if r = x.cur ∧ k = 1 then 0 else if r = x.cur then (defaults.lookup k).getD (x.tab.val r k) else x.tab.val r k := by
      show ((x.set now x.cur 1 0x3F800000).eval now' w).tab.val = _
      rw [he, hc]
      funext r k
      simp only [Screen.set, Table.setVal, Screen.order, if_true, Table.setRec, hy, hyv]
      by_cases hr : r = x.cur
      · subst hr
        by_cases hk : k = 1
        · simp [hk]
        · simp [hk]
      · simp [hr]
  · rw [h6.cur, h2.cur]
    show ((x.set now x.cur 1 0x3F800000).eval now' w).cur = _
    rw [he, hc]
    exact hy
  · refine ⟨fun k hk h82 => ?_, fun r k hr hk hne => ?_⟩
    · obtain ⟨v, d1, d2, d3⟩ := defaults_factory k hk h82
      refine ⟨v, ?_, d3⟩
      rw [h2.cur, h6.mem.getValue _ k h2.lt hk, hv]
      by_cases h1 : k = 1
      · subst h1
        have : defaults.lookup 1 = some 0 := by decide +kernel
        rw [this] at d1
        obtain rfl : (0 : BitVec 32) = v := by simpa using d1
        simp [unset]
      · simp only [h1, and_false, if_false, if_true]
        rw [show defaults.lookup k = some v from d1]
        simp [d2]
    · rw [h6.mem.getValue _ _ hr hk, h2.mem.getValue _ _ hr hk, hv]
      rw [h2.cur] at hne
      simp [hne]

example : History [(0, junk, .par 5 0x42280000), (1, junk, .goto 3), (2, junk, .par 50 0)] := by decide

/-- The number of an order is the whole part of the value, for all values of an `int`; other values are not defined. -/
theorem C84_order_number (w : BitVec 32) (hn : (w.extractLsb' 23 8).toNat ≠ 255) :
    (∀ c, trunc w = some c → (c : Rat) = (if w.getLsbD 31 then -1 else 1) * ((⌊|floatVal w|⌋ : Int) : Rat) ∧
      |floatVal w| ≤ 2 ^ 31) ∧
    (trunc w = none → 2 ^ 31 ≤ |floatVal w|) := by
  have habs : |floatVal w| = if (w.extractLsb' 23 8).toNat = 0 then ((w.extractLsb' 0 23).toNat : Rat) / 2 ^ 149
      else ((2 ^ 23 + (w.extractLsb' 0 23).toNat : Nat) : Rat) * 2 ^ (w.extractLsb' 23 8).toNat / 2 ^ 150 := by
    unfold floatVal
    dsimp only
    rw [abs_mul]
    have h1 : |(if w.getLsbD 31 = true then (-1 : Rat) else 1)| = 1 := by split <;> simp
    rw [h1, one_mul, abs_of_nonneg]
    split <;> positivity
  have hm : (w.extractLsb' 0 23).toNat < 2 ^ 23 := (w.extractLsb' 0 23).isLt
  rw [habs]
  unfold trunc
  dsimp only
  generalize (w.extractLsb' 0 23).toNat = m at *
  generalize (w.extractLsb' 23 8).toNat = e at *
  generalize w.getLsbD 31 = s at *
  clear habs
  have small : e < 127 → (if e = 0 then (m : Rat) / 2 ^ 149 else ((2 ^ 23 + m : Nat) : Rat) * 2 ^ e / 2 ^ 150) < 1 ∧
      0 ≤ (if e = 0 then (m : Rat) / 2 ^ 149 else ((2 ^ 23 + m : Nat) : Rat) * 2 ^ e / 2 ^ 150) := fun he => by
    refine ⟨?_, by split <;> positivity⟩
    split
    · rw [div_lt_one (by positivity)]
      have : (m : Rat) < 2 ^ 23 := by exact_mod_cast hm
      linarith [show (2 : Rat) ^ 23 ≤ 2 ^ 149 from by norm_num]
    · rw [div_lt_one (by positivity)]
      have h1 : (2 ^ 23 + m) * 2 ^ e < 2 ^ 150 := by
        calc (2 ^ 23 + m) * 2 ^ e < 2 ^ 24 * 2 ^ e := by
              apply Nat.mul_lt_mul_of_pos_right
              · omega
              · positivity
          _ ≤ 2 ^ 24 * 2 ^ 126 := Nat.mul_le_mul_left _ (Nat.pow_le_pow_right (by norm_num) (by omega))
          _ = 2 ^ 150 := by norm_num
      exact_mod_cast h1
  have large : 127 ≤ e → (if e = 0 then (m : Rat) / 2 ^ 149 else ((2 ^ 23 + m : Nat) : Rat) * 2 ^ e / 2 ^ 150) =
      (((2 ^ 23 + m) * 2 ^ (e - 127) : Nat) : Rat) / (2 ^ 23 : Nat) := fun he => by
    rw [if_neg (by omega)]
    obtain ⟨d, rfl⟩ : ∃ d, e = 127 + d := ⟨e - 127, by omega⟩
    rw [Nat.add_sub_cancel_left]
    push_cast
    rw [pow_add]
    ring
  by_cases h1 : e < 127
  · obtain ⟨a, b⟩ := small h1
    rw [if_pos h1]
    refine ⟨fun c hc => ?_, fun hc => by cases hc⟩
    obtain rfl : 0 = c := by simpa using hc
    rw [Int.floor_eq_zero_iff.2 ⟨b, a⟩]
    exact ⟨by simp, by linarith [show (1 : Rat) ≤ 2 ^ 31 from by norm_num]⟩
  · rw [if_neg h1, large (by omega)]
    by_cases h2 : e < 158
    · rw [if_pos h2]
      refine ⟨fun c hc => ?_, fun hc => by cases hc⟩
      obtain rfl := Option.some.inj hc
      have hfl : ⌊(((2 ^ 23 + m) * 2 ^ (e - 127) : Nat) : Rat) / (2 ^ 23 : Nat)⌋ = (((2 ^ 23 + m) * 2 ^ (e - 127) / 2 ^ 23 : Nat) : Int) := by
        rw [Rat.floor_natCast_div_natCast, Int.natCast_div]
      rw [hfl]
      refine ⟨by cases s <;> simp, ?_⟩
      rw [div_le_iff₀ (by positivity)]
      have h3 : (2 ^ 23 + m) * 2 ^ (e - 127) ≤ 2 ^ 31 * 2 ^ 23 := by
        calc (2 ^ 23 + m) * 2 ^ (e - 127) ≤ 2 ^ 24 * 2 ^ 30 :=
              Nat.mul_le_mul (by omega) (Nat.pow_le_pow_right (by norm_num) (by omega))
          _ = 2 ^ 31 * 2 ^ 23 := by norm_num
      exact_mod_cast h3
    · have big : (2 : Rat) ^ 31 ≤ (((2 ^ 23 + m) * 2 ^ (e - 127) : Nat) : Rat) / (2 ^ 23 : Nat) := by
        rw [le_div_iff₀ (by positivity)]
        have h3 : 2 ^ 31 * 2 ^ 23 ≤ (2 ^ 23 + m) * 2 ^ (e - 127) := by
          calc 2 ^ 31 * 2 ^ 23 = 2 ^ 23 * 2 ^ 31 := by norm_num
            _ ≤ (2 ^ 23 + m) * 2 ^ (e - 127) := Nat.mul_le_mul (by omega) (Nat.pow_le_pow_right (by norm_num) (by omega))
        exact_mod_cast h3
      rw [if_neg h2]
      refine ⟨fun c hc => ?_, fun _ => big⟩
      split at hc
      next h3 =>
        obtain ⟨rfl, rfl, rfl⟩ := h3
        obtain rfl : (-2147483648) = c := by simpa using hc
        norm_num
      next => cases hc

example : trunc 0x40400000 = some 3 ∧ floatVal 0x40400000 = 3 ∧ trunc 0xC0200000 = some (-2) ∧ floatVal 0xC0200000 = -5 / 2 ∧
    trunc 0x4F000000 = none := by decide +kernel

end Ptusa.CipRec
