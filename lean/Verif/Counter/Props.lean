import Verif.Counter.Lemmas

/-!
# C37: virtual counter
-/
namespace Ptusa.Counter

/-- **C37** (part: up to 2^24 units) Whatever happened before, after the counter was set to `v` it shows `v` plus the
sum of all increases of the source since, through any further readings, source resets, pauses and starts and changes
of the absolute counter. -/
theorem C37_relative_partial (pre post : List Op) (v a : BitVec 32) (f : Rat)
    (hpost : ∀ o ∈ post, KeepsRelative o) (hle : v.toNat + since (readings pre) (readings post) ≤ 2 ^ 24) :
    (({} : Ctr).run (pre ++ [.set v a f] ++ post)).quantity =
      some (v.toNat + since (readings pre) (readings post)) := by
  have hk : ((({} : Ctr).run pre).set v a f).known = (readings pre).getLast?.toList := run_known_init pre
  have hv : ((({} : Ctr).run pre).set v a f).value = v.toNat := rnd_small (by omega)
  have h := run_value post ((({} : Ctr).run pre).set v a f) hpost (by rw [hk, hv]; exact hle)
  rw [hk, hv] at h
  have e : ({} : Ctr).run (pre ++ [.set v a f] ++ post) = ((({} : Ctr).run pre).set v a f).run post := by
    rw [List.append_assoc, run_append]; rfl
  rw [e]
  unfold Ctr.quantity
  rw [h]
  have hle' : v.toNat + increases ((readings pre).getLast?.toList ++ readings post) ≤ 2 ^ 24 := hle
  rw [if_pos (by omega)]
  rfl

/-- **C37** (part as above) The same after a reset, from zero. -/
theorem C37_reset_partial (pre post : List Op)
    (hpost : ∀ o ∈ post, KeepsRelative o) (hle : since (readings pre) (readings post) ≤ 2 ^ 24) :
    (({} : Ctr).run (pre ++ [.reset] ++ post)).quantity = some (since (readings pre) (readings post)) := by
  have hk : (({} : Ctr).run pre).reset.known = (readings pre).getLast?.toList := run_known_init pre
  have hv : (({} : Ctr).run pre).reset.value = 0 := rfl
  have h := run_value post (({} : Ctr).run pre).reset hpost (by rw [hk, hv, Nat.zero_add]; exact hle)
  rw [hk, hv, Nat.zero_add] at h
  have e : ({} : Ctr).run (pre ++ [.reset] ++ post) = (({} : Ctr).run pre).reset.run post := by
    rw [List.append_assoc, run_append]; rfl
  rw [e]
  unfold Ctr.quantity
  rw [h]
  have hle' : increases ((readings pre).getLast?.toList ++ readings post) ≤ 2 ^ 24 := hle
  rw [if_pos (by omega)]
  rfl

/-- Ten units pass, the source restarts, three more pass; then a pause, which does not matter. -/
example : (({} : Ctr).run ([.eval 100 0 0] ++ [.reset] ++
    [.eval 110 0 0, .eval 2 0 0, .pause, .eval 5 0 0])).quantity = some 13 := by decide +kernel

/-- **C37** The absolute counter shows, modulo its range of 2^32, the value it was set to plus the sum of all increases
of the absolute source reading since, whatever happens to the relative counter. -/
theorem C37_absolute (pre post : List Op) (v a : BitVec 32) (f : Rat) (hpost : ∀ o ∈ post, KeepsAbsolute o) :
    (({} : Ctr).run (pre ++ [.set v a f] ++ post)).absQuantity =
      (a.toNat + since (absReadings pre) (absReadings post)) % 2 ^ 32 ∧
    (({} : Ctr).run (pre ++ [.absReset] ++ post)).absQuantity =
      since (absReadings pre) (absReadings post) % 2 ^ 32 := by
  have h1 := run_abs post ((({} : Ctr).run pre).set v a f) hpost
  have h2 := run_abs post (({} : Ctr).run pre).absReset hpost
  have k1 : ((({} : Ctr).run pre).set v a f).absKnown = (absReadings pre).getLast?.toList := run_absKnown_init pre
  have k2 : (({} : Ctr).run pre).absReset.absKnown = (absReadings pre).getLast?.toList := run_absKnown_init pre
  rw [k1] at h1
  rw [k2] at h2
  have z : (({} : Ctr).run pre).absReset.abs.toNat = 0 := rfl
  rw [z, Nat.zero_add] at h2
  constructor
  · rw [List.append_assoc, run_append]; exact h1
  · rw [List.append_assoc, run_append]; exact h2

example : (({} : Ctr).run ([.eval 1 7 0, .reset] ++ [.absReset] ++ [.eval 2 9 0, .reset, .eval 0 3 0, .eval 1 4 0])
    ).absQuantity = 3 := by decide +kernel

/-- **C37** In every history a reading never reduces the relative value, and never changes it when the source did not
grow; a reset touches nothing but the relative value. -/
theorem C37_never_reduced (ops : List Op) (r a : BitVec 32) (f : Rat) :
    (({} : Ctr).run ops).value ≤ (({} : Ctr).run (ops ++ [.eval r a f])).value ∧
    (∀ l, (readings ops).getLast? = some l → r.toNat ≤ l →
      (({} : Ctr).run (ops ++ [.eval r a f])).value = (({} : Ctr).run ops).value) ∧
    (({} : Ctr).run (ops ++ [.reset])) = { (({} : Ctr).run ops) with value := 0 } := by
  have e : ({} : Ctr).run (ops ++ [.eval r a f]) = (({} : Ctr).run ops).eval r a f := run_append _ _ _
  refine ⟨?_, ?_, run_append _ _ _⟩
  · rw [e]; exact value_le_eval _ (isFloat_run ops _ ⟨0, 0, by norm_num, rfl⟩) r a f
  · intro l hl hr
    rw [e]
    have hk := run_known_init ops
    rw [hl] at hk
    unfold Ctr.known at hk
    by_cases hf : (({} : Ctr).run ops).first = true
    · rw [if_pos hf] at hk; exact absurd hk (by simp)
    · rw [if_neg hf] at hk
      have hk' : (({} : Ctr).run ops).last.toNat = l := by simpa using hk
      have hn : ¬ r > (({} : Ctr).run ops).last := fun h => by
        have := BitVec.lt_def.mp h
        omega
      by_cases h2 : a > (({} : Ctr).run ops).absLast <;>
        simp only [Ctr.eval, hf, hn, h2, Bool.not_false, if_true, if_false]

example : (readings [.eval 9 0 0, .pause]).getLast? = some 9 := by decide

/-- **C37 is false of the code** above 2^24 units: the value is a `float`, so from there on a source that grows by one
unit at a time is not counted any more, however long it goes on. -/
theorem C37_stuck_violated (n : Nat) (hn : n < 2 ^ 32) :
    let ops := [Op.set (2 ^ 24) 0 0] ++ (List.range (n + 1)).map fun i => .eval (BitVec.ofNat 32 i) 0 0
    (({} : Ctr).run ops).quantity = some (2 ^ 24) ∧ since [] (readings ops) = n := by
  intro ops
  have hone : rnd (2 ^ 24 + rnd 1) = 2 ^ 24 := by decide +kernel
  have key : ∀ n, n < 2 ^ 32 → ∃ c : Ctr,
      ({} : Ctr).run ([Op.set (2 ^ 24) 0 0] ++ (List.range (n + 1)).map fun i => .eval (BitVec.ofNat 32 i) 0 0) = c ∧
      c.value = 2 ^ 24 ∧ c.first = false ∧ c.last = BitVec.ofNat 32 n := by
    intro n
    induction n with
    | zero => intro _; exact ⟨_, rfl, by decide +kernel, by decide +kernel, by decide +kernel⟩
    | succ n ih =>
      intro hn
      obtain ⟨c, hc, hv, hf, hl⟩ := ih (by omega)
      refine ⟨_, rfl, ?_⟩
      rw [List.range_succ (n := n + 1), List.map_append, ← List.append_assoc, run_append, hc]
      show (c.eval (BitVec.ofNat 32 (n + 1)) 0 0).value = _ ∧ (c.eval (BitVec.ofNat 32 (n + 1)) 0 0).first = _ ∧
        (c.eval (BitVec.ofNat 32 (n + 1)) 0 0).last = _
      have hgt : BitVec.ofNat 32 (n + 1) > c.last := by
        rw [hl]
        show BitVec.ofNat 32 n < BitVec.ofNat 32 (n + 1)
        rw [BitVec.lt_def, BitVec.toNat_ofNat, BitVec.toNat_ofNat, Nat.mod_eq_of_lt (by omega),
          Nat.mod_eq_of_lt hn]
        omega
      have hd : (BitVec.ofNat 32 (n + 1) - c.last).toNat = 1 := by
        rw [sub_toNat hgt, hl, BitVec.toNat_ofNat, BitVec.toNat_ofNat, Nat.mod_eq_of_lt hn,
          Nat.mod_eq_of_lt (show n < 2 ^ 32 by omega)]
        omega
      by_cases h2 : (0 : BitVec 32) > c.absLast <;>
        simp only [Ctr.eval, hf, hgt, h2, Bool.not_false, if_true, if_false, hd, hv, hone, and_self]
  obtain ⟨c, hc, hv, _, _⟩ := key n hn
  refine ⟨?_, ?_⟩
  · show (({} : Ctr).run ([Op.set (2 ^ 24) 0 0] ++ _)).quantity = _
    rw [hc]
    unfold Ctr.quantity
    rw [hv]
    rfl
  · have hr : ∀ m, m ≤ 2 ^ 32 → readings ((List.range m).map fun i => .eval (BitVec.ofNat 32 i) 0 0) =
        List.range m := by
      intro m hm
      induction m with
      | zero => rfl
      | succ m ih =>
        have ih' := ih (by omega)
        unfold readings at ih' ⊢
        rw [List.range_succ, List.map_append, List.filterMap_append, ih']
        simp only [List.map_cons, List.map_nil, List.filterMap_cons, List.filterMap_nil, BitVec.toNat_ofNat]
        rw [Nat.mod_eq_of_lt (by omega)]
    have h1 : readings ops = List.range (n + 1) := by
      show readings ([Op.set (2 ^ 24) 0 0] ++ _) = _
      exact hr (n + 1) (by omega)
    rw [h1]
    have hinc : ∀ n, increases (List.range (n + 1)) = n := by
      intro n
      have gen : ∀ k m, increases ((List.range' k (m + 1))) = m := by
        intro k m
        induction m generalizing k with
        | zero => simp [List.range', increases_one]
        | succ m ih =>
          show increases (k :: (k + 1) :: List.range' (k + 1 + 1) m) = _
          rw [increases_two]
          have := ih (k + 1)
          have e : List.range' (k + 1) (m + 1) = (k + 1) :: List.range' (k + 1 + 1) m := rfl
          rw [e] at this
          omega
      rw [List.range_eq_range']
      exact gen 0 n
    exact hinc n

/-- **C37 is false of the code** from 2^32 units: reading the quantity is undefined. -/
theorem C37_undefined_violated :
    (({} : Ctr).run [.set (2 ^ 32 - 1) 0 0]).quantity = none := by decide +kernel

end Ptusa.Counter
