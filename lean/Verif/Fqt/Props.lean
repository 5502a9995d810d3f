import Verif.Fqt.Lemmas

/-!
# C57, C58: pulse counters
-/
namespace Ptusa.Fqt

open Valve (Tm)

/-- C57, absolute value.  Once it has a first reading, and while the value does not exceed 2^24, after any calls but
`abs_reset` (cycles, looks, pauses, starts, resets) in which the total of the module goes from `n0` to the last of `ns`
by no more than 301 a cycle, the absolute value has grown by the number of pulses less one for each time the module
wrapped.  (Missing: the lost pulse, the first reading and large values, see below.) -/
theorem C57_absolute_partial (es : List Ev) (f g : Fq) (n0 : Nat) (ns : List Nat) (hes : ∀ e ∈ es, e ≠ .absReset)
    (hrun : f.run es = some g) (hf : f.abs.first = false) (hl : f.abs.last = reading n0)
    (hrd : readings es = ns.map reading) (hs : Slow (n0 :: ns))
    (hv : f.abs.val + ((n0 :: ns).getLast (by simp) - n0) ≤ 2 ^ 24) :
    g.abs.val =
      f.abs.val + (((n0 :: ns).getLast (by simp) - n0) - ((n0 :: ns).getLast (by simp) / 65536 - n0 / 65536)) := by
  refine (run_abs es f g n0 ns ?_ hrun hf hl hrd hs hv).1
  intro e he
  cases e with
  | absReset => exact absurd rfl (hes _ he)
  | _ => trivial

-- 65530, 65535, 65541 (the module wraps): 11 pulses, 10 counted, a pause in between does not matter.
example : ((⟨{}, ⟨100, 65530, false⟩, true, 0, 0, true, 0, 0, 0, 1, 0, 0⟩ : Fq).run
      [.eval { now := 5, raw := 65535 }, .pause, .eval { now := 6, raw := 5 }]).map (·.abs.val) = some 110 ∧
    Slow [65530, 65535, 65541] := by
  refine ⟨by decide +kernel, ?_⟩
  simp [Slow]

/-- C57 is false of the code when the module wraps: the pulse on which it wraps is lost. -/
theorem C57_wrap_violated :
    ¬ ∀ (f g : Fq) (i : In) (n n' : Nat), f.abs.first = false → f.abs.last = reading n → i.raw = reading n' → n ≤ n' →
      n' ≤ n + 301 → f.abs.val + (n' - n) ≤ 2 ^ 24 → f.eval i = some g → g.abs.val = f.abs.val + (n' - n) := by
  intro h
  have := h ⟨{}, ⟨0, 65535, false⟩, true, 0, 0, true, 0, 0, 0, 1, 0, 0⟩
    ⟨{}, ⟨0, 0, false⟩, true, 0, 0, true, 0, 0, 0, 1, 0, 0⟩ { now := 0, raw := 0 } 65535 65536
    rfl rfl rfl (by decide) (by decide) (by decide) (by decide +kernel)
  revert this
  decide

/-- C57 is false of the code at the start: a new counter whose module shows 0 does not count the pulses up to the first
reading that is not 0. -/
theorem C57_first_violated (i j : In) (hi : i.raw = 0) (f g : Fq) (h1 : (({} : Fq)).eval i = some f)
    (h2 : f.eval j = some g) : g.abs.val = 0 ∧ g.rel.val = 0 := by
  have hrel : ∀ (i : In) (f g : Fq), f.eval i = some g → g.rel = f.rel ∨ g.rel = (f.rel.calc i.raw).2 := by
    intro i f g h
    unfold Fq.eval at h
    simp only [Option.map_eq_some_iff] at h
    obtain ⟨⟨s, f'⟩, hs, h⟩ := h
    have hk := getState_keeps i f _ hs
    simp only at hk
    subst h
    simp only
    by_cases hs1 : s = 1
    · right
      simp only [hs1, if_true]
      split <;> split <;> split <;> simp [hk.1]
    · left
      simp only [hs1, if_false]
      split <;> split <;> split <;> simp [hk.1]
  have hv : ∀ (a : Acc) (c : Nat), a.first = true → (a.calc c).2.val = a.val := by
    intro a c ha
    unfold Acc.calc
    rw [if_pos ha]
    split <;> rfl
  have hz : ∀ (a : Acc), a.first = true → (a.calc 0).2 = a := by
    intro a ha
    unfold Acc.calc
    rw [if_pos ha]
    simp
  have hf1 : f.abs = {} := by rw [eval_abs i _ f h1, hi, hz _ rfl]
  have hf2 : f.rel = {} := by
    rcases hrel i _ f h1 with h | h
    · exact h
    · rw [h, hi, hz _ rfl]
  constructor
  · rw [eval_abs j f g h2, hf1, hv _ _ rfl]
  · rcases hrel j f g h2 with h | h
    · rw [h, hf2]
    · rw [h, hf2, hv _ _ rfl]

example : ((({} : Fq)).run [.eval { now := 0, raw := 0 }, .eval { now := 10, raw := 50 }]).map (·.abs.val) = some 0 := by
  decide +kernel

/-- C57 is false of the code for large values: at 2^24 the absolute value stays for ever if one pulse comes a cycle. -/
theorem C57_stuck_violated (k : Nat) : ∀ (f : Fq) (n : Nat), f.abs.first = false → f.abs.last = reading n →
    f.abs.val = 2 ^ 24 → n + k < 65536 →
    ∃ g, f.run ((List.range k).map (fun j => .eval { now := 0, raw := reading (n + 1 + j) })) = some g ∧
      g.abs.val = 2 ^ 24 := by
  induction k with
  | zero => intro f n _ _ hv _; exact ⟨f, rfl, hv⟩
  | succ k ih =>
    intro f n hf hl hv hn
    have hlist : (List.range (k + 1)).map (fun j => Ev.eval { now := 0, raw := reading (n + 1 + j) }) =
        Ev.eval { now := 0, raw := reading (n + 1) } ::
          (List.range k).map (fun j => Ev.eval { now := 0, raw := reading (n + 1 + 1 + j) }) := by
      rw [List.range_succ_eq_map, List.map_cons, List.map_map]
      congr 1
      apply List.map_congr_left
      intro j _
      simp only [Function.comp]
      congr 3
      omega
    rw [hlist]
    obtain ⟨g, hg, _, _⟩ := eval_plain f 0 (reading (n + 1)) 0
    have hab := eval_abs _ f g hg
    simp only [Fq.run, Fq.step, hg, Option.bind_some]
    have hd := calc_known f.abs hf n (n + 1) hl (by omega) (by omega)
    have hd1 : (f.abs.calc (reading (n + 1))).1 = 1 := by rw [hd]; omega
    have hcalc : (f.abs.calc (reading (n + 1))).2 = ⟨2 ^ 24, reading (n + 1), false⟩ := by
      unfold Acc.calc at hd1 ⊢
      simp only [hf, Bool.false_eq_true, if_false] at hd1 ⊢
      rw [hd1, hv]
      rfl
    rw [hcalc] at hab
    exact ih g (n + 1) (by rw [hab]) (by rw [hab]) (by rw [hab]) (by omega)

/-- C57, relative value of a counter without supervision (`counter`): from a first reading on, with the module not
wrapping while the counter works, and as long as the value does not exceed 2^24, the value is the number of pulses that
came while the counter was not paused, since the last reset, from whatever it showed. -/
theorem C57_relative_partial (now : Nat → Tm) (day : Nat → Int) (us : List Use) (f : Fq) (n : Nat) (hst : f.state = 1)
    (hf : f.rel.first = false) (hl : f.rel.last = reading n) (hg : Gentle true n us)
    (hv : ∀ a b, us = a ++ b → counted true n f.rel.val a ≤ 2 ^ 24) :
    (f.run (us.mapIdx (fun j u => u.toEv now day j))).map (·.rel.val) = some (counted true n f.rel.val us) := by
  obtain ⟨g, hr, hval⟩ := run_rel now day us 0 f true n f.rel.val (by simp [hst]) hf (fun _ => hl) rfl hg hv
  simp only [Nat.zero_add] at hr
  rw [hr, Option.map_some, hval]

example : Gentle true 10 [.cycle 15, .pause, .cycle 40, .start 45, .cycle 50] ∧
    counted true 10 0 [.cycle 15, .pause, .cycle 40, .start 45, .cycle 50] = 10 := by
  refine ⟨by simp [Gentle], by decide⟩

/-- C57, daily values: while the day stays the same, and within 2^24, the value of the day grows with the absolute one;
in the first cycle of a new day it becomes the value of the day before and a new one starts at 0. -/
theorem C57_daily_partial (i : In) (f g : Fq) (hon : f.t1on = true) (hon2 : f.t2on = true) (hrun : f.eval i = some g)
    (hb1 : f.t1 + (f.abs.calc i.raw).1 ≤ 2 ^ 24) (hb2 : f.t2 + (f.abs.calc i.raw).1 ≤ 2 ^ 24)
    (hb3 : f.abs.val + (f.abs.calc i.raw).1 ≤ 2 ^ 24) :
    (f.day = i.yday → g.t1 + f.abs.val = f.t1 + g.abs.val ∧ g.t2 + f.abs.val = f.t2 + g.abs.val ∧
      g.p1 = f.p1 ∧ g.p2 = f.p2 ∧ g.day = f.day) ∧
    (f.day ≠ i.yday → g.t1 = 0 ∧ g.t2 = 0 ∧ g.p1 + f.abs.val = f.t1 + g.abs.val ∧ g.p2 + f.abs.val = f.t2 + g.abs.val ∧
      g.day = i.yday) := by
  have hab := eval_abs i f g hrun
  have hgrow : (f.abs.calc i.raw).2.val = f.abs.val + (f.abs.calc i.raw).1 := by
    by_cases hfst : f.abs.first = true
    · unfold Acc.calc
      rw [if_pos hfst]
      split <;> simp
    · rw [calc_val f.abs (by simpa using hfst) i.raw hb3]
  unfold Fq.eval at hrun
  simp only [Option.map_eq_some_iff] at hrun
  obtain ⟨⟨s, f'⟩, hs, h⟩ := hrun
  obtain ⟨k1, k2, k3, k4, k5, k6, k7, k8, k9⟩ := getState_keeps i f _ hs
  simp only at k1 k2 k3 k4 k5 k6 k7 k8 k9
  rw [hab, hgrow]
  have e1 : (if s = 1 then { f' with rel := (f'.rel.calc i.raw).2 } else f').abs = f.abs := by
    split
    · exact k2
    · exact k2
  have e3 : (if s = 1 then { f' with rel := (f'.rel.calc i.raw).2 } else f').t1 = f.t1 := by
    split
    · exact k3
    · exact k3
  have e4 : (if s = 1 then { f' with rel := (f'.rel.calc i.raw).2 } else f').t2 = f.t2 := by
    split
    · exact k4
    · exact k4
  have e5 : (if s = 1 then { f' with rel := (f'.rel.calc i.raw).2 } else f').t1on = true := by
    split
    · rw [← hon]; exact k5
    · rw [← hon]; exact k5
  have e6 : (if s = 1 then { f' with rel := (f'.rel.calc i.raw).2 } else f').t2on = true := by
    split
    · rw [← hon2]; exact k6
    · rw [← hon2]; exact k6
  have e7 : (if s = 1 then { f' with rel := (f'.rel.calc i.raw).2 } else f').p1 = f.p1 := by
    split
    · exact k7
    · exact k7
  have e8 : (if s = 1 then { f' with rel := (f'.rel.calc i.raw).2 } else f').p2 = f.p2 := by
    split
    · exact k8
    · exact k8
  have e9 : (if s = 1 then { f' with rel := (f'.rel.calc i.raw).2 } else f').day = f.day := by
    split
    · exact k9
    · exact k9
  generalize (if s = 1 then { f' with rel := (f'.rel.calc i.raw).2 } else f') = w at *
  simp only [e1, e5, e6, if_true, e3, e4, e9] at h
  rw [Counter.rnd_small hb1, Counter.rnd_small hb2] at h
  constructor
  · intro hd
    rw [if_neg (by simp [hd])] at h
    subst h
    simp only [e7, e8]
    exact ⟨by omega, by omega, trivial, trivial, trivial⟩
  · intro hd
    rw [if_pos hd] at h
    subst h
    simp only
    refine ⟨trivial, trivial, by omega, by omega, trivial⟩

example : ((⟨{}, ⟨100, 50, false⟩, true, 7, 0, true, 9, 0, 3, 1, 0, 0⟩ : Fq).run
    [.eval { now := 5, raw := 55, yday := 3 }, .eval { now := 6, raw := 60, yday := 4 }]).map
      (fun f => (f.t1, f.p1, f.p2)) = some (0, 17, 19) := by
  decide +kernel

/-- C58, an error has a reason (in the first 2^32 milliseconds of uptime; missing: later, where it is false): if a look
newly shows a counting error, then at some earlier look, at least the set time before, the pump worked and liquid flowed,
the absolute value was what it is now, and at every look in between too. -/
theorem C58_error_only_partial (f0 f g : Fq) (h0 : f0.start = 0) (es : List Ev) (hrun : f0.run es = some f) (i : In)
    (hc : i.chan = 0) (he : Early es i.now) (hst : f.state ≠ -10) (hgs : f.getState i = some (-10, g)) :
    Active i ∧ ∃ pre e0 post i0, es = pre ++ e0 :: post ∧ look e0 = some i0 ∧ Active i0 ∧
      i0.now.toNat + i.dt ≤ i.now.toNat ∧ absAfter f0 pre = some f.abs.val ∧
      ∀ a x b j, post = a ++ x :: b → look x = some j → Active j ∧ absAfter f0 (pre ++ e0 :: a) = some f.abs.val := by
  by_cases ha : Active i
  · refine ⟨ha, ?_⟩
    rw [getState_active i f hc ha, Option.map_eq_some_iff] at hgs
    obtain ⟨q, hq, hr⟩ := hgs
    have hqv := absQuantity_some hq
    by_cases h1 : f.state = 2 ∨ f.start = 0
    · rw [if_pos h1, Prod.mk.injEq] at hr
      exact absurd hr.1 hst
    · rw [if_neg h1] at hr
      by_cases h2 : q ≠ f.prev
      · rw [if_pos h2, Prod.mk.injEq] at hr
        exact absurd hr.1 (by decide)
      · rw [if_neg h2] at hr
        have h2' : q = f.prev := by simpa using h2
        by_cases h3 : (Time.deltaMs i.now (f.start.zeroExtend 64)).toNat < i.dt
        · rw [if_pos h3, Prod.mk.injEq] at hr
          exact absurd hr.1 hst
        · rcases sup_run f0 h0 es f i.now hrun he with hz | ⟨pre, e0, post, i0, rfl, ht, s1, s2, s3, s4⟩
          · exact absurd (Or.inr hz) h1
          · have hle : f.start.toNat ≤ i.now.toNat := by
              rw [← ht]
              exact (he.2.1 e0 (by simp) i0 s1).2
            rw [Debounce.delta_ext hle] at h3
            rw [← h2', ← hqv] at s3 s4
            exact ⟨pre, e0, post, i0, rfl, s1, s2, by omega, s3, s4⟩
  · rw [getState_idle i f hc ha, Option.some.injEq, Prod.mk.injEq] at hgs
    exact absurd hgs.1 hst

/-- C58, a counter that stands still is reported (in the first 2^32 milliseconds of uptime): if the pump works and liquid
flows at a look and at every look since, the counter is not paused, and the absolute value has not changed when the set
time has passed, an error is shown. -/
theorem C58_reported_partial (f0 fp f : Fq) (pre post : List Ev) (e0 : Ev) (i0 i : In) (hl0 : look e0 = some i0)
    (hpre : f0.run pre = some fp) (hrun : f0.run (pre ++ e0 :: post) = some f) (hwork : fp.state ≠ 2)
    (hcmd : ∀ x ∈ post, x ≠ .pause ∧ ∀ r, x ≠ .start r)
    (hearly : 0 < i0.now.toNat ∧ i.now.toNat < 2 ^ 32) (hold : fp.start.toNat ≤ i0.now.toNat)
    (hact : Active i0 ∧ (∀ x ∈ post, ∀ j, look x = some j → Active j) ∧ Active i ∧ i.chan = 0)
    (hsame : fp.abs.val = f.abs.val ∧
      ∀ a x b j, post = a ++ x :: b → look x = some j → absAfter f0 (pre ++ e0 :: a) = some f.abs.val)
    (hsmall : f.abs.val < 2 ^ 32) (hlong : i0.now.toNat + i.dt ≤ i.now.toNat) :
    (f.getState i).map Prod.fst = some (-10) := by
  have hsup : ∀ a b : Fq, sup a = sup b → a.state = b.state ∧ a.start = b.start ∧ a.prev = b.prev := by
    intro a b hab
    simp only [sup, Sup.mk.injEq] at hab
    exact hab
  have hlook : ∀ e i, look e = some i → i.chan = 0 := by
    intro e i hl
    cases e <;> simp only [look] at hl
    case eval j => split at hl; · rename_i hj; rw [← Option.some.inj hl]; exact hj
                   · exact absurd hl (by simp)
    case ask j => split at hl; · rename_i hj; rw [← Option.some.inj hl]; exact hj
                  · exact absurd hl (by simp)
    all_goals exact absurd hl (by simp)
  have hi0 : i0.now.toNat < 2 ^ 32 := by omega
  -- all along `post` the fields of supervision are in order
  have key : ∀ post : List Ev, ∀ g : Fq, (∀ x ∈ post, x ≠ .pause ∧ ∀ r, x ≠ .start r) →
      (∀ x ∈ post, ∀ j, look x = some j → Active j) →
      (∀ a x b j, post = a ++ x :: b → look x = some j → absAfter f0 (pre ++ e0 :: a) = some f.abs.val) →
      f0.run (pre ++ e0 :: post) = some g →
      g.state ≠ 2 ∧ g.start ≠ 0 ∧ g.start.toNat ≤ i0.now.toNat ∧ g.prev = f.abs.val := by
    intro post
    induction post using List.reverseRecOn with
    | nil =>
      intro g _ _ _ hr
      rw [run_snoc, hpre, Option.bind_some] at hr
      rcases step_sup fp g e0 hr with ⟨j, hj, r, hgs, hs⟩ | ⟨hl, _⟩
      · rw [hl0, Option.some.injEq] at hj
        subst hj
        obtain ⟨s1, s2, s3⟩ := hsup _ _ hs
        rw [getState_active i0 fp (hlook _ _ hl0) hact.1, Option.map_eq_some_iff] at hgs
        obtain ⟨q, hq, hgs⟩ := hgs
        have hqv := absQuantity_some hq
        have hne : (i0.now.truncate 32 : BitVec 32) ≠ 0 := by
          intro hz
          have := congrArg BitVec.toNat hz
          rw [Debounce.trunc_toNat _ hi0] at this
          simp at this
          omega
        have htr := Debounce.trunc_toNat _ hi0
        by_cases h1 : fp.state = 2 ∨ fp.start = 0
        · rw [if_pos h1] at hgs
          subst hgs
          exact ⟨by rw [s1]; exact hwork, by rw [s2]; exact hne, by rw [s2]; simp only; omega,
            by rw [s3]; simp only; rw [← hqv]; exact hsame.1⟩
        · rw [if_neg h1] at hgs
          by_cases h2 : q ≠ fp.prev
          · rw [if_pos h2] at hgs
            subst hgs
            exact ⟨by rw [s1]; simp, by rw [s2]; exact hne, by rw [s2]; simp only; omega,
              by rw [s3]; simp only; rw [← hqv]; exact hsame.1⟩
          · rw [if_neg h2] at hgs
            have h2' : q = fp.prev := by simpa using h2
            have hz : fp.start ≠ 0 := fun hz => h1 (Or.inr hz)
            by_cases h3 : (Time.deltaMs i0.now (fp.start.zeroExtend 64)).toNat < i0.dt
            · rw [if_pos h3] at hgs
              subst hgs
              exact ⟨by rw [s1]; exact hwork, by rw [s2]; exact hz, by rw [s2]; exact hold,
                by rw [s3, ← h2', ← hqv]; exact hsame.1⟩
            · rw [if_neg h3] at hgs
              subst hgs
              exact ⟨by rw [s1]; simp, by rw [s2]; exact hz, by rw [s2]; exact hold,
                by rw [s3]; simp only; rw [← h2', ← hqv]; exact hsame.1⟩
      · rw [hl0] at hl; exact absurd hl (by simp)
    | append_singleton post x ih =>
      intro g hc ha hs hr
      have heq : pre ++ e0 :: (post ++ [x]) = (pre ++ e0 :: post) ++ [x] := by simp
      rw [heq, run_snoc, Option.bind_eq_some_iff] at hr
      obtain ⟨w, hw, hst⟩ := hr
      obtain ⟨w1, w2, w3, w4⟩ := ih w (fun y hy => hc y (by simp [hy])) (fun y hy => ha y (by simp [hy]))
        (fun a y b j hp hj => hs a y (b ++ [x]) j (by rw [hp]; simp) hj) hw
      rcases step_sup w g x hst with ⟨j, hj, r, hgs, hsr⟩ | ⟨hl, hsr⟩
      · obtain ⟨s1, s2, s3⟩ := hsup _ _ hsr
        have hval : w.abs.val = f.abs.val := by
          have := hs post x [] j rfl hj
          rw [absAfter, hw, Option.map_some, Option.some.injEq] at this
          exact this
        rw [getState_active j w (hlook _ _ hj) (ha x (by simp) j hj), Option.map_eq_some_iff] at hgs
        obtain ⟨q, hq, hgs⟩ := hgs
        have hqv := absQuantity_some hq
        rw [if_neg (by intro h; rcases h with h | h; exact w1 h; exact w2 h),
          if_neg (by simp only [ne_eq, not_not]; rw [← hqv, hval, w4])] at hgs
        by_cases h3 : (Time.deltaMs j.now (w.start.zeroExtend 64)).toNat < j.dt
        · rw [if_pos h3] at hgs
          subst hgs
          exact ⟨by rw [s1]; exact w1, by rw [s2]; exact w2, by rw [s2]; exact w3, by rw [s3]; exact w4⟩
        · rw [if_neg h3] at hgs
          subst hgs
          exact ⟨by rw [s1]; simp, by rw [s2]; exact w2, by rw [s2]; exact w3, by rw [s3]; exact w4⟩
      · have hx := hc x (by simp)
        rcases hsr with hsr | ⟨hp, _⟩ | ⟨⟨r, hr'⟩, _⟩
        · obtain ⟨s1, s2, s3⟩ := hsup _ _ hsr
          exact ⟨by rw [s1]; exact w1, by rw [s2]; exact w2, by rw [s2]; exact w3, by rw [s3]; exact w4⟩
        · exact absurd hp hx.1
        · exact absurd hr' (hx.2 r)
  obtain ⟨k1, k2, k3, k4⟩ := key post f hcmd hact.2.1 hsame.2 hrun
  rw [getState_active i f hact.2.2.2 hact.2.2.1]
  have hq : f.absQuantity = some f.abs.val := by unfold Fq.absQuantity; rw [if_pos hsmall]
  rw [hq, Option.map_some, Option.map_some,
    if_neg (by intro h; rcases h with h | h; exact k1 h; exact k2 h), if_neg (by simp [k4]),
    if_neg (by rw [Debounce.delta_ext (by omega)]; omega)]

-- Pump and flow from 1000 on, no pulse, time 500: nothing at 1499, an error at 1500; a pulse clears it.
example : let on (t : Tm) (raw : Nat) : In := { now := t, pump := some true, flow := true, dt := 500, raw := raw }
    ((({} : Fq)).run [.eval (on 1000 7), .eval (on 1200 7), .eval (on 1499 7)]).map (·.state) = some 1 ∧
    ((({} : Fq)).run [.eval (on 1000 7), .eval (on 1200 7), .eval (on 1500 7)]).map (·.state) = some (-10) ∧
    ((({} : Fq)).run [.eval (on 1000 7), .eval (on 1200 7), .eval (on 1500 7), .eval (on 1510 8), .ask (on 1520 8)]).map
      (·.state) = some 1 := by
  decide +kernel

/-- C58 is false of the code after 2^32 milliseconds (49.7 days) of uptime: whatever the state of the counter, two looks
with pump and flow between which no pulse came show an error at once, were they a millisecond apart. -/
theorem C58_uptime_violated (f : Fq) (i j : In) (hw : f.state ≠ 2) (hs : f.abs.val < 2 ^ 32)
    (hi : Active i ∧ i.chan = 0) (hj : Active j ∧ j.chan = 0) (hnz : i.now.toNat % 2 ^ 32 ≠ 0)
    (hlate : 2 ^ 32 + j.dt ≤ j.now.toNat) :
    ((f.run [.ask i]).bind fun g => (g.getState j).map Prod.fst) = some (-10) := by
  have hq : f.absQuantity = some f.abs.val := by unfold Fq.absQuantity; rw [if_pos hs]
  have hfin : ∀ g : Fq, g.state ≠ 2 → g.start ≠ 0 → g.abs = f.abs → g.prev = f.abs.val →
      (g.getState j).map Prod.fst = some (-10) := by
    intro g h1 h2 h3 h4
    have hqg : g.absQuantity = some f.abs.val := by unfold Fq.absQuantity; rw [h3, if_pos hs]
    have := g.start.isLt
    rw [getState_active j g hj.2 hj.1, hqg, Option.map_some, Option.map_some,
      if_neg (by intro h; rcases h with h | h; exact h1 h; exact h2 h), if_neg (by simp [h4]),
      if_neg (by rw [Debounce.delta_ext (by omega)]; omega)]
  have hne : (i.now.truncate 32 : BitVec 32) ≠ 0 := by
    intro hz
    have := congrArg BitVec.toNat hz
    simp at this
    omega
  simp only [Fq.run, Fq.step]
  rw [getState_active i f hi.2 hi.1, hq]
  simp only [Option.map_some, Option.bind_some]
  by_cases h1 : f.state = 2 ∨ f.start = 0
  · rw [if_pos h1]
    exact hfin _ hw hne rfl rfl
  · rw [if_neg h1]
    have hz : f.start ≠ 0 := fun hz => h1 (Or.inr hz)
    by_cases h2 : f.abs.val ≠ f.prev
    · rw [if_pos h2]
      exact hfin _ (by simp) hne rfl rfl
    · rw [if_neg h2]
      have h2' : f.abs.val = f.prev := by simpa using h2
      by_cases h3 : (Time.deltaMs i.now (f.start.zeroExtend 64)).toNat < i.dt
      · rw [if_pos h3]
        exact hfin f hw hz rfl h2'.symm
      · rw [if_neg h3]
        exact hfin _ (by simp) hz rfl h2'.symm

example : let on (t : Tm) : In := { now := t, pump := some true, flow := true, dt := 500, raw := 7 }
    ((({} : Fq)).run [.eval (on 4294968000), .eval (on 4294968001)]).map (·.state) = some (-10) := by
  decide +kernel

/-- C58, recovery: as soon as a look with pump and flow sees another absolute value than the one kept, and after a command
to start, the counter works again. -/
theorem C58_recovers (f : Fq) (i : In) (raw : Nat) (he : f.state = -10) (ha : Active i) (hc : i.chan = 0)
    (hs : f.abs.val < 2 ^ 32) (hst : f.start ≠ 0) (hch : f.abs.val ≠ f.prev) :
    (f.getState i).map Prod.fst = some 1 ∧ (f.startIt raw).state = 1 := by
  have hq : f.absQuantity = some f.abs.val := by unfold Fq.absQuantity; rw [if_pos hs]
  constructor
  · rw [getState_active i f hc ha, hq, Option.map_some, Option.map_some, if_neg (by intro h; rcases h with h | h; rw [he] at h; exact absurd h (by decide); exact hst h), if_pos hch]
  · unfold Fq.startIt
    rw [if_neg (by rw [he]; decide), if_pos (by rw [he]; decide)]

end Ptusa.Fqt
