import Verif.Debounce.Lemmas

/-!
# C53: the time filter of digital inputs
-/
namespace Ptusa.Debounce

open Valve (Tm toUnsigned)

/-- C53, no flicker, in the first 2^32 milliseconds of uptime (missing: later, where it is false): when the shown state
changes, it becomes the input just read, and every call of the last `P_DT` milliseconds saw that same input. -/
theorem C53_steady_partial (pDt : Fl) (dt : Nat) (hdt : toUnsigned 32 pDt = some dt) (hpos : 0 < dt) (d0 : Di)
    (h : List (Tm × Bool)) (now : Tm) (b : Bool) (ho : InOrder (h ++ [(now, b)])) (he : Early (h ++ [(now, b)]))
    (hf : Fresh d0 (h ++ [(now, b)])) (before after : Di) (hb : d0.run pDt h = some before)
    (ha : d0.run pDt (h ++ [(now, b)]) = some after) (hch : after.cur ≠ before.cur) :
    after.cur = b ∧ SteadyFor h b now.toNat dt := by
  rw [run_pos hdt hpos] at hb ha
  rw [List.foldl_append] at ha
  have hb := Option.some.inj hb
  have ha := Option.some.inj ha
  rw [hb] at ha
  simp only [List.foldl_cons, List.foldl_nil] at ha
  have hpw := List.pairwise_append.mp ho
  have hprev : ∀ x ∈ h, x.1.toNat ≤ now.toNat := fun x hx => hpw.2.2 x hx (now, b) (by simp)
  obtain ⟨hi, ht⟩ := inv_fold dt d0 h hpw.1 (fun x hx => he x (by simp [hx])) (fun x hx => fresh_le hf x (by simp [hx]))
  rw [hb] at hi ht
  have htn := ht now.toNat (fresh_le hf (now, b) (by simp)) hprev
  subst ha
  unfold next at hch ⊢
  by_cases hc : before.cur = b
  · rw [if_neg (by simp [hc])] at hch
    exact absurd rfl hch
  · simp only [ne_eq, hc, not_false_eq_true, if_true] at hch ⊢
    by_cases hd : (Time.deltaMs now (before.time.zeroExtend 64)).toNat > dt
    · simp only [hd, if_true]
      refine ⟨trivial, ?_⟩
      rw [delta_ext htn] at hd
      intro p hp hlate
      have := hi p hp (by omega)
      revert this hc
      cases p.2 <;> cases b <;> cases before.cur <;> simp
    · rw [if_neg hd] at hch
      exact absurd rfl hch

example : Fresh (Di.init false) ([(10, true), (50, false), (90, true), (130, true)] ++ [(200, true)]) ∧
    InOrder ([(10, true), (50, false), (90, true), (130, true)] ++ [(200, true)]) ∧
    Early ([(10, true), (50, false), (90, true), (130, true)] ++ [(200, true)]) ∧
    ((Di.init false).run (.num 100) [(10, true), (50, false), (90, true), (130, true)]).map Di.cur = some false ∧
    ((Di.init false).run (.num 100) ([(10, true), (50, false), (90, true), (130, true)] ++ [(200, true)])).map Di.cur =
      some true := by
  refine ⟨⟨false, Or.inl rfl⟩, by unfold InOrder; decide, by unfold Early; decide, by decide +kernel, by decide +kernel⟩

/-- C53, a lasting change is shown, in the first 2^32 milliseconds of uptime: once all calls since some call at least
`P_DT` + 1 milliseconds ago have seen the input `b`, `b` is shown. -/
theorem C53_lasting_partial (pDt : Fl) (dt : Nat) (hdt : toUnsigned 32 pDt = some dt) (hpos : 0 < dt) (d0 : Di)
    (pre post : List (Tm × Bool)) (t now : Tm) (b : Bool) (hsteady : ∀ p ∈ post, p.2 = b)
    (ho : InOrder (pre ++ (t, b) :: (post ++ [(now, b)]))) (he : Early (pre ++ (t, b) :: (post ++ [(now, b)])))
    (hf : Fresh d0 (pre ++ (t, b) :: (post ++ [(now, b)]))) (hlong : t.toNat + dt < now.toNat) :
    (d0.run pDt (pre ++ (t, b) :: (post ++ [(now, b)]))).map Di.cur = some b := by
  rw [run_pos hdt hpos, Option.map_some, Option.some.injEq]
  have hpw := List.pairwise_append.mp ho
  have hprev : ∀ x ∈ pre, x.1.toNat ≤ t.toNat := fun x hx => hpw.2.2 x hx (t, b) (by simp)
  obtain ⟨_, ht⟩ := inv_fold dt d0 pre hpw.1 (fun x hx => he x (by simp [hx])) (fun x hx => fresh_le hf x (by simp [hx]))
  have h0 := ht t.toNat (fresh_le hf (t, b) (by simp)) hprev
  have ht32 : t.toNat < 2 ^ 32 := he (t, b) (by simp)
  rw [List.foldl_append, List.foldl_cons, List.foldl_append]
  simp only [List.foldl_cons, List.foldl_nil]
  have h1 : (next dt (pre.foldl (next dt) d0) (t, b)).time.toNat ≤ t.toNat := next_time_le _ _ _ ht32 h0
  have h2 := steady_fold dt b t.toNat post hsteady _ (Or.inr h1)
  generalize post.foldl (next dt) _ = d at h2
  unfold next
  by_cases hc : d.cur = b
  · rw [if_neg (by simp [hc])]
    exact hc
  · rw [if_pos hc]
    rcases h2 with h2 | h2
    · exact absurd h2 hc
    · have hle : d.time.toNat ≤ now.toNat := by omega
      rw [delta_ext hle, if_pos (by omega)]

example : InOrder ([(10, false)] ++ (20, true) :: ([(60, true)] ++ [(121, true)])) ∧ (20 : Tm).toNat + 100 < (121 : Tm).toNat := by
  refine ⟨by unfold InOrder; decide, by decide⟩

/-- C53 with no filter time (`P_DT` less than 1): the input is shown at once. -/
theorem C53_no_filter (pDt : Fl) (hdt : toUnsigned 32 pDt = some 0) (d : Di) (now : Tm) (b : Bool) :
    (d.poll pDt (now, b)).map Di.cur = some b := by
  simp [Di.poll, hdt]

example : toUnsigned 32 (.num (1 / 2)) = some 0 := by decide +kernel

/-- C53 is false of the code after 2^32 milliseconds (49.7 days) of uptime: whatever the earlier calls have seen, from
then on (and a filter time later) every input is shown at once. -/
theorem C53_uptime_violated (pDt : Fl) (dt : Nat) (hdt : toUnsigned 32 pDt = some dt) (d : Di) (now : Tm) (b : Bool)
    (hlate : 2 ^ 32 + dt ≤ now.toNat) : (d.poll pDt (now, b)).map Di.cur = some b := by
  by_cases hpos : 0 < dt
  · rw [poll_pos hdt hpos, Option.map_some, Option.some.injEq]
    unfold next
    by_cases hc : d.cur = b
    · rw [if_neg (by simp [hc])]; exact hc
    · rw [if_pos hc]
      have := d.time.isLt
      rw [delta_ext (by simp only; omega), if_pos (by simp only; omega)]
  · have h0 : dt = 0 := by omega
    subst h0
    exact C53_no_filter pDt hdt d now b

example : 2 ^ 32 + 500 ≤ (4294967796 : Tm).toNat ∧ toUnsigned 32 (.num 500) = some 500 ∧
    ((⟨false, 0⟩ : Di).run (.num 500) [(4294967796, false), (4294967797, true)]).map Di.cur = some true := by
  decide +kernel

/-- C53, the cast of the parameter: `get_state()` is defined exactly if `P_DT` is above -1 and below 2^32. -/
theorem C53_defined_partial (q : Rat) (d : Di) (p : Tm × Bool) :
    d.poll (.num q) p ≠ none ↔ 0 ≤ Int.tdiv q.num q.den ∧ Int.tdiv q.num q.den < 2 ^ 32 := by
  unfold Di.poll toUnsigned
  by_cases h : 0 ≤ Int.tdiv q.num q.den ∧ Int.tdiv q.num q.den < 2 ^ 32
  · simp [h]
  · simp only [h, if_false]
    simp

/-- C53 is false of the code for a negative parameter: the behaviour is undefined. -/
theorem C53_negative_violated (d : Di) (p : Tm × Bool) : d.poll (.num (-1)) p = none := by
  have : toUnsigned 32 (.num (-1)) = none := by decide +kernel
  simp [Di.poll, this]

/-- C53 for IO-Link sensors: a call on a bad channel shows the safe value of the sensor (1 for the upper level), and the
calls on a good channel show what the filter gives on those calls alone, as if the others had not been made. -/
theorem C53_iolink (pDt : Fl) (max : Bool) (ps : List (Bool × Tm × Bool)) (d e : Di) (shown : List Bool)
    (h : d.runIolink pDt max ps = some (shown, e)) :
    shown.length = ps.length ∧ ∀ (i : Nat) (p : Bool × Tm × Bool), ps[i]? = some p →
      shown[i]? = if p.1 then (d.run pDt (((ps.take (i + 1)).filter (·.1)).map (·.2))).map Di.cur else some max :=
  (runIolink_eq pDt max ps d e shown h).2

example : ((Di.initIolink true 0).runIolink (.num 100) true
    [(true, 10, false), (false, 60, false), (true, 120, false)]).map Prod.fst = some [true, true, false] := by
  decide +kernel

/-- C53 for level sensors: with no filter time the lower sensor is active exactly when its input is on, the upper sensor
exactly when it is off (its input falls when the level is reached). -/
theorem C53_level (pDt : Fl) (hdt : toUnsigned 32 pDt = some 0) (d : Di) (now : Tm) (b : Bool) :
    (d.poll pDt (now, b)).map (fun e => (levelActive false e.cur, levelActive true e.cur)) = some (b, !b) := by
  have h := C53_no_filter pDt hdt d now b
  rw [Option.map_eq_some_iff] at h ⊢
  obtain ⟨e, he, hc⟩ := h
  exact ⟨e, he, by simp [levelActive, hc]⟩

example : ((Di.init false).poll (.num 0) (7, true)).map (fun e => levelActive true e.cur) = some false := by decide +kernel

end Ptusa.Debounce
