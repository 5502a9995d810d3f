import Verif.Thld.Model
import Mathlib.Tactic.Linarith
import Mathlib.Data.List.Induction

/-!
# C56: the threshold regulator
-/
namespace Ptusa.Thld

/-- The regulator is of reverse action. -/
def IsReverse (p : Par) : Prop := ∃ q, p.reverse = .num q ∧ 0 < q

theorem run_snoc (p : Par) (r : Rg) (h : List Ev) (e : Ev) : r.run p (h ++ [e]) = (r.run p h).step p e := by
  simp [Rg.run]

theorem isReverse_iff (p : Par) : (Fl.num 0).lt p.reverse = true ↔ IsReverse p := by
  unfold IsReverse
  cases h : p.reverse with
  | nan => simp
  | num q => simp

/-- C56, thresholds: if a call changes the actuator of a regulator that is on, it is a new set point and the sensor shows
a value outside the band around it: above for switching off (on, if reversed), below for switching on (off, if
reversed). -/
theorem C56_thresholds (p : Par) (d : Rat) (hd : p.delta = .num d) (h : List Ev) (e : Ev)
    (hon : ((Rg.run p {} h).step p e).on = true) (hon0 : (Rg.run p {} h).on = true)
    (hch : ((Rg.run p {} h).step p e).out ≠ (Rg.run p {} h).out) :
    ∃ sp v : Rat, e = .value (.num sp) (.num v) ∧
      ((sp + d < v ∧ (((Rg.run p {} h).step p e).act = true ↔ IsReverse p)) ∨
       (v < sp - d ∧ (((Rg.run p {} h).step p e).act = true ↔ ¬ IsReverse p))) := by
  rw [← isReverse_iff p]
  generalize Rg.run p {} h = r at *
  obtain ⟨on, out, sp0, act⟩ := r
  simp only at hon0
  subst hon0
  cases e with
  | on => simp [Rg.step, Rg.directOn] at hch
  | off => simp [Rg.step, Rg.directOff] at hch
  | set n =>
    simp only [Rg.step, Rg.directSet] at hch
    split at hch
    · simp [Rg.directOff] at hch
    · split at hch
      · simp [Rg.directOn] at hch
      · simp at hch
  | value val v =>
    cases val with
    | nan => simp [Rg.step, Rg.setValue, hd] at hch
    | num sp =>
      cases v with
      | nan => simp [Rg.step, Rg.setValue, hd] at hch
      | num v =>
        refine ⟨sp, v, rfl, ?_⟩
        simp only [Rg.step, Rg.setValue, hd, Fl.add_num, Fl.sub_num, Fl.lt_num] at hch ⊢
        by_cases h1 : sp + d < v
        · left
          simp [h1]
        · by_cases h2 : v < sp - d
          · right
            simp [h1, h2]
          · simp [h1, h2] at hch

example : (Rg.run ⟨.num 0, .num 2⟩ {} [.on, .value (.num 50) (.num 40)]).act = true ∧
    (Rg.run ⟨.num 0, .num 2⟩ {} [.on, .value (.num 50) (.num 40), .value (.num 50) (.num 51)]).act = true ∧
    (Rg.run ⟨.num 0, .num 2⟩ {} [.on, .value (.num 50) (.num 40), .value (.num 50) (.num 53)]).act = false := by
  decide +kernel

/-- C56, hysteresis: with one set point, between a call that switches the actuator on and one that switches it off the
sensor has moved by more than twice `P_delta`. -/
theorem C56_hysteresis (p : Par) (d sp : Rat) (hd : p.delta = .num d) (h1 h2 : List Ev) (v1 v2 : Fl)
    (hon1 : (Rg.run p {} h1).on = true) (hon2 : (Rg.run p {} h2).on = true)
    (hch1 : ((Rg.run p {} h1).step p (.value (.num sp) v1)).out ≠ (Rg.run p {} h1).out)
    (hch2 : ((Rg.run p {} h2).step p (.value (.num sp) v2)).out ≠ (Rg.run p {} h2).out)
    (hopp : ((Rg.run p {} h1).step p (.value (.num sp) v1)).act ≠ ((Rg.run p {} h2).step p (.value (.num sp) v2)).act) :
    ∃ a b : Rat, v1 = .num a ∧ v2 = .num b ∧ (a + 2 * d < b ∨ b + 2 * d < a) := by
  have hs : ∀ r : Rg, r.on = true → ∀ a b, (r.step p (.value a b)).on = true := by
    intro r hr a b
    simp only [Rg.step, Rg.setValue, hr]
    split
    · rename_i hc; simp at hc
    · split
      · rfl
      · split <;> rfl
  obtain ⟨s1, a, he1, hc1⟩ := C56_thresholds p d hd h1 _ (hs _ hon1 _ _) hon1 hch1
  obtain ⟨s2, b, he2, hc2⟩ := C56_thresholds p d hd h2 _ (hs _ hon2 _ _) hon2 hch2
  simp only [Ev.value.injEq, Fl.num.injEq] at he1 he2
  obtain ⟨rfl, rfl⟩ := he1
  obtain ⟨rfl, rfl⟩ := he2
  refine ⟨a, b, rfl, rfl, ?_⟩
  rcases hc1 with ⟨h1, k1⟩ | ⟨h1, k1⟩ <;> rcases hc2 with ⟨h2, k2⟩ | ⟨h2, k2⟩
  · exact absurd (Bool.eq_iff_iff.mpr (k1.trans k2.symm)) hopp
  · right; linarith
  · left; linarith
  · exact absurd (Bool.eq_iff_iff.mpr (k1.trans k2.symm)) hopp

/-- C56, inside the band the actuator is told what it was told by the call before. -/
theorem C56_inside (p : Par) (d : Rat) (hd : p.delta = .num d) (r : Rg) (sp0 v0 : Fl) (sp v : Rat)
    (hon : r.on = true) (hlo : sp - d ≤ v) (hhi : v ≤ sp + d) :
    (Rg.run p r [.value sp0 v0, .value (.num sp) (.num v)]).act = (Rg.run p r [.value sp0 v0]).act := by
  have h1 : ¬ sp + d < v := by linarith
  have h2 : ¬ v < sp - d := by linarith
  simp only [Rg.run, List.foldl_cons, List.foldl_nil, Rg.step]
  have hr : (r.setValue p sp0 v0).on = true := by
    simp only [Rg.setValue, hon]
    split
    · rename_i hc; simp at hc
    · split
      · rfl
      · split <;> rfl
  have ha : (r.setValue p sp0 v0).act = (r.setValue p sp0 v0).out := by
    simp only [Rg.setValue]
  rw [ha]
  generalize r.setValue p sp0 v0 = r at *
  simp [Rg.setValue, hr, hd, h1, h2]

/-- C56, a regulator that is off keeps its actuator off, whatever the sensor shows. -/
theorem C56_off (p : Par) (h : List Ev) : (Rg.run p {} h).on = false → (Rg.run p {} h).act = false := by
  induction h using List.reverseRecOn with
  | nil => intro _; rfl
  | append_singleton h e ih =>
    rw [run_snoc]
    generalize Rg.run p {} h = r at *
    obtain ⟨on, out, sp, act⟩ := r
    cases e with
    | on => cases on <;> simp [Rg.step, Rg.directOn]
    | off => cases on <;> simp_all [Rg.step, Rg.directOff]
    | set n =>
      simp only [Rg.step, Rg.directSet]
      split
      · cases on <;> simp_all [Rg.directOff]
      · split
        · cases on <;> simp [Rg.directOn]
        · exact ih
    | value a b =>
      cases on
      · simp [Rg.step, Rg.setValue]
      · simp only [Rg.step, Rg.setValue]
        intro hoff
        exfalso
        revert hoff
        split
        · rename_i hc; simp at hc
        · split
          · simp
          · split <;> simp

example : (Rg.run ⟨.num 0, .num 2⟩ {} [.on, .value (.num 50) (.num 40), .off, .value (.num 50) (.num 40)]).on = false := by
  decide +kernel

/-- C56 is false of the code: the value shown is not what the actuator was told.  Switched off while its actuator was on,
the regulator still shows 1. -/
theorem C56_value_violated :
    ¬ ∀ (p : Par) (h : List Ev), (Rg.run p {} h).value = if (Rg.run p {} h).act then 1 else 0 := by
  intro hall
  have := hall ⟨.num 0, .num 2⟩ [.on, .value (.num 50) (.num 40), .off]
  revert this
  decide +kernel

/-- C56, the value shown is what the actuator was told, after every new set point (missing: after switching off, where it
is false). -/
theorem C56_value_partial (p : Par) (h : List Ev) (val v : Fl) :
    (Rg.run p {} (h ++ [.value val v])).value = if (Rg.run p {} (h ++ [.value val v])).act then 1 else 0 := by
  rw [run_snoc]
  simp only [Rg.step, Rg.setValue, Rg.value]

/-- C56 is false of the code: switched off and on again, the regulator does not start anew.  With the sensor inside the
band it switches its actuator on, because it was on before it was switched off. -/
theorem C56_restart_violated :
    ¬ ∀ (p : Par) (h : List Ev) (sp v : Rat) (d : Rat), p.delta = .num d → sp - d ≤ v → v ≤ sp + d →
      (Rg.run p {} (h ++ [.off, .on, .value (.num sp) (.num v)])).act =
        (Rg.run p {} (h ++ [.off, .on])).act := by
  intro hall
  have := hall ⟨.num 0, .num 2⟩ [.on, .value (.num 50) (.num 40)] 50 50 2 rfl (by norm_num) (by norm_num)
  revert this
  decide +kernel

end Ptusa.Thld
