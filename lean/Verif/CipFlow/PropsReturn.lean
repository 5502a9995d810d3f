import Verif.CipFlow.LemmasReturn
import Verif.CipFlow.LemmasFill
import Verif.CipFlow.PropsMix
import Mathlib.Tactic.Linarith
import Mathlib.Tactic.FieldSimp
import Mathlib.Tactic.Ring
import Mathlib.Algebra.Order.Field.Rat

/-!
# C121, C122: when a step that awaits the return ends, and the concentration it looks at
-/
namespace Ptusa.CipFlow

open Ptusa.Cip (Outcome StepErr Opt knownSteps)

/-- C121.  A washing line leaves a step that awaits the washing liquid only in a cycle in which the volume of the object
has been pumped and the concentration fits: at least the threshold `P_CKANAL_S` (`P_CKANAL_K`) when caustic (acid) is
fed in, at most the threshold when it is rinsed out; and only if, in the same visit of the step and after the volume
was pumped, a flow was seen in the return. -/
theorem C121_return (c : Cfg) (evs : List Ev) (e : Env) (hw : (run c evs).Washing)
    (ha : AwaitsReturn (run c evs).step) (hst : (run c (evs ++ [.cycle e])).step ≠ (run c evs).step) :
    e.vol = true ∧
      ((run c evs).step = 24 → e.cdrain .caustic ≤ e.conc .caustic) ∧
      ((run c evs).step = 44 → e.cdrain .acid ≤ e.conc .acid) ∧
      ((run c evs).step = 35 → e.conc .caustic ≤ e.cdrain .caustic) ∧
      ((run c evs).step = 55 → e.conc .acid ≤ e.cdrain .acid) ∧
      ∃ pre q e0, evs = pre ++ q ∧ Visit c pre q (run c evs).step ∧ Ev.cycle e0 ∈ q ++ [.cycle e] ∧ e0.vol = true ∧
        e0.fl = true := by
  have hi := inv_run c evs
  have hrun : run c (evs ++ [.cycle e]) = (run c evs).progress c e := by rw [run_snoc, next_washing hw]
  have hc := cycle_cases (c := c) hi.known e
  rw [← hrun] at hc
  cases hc with
  | wait h5 h' => exact absurd (by rw [h', pids_step]) hst
  | finish h5 h' => exact absurd h5 (from_not_last ha).1
  | go _ he o ho hd h' =>
    obtain ⟨r, h'⟩ := h'
    refine absurd ?_ hst
    rw [h']
    exact (same_doOp ((run c evs).pids e) c e o).step.trans (pids_step _ e)
  | fail h5 hs hp hv hst' hr' => exact absurd hst' hst
  | done h5 he o p ho hd h' =>
    obtain ⟨s, d, ho', h24, h44, h35, h55⟩ := from_op ha false e.noTank ((run c evs).prog.testBit 4) e.rinse
    rw [ho'] at ho
    obtain rfl := Option.some.inj ho
    obtain ⟨hv, hr, hf⟩ := fromObject_done (l := (run c evs).pids e) hd
    rw [pids_retOk] at hr
    refine ⟨hv, ?_, ?_, ?_, ?_, ?_⟩
    · intro hx; rw [h24 hx] at hf; simpa [Env.fits] using hf
    · intro hx; rw [h44 hx] at hf; simpa [Env.fits] using hf
    · intro hx; rw [h35 hx] at hf; simpa [Env.fits] using hf
    · intro hx; rw [h55 hx] at hf; simpa [Env.fits] using hf
    · rcases hr with hr | hr
      · obtain ⟨pre, q, e0, h1, h2, h3, h4, h5⟩ := retInv_run c evs ha hr
        exact ⟨pre, q, e0, h1, h2, by simp [h3], h4, h5⟩
      · refine ⟨evs, [], e, by simp, ?_, by simp, hv, hr⟩
        intro q hq
        rw [List.prefix_nil.1 hq]
        simp

/-- Caustic is fed in: the volume alone does not end the step, nor does a weak return; then the caustic comes. -/
example : let e : Env := { cdrainS := 1 / 2 }
    let evs := start 32 e ++ skip 2 e
    let back := [Ev.cycle { e with vol := true }, .cycle { e with vol := true, fl := true }]
    (run {} (evs ++ back)).Washing ∧ (run {} (evs ++ back)).step = 24 ∧
      (run {} (evs ++ back ++ [.cycle { e with vol := true, cS := 1 }])).step = 26 := by
  refine ⟨⟨?_, ?_, ?_⟩, ?_⟩ <;> decide +kernel

/-- The step that checks a prepared solution, for each tank. -/
def checks : Tank → Int | .caustic => 108 | .acid => 118

theorem check_op (t : Tank) (i n a r : Bool) : op i n a r (checks t) = some (.checkConc t) := by
  cases t <;> cases i <;> cases n <;> cases a <;> cases r <;> rfl

/-- C121.  A prepared solution is accepted only at its concentration: the check ends with the rinse of the station when the
concentration is at least `P_CZAD_S` (`P_CZAD_K`) less the tolerance, and with another dose when it is less. -/
theorem C121_prepared (c : Cfg) (evs : List Ev) (e : Env) (t : Tank) (hw : (run c evs).Washing)
    (hs : (run c evs).step = checks t) :
    ((run c (evs ++ [.cycle e])).step = checks t ∨
      (run c (evs ++ [.cycle e])).step = checks t + 3 ∧ e.czad t * (1 - e.tol / 100) ≤ e.conc t ∨
      (run c (evs ++ [.cycle e])).step = checks t + 1 ∧ e.conc t < e.czad t * (1 - e.tol / 100)) := by
  have hi := inv_run c evs
  have hrun : run c (evs ++ [.cycle e]) = (run c evs).progress c e := by rw [run_snoc, next_washing hw]
  have hc := cycle_cases (c := c) hi.known e
  rw [← hrun] at hc
  have h555 : (run c evs).step ≠ 555 := by rw [hs]; cases t <;> decide
  cases hc with
  | wait h5 h' => exact absurd h5 h555
  | finish h5 h' => exact absurd h5 h555
  | go _ he o ho hd h' =>
    obtain ⟨r, h'⟩ := h'
    left
    rw [h', ← hs]
    exact (same_doOp ((run c evs).pids e) c e o).step.trans (pids_step _ e)
  | fail h5 hs' hp hv hst' hr' => left; rw [hst', hs]
  | done h5 he o p ho hd h' =>
    rw [hs, check_op] at ho
    obtain rfl := Option.some.inj ho
    right
    have hst := (same_doOp ((run c evs).pids e) c e (.checkConc t)).step.trans (pids_step _ e)
    rw [hs] at hst
    have hstep : (run c (evs ++ [.cycle e])).step =
        (((((run c evs).pids e).doOp c e (.checkConc t)).1.goTo p e.opt)).step := by
      rw [h']
      split
      · rw [initStep_step]
      · rfl
    rw [hstep]
    simp only [Line.doOp] at hd hst ⊢
    split at hd
    · split at hd
      · next hc =>
        obtain rfl : 1 = p := by simpa using hd
        left
        refine ⟨?_, hc⟩
        unfold Line.goTo Cip.within
        rw [hst]
        cases t <;> rfl
      · next hc =>
        obtain rfl : 2 = p := by simpa using hd
        right
        refine ⟨?_, not_le.1 hc⟩
        unfold Line.goTo Cip.within
        rw [hst]
        cases t <;> rfl
    · simp at hd

/-- A solution of 1 % is wanted with a tolerance of 10 %: 0.9 is accepted, 0.8 is not. -/
example : let e : Env := { czadS := 1, tol := 10, fin := true }
    let evs := start 0x200 e ++ skip 2 e
    (run {} evs).Washing ∧ (run {} evs).step = checks .caustic ∧
      (run {} (evs ++ [.cycle { e with cS := 9 / 10 }])).step = 111 ∧
      (run {} (evs ++ [.cycle { e with cS := 8 / 10 }])).step = 109 := by
  refine ⟨⟨?_, ?_, ?_⟩, ?_⟩ <;> decide +kernel

/-! ## C122 -/

/-- Conductivity at temperature `t` of a liquid with conductivity `ms` at 25 °C and coefficient `alf` (% per degree). -/
def conductivity (ms alf t : Rat) : Rat := ms * (1 + alf / 100 * (t - 25))

/-- C122.  The concentration of the return is never negative; a calibrated line (its conductivities of the solution and of
water differ) shows, at every temperature, the nominal concentration for the nominal solution and zero for water; and a
higher conductivity never shows a lower concentration. -/
theorem C122_conc (alf ms25 c25 ms25w t : Rat) (hc : 0 ≤ c25) (hm : ms25w < ms25) (ht : 0 < 1 + alf / 100 * (t - 25)) :
    (∀ q, 0 ≤ getConc q t alf ms25 c25 ms25w) ∧
      getConc (conductivity ms25 alf t) t alf ms25 c25 ms25w = c25 ∧
      getConc (conductivity ms25w alf t) t alf ms25 c25 ms25w = 0 ∧
      ∀ q q', q ≤ q' → getConc q t alf ms25 c25 ms25w ≤ getConc q' t alf ms25 c25 ms25w := by
  have hne : ms25w - ms25 ≠ 0 := by linarith
  have hx (q : Rat) : getConc q t alf ms25 c25 ms25w =
      max 0 (c25 * (q / (1 + alf / 100 * (t - 25)) - ms25w) / (ms25 - ms25w)) := by
    unfold getConc
    dsimp only
    rw [if_neg ht.ne', if_neg hne]
    have h2 : ms25 - ms25w ≠ 0 := by linarith
    have he : c25 * (ms25 - q / (1 + alf / 100 * (t - 25))) / (ms25w - ms25) + c25 =
        c25 * (q / (1 + alf / 100 * (t - 25)) - ms25w) / (ms25 - ms25w) := by
      generalize q / (1 + alf / 100 * (t - 25)) = y
      rw [div_add' _ _ _ hne, div_eq_div_iff hne h2]
      ring
    rw [he]
    split
    · next h => rw [max_eq_left h.le]
    · next h => rw [max_eq_right (not_lt.1 h)]
  have hd : (0 : Rat) < ms25 - ms25w := by linarith
  refine ⟨fun q => ?_, ?_, ?_, fun q q' hq => ?_⟩
  · rw [hx]; exact le_max_left ..
  · rw [hx, conductivity, mul_div_cancel_right₀ _ ht.ne', mul_div_cancel_right₀ _ hd.ne', max_eq_right hc]
  · rw [hx, conductivity, mul_div_cancel_right₀ _ ht.ne', sub_self]; simp
  · rw [hx, hx]
    refine max_le_max le_rfl ?_
    have : q / (1 + alf / 100 * (t - 25)) ≤ q' / (1 + alf / 100 * (t - 25)) := by gcongr
    gcongr

example : getConc 62 60 2 50 (3 / 2) 1 = 62 / (17 / 10) * (3 / 98) - 3 / 98 ∧
    getConc 85 60 2 50 (3 / 2) 1 = 3 / 2 ∧ getConc (17 / 10) 60 2 50 (3 / 2) 1 = 0 := by
  unfold getConc; norm_num

/-- C122, a line that is not calibrated, whose two conductivities were set equal, the substitute divisor being 1: the shown
concentration falls when the conductivity rises, and pure water shows the most. -/
theorem C122_equal (c25 ms25 : Rat) (hc : 0 < c25) (q q' : Rat) (h : q < q')
    (h1 : q' ≤ ms25) : getConc q' 25 0 ms25 c25 ms25 < getConc q 25 0 ms25 c25 ms25 := by
  have hx (y : Rat) (hy : y ≤ ms25) : getConc y 25 0 ms25 c25 ms25 = c25 * (ms25 - y) + c25 := by
    have : (0 : Rat) ≤ c25 * (ms25 - y) := mul_nonneg hc.le (by linarith)
    simp only [getConc, sub_self, mul_zero, add_zero, one_ne_zero, if_false, if_true, div_one]
    rw [if_neg (by linarith)]
  rw [hx _ h1, hx _ (by linarith)]
  have : c25 * (ms25 - q') < c25 * (ms25 - q) := by gcongr
  linarith

example : getConc 10 25 0 50 (3 / 2) 50 = 123 / 2 ∧ getConc 40 25 0 50 (3 / 2) 50 = 33 / 2 := by
  unfold getConc; norm_num

end Ptusa.CipFlow
