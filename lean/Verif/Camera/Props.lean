import Verif.Camera.Lemmas

/-!
# C109
-/
namespace Ptusa.Camera

/-- **C109 (output), partial.** Missing: a camera that is not ready for longer than the configured time
(`C109_forced_violated`).  In every history from the start in which this does not happen the output is
the last command. -/
theorem C109_output_partial (par : Fl) (t0 : BitVec 64) (h : List Ev)
    (hp : ∀ h1 now r2 h2, h = h1 ++ .eval now false r2 :: h2 → patient par t0 h1 now) :
    ((Cam.init t0).run par h).out = commanded h := by
  induction h using List.reverseRecOn with
  | nil => rfl
  | append_singleton h e ih =>
    have ih := ih (fun h1 now r2 h2 hh => hp h1 now r2 (h2 ++ [e]) (by rw [hh]; simp))
    cases e with
    | cmd n =>
      rw [run_snoc]
      have : commanded (h ++ [.cmd n]) = (n != 0) := by simp [commanded]
      rw [this]
      show (Cam.set _ n).out = _
      unfold Cam.set Cam.on Cam.off
      by_cases hn : n = 0 <;> simp [hn]
    | eval now rd r2 =>
      have hc : commanded (h ++ [.eval now rd r2]) = commanded h := by simp [commanded]
      rw [eval_out, ih, hc]
      cases rd with
      | true => simp
      | false =>
        have := hp h now r2 [] rfl
        unfold patient at this
        rw [this]
        simp

/-- Ready time 1000 ms: not ready for 900 ms. -/
example : patient (.num 1000) 0 [.eval 100 true false, .cmd 1] 1000 ∧
    ((Cam.init 0).run (.num 1000) [.eval 100 true false, .cmd 1, .eval 1000 false false]).out = true := by
  unfold patient
  decide +kernel

/-- **C109, violated.** A camera that is not ready for the configured time is switched on, whatever
was commanded, in every such cycle. -/
theorem C109_forced_violated (par : Fl) (t0 : BitVec 64) (h : List Ev) (now : BitVec 64) (r2 : Bool)
    (hp : ¬ patient par t0 h now) : ((Cam.init t0).run par (h ++ [.eval now false r2])).out = true := by
  unfold patient at hp
  rw [eval_out, Bool.eq_false_iff.2 hp]
  simp

example : ¬ patient (.num 1000) 0 [.eval 100 true false, .cmd 0] 1100 := by
  unfold patient
  decide +kernel

/-- **C109, violated.** Its state never shows the fault (and never that it is on): it is 0 for
ever. -/
theorem C109_state_violated (par : Fl) (t0 : BitVec 64) (h : List Ev) :
    ((Cam.init t0).run par h).state = 0 := by
  induction h using List.reverseRecOn with
  | nil => rfl
  | append_singleton h e ih =>
    rw [run_snoc]
    rw [← ih]
    cases e with
    | cmd n =>
      show (Cam.set _ n).state = _
      unfold Cam.set Cam.on Cam.off
      split <;> rfl
    | eval now rd r2 =>
      simp only [Cam.step, Cam.eval, Cam.set, Cam.on, Cam.off]
      split <;> [skip; split] <;> split <;> rfl

/-- **C109 (ready, results).** Readiness and the second result are those of the last cycle; there are
two results. -/
theorem C109_ready (par : Fl) (t0 : BitVec 64) (h : List Ev) (r1 : Bool) :
    ((Cam.init t0).run par h).ready = readyNow h ∧
    ((Cam.init t0).run par h).result r1 1 = (if r1 then 1 else 0) ∧
    ((Cam.init t0).run par h).result r1 2 = (if second h then 1 else 0) ∧
    ∀ n, n ≠ 1 → n ≠ 2 → ((Cam.init t0).run par h).result r1 n = 0 := by
  have key : ((Cam.init t0).run par h).ready = readyNow h ∧
      ((Cam.init t0).run par h).res2 = second h := by
    induction h using List.reverseRecOn with
    | nil => exact ⟨rfl, rfl⟩
    | append_singleton h e ih =>
      rw [run_snoc]
      cases e with
      | cmd n =>
        have a : readyNow (h ++ [.cmd n]) = readyNow h := by simp [readyNow]
        have b : second (h ++ [.cmd n]) = second h := by simp [second]
        rw [a, b, ← ih.1, ← ih.2]
        show (Cam.set _ n).ready = _ ∧ (Cam.set _ n).res2 = _
        unfold Cam.set Cam.on Cam.off
        split <;> exact ⟨rfl, rfl⟩
      | eval now rd r2 =>
        have a : readyNow (h ++ [.eval now rd r2]) = rd := by simp [readyNow]
        have b : second (h ++ [.eval now rd r2]) = r2 := by simp [second]
        rw [a, b]
        exact ⟨rfl, rfl⟩
  refine ⟨key.1, rfl, ?_, fun n h1 h2 => ?_⟩
  · unfold Cam.result
    rw [if_neg (by decide), if_pos rfl, key.2]
  · unfold Cam.result
    rw [if_neg h1, if_neg h2]

example : ((Cam.init 0).run (.num 1000) [.eval 1 true true, .cmd 1]).result false 2 = 1 := by decide +kernel

/-- **C109, violated.** 50 days after the start (2³² ms) the ready time has always passed: the first
cycle in which the camera is not ready switches it on. -/
theorem C109_days_violated (par : Rat) (t0 : BitVec 64) (h : List Ev) (r2 : Bool) (hp : par ≤ 4294967295)
    (now t : BitVec 64) (hl : lastReady t0 h = t) (ht : t.toNat < now.toNat) (h32 : 8589934592 ≤ now.toNat) :
    ((Cam.init t0).run (.num par) (h ++ [.eval now false r2])).out = true := by
  apply C109_forced_violated
  unfold patient
  rw [hl]
  have hd : 4294967295 ≤ (Time.stepElapsed t now).toNat := by
    unfold Time.stepElapsed Time.deltaMs
    have hs : ((t.truncate 32).zeroExtend 64).toNat < 4294967296 := by
      simp only [BitVec.truncate_eq_setWidth, BitVec.toNat_setWidth]
      omega
    generalize (t.truncate 32).zeroExtend 64 = x at hs
    have c1 : ¬ now < x := by rw [BitVec.lt_def]; omega
    simp only [c1, if_false]
    rw [if_pos (by rw [BitVec.le_def]; omega), BitVec.toNat_sub_of_le (by rw [BitVec.le_def]; omega)]
    omega
  simp only [Fl.lt_num, decide_eq_true_eq, not_lt]
  have : ((4294967295 : Nat) : Rat) ≤ ((Time.stepElapsed t now).toNat : Rat) := by exact_mod_cast hd
  refine le_trans hp (le_trans ?_ this)
  norm_num

example : (8589934592 : Nat) ≤ (8589934600 : BitVec 64).toNat ∧
    lastReady 0 [.eval 8589934595 true false] = 8589934595 := by decide

end Ptusa.Camera
