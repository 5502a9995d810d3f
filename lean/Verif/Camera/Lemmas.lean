import Verif.Camera.Spec
import Mathlib.Data.List.Induction

/-!
# Lemmas
-/
namespace Ptusa.Camera

theorem run_snoc (par : Fl) (c : Cam) (h : List Ev) (e : Ev) :
    c.run par (h ++ [e]) = (c.run par h).step par e := by
  unfold Cam.run
  rw [List.foldl_append]
  rfl

theorem start_eq (par : Fl) (t0 : BitVec 64) (h : List Ev) :
    ((Cam.init t0).run par h).start = (lastReady t0 h).truncate 32 := by
  induction h using List.reverseRecOn with
  | nil => rfl
  | append_singleton h e ih =>
    rw [run_snoc]
    cases e with
    | cmd n =>
      have : lastReady t0 (h ++ [.cmd n]) = lastReady t0 h := by simp [lastReady]
      rw [this, ← ih]
      show (Cam.set _ n).start = _
      unfold Cam.set Cam.on Cam.off
      split <;> rfl
    | eval now rd r2 =>
      cases rd with
      | true =>
        have : lastReady t0 (h ++ [.eval now true r2]) = now := by simp [lastReady]
        rw [this]
        simp only [Cam.step, Cam.eval, if_true, Cam.set, Cam.on, Cam.off]
        split <;> rfl
      | false =>
        have : lastReady t0 (h ++ [.eval now false r2]) = lastReady t0 h := by simp [lastReady]
        rw [this, ← ih]
        simp only [Cam.step, Cam.eval, Bool.false_eq_true, if_false, Cam.set, Cam.on, Cam.off]
        split <;> split <;> rfl

theorem set_out (c : Cam) (o : Bool) : (c.set (if o then 1 else 0)).out = o := by
  cases o <;> rfl

/-- What a cycle does to the output. -/
theorem eval_out (par : Fl) (t0 : BitVec 64) (h : List Ev) (now : BitVec 64) (rd r2 : Bool) :
    ((Cam.init t0).run par (h ++ [.eval now rd r2])).out =
      (((Cam.init t0).run par h).out ||
        (!rd && !Fl.lt (.num (Time.stepElapsed (lastReady t0 h) now).toNat) par)) := by
  rw [run_snoc]
  simp only [Cam.step, Cam.eval]
  rw [start_eq]
  unfold Time.stepElapsed
  cases rd with
  | true => simp [set_out]
  | false =>
    simp only [Bool.false_eq_true, if_false, Bool.not_false, Bool.true_and]
    split
    · next hh => rw [hh]; simp [set_out]
    · next hh => simp only [hh, Bool.not_false, Bool.or_true]; rfl

end Ptusa.Camera
