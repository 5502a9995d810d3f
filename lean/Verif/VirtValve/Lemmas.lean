import Verif.VirtValve.Spec
import Verif.ValveOff.Props

/-!
# Lemmas about virtual valves
-/
namespace Ptusa.VirtValve
open Ptusa.ValveOff (Cls Fleet Ev S)

/-- What of a valve of `ValveOff` the specification knows. -/
def abs (s : S Body) : Vv := { number := s.body.state, manual := s.manual, auto := s.auto, request := s.request }

theorem seat_iff (b : Body) : cls.seat b = false ↔ b.state ≠ 2 ∧ b.state ≠ 3 := by
  change (decide (b.state = 2) || decide (b.state = 3)) = false ↔ _
  rw [Bool.or_eq_false_iff, decide_eq_false_iff_not, decide_eq_false_iff_not]

theorem abs_step (emu : Bool) (i : Nat) (a : Act) (s : S Body) :
    abs (if (a.ev emu).concerns i then s.step cls (a.ev emu) else s) = (abs s).next i a := by
  cases a with
  | on j t =>
    by_cases c : j = i
    · subst c
      cases m : s.manual <;> simp [Act.ev, Ev.concerns, S.step, abs, Vv.next, cls, m]
    · simp [Act.ev, Ev.concerns, abs, Vv.next, c]
  | off j t =>
    by_cases c : j = i
    · subst c
      simp only [Act.ev, Ev.concerns, S.step, Vv.next, beq_self_eq_true, if_true]
      by_cases d : s.auto = true ∧ s.body.state ≠ 2 ∧ s.body.state ≠ 3
      · have e : s.auto = true ∧ cls.seat s.body = false := by rw [seat_iff]; exact d
        have f : (abs s).auto = true ∧ (abs s).number ≠ 2 ∧ (abs s).number ≠ 3 := d
        rw [if_pos e, if_pos f]
        cases r : s.request <;> simp [abs, r]
      · have e : ¬ (s.auto = true ∧ cls.seat s.body = false) := by rw [seat_iff]; exact d
        have f : ¬ ((abs s).auto = true ∧ (abs s).number ≠ 2 ∧ (abs s).number ≠ 3) := d
        rw [if_neg e, if_neg f]
        cases m : s.manual <;> simp [abs, m, cls]
    · simp [Act.ev, Ev.concerns, abs, Vv.next, c]
  | instantOff j t =>
    by_cases c : j = i
    · subst c
      cases m : s.manual <;> simp [Act.ev, Ev.concerns, S.step, abs, Vv.next, cls, m]
    · simp [Act.ev, Ev.concerns, abs, Vv.next, c]
  | set j t n =>
    by_cases c : j = i
    · subst c
      cases m : s.manual <;> simp [Act.ev, Ev.concerns, S.step, abs, Vv.next, cls, m]
    · simp [Act.ev, Ev.concerns, abs, Vv.next, c]
  | oper j t n =>
    by_cases c : j = i
    · subst c
      simp [Act.ev, Ev.concerns, S.step, abs, Vv.next, cls]
    · simp [Act.ev, Ev.concerns, abs, Vv.next, c]
  | manual j m =>
    by_cases c : j = i
    · subst c
      simp [Act.ev, Ev.concerns, S.step, abs, Vv.next]
    · simp [Act.ev, Ev.concerns, abs, Vv.next, c]
  | fb j w val =>
    by_cases c : j = i
    · subst c
      cases emu <;> cases w <;> simp [Act.ev, Ev.concerns, S.step, abs, Vv.next, setFb]
    · simp [Act.ev, Ev.concerns, abs, Vv.next, c]
  | evaluate t d bd =>
    simp only [Act.ev, Ev.concerns, S.step, Vv.next, if_true]
    cases r : s.request with
    | none => simp [abs, r, cls]
    | some t0 =>
      by_cases c : ValveOff.elapsed t t0 > d.toNat
      · cases m : s.manual <;> simp [abs, r, c, m, cls]
      · simp [abs, r, c, cls]

theorem abs_run (emu : Bool) (i : Nat) (h : List Act) : ∀ s : S Body,
    abs (s.run cls i (h.map (Act.ev emu))) = h.foldl (Vv.next i) (abs s) := by
  induction h with
  | nil => intro s; rfl
  | cons a h ih =>
    intro s
    rw [List.foldl_cons, ← abs_step emu i a s, ← ih]
    unfold S.run
    rw [List.map_cons]
    cases c : (a.ev emu).concerns i with
    | true => rw [List.filter_cons_of_pos c, List.foldl_cons, if_pos rfl]
    | false => rw [List.filter_cons_of_neg (by simp [c])]; simp

/-- One of the feedbacks. -/
def proj (w : Bool) (b : Body) : Bool := if w then b.onFb else b.offFb

theorem fb_step (emu : Bool) (i : Nat) (w : Bool) (a : Act) (s : S Body) :
    proj w (if (a.ev emu).concerns i then s.step cls (a.ev emu) else s).body =
      match a with
      | .fb j w' v => if j = i ∧ w' = w ∧ emu = true then v else proj w s.body
      | _ => proj w s.body := by
  cases a with
  | fb j w' v =>
    by_cases c : j = i
    · subst c
      cases emu <;> cases w <;> cases w' <;> simp [Act.ev, Ev.concerns, S.step, setFb, proj]
    · simp [Act.ev, Ev.concerns, c]
  | evaluate t d bd =>
    simp only [Act.ev, Ev.concerns, S.step, if_true]
    cases s.request with
    | none => rfl
    | some t0 =>
      dsimp only
      split
      · cases s.manual <;> rfl
      · rfl
  | on j t =>
    by_cases c : j = i
    · subst c
      cases m : s.manual <;> simp [Act.ev, Ev.concerns, S.step, m, cls, proj]
    · simp [Act.ev, Ev.concerns, c]
  | off j t =>
    by_cases c : j = i
    · subst c
      simp only [Act.ev, Ev.concerns, beq_self_eq_true, if_true, S.step]
      by_cases d : s.auto = true ∧ cls.seat s.body = false
      · rw [if_pos d]
      · rw [if_neg d]
        cases m : s.manual <;> simp [cls, proj]
    · simp [Act.ev, Ev.concerns, c]
  | instantOff j t =>
    by_cases c : j = i
    · subst c
      cases m : s.manual <;> simp [Act.ev, Ev.concerns, S.step, m, cls, proj]
    · simp [Act.ev, Ev.concerns, c]
  | set j t n =>
    by_cases c : j = i
    · subst c
      cases m : s.manual <;> simp [Act.ev, Ev.concerns, S.step, m, cls, proj]
    · simp [Act.ev, Ev.concerns, c]
  | oper j t n =>
    by_cases c : j = i
    · subst c
      simp [Act.ev, Ev.concerns, S.step, cls, proj]
    · simp [Act.ev, Ev.concerns, c]
  | manual j m =>
    by_cases c : j = i
    · subst c
      simp [Act.ev, Ev.concerns, S.step]
    · simp [Act.ev, Ev.concerns, c]

theorem run_cons (emu : Bool) (i : Nat) (a : Act) (h : List Act) (s : S Body) :
    s.run cls i ((a :: h).map (Act.ev emu)) =
      (if (a.ev emu).concerns i then s.step cls (a.ev emu) else s).run cls i (h.map (Act.ev emu)) := by
  unfold S.run
  rw [List.map_cons]
  cases c : (a.ev emu).concerns i with
  | true => rw [List.filter_cons_of_pos c, List.foldl_cons, if_pos rfl]
  | false => rw [List.filter_cons_of_neg (by simp [c])]; simp

theorem fb_run (emu : Bool) (i : Nat) (w : Bool) (h : List Act) :
    proj w ((run emu h).vs i).body = (emu && fbOf i w h) := by
  have e : ((run emu h).vs i).body = (({ body := {} } : S Body).run cls i (h.map (Act.ev emu))).body :=
    congrArg S.body (ValveOff.C47_refines_partial (fun _ => cls) (fun _ => {}) (h.map (Act.ev emu)) i rfl)
  rw [e]
  have key : ∀ (h : List Act) (s : S Body) (x : Bool), proj w s.body = (emu && x) →
      proj w (s.run cls i (h.map (Act.ev emu))).body = (emu && h.foldl (fun x a => match a with
        | .fb j w' v => if j = i ∧ w' = w then v else x
        | _ => x) x) := by
    intro h
    induction h with
    | nil => intro s x q; exact q
    | cons a h ih =>
      intro s x q
      rw [run_cons, List.foldl_cons]
      apply ih
      rw [fb_step]
      cases a with
      | fb j w' v =>
        dsimp only
        by_cases c : j = i ∧ w' = w
        · rw [if_pos c]
          cases emu with
          | true => rw [if_pos ⟨c.1, c.2, rfl⟩]; rfl
          | false => rw [if_neg (by simp)]; exact q
        · rw [if_neg c, if_neg (fun k => c ⟨k.1, k.2.1⟩)]; exact q
      | _ => exact q
  exact key h _ false (by cases w <;> simp [proj])

theorem view_run (emu : Bool) (i : Nat) (h : List Act) : abs ((run emu h).vs i).view = Vv.after i h := by
  unfold run
  rw [ValveOff.C47_refines_partial (fun _ => cls) (fun _ => {}) (h.map (Act.ev emu)) i rfl]
  exact abs_run emu i h _

end Ptusa.VirtValve
