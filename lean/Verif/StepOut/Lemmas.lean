import Verif.StepOut.Spec
import Mathlib.Data.List.Induction

/-!
# Lemmas on the commands of steps
-/
namespace Ptusa.StepOut

open Operation (Call SCfg Env OpState)
open Device (Prog)

theorem run_snoc (c : SCfg) (h : List Ev) (v : Ev) : run c (h ++ [v]) = step c (run c h) v := by
  unfold run
  rw [List.foldl_append]
  rfl

/-- One command. -/
def cmd1 (d : Nat) (b : Bool) (x : Nat × Prog) : Bool := if x.1 = d then (match x.2 with | .on => true | .off => false | _ => b) else b

theorem fold_const (d : Nat) (p : Prog) (v : Bool) (hp : ∀ b, cmd1 d b (d, p) = v) (l : List Nat) (b : Bool) :
    (l.map fun x => (x, p)).foldl (cmd1 d) b = if d ∈ l then v else b := by
  induction l generalizing b with
  | nil => rfl
  | cons x l ih =>
    rw [List.map_cons, List.foldl_cons, ih]
    by_cases e : x = d
    · subst e
      rw [hp]
      simp
    · have : cmd1 d b (x, p) = b := if_neg e
      rw [this]
      by_cases m : d ∈ l
      · rw [if_pos m, if_pos (List.mem_cons_of_mem _ m)]
      · rw [if_neg m, if_neg (by rw [List.mem_cons]; rintro (h | h); exact e h.symm; exact m h)]

/-- The output after the calls. -/
def out (dev : Option Nat → Devs) (d : Nat) (r : OpState) : Bool := lastOn d (r.log.flatMap (cmds dev))

theorem out_snoc (dev : Option Nat → Devs) (d : Nat) (l : List Call) (x : Call) :
    lastOn d ((l ++ [x]).flatMap (cmds dev)) = (cmds dev x).foldl (cmd1 d) (lastOn d (l.flatMap (cmds dev))) := by
  rw [List.flatMap_append, List.flatMap_cons, List.flatMap_nil, List.append_nil]
  unfold lastOn
  rw [List.foldl_append]
  rfl

theorem fold_eval (dev : Option Nat → Devs) (d : Nat) (i : Option Nat) (b : Bool) :
    (cmds dev (.eval i)).foldl (cmd1 d) b = if d ∈ (dev i).off then false else if d ∈ (dev i).on then true else b := by
  show ((dev i).on.map (fun d => (d, Prog.on)) ++ (dev i).off.map fun d => (d, Prog.off)).foldl (cmd1 d) b = _
  rw [List.foldl_append, fold_const d .on true (fun b => if_pos rfl), fold_const d .off false (fun b => if_pos rfl)]

theorem fold_fin (dev : Option Nat → Devs) (d : Nat) (i : Option Nat) (b : Bool) :
    (cmds dev (.fin i)).foldl (cmd1 d) b = if d ∈ (dev i).off then false else if d ∈ (dev i).on then false else b := by
  show ((dev i).on.map (fun d => (d, Prog.off)) ++ (dev i).off.map fun d => (d, Prog.off)).foldl (cmd1 d) b = _
  rw [List.foldl_append, fold_const d .off false (fun b => if_pos rfl), fold_const d .off false (fun b => if_pos rfl)]

theorem out_init (dev : Option Nat → Devs) (d : Nat) (r : OpState) (i : Nat) : out dev d (r.initStep i) = out dev d r := out_snoc dev d r.log (.init (some i))

theorem out_eval (dev : Option Nat → Devs) (d : Nat) (r : OpState) (i : Nat) :
    out dev d (r.evalStep i) = if d ∈ (dev (some i)).off then false else if d ∈ (dev (some i)).on then true else out dev d r :=
  (out_snoc dev d r.log (.eval (some i))).trans (fold_eval dev d (some i) _)

theorem out_fin (dev : Option Nat → Devs) (d : Nat) (r : OpState) (i : Nat) :
    out dev d (r.finStep i) = if d ∈ (dev (some i)).off then false else if d ∈ (dev (some i)).on then false else out dev d r :=
  (out_snoc dev d r.log (.fin (some i))).trans (fold_fin dev d (some i) _)

open Classical in
/-- What the current step asks for, as a value. -/
noncomputable def ask (z : Nat → Bool) (dev : Option Nat → Devs) (cur : Option Nat) (d : Nat) : Bool := decide (Asks z dev cur d)

theorem ask_none (z : Nat → Bool) (dev : Option Nat → Devs) (d : Nat) : ask z dev none d = false := by
  unfold ask
  simp [Asks]

theorem ask_some (z : Nat → Bool) (dev : Option Nat → Devs) (m d : Nat) :
    ask z dev (some m) d = (if z m then false else if d ∈ (dev (some m)).off then false else if d ∈ (dev (some m)).on then true else false) := by
  unfold ask
  simp only [Asks, Option.some.injEq]
  cases hz : z m <;> by_cases h1 : d ∈ (dev (some m)).off <;> by_cases h2 : d ∈ (dev (some m)).on <;> simp_all

/-- The invariant: no parallel steps, no step when left, the output is what the step asks for. -/
structure Inv (z : Nat → Bool) (dev : Option Nat → Devs) (d : Nat) (isIn : Bool) (r : OpState) : Prop where
  extra : r.extra = []
  left : isIn = false → r.main = none
  outs : out dev d r = ask z dev r.main d

theorem inv_fin {z : Nat → Bool} {dev : Option Nat → Devs} {d : Nat} {isIn : Bool} {r : OpState} (h : Inv z dev d isIn r) :
    r.finMain.extra = [] ∧ out dev d r.finMain = false := by
  unfold OpState.finMain
  cases e : r.main with
  | none =>
    refine ⟨h.extra, ?_⟩
    have := h.outs
    rw [e, ask_none] at this
    exact this
  | some m =>
    refine ⟨h.extra, ?_⟩
    show out dev d (r.finStep m) = false
    rw [out_fin, h.outs, e, ask_some]
    by_cases h1 : d ∈ (dev (some m)).off
    · rw [if_pos h1]
    · rw [if_neg h1]
      by_cases h2 : d ∈ (dev (some m)).on
      · rw [if_pos h2]
      · rw [if_neg h2, if_neg h1, if_neg h2]
        cases z m <;> rfl

theorem inv_toStep {z : Nat → Bool} {dev : Option Nat → Devs} {d : Nat} {r : OpState} {isIn : Bool} (h : Inv z dev d isIn r) (c : SCfg) (e : Env) (hz : e.zeroDur = z)
    (k : Int) : Inv z dev d true (r.toStep c e k) := by
  have hh : Inv z dev d true r := ⟨h.extra, fun x => (nomatch x), h.outs⟩
  unfold OpState.toStep
  by_cases x : k ≤ 0 ∨ (c.steps : Int) < k
  · rw [if_pos x]
    exact hh
  · rw [if_neg x]
    obtain ⟨f1, f2⟩ := inv_fin hh
    simp only
    by_cases zi : e.zeroDur (k.toNat - 1) = true
    · rw [if_pos zi]
      refine ⟨f1, fun x => (nomatch x), ?_⟩
      show out dev d r.finMain = _
      rw [f2, ask_some, ← hz, if_pos zi]
    · rw [if_neg zi]
      refine ⟨f1, fun x => (nomatch x), ?_⟩
      rw [out_eval, out_init]
      show (if d ∈ (dev (some (k.toNat - 1))).off then false else if d ∈ (dev (some (k.toNat - 1))).on then true else out dev d r.finMain) = _
      rw [f2]
      show _ = ask z dev (some (k.toNat - 1)) d
      rw [ask_some, ← hz, if_neg zi]

theorem inv_eval1 {z : Nat → Bool} {dev : Option Nat → Devs} {d : Nat} {r : OpState} (h : Inv z dev d true r) (m : Nat) (hm : r.main = some m) (hz : z m = false) :
    Inv z dev d true (r.evalStep m) := by
  refine ⟨h.extra, fun x => (nomatch x), ?_⟩
  rw [out_eval, h.outs]
  show _ = ask z dev r.main d
  rw [hm, ask_some, hz]
  by_cases h1 : d ∈ (dev (some m)).off
  · rw [if_pos h1, if_pos h1]
    rfl
  · rw [if_neg h1, if_neg h1]
    by_cases h2 : d ∈ (dev (some m)).on
    · rw [if_pos h2, if_pos h2]
      rfl
    · rw [if_neg h2]

theorem enable_none (c : SCfg) (e : Env) (r : OpState) (he : ∀ i, e.onSig i = false) : r.enableLoop c e = r := by
  unfold OpState.enableLoop
  generalize List.range c.steps = l
  induction l with
  | nil => rfl
  | cons i l ih =>
    rw [List.foldl_cons]
    have : (if i + 1 ∈ r.extra then r else if e.onSig i then (r.onExtraPos c e (i + 1)).1 else r) = r := by
      by_cases x : i + 1 ∈ r.extra
      · rw [if_pos x]
      · rw [if_neg x, he i]
        rfl
    rw [this]
    exact ih

theorem evaluate_eq (c : SCfg) (e : Env) (r : OpState) (hx : r.extra = []) (he : ∀ i, e.onSig i = false) :
    r.evaluate c e = ({ r with log := r.log ++ [.eval none] } : OpState).evalMain c e := by
  unfold OpState.evaluate
  simp only [hx, List.length_nil]
  show OpState.evalMain c e (OpState.enableLoop c e _) = _
  rw [enable_none c e _ he]
  show OpState.evalMain c e _ = _
  rw [show r = { r with extra := [] } from by rw [← hx]]
  rfl

theorem inv_none {z : Nat → Bool} {dev : Option Nat → Devs} {d : Nat} {b : Bool} {r : OpState} (h : Inv z dev d b r) (hd : Free dev none d) (x : Call)
    (hx : x = .init none ∨ x = .eval none ∨ x = .fin none) (mode : Bool) : Inv z dev d b { r with mode := mode, log := r.log ++ [x] } := by
  refine ⟨h.extra, h.left, Eq.trans ?_ h.outs⟩
  show lastOn d ((r.log ++ [x]).flatMap (cmds dev)) = _
  rw [out_snoc]
  rcases hx with rfl | rfl | rfl
  · rfl
  · rw [fold_eval, if_neg hd.2, if_neg hd.1]
    rfl
  · rw [fold_fin, if_neg hd.2, if_neg hd.1]
    rfl

theorem inv_evalMain {z : Nat → Bool} {dev : Option Nat → Devs} {d : Nat} {r : OpState} (h : Inv z dev d true r) (c : SCfg) (e : Env) (hq : Quiet z e) :
    Inv z dev d true (r.evalMain c e).1 := by
  obtain ⟨hz, hj0, -⟩ := hq
  unfold OpState.evalMain
  cases hm : r.main with
  | none => exact h
  | some m =>
    simp only
    by_cases x : (e.zeroDur m || e.elapsed m) = true
    · rw [if_pos x]
      by_cases y : r.nextN = -1
      · rw [if_pos y]
        exact h
      · rw [if_neg y]
        exact inv_toStep h c e hz _
    · rw [if_neg x]
      cases hj : e.jump m with
      | none =>
        simp only [hm]
        refine inv_eval1 h m hm ?_
        rw [← hz]
        cases q : e.zeroDur m with
        | false => rfl
        | true => rw [q] at x; exact absurd rfl x
      | some k =>
        have g := inv_toStep h c e hz k
        simp only
        cases hm' : (r.toStep c e k).main with
        | none => simpa [hm'] using g
        | some m' =>
          simp only
          refine inv_eval1 g m' hm' ?_
          unfold OpState.toStep at hm'
          by_cases y : (k : Int) ≤ 0 ∨ (c.steps : Int) < k
          · rw [if_pos y, hm] at hm'
            cases hm'
            rw [← hz]
            cases q : e.zeroDur m with
            | false => rfl
            | true => rw [q] at x; exact absurd rfl x
          · rw [if_neg y] at hm'
            have e2 : m' = k - 1 := by
              simp only at hm'
              by_cases zi : e.zeroDur ((k : Int).toNat - 1) = true
              · rw [if_pos zi] at hm'
                cases hm'
                omega
              · rw [if_neg zi] at hm'
                cases hm'
                omega
            cases k with
            | zero => omega
            | succ k =>
              rw [e2]
              exact hj0 m k hj

theorem inv_step {z : Nat → Bool} {dev : Option Nat → Devs} {d : Nat} (hd : Free dev none d) (c : SCfg) (isIn : Bool) (r : OpState) (h : Inv z dev d isIn r) (v : Ev)
    (hv : ∀ e, v.env = some e → Quiet z e) (hp : ∃ t, proper isIn (v :: t) = true) :
    ∃ b, Inv z dev d b (step c r v) ∧ ∀ t, proper isIn (v :: t) = true → proper b t = true := by
  obtain ⟨t, hp⟩ := hp
  cases v with
  | init e k =>
    have hi : isIn = false ∧ proper true t = true := by simpa [proper] using hp
    refine ⟨true, ?_, fun t ht => by simpa [proper, hi.1] using ht⟩
    have q := hv e rfl
    have g : Inv z dev d false { r with mode := true, log := r.log ++ [.init none], main := none } := by
      have := inv_none h hd (.init none) (Or.inl rfl) true
      rw [hi.1] at this
      have e0 : ({ r with mode := true, log := r.log ++ [.init none], main := none } : OpState) = { r with mode := true, log := r.log ++ [.init none] } := by
        rw [show (none : Option Nat) = r.main from (h.left hi.1).symm]
      rw [e0]
      exact this
    show Inv z dev d true (r.init c e k)
    unfold OpState.init
    simp only
    by_cases n0 : c.steps = 0
    · rw [if_pos n0]
      exact ⟨g.extra, fun x => (nomatch x), g.outs⟩
    · rw [if_neg n0]
      have g2 := inv_toStep g c e q.1 k
      rw [g2.extra]
      exact g2
  | evaluate e =>
    have hi : isIn = true ∧ proper isIn t = true := by simpa [proper] using hp
    refine ⟨true, ?_, fun t ht => by simpa [proper, hi.1] using ht⟩
    have q := hv e rfl
    show Inv z dev d true (r.evaluate c e).1
    rw [evaluate_eq c e r h.extra q.2.2]
    refine inv_evalMain ?_ c e q
    have := inv_none h hd (.eval none) (Or.inr (Or.inl rfl)) r.mode
    rw [hi.1] at this
    exact this
  | toStep e k =>
    have hi : isIn = true ∧ proper isIn t = true := by simpa [proper] using hp
    exact ⟨true, inv_toStep h c e (hv e rfl).1 k, fun t ht => by simpa [proper, hi.1] using ht⟩
  | toNext e =>
    have hi : isIn = true ∧ proper isIn t = true := by simpa [proper] using hp
    refine ⟨true, ?_, fun t ht => by simpa [proper, hi.1] using ht⟩
    show Inv z dev d true (r.toNext c e)
    unfold OpState.toNext
    cases hm : r.main with
    | none =>
      rw [hi.1] at h
      exact h
    | some m =>
      simp only
      by_cases y : c.next m = -1
      · rw [if_pos y]
        exact inv_toStep h c e (hv e rfl).1 _
      · rw [if_neg y]
        exact inv_toStep h c e (hv e rfl).1 _
  | turnOff =>
    have hi : isIn = true ∧ proper isIn t = true := by simpa [proper] using hp
    refine ⟨true, ?_, fun t ht => by simpa [proper, hi.1] using ht⟩
    obtain ⟨f1, f2⟩ := inv_fin h
    exact ⟨f1, fun x => (nomatch x), f2.trans (ask_none z dev d).symm⟩
  | finalize =>
    refine ⟨false, ?_, fun t ht => by simpa [proper] using ht⟩
    obtain ⟨f1, f2⟩ := inv_fin (inv_none h hd (.fin none) (Or.inr (Or.inr rfl)) false)
    show Inv z dev d false r.finalize
    unfold OpState.finalize
    simp only [f1]
    exact ⟨rfl, fun _ => rfl, f2.trans (ask_none z dev d).symm⟩

theorem inv_run {z : Nat → Bool} {dev : Option Nat → Devs} {d : Nat} (hd : Free dev none d) (c : SCfg) (h : List Ev) :
    ∀ (isIn : Bool) (r : OpState), Inv z dev d isIn r → proper isIn h = true → Steady z h → ∃ b, Inv z dev d b (h.foldl (step c) r) := by
  induction h with
  | nil => exact fun isIn r hr _ _ => ⟨isIn, hr⟩
  | cons v h ih =>
    intro isIn r hr hp hs
    obtain ⟨b, g, k⟩ := inv_step hd c isIn r hr v (hs v (List.mem_cons_self ..)) ⟨h, hp⟩
    exact ih b _ g (k h hp) fun w hw => hs w (List.mem_cons_of_mem _ hw)

theorem inv_fresh (z : Nat → Bool) (dev : Option Nat → Devs) (d : Nat) (c : SCfg) : Inv z dev d false { act := List.replicate c.steps false } :=
  ⟨rfl, fun _ => rfl, (ask_none z dev d).symm⟩

/-! ### The step of the whole state -/

theorem out_steps (dev : Option Nat → Devs) (d : Nat) (hd : ∀ i, Free dev (some i) d) (r : OpState) (i : Nat) :
    out dev d (r.initStep i) = out dev d r ∧ out dev d (r.evalStep i) = out dev d r ∧ out dev d (r.finStep i) = out dev d r := by
  refine ⟨out_init dev d r i, ?_, ?_⟩
  · rw [out_eval, if_neg (hd i).2, if_neg (hd i).1]
  · rw [out_fin, if_neg (hd i).2, if_neg (hd i).1]

theorem out_finMain (dev : Option Nat → Devs) (d : Nat) (hd : ∀ i, Free dev (some i) d) (r : OpState) : out dev d r.finMain = out dev d r := by
  unfold OpState.finMain
  cases r.main with
  | none => rfl
  | some m => exact (out_steps dev d hd r m).2.2

theorem out_toStep (dev : Option Nat → Devs) (d : Nat) (hd : ∀ i, Free dev (some i) d) (c : SCfg) (e : Env) (k : Int) (r : OpState) :
    out dev d (r.toStep c e k) = out dev d r := by
  unfold OpState.toStep
  by_cases x : k ≤ 0 ∨ (c.steps : Int) < k
  · rw [if_pos x]
  · rw [if_neg x]
    simp only
    by_cases zi : e.zeroDur (k.toNat - 1) = true
    · rw [if_pos zi]
      exact out_finMain dev d hd r
    · rw [if_neg zi, (out_steps dev d hd _ _).2.1, out_init]
      exact out_finMain dev d hd r

theorem out_evalMain (dev : Option Nat → Devs) (d : Nat) (hd : ∀ i, Free dev (some i) d) (c : SCfg) (e : Env) (r : OpState) :
    out dev d (r.evalMain c e).1 = out dev d r := by
  unfold OpState.evalMain
  cases hm : r.main with
  | none => rfl
  | some m =>
    simp only
    by_cases x : (e.zeroDur m || e.elapsed m) = true
    · rw [if_pos x]
      by_cases y : r.nextN = -1
      · rw [if_pos y]
      · rw [if_neg y]
        exact out_toStep dev d hd c e _ r
    · rw [if_neg x]
      cases hj : e.jump m with
      | none =>
        simp only [hm]
        exact (out_steps dev d hd r m).2.1
      | some k =>
        simp only
        cases hm' : (r.toStep c e k).main with
        | none => exact out_toStep dev d hd c e k r
        | some m' => exact (out_steps dev d hd _ m').2.1.trans (out_toStep dev d hd c e k r)

/-! ### The commands in the main loop -/

open MainLoop (Cmd Want wanted cmdsFor commands)

theorem want_prog (l : List Prog) (hl : ∀ p ∈ l, p = .on ∨ p = .off) (w : Want) (hw : w.manual = false) :
    ((l.map Cmd.prog).foldl Want.step w).on = l.foldl (fun b p => match p with | .on => true | .off => false | _ => b) w.on := by
  induction l generalizing w with
  | nil => rfl
  | cons p l ih =>
    rw [List.map_cons, List.foldl_cons, List.foldl_cons]
    have hl' := fun q hq => hl q (List.mem_cons_of_mem _ hq)
    rcases hl p (List.mem_cons_self ..) with rfl | rfl
    · have e : w.step (.prog .on) = { w with on := true } := by
        unfold Want.step
        simp [hw]
      rw [e]
      exact ih hl' _ hw
    · have e : w.step (.prog .off) = { w with on := false } := by
        unfold Want.step
        simp [hw]
      rw [e]
      exact ih hl' _ hw

theorem lastOn_filter (d : Nat) (l : List (Nat × Prog)) (b : Bool) :
    l.foldl (cmd1 d) b = ((l.filter fun x => x.1 == d).map fun x => x.2).foldl (fun b p => match p with | .on => true | .off => false | _ => b) b := by
  induction l generalizing b with
  | nil => rfl
  | cons x l ih =>
    rw [List.foldl_cons, List.filter_cons]
    by_cases e : x.1 = d
    · rw [if_pos (by simpa using e), List.map_cons, List.foldl_cons, ih]
      congr 1
      exact if_pos e
    · rw [if_neg (by simpa using e), ih]
      congr 1
      exact if_neg e

theorem given_onOff (c : SCfg) (dev : Option Nat → Devs) (h : List Ev) : ∀ x ∈ given c dev h, x.2 = .on ∨ x.2 = .off := by
  intro x hx
  obtain ⟨q, -, hq⟩ := List.mem_flatMap.1 hx
  cases q with
  | init i => exact nomatch hq
  | eval i =>
    rcases List.mem_append.1 hq with y | y
    · obtain ⟨d, -, rfl⟩ := List.mem_map.1 y
      exact Or.inl rfl
    · obtain ⟨d, -, rfl⟩ := List.mem_map.1 y
      exact Or.inr rfl
  | fin i =>
    rcases List.mem_append.1 hq with y | y
    · obtain ⟨d, -, rfl⟩ := List.mem_map.1 y
      exact Or.inr rfl
    · obtain ⟨d, -, rfl⟩ := List.mem_map.1 y
      exact Or.inr rfl

theorem cmdsFor_append (d : Nat) (a b : List (Nat × Cmd)) : cmdsFor d (a ++ b) = cmdsFor d a ++ cmdsFor d b := by
  unfold cmdsFor
  rw [List.filter_append, List.map_append]

theorem cmdsFor_prog (d : Nat) (l : List (Nat × Prog)) :
    cmdsFor d (l.map fun x => (x.1, Cmd.prog x.2)) = ((l.filter fun x => x.1 == d).map fun x => x.2).map Cmd.prog := by
  induction l with
  | nil => rfl
  | cons x l ih =>
    unfold cmdsFor at ih ⊢
    rw [List.map_cons, List.filter_cons, List.filter_cons]
    by_cases e : (x.1 == d) = true
    · simp only [e, if_true, List.map_cons, ih]
    · rw [if_neg e, if_neg e]
      exact ih

theorem cmdsFor_commands (d : Nat) (l : List (MainLoop.Cycle × MainLoop.Rec)) (hx : ∀ x ∈ l, ∀ y ∈ x.1.second, y.1 ≠ d) :
    cmdsFor d (commands l) = (((l.flatMap fun x => x.1.prog x.2.inp).filter fun x => x.1 == d).map fun x => x.2).map Cmd.prog := by
  induction l with
  | nil => rfl
  | cons x l ih =>
    have e : commands (x :: l) = (x.1.first x.2.inp ++ x.1.second) ++ commands l := rfl
    rw [e, cmdsFor_append, cmdsFor_append, ih fun y hy => hx y (List.mem_cons_of_mem _ hy), List.flatMap_cons, List.filter_append, List.map_append, List.map_append]
    congr 1
    have e2 : cmdsFor d x.1.second = [] := by
      unfold cmdsFor
      rw [List.filter_eq_nil_iff.2 (fun y hy => by simpa using hx x (List.mem_cons_self ..) y hy)]
      rfl
    rw [e2, List.append_nil]
    exact cmdsFor_prog d _

end Ptusa.StepOut
