import Verif.ParOut.Spec
import Verif.StepOut.Lemmas
import Mathlib.Data.List.Nodup

/-!
# Lemmas on the outputs of parallel steps
-/
namespace Ptusa.ParOut

open Operation (Call SCfg Env OpState)
open StepOut (Devs Free cmds lastOn out_snoc fold_eval fold_fin)

/-- The invariant. -/
structure Inv (dev : Option Nat → Devs) (k d : Nat) (r : OpState) : Prop where
  main : r.main ≠ some k
  pos : 0 ∉ r.extra
  nodup : r.extra.Nodup
  out : isOn dev d r = true ↔ k + 1 ∈ r.extra

variable {dev : Option Nat → Devs} {k d : Nat}

theorem on_call (r : OpState) (x : Call) (r' : OpState) (h : r'.log = r.log ++ [x]) : isOn dev d r' = (cmds dev x).foldl (StepOut.cmd1 d) (isOn dev d r) := by
  unfold isOn
  rw [h, out_snoc]

theorem on_other (ho : Only dev k d) (r : OpState) (x : Call) (i : Option Nat) (hi : i ≠ some k) (hx : x = .init i ∨ x = .eval i ∨ x = .fin i) (r' : OpState)
    (h : r'.log = r.log ++ [x]) : isOn dev d r' = isOn dev d r := by
  rw [on_call r x r' h]
  have f := ho.2.2 i hi
  rcases hx with rfl | rfl | rfl
  · rfl
  · rw [fold_eval, if_neg f.2, if_neg f.1]
  · rw [fold_fin, if_neg f.2, if_neg f.1]

theorem on_init (r : OpState) (i : Nat) : isOn dev d (r.initStep i) = isOn dev d r := on_call r (.init (some i)) _ rfl

theorem on_eval (ho : Only dev k d) (r : OpState) (i : Nat) : isOn dev d (r.evalStep i) = if i = k then true else isOn dev d r := by
  by_cases e : i = k
  · subst e
    rw [on_call r (.eval (some i)) _ rfl, fold_eval, if_neg ho.2.1, if_pos ho.1, if_pos rfl]
  · rw [if_neg e]
    exact on_other ho r (.eval (some i)) (some i) (fun h => e (Option.some.inj h)) (Or.inr (Or.inl rfl)) _ rfl

theorem on_fin (ho : Only dev k d) (r : OpState) (i : Nat) : isOn dev d (r.finStep i) = if i = k then false else isOn dev d r := by
  by_cases e : i = k
  · subst e
    rw [on_call r (.fin (some i)) _ rfl, fold_fin, if_neg ho.2.1, if_pos ho.1, if_pos rfl]
  · rw [if_neg e]
    exact on_other ho r (.fin (some i)) (some i) (fun h => e (Option.some.inj h)) (Or.inr (Or.inr rfl)) _ rfl

theorem on_finMain (ho : Only dev k d) (r : OpState) (hm : r.main ≠ some k) : isOn dev d r.finMain = isOn dev d r ∧ r.finMain.extra = r.extra := by
  unfold OpState.finMain
  cases e : r.main with
  | none => exact ⟨rfl, rfl⟩
  | some m =>
    refine ⟨?_, rfl⟩
    show isOn dev d (r.finStep m) = _
    rw [on_fin ho, if_neg (fun x => hm (by rw [e, x]))]

theorem inv_toStep (ho : Only dev k d) {r : OpState} (h : Inv dev k d r) (c : SCfg) (e : Env) (n : Int) (hn : n ≠ k + 1) : Inv dev k d (r.toStep c e n) := by
  unfold OpState.toStep
  by_cases x : n ≤ 0 ∨ (c.steps : Int) < n
  · rw [if_pos x]
    exact h
  · rw [if_neg x]
    obtain ⟨f1, f2⟩ := on_finMain ho r h.main
    have hk : n.toNat - 1 ≠ k := by omega
    have hk' : (some (n.toNat - 1) : Option Nat) ≠ some k := fun h => hk (Option.some.inj h)
    simp only
    by_cases zi : e.zeroDur (n.toNat - 1) = true
    · rw [if_pos zi]
      refine ⟨hk', ?_, ?_, ?_⟩
      · show 0 ∉ r.finMain.extra
        rw [f2]
        exact h.pos
      · show r.finMain.extra.Nodup
        rw [f2]
        exact h.nodup
      · show isOn dev d r.finMain = true ↔ k + 1 ∈ r.finMain.extra
        rw [f1, f2]
        exact h.out
    · rw [if_neg zi]
      refine ⟨hk', ?_, ?_, ?_⟩
      · show 0 ∉ r.finMain.extra
        rw [f2]
        exact h.pos
      · show r.finMain.extra.Nodup
        rw [f2]
        exact h.nodup
      · rw [on_eval ho, if_neg hk, on_init]
        show isOn dev d r.finMain = true ↔ k + 1 ∈ r.finMain.extra
        rw [f1, f2]
        exact h.out

theorem inv_onExtra (ho : Only dev k d) {r : OpState} (h : Inv dev k d r) (c : SCfg) (e : Env) (n : Nat) (hn : 0 < n) (hc : e.checkOk k = true) :
    Inv dev k d (r.onExtraPos c e n).1 := by
  unfold OpState.onExtraPos
  by_cases a : c.steps < n
  · rw [if_pos a]
    exact h
  · rw [if_neg a]
    by_cases b : r.main = some (n - 1)
    · rw [if_pos b]
      exact h
    · rw [if_neg b]
      by_cases m : n ∈ r.extra
      · rw [if_pos m]
        exact h
      · rw [if_neg m]
        have nd : (r.extra ++ [n]).Nodup := by
          rw [List.nodup_append]
          refine ⟨h.nodup, List.nodup_singleton n, ?_⟩
          intro x hx y hy e
          rw [List.mem_singleton] at hy
          exact m (by rw [← hy, ← e]; exact hx)
        have p0 : 0 ∉ r.extra ++ [n] := by
          rw [List.mem_append, List.mem_singleton]
          rintro (x | x)
          · exact h.pos x
          · omega
        simp only
        by_cases q : e.checkOk (n - 1) = true
        · rw [if_pos q]
          refine ⟨h.main, p0, nd, ?_⟩
          rw [on_eval ho, on_init]
          show (if n - 1 = k then true else isOn dev d r) = true ↔ k + 1 ∈ r.extra ++ [n]
          rw [List.mem_append, List.mem_singleton]
          by_cases z : n - 1 = k
          · rw [if_pos z]
            exact ⟨fun _ => Or.inr (by omega), fun _ => rfl⟩
          · rw [if_neg z, h.out]
            exact ⟨Or.inl, fun x => x.elim id fun y => absurd (by omega) z⟩
        · rw [if_neg q]
          refine ⟨h.main, p0, nd, ?_⟩
          show isOn dev d r = true ↔ k + 1 ∈ r.extra ++ [n]
          rw [List.mem_append, List.mem_singleton, h.out]
          refine ⟨Or.inl, fun x => x.elim id fun y => ?_⟩
          have : n - 1 = k := by omega
          rw [this] at q
          exact absurd hc q

theorem inv_offExtra (ho : Only dev k d) {r : OpState} (h : Inv dev k d r) (c : SCfg) (n : Int) : Inv dev k d (r.offExtra c n) := by
  unfold OpState.offExtra
  by_cases a : n < 0 ∨ (c.steps : Int) < n
  · rw [if_pos a]
    exact h
  · rw [if_neg a]
    by_cases m : n.toNat ∈ r.extra
    · rw [if_pos m]
      refine ⟨h.main, fun x => h.pos (List.mem_of_mem_erase x), h.nodup.erase _, ?_⟩
      show isOn dev d (r.finStep (n.toNat - 1)) = true ↔ k + 1 ∈ r.extra.erase n.toNat
      have n0 : n.toNat ≠ 0 := fun z => h.pos (by rw [← z]; exact m)
      rw [on_fin ho, h.nodup.mem_erase_iff]
      by_cases z : n.toNat - 1 = k
      · rw [if_pos z]
        exact ⟨fun x => (nomatch x), fun x => absurd (by omega) x.1⟩
      · rw [if_neg z, h.out]
        exact ⟨fun x => ⟨by omega, x⟩, fun x => x.2⟩
    · rw [if_neg m]
      exact h

theorem inv_evalExtra (ho : Only dev k d) {r : OpState} (h : Inv dev k d r) (n : Nat) (hn : n ∈ r.extra) : Inv dev k d (r.evalStep (n - 1)) := by
  refine ⟨h.main, h.pos, h.nodup, ?_⟩
  rw [on_eval ho]
  show _ ↔ k + 1 ∈ r.extra
  have n0 : n ≠ 0 := fun z => h.pos (by rw [← z]; exact hn)
  by_cases z : n - 1 = k
  · rw [if_pos z]
    have : n = k + 1 := by omega
    rw [this] at hn
    exact ⟨fun _ => hn, fun _ => rfl⟩
  · rw [if_neg z]
    exact h.out

theorem inv_body (ho : Only dev k d) {r : OpState} (h : Inv dev k d r) (c : SCfg) (e : Env) (n : Nat) (hn : n ∈ r.extra) : Inv dev k d (r.extraBody c e n) := by
  unfold OpState.extraBody
  by_cases a : n - 1 < c.steps
  · rw [if_pos a]
    have g := inv_evalExtra ho h n hn
    simp only
    by_cases b : e.offSig (n - 1) = true
    · rw [if_pos b]
      exact inv_offExtra ho g c n
    · rw [if_neg b]
      exact g
  · rw [if_neg a]
    exact h

theorem inv_loop (ho : Only dev k d) (c : SCfg) (e : Env) (fuel : Nat) : ∀ (idx : Nat) {r : OpState}, Inv dev k d r → Inv dev k d (r.extraLoop c e fuel idx) := by
  induction fuel with
  | zero => exact fun _ _ h => h
  | succ fuel ih =>
    intro idx r h
    unfold OpState.extraLoop
    cases q : r.extra[idx]? with
    | none => exact h
    | some n => exact ih (idx + 1) (inv_body ho h c e n (List.mem_of_getElem? q))

theorem inv_enable (ho : Only dev k d) (c : SCfg) (e : Env) (hc : e.checkOk k = true) {r : OpState} (h : Inv dev k d r) : Inv dev k d (r.enableLoop c e) := by
  unfold OpState.enableLoop
  generalize List.range c.steps = l
  induction l generalizing r with
  | nil => exact h
  | cons i l ih =>
    rw [List.foldl_cons]
    refine ih ?_
    by_cases x : i + 1 ∈ r.extra
    · rw [if_pos x]
      exact h
    · rw [if_neg x]
      by_cases y : e.onSig i = true
      · rw [if_pos y]
        exact inv_onExtra ho h c e (i + 1) (Nat.succ_pos i) hc
      · rw [if_neg y]
        exact h

theorem inv_log (ho : Only dev k d) {r : OpState} (h : Inv dev k d r) (x : Call) (hx : x = .init none ∨ x = .eval none ∨ x = .fin none) (mode : Bool) :
    Inv dev k d { r with mode := mode, log := r.log ++ [x] } := by
  refine ⟨h.main, h.pos, h.nodup, ?_⟩
  rw [on_other ho r x none (fun q => nomatch q) hx _ rfl]
  exact h.out

theorem inv_evalMain (ho : Only dev k d) (c : SCfg) (e : Env) (hn : ∀ m, c.next m ≠ k + 1) {r : OpState} (hr : r.nextN ≠ k + 1) (hj : ∀ i, e.jump i ≠ some (k + 1)) (h : Inv dev k d r) :
    Inv dev k d (r.evalMain c e).1 := by
  unfold OpState.evalMain
  cases hm : r.main with
  | none => exact h
  | some m =>
    simp only
    by_cases x : (e.zeroDur m || e.elapsed m) = true
    · rw [if_pos x]
      by_cases y : r.nextN = -1
      · rw [if_pos y]
        exact h
      · rw [if_neg y]
        exact inv_toStep ho h c e _ hr
    · rw [if_neg x]
      have ev : ∀ {s : OpState} (m' : Nat), Inv dev k d s → s.main = some m' → Inv dev k d (s.evalStep m') := by
        intro s m' g gm
        refine ⟨g.main, g.pos, g.nodup, ?_⟩
        rw [on_eval ho, if_neg (fun z => g.main (by rw [gm, z]))]
        exact g.out
      cases q : e.jump m with
      | none =>
        simp only [hm]
        exact ev m h hm
      | some n =>
        have g := inv_toStep ho h c e n (fun z => hj m (by rw [q]; congr 1; omega))
        simp only
        cases hm' : (r.toStep c e n).main with
        | none => exact g
        | some m' => exact ev m' g hm'

/-! ### The step after a duration -/

theorem next_fin (r : OpState) : r.finMain.nextN = r.nextN := by
  unfold OpState.finMain
  cases r.main <;> rfl

theorem next_toStep (c : SCfg) (e : Env) (n : Int) (r : OpState) (hn : ∀ m, c.next m ≠ k + 1) (h : r.nextN ≠ k + 1) : (r.toStep c e n).nextN ≠ k + 1 := by
  unfold OpState.toStep
  by_cases x : n ≤ 0 ∨ (c.steps : Int) < n
  · rw [if_pos x]
    exact h
  · rw [if_neg x]
    simp only
    by_cases zi : e.zeroDur (n.toNat - 1) = true
    · rw [if_pos zi]
      exact hn _
    · rw [if_neg zi]
      exact hn _

theorem next_off (c : SCfg) (n : Int) (r : OpState) : (r.offExtra c n).nextN = r.nextN := by
  unfold OpState.offExtra
  by_cases a : n < 0 ∨ (c.steps : Int) < n
  · rw [if_pos a]
  · rw [if_neg a]
    by_cases m : n.toNat ∈ r.extra
    · rw [if_pos m]
      rfl
    · rw [if_neg m]

theorem next_on (c : SCfg) (e : Env) (n : Nat) (r : OpState) : (r.onExtraPos c e n).1.nextN = r.nextN := by
  unfold OpState.onExtraPos
  by_cases a : c.steps < n
  · rw [if_pos a]
  · rw [if_neg a]
    by_cases b : r.main = some (n - 1)
    · rw [if_pos b]
    · rw [if_neg b]
      by_cases m : n ∈ r.extra
      · rw [if_pos m]
      · rw [if_neg m]
        simp only
        by_cases q : e.checkOk (n - 1) = true
        · rw [if_pos q]
          rfl
        · rw [if_neg q]

theorem next_loop (c : SCfg) (e : Env) (fuel : Nat) : ∀ (idx : Nat) (r : OpState), (r.extraLoop c e fuel idx).nextN = r.nextN := by
  induction fuel with
  | zero => exact fun _ _ => rfl
  | succ fuel ih =>
    intro idx r
    unfold OpState.extraLoop
    cases q : r.extra[idx]? with
    | none => rfl
    | some n =>
      simp only
      rw [ih]
      unfold OpState.extraBody
      by_cases a : n - 1 < c.steps
      · rw [if_pos a]
        simp only
        by_cases b : e.offSig (n - 1) = true
        · rw [if_pos b]
          exact next_off c n _
        · rw [if_neg b]
          rfl
      · rw [if_neg a]

theorem next_enable (c : SCfg) (e : Env) (r : OpState) : (r.enableLoop c e).nextN = r.nextN := by
  unfold OpState.enableLoop
  generalize List.range c.steps = l
  induction l generalizing r with
  | nil => rfl
  | cons i l ih =>
    rw [List.foldl_cons, ih]
    by_cases x : i + 1 ∈ r.extra
    · rw [if_pos x]
    · rw [if_neg x]
      by_cases y : e.onSig i = true
      · rw [if_pos y]
        exact next_on c e (i + 1) r
      · rw [if_neg y]

theorem next_evalMain (c : SCfg) (e : Env) (hn : ∀ m, c.next m ≠ k + 1) (r : OpState) (h : r.nextN ≠ k + 1) : (r.evalMain c e).1.nextN ≠ k + 1 := by
  unfold OpState.evalMain
  cases hm : r.main with
  | none => exact h
  | some m =>
    simp only
    by_cases x : (e.zeroDur m || e.elapsed m) = true
    · rw [if_pos x]
      by_cases y : r.nextN = -1
      · rw [if_pos y]
        exact h
      · rw [if_neg y]
        exact next_toStep c e _ r hn h
    · rw [if_neg x]
      cases q : e.jump m with
      | none =>
        simp only [hm]
        exact h
      | some n =>
        have g := next_toStep c e n r hn h
        simp only
        cases hm' : (r.toStep c e n).main with
        | none => exact g
        | some m' => exact g

/-! ### Histories -/

theorem fins (ho : Only dev k d) (l : List Nat) (hl : 0 ∉ l) (r : OpState) :
    (l.foldl (fun r n => r.finStep (n - 1)) r).main = r.main ∧ (l.foldl (fun r n => r.finStep (n - 1)) r).nextN = r.nextN ∧
    (isOn dev d (l.foldl (fun r n => r.finStep (n - 1)) r) = true ↔ isOn dev d r = true ∧ k + 1 ∉ l) := by
  induction l generalizing r with
  | nil => exact ⟨rfl, rfl, by simp⟩
  | cons n l ih =>
    rw [List.foldl_cons]
    obtain ⟨a, b, c⟩ := ih (fun x => hl (List.mem_cons_of_mem _ x)) (r.finStep (n - 1))
    refine ⟨a, b, c.trans ?_⟩
    have n0 : n ≠ 0 := fun z => hl (by rw [z]; exact List.mem_cons_self ..)
    rw [on_fin ho, List.mem_cons]
    by_cases z : n - 1 = k
    · rw [if_pos z]
      have : k + 1 = n := by omega
      simp [this]
    · rw [if_neg z]
      have : ¬ k + 1 = n := by omega
      simp [this]

theorem inits (l : List Nat) (r : OpState) :
    (l.foldl (fun r n => r.initStep (n - 1)) r).main = r.main ∧ (l.foldl (fun r n => r.initStep (n - 1)) r).nextN = r.nextN ∧
    (l.foldl (fun r n => r.initStep (n - 1)) r).extra = r.extra ∧ isOn dev d (l.foldl (fun r n => r.initStep (n - 1)) r) = isOn dev d r := by
  induction l generalizing r with
  | nil => exact ⟨rfl, rfl, rfl, rfl⟩
  | cons n l ih =>
    rw [List.foldl_cons]
    obtain ⟨a, b, c, q⟩ := ih (r.initStep (n - 1))
    exact ⟨a, b, c, q.trans (on_init r _)⟩

theorem inv_step (ho : Only dev k d) (c : SCfg) (h : List Ev) (hp : Parallel c k h) (v : Ev) (hv : v ∈ h) (r r' : OpState) (hr : Inv dev k d r) (hN : r.nextN ≠ k + 1)
    (hs : step c r v = some r') : Inv dev k d r' ∧ r'.nextN ≠ k + 1 := by
  have hn : ∀ m, c.next m ≠ k + 1 := fun m => (hp.next m).1
  cases v with
  | main v =>
    cases hs
    cases v with
    | init e n =>
      have g0 := inv_log ho hr (.init none) (Or.inl rfl) true
      have g : Inv dev k d { r with mode := true, log := r.log ++ [.init none], main := none } := ⟨fun x => (nomatch x), g0.pos, g0.nodup, g0.out⟩
      show Inv dev k d (r.init c e n) ∧ _
      have hne : n ≠ k + 1 := fun z => hp.calls _ hv (by rw [← z]; rfl)
      show Inv dev k d (r.init c e n) ∧ (r.init c e n).nextN ≠ k + 1
      unfold OpState.init
      simp only
      by_cases n0 : c.steps = 0
      · rw [if_pos n0]
        exact ⟨g, hN⟩
      · rw [if_neg n0]
        have g2 := inv_toStep ho g c e n hne
        have g3 := next_toStep c e n { r with mode := true, log := r.log ++ [.init none], main := none } hn hN
        generalize OpState.toStep c e n { r with mode := true, log := r.log ++ [.init none], main := none } = s at g2 g3
        obtain ⟨a, b, q, w⟩ := inits (dev := dev) (d := d) s.extra s
        refine ⟨⟨by rw [a]; exact g2.main, by rw [q]; exact g2.pos, by rw [q]; exact g2.nodup, by rw [q, w]; exact g2.out⟩, by rw [b]; exact g3⟩
    | evaluate e =>
      obtain ⟨hj, hc⟩ := hp.jumps _ e hv rfl
      have g := inv_log ho hr (.eval none) (Or.inr (Or.inl rfl)) r.mode
      have g2 := inv_enable ho c e hc (inv_loop ho c e r.extra.length 0 g)
      have n2 : ((({ r with log := r.log ++ [.eval none] } : OpState).extraLoop c e r.extra.length 0).enableLoop c e).nextN ≠ k + 1 := by
        rw [next_enable, next_loop]
        exact hN
      exact ⟨inv_evalMain ho c e hn n2 hj g2, next_evalMain c e hn _ n2⟩
    | toStep e n =>
      have hne : n ≠ k + 1 := fun z => hp.calls _ hv (by rw [← z]; rfl)
      exact ⟨inv_toStep ho hr c e n hne, next_toStep c e n r hn hN⟩
    | toNext e =>
      show Inv dev k d (r.toNext c e) ∧ (r.toNext c e).nextN ≠ k + 1
      unfold OpState.toNext
      cases hm : r.main with
      | none => exact ⟨hr, hN⟩
      | some m =>
        simp only
        by_cases y : c.next m = -1
        · rw [if_pos y]
          have := (hp.next m).2 y
          exact ⟨inv_toStep ho hr c e _ (by omega), next_toStep c e _ r hn hN⟩
        · rw [if_neg y]
          exact ⟨inv_toStep ho hr c e _ (hn m), next_toStep c e _ r hn hN⟩
    | turnOff =>
      obtain ⟨f1, f2⟩ := on_finMain ho r hr.main
      refine ⟨⟨fun x => (nomatch x), ?_, ?_, ?_⟩, ?_⟩
      · show 0 ∉ r.finMain.extra
        rw [f2]
        exact hr.pos
      · show r.finMain.extra.Nodup
        rw [f2]
        exact hr.nodup
      · show isOn dev d r.finMain = true ↔ k + 1 ∈ r.finMain.extra
        rw [f1, f2]
        exact hr.out
      · show r.finMain.nextN ≠ k + 1
        rw [next_fin]
        exact hN
    | finalize =>
      have g := inv_log ho hr (.fin none) (Or.inr (Or.inr rfl)) false
      show Inv dev k d r.finalize ∧ r.finalize.nextN ≠ k + 1
      unfold OpState.finalize
      simp only
      obtain ⟨f1, f2⟩ := on_finMain ho _ g.main
      have f3 := next_fin { r with mode := false, log := r.log ++ [.fin none] }
      obtain ⟨a, b, q⟩ := fins ho ({ r with mode := false, log := r.log ++ [.fin none] } : OpState).finMain.extra (by rw [f2]; exact hr.pos)
        { ({ r with mode := false, log := r.log ++ [.fin none] } : OpState).finMain with main := none }
      refine ⟨⟨?_, List.not_mem_nil, List.nodup_nil, ?_⟩, ?_⟩
      · show (List.foldl _ _ _ : OpState).main ≠ some k
        rw [a]
        exact fun x => nomatch x
      · show isOn dev d (List.foldl _ _ _ : OpState) = true ↔ k + 1 ∈ []
        rw [q]
        refine ⟨fun x => absurd ?_ x.2, fun x => nomatch x⟩
        rw [f2]
        refine g.out.1 ?_
        rw [← f1]
        exact x.1
      · show (List.foldl _ _ _ : OpState).nextN ≠ k + 1
        rw [b]
        show ({ r with mode := false, log := r.log ++ [.fin none] } : OpState).finMain.nextN ≠ k + 1
        rw [f3]
        exact hN
  | onExtra e n =>
    have hc := hp.checks e n hv
    simp only [step, OpState.onExtra] at hs
    by_cases a : n < 0
    · rw [if_pos a] at hs
      cases hs
      exact ⟨hr, hN⟩
    · rw [if_neg a] at hs
      by_cases b : n = 0
      · rw [if_pos b] at hs
        by_cases q : r.main = none
        · rw [if_pos q] at hs
          cases hs
          exact ⟨hr, hN⟩
        · rw [if_neg q] at hs
          exact nomatch hs
      · rw [if_neg b] at hs
        cases hs
        exact ⟨inv_onExtra ho hr c e _ (by omega) hc, by rw [next_on]; exact hN⟩
  | offExtra n =>
    cases hs
    exact ⟨inv_offExtra ho hr c n, by rw [next_off]; exact hN⟩
  | switchExtra a b => exact absurd hv (hp.switches a b)

theorem inv_run (ho : Only dev k d) (c : SCfg) (h : List Ev) (hp : Parallel c k h) (l : List Ev) :
    ∀ (_ : ∀ v ∈ l, v ∈ h) (r r' : OpState), Inv dev k d r → r.nextN ≠ k + 1 → runFrom c r l = some r' → Inv dev k d r' := by
  induction l with
  | nil =>
    intro _ r r' hr _ hs
    cases hs
    exact hr
  | cons v l ih =>
    intro hl r r' hr hN hs
    obtain ⟨s, h1, h2⟩ := Option.bind_eq_some_iff.1 (show (step c r v).bind (fun r => runFrom c r l) = some r' from hs)
    obtain ⟨g1, g2⟩ := inv_step ho c h hp v (hl v (List.mem_cons_self ..)) r s hr hN h1
    exact ih (fun w hw => hl w (List.mem_cons_of_mem _ hw)) s r' g1 g2 h2

end Ptusa.ParOut
