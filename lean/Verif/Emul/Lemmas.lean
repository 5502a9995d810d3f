import Verif.Emul.Spec
import Verif.ValveOff.Props
import Mathlib.Data.List.Induction

/-!
# Lemmas about simulated valves
-/
namespace Ptusa.Emul
open Ptusa.Valve (Tm)

/-- What is seen of the fields. -/
def Body.sim (b : Body) : Sim := { number := b.dv.state, opened := b.onFb, closed := b.offFb }

/-- What is seen of a valve on its own. -/
def view (s : ValveOff.S Body) : ValveOff.S Sim :=
  { body := s.body.sim, manual := s.manual, auto := s.auto, request := s.request }

theorem concerns_sim (i : Nat) (a : Act) : (a.ev true).concerns i = a.sim.concerns i := by
  cases a <;> rfl

theorem named_sim (p : String) (v : Fl) (b : Body) (hk : p.toList.head? = some 'F' → p = "FB_ON_ST" ∨ p = "FB_OFF_ST") :
    (setCmd true p v b).sim = b.sim.named p v := by
  unfold setCmd Sim.named
  by_cases e1 : p = "FB_ON_ST"
  · subst e1; simp [Body.sim]
  · by_cases e2 : p = "FB_OFF_ST"
    · subst e2; simp [Body.sim]
    · have : p.toList.head? ≠ some 'F' := fun h => (hk h).elim e1 e2
      simp [e1, e2, this]

theorem view_step (pOn : Fl) (k : Valve.Kind) (a : Act) (hk : Known a) (s : ValveOff.S Body) :
    view (s.step (cls true pOn (.plain k)) (a.ev true)) = (view s).step sim a.sim := by
  cases a with
  | on i t => cases m : s.manual <;> simp [Act.ev, Act.sim, ValveOff.S.step, view, cls, sim, directOn, Body.sim, m]
  | off i t =>
    have e : (cls true pOn (.plain k)).seat s.body = sim.seat s.body.sim := by
      simp only [cls, sim, valveState, Body.sim, if_true, Bool.decide_or]
    simp only [Act.ev, Act.sim, ValveOff.S.step, e]
    by_cases c : s.auto = true ∧ sim.seat s.body.sim = false
    · rw [if_pos c, if_pos (by exact c)]; rfl
    · have c' : ¬ ((view s).auto = true ∧ sim.seat (view s).body = false) := c
      rw [if_neg c, if_neg c']
      cases m : s.manual <;> simp [view, cls, sim, directOff, Body.sim, m]
  | instantOff i t => cases m : s.manual <;> simp [Act.ev, Act.sim, ValveOff.S.step, view, cls, sim, directOff, Body.sim, m]
  | setState i t n => cases m : s.manual <;> simp [Act.ev, Act.sim, ValveOff.S.step, view, cls, sim, directSet, Body.sim, m]
  | oper i t n => simp [Act.ev, Act.sim, ValveOff.S.step, view, cls, sim, directSet, Body.sim]
  | manual i m => rfl
  | inputs i x y => rfl
  | name i p v => simp only [Act.ev, Act.sim, ValveOff.S.step, view, named_sim p v _ hk]
  | evaluate t d bd =>
    have e : (view s).request = s.request := rfl
    simp only [Act.ev, Act.sim, ValveOff.S.step, e]
    cases r : s.request with
    | none => rfl
    | some t0 =>
      by_cases c : ValveOff.elapsed t t0 > d.toNat
      · simp only [if_pos c]
        cases m : s.manual <;> simp [view, cls, sim, directOff, Body.sim, m]
      · simp only [if_neg c]; rfl

theorem view_run (pOn : Fl) (k : Valve.Kind) (i : Nat) (h : List Act) (hk : ∀ a ∈ h, Known a) (s : ValveOff.S Body) :
    view (s.run (cls true pOn (.plain k)) i (h.map (Act.ev true))) = (view s).run sim i (h.map Act.sim) := by
  unfold ValveOff.S.run
  induction h generalizing s with
  | nil => rfl
  | cons a h ih =>
    have ih' := fun s => ih (fun x hx => hk x (List.mem_cons_of_mem _ hx)) s
    simp only [List.map_cons, List.filter_cons, concerns_sim]
    by_cases c : a.sim.concerns i = true
    · simp only [c, if_true, List.foldl_cons]
      rw [ih', view_step pOn k a (hk a List.mem_cons_self)]
    · simp only [c, if_false]
      exact ih' s

theorem view_new (k : Valve.Kind) : (Body.new (.plain k)).sim = fresh k := by
  cases k <;> rfl

/-- A simulated valve among the others is the valve on its own. -/
theorem refines (pOn : Fl) (kind : Nat → Kind) (h : List Act) (i : Nat) (k : Valve.Kind) (hi : kind i = .plain k)
    (hk : ∀ a ∈ h, Known a) :
    view (((run true pOn kind h).vs i).view) = simulated k i h := by
  have r := ValveOff.C47_refines_partial (fun i => cls true pOn (kind i)) (fun i => Body.new (kind i))
    (h.map (Act.ev true)) i (by simp [cls, hi])
  unfold run
  rw [r]
  simp only [hi]
  rw [view_run pOn k i h hk]
  unfold simulated
  rw [show view { body := Body.new (.plain k) } = { body := fresh k } by rw [← view_new k]; rfl]

/-- Nothing seen depends on the inputs. -/
theorem run_inputs (s : ValveOff.S Sim) (i : Nat) (h : List Act) :
    s.run sim i (h.map Act.sim) = s.run sim i ((h.filter Act.notInput).map Act.sim) := by
  unfold ValveOff.S.run
  induction h generalizing s with
  | nil => rfl
  | cons a h ih =>
    cases a with
    | inputs j x y =>
      simp only [List.map_cons, List.filter_cons, Act.notInput, Act.sim]
      by_cases c : (ValveOff.Ev.io j id : ValveOff.Ev Sim).concerns i = true
      · simp only [c, if_true, List.foldl_cons]
        exact ih s
      · simp only [c, if_false]
        exact ih s
    | _ =>
      simp only [List.map_cons, List.filter_cons, Act.notInput, Act.sim, if_true]
      split
      · simp only [List.foldl_cons]; exact ih _
      · exact ih s

/-- A property of each valve that the functions of its class and the actions keep. -/
structure Kept (cs : Nat → ValveOff.Cls Body) (Q : Nat → Body → Prop) : Prop where
  on : ∀ i t b, Q i b → Q i ((cs i).directOn t b)
  off : ∀ i t b, Q i b → Q i ((cs i).directOff t b)
  set : ∀ i t n b, Q i b → Q i ((cs i).directSet t n b)
  tick : ∀ i t b, Q i b → Q i ((cs i).tick t b)
  fin : ∀ i g, (cs i).finished = some g → ∀ t d b, Q i b → Q i (g t d b).2

variable {cs : Nat → ValveOff.Cls Body} {Q : Nat → Body → Prop}

theorem put_all (vs : Nat → ValveOff.V Body) (i : Nat) (v : ValveOff.V Body) (h : ∀ j, Q j (vs j).body) (hv : Q i v.body)
    (j : Nat) : Q j (ValveOff.put vs i v j).body := by
  unfold ValveOff.put
  by_cases e : j = i
  · rw [if_pos e, e]; exact hv
  · rw [if_neg e]; exact h j

theorem sweep_all (K : Kept cs Q) (t : Tm) (bd : BitVec 32) (q : List Nat) (vs : Nat → ValveOff.V Body)
    (h : ∀ j, Q j (vs j).body) : ∀ j, Q j ((ValveOff.sweep cs t bd q vs).2 j).body := by
  induction q generalizing vs with
  | nil => exact h
  | cons i q ih =>
    unfold ValveOff.sweep
    refine ih _ (put_all _ _ _ h ?_)
    unfold ValveOff.V.finished
    cases g : (cs i).finished with
    | none => exact h i
    | some f => exact K.fin i f g t bd _ (h i)

theorem expire_all (K : Kept cs Q) (t : Tm) (d : BitVec 32) (q : List Nat) (vs : Nat → ValveOff.V Body)
    (h : ∀ j, Q j (vs j).body) :
    ∀ j, Q j ((q.foldl (fun vs i => ValveOff.put vs i ((vs i).expire (cs i) t d)) vs) j).body := by
  induction q generalizing vs with
  | nil => exact h
  | cons i q ih =>
    rw [List.foldl_cons]
    refine ih _ (put_all _ _ _ h ?_)
    unfold ValveOff.V.expire
    split
    · cases m : (vs i).manual
      · exact K.off _ _ _ (h i)
      · exact h i
    · exact h i

theorem step_all (K : Kept cs Q) (emu : Bool) (hn : ∀ i p v b, Q i b → Q i (setCmd emu p v b))
    (f : ValveOff.Fleet Body) (h : ∀ j, Q j (f.vs j).body) (a : Act)
    (hio : ∀ i x y b, a = .inputs i x y → Q i b → Q i { b with dv := { b.dv with x := x, y := y } }) :
    ∀ j, Q j ((f.step cs (a.ev emu)).vs j).body := by
  cases a with
  | on i t =>
    refine put_all _ _ _ h ?_
    unfold ValveOff.V.on
    cases m : (f.vs i).manual
    · exact K.on _ _ _ (h i)
    · exact h i
  | off i t =>
    simp only [Act.ev, ValveOff.Fleet.step, ValveOff.Fleet.off]
    by_cases c : (!(f.vs i).wasOnAuto || (cs i).seat (f.vs i).body) = true
    · rw [if_pos c]
      cases m : (f.vs i).manual
      · exact put_all _ _ _ h (K.off _ _ _ (h i))
      · exact h
    · rw [if_neg c]
      by_cases c2 : (!(f.vs i).switching) = true
      · rw [if_pos c2]; exact put_all _ _ _ h (h i)
      · rw [if_neg c2]; exact h
  | instantOff i t =>
    refine put_all _ _ _ h ?_
    unfold ValveOff.V.instantOff
    cases m : (f.vs i).manual
    · exact K.off _ _ _ (h i)
    · exact h i
  | setState i t n =>
    refine put_all _ _ _ h ?_
    unfold ValveOff.V.setState
    cases m : (f.vs i).manual
    · exact K.set _ _ _ _ (h i)
    · exact h i
  | oper i t n => exact put_all _ _ _ h (K.set _ _ _ _ (h i))
  | manual i m => exact put_all _ _ _ h (h i)
  | inputs i x y => exact put_all _ _ _ h (hio _ _ _ _ rfl (h i))
  | name i p v => exact put_all _ _ _ h (hn _ _ _ _ (h i))
  | evaluate t d bd => exact sweep_all K _ _ _ _ (expire_all K _ _ _ _ fun j => K.tick _ _ _ (h j))

theorem run_all (K : Kept cs Q) (emu : Bool)
    (hio : ∀ i x y b, Q i b → Q i { b with dv := { b.dv with x := x, y := y } })
    (hn : ∀ i p v b, Q i b → Q i (setCmd emu p v b)) (h : List Act) (f : ValveOff.Fleet Body)
    (hf : ∀ j, Q j (f.vs j).body) : ∀ j, Q j ((f.run cs (h.map (Act.ev emu))).vs j).body := by
  unfold ValveOff.Fleet.run
  induction h generalizing f with
  | nil => exact hf
  | cons a h ih =>
    rw [List.map_cons, List.foldl_cons]
    exact ih _ (step_all K emu hn f hf a fun i x y b _ => hio i x y b)

theorem plain_xy (pOn : Fl) (k : Valve.Kind) (now : Tm) (n : Int) (v : Valve.Dv) :
    ((Valve.directOn k now v).x = v.x ∧ (Valve.directOn k now v).y = v.y) ∧
      ((Valve.directOff k now v).x = v.x ∧ (Valve.directOff k now v).y = v.y) ∧
      ((Valve.directSet k now n v).x = v.x ∧ (Valve.directSet k now n v).y = v.y) ∧
      (((Valve.tick k now pOn v).getD v).x = v.x ∧ ((Valve.tick k now pOn v).getD v).y = v.y) := by
  have on : ∀ v, (Valve.directOn k now v).x = v.x ∧ (Valve.directOn k now v).y = v.y := by
    intro v
    cases k <;> simp only [Valve.directOn] <;> (try split) <;> first | exact ⟨rfl, rfl⟩ | exact ⟨trivial, trivial⟩
  have off : ∀ v, (Valve.directOff k now v).x = v.x ∧ (Valve.directOff k now v).y = v.y := by
    intro v
    cases k <;> simp only [Valve.directOff] <;> (try split) <;> first | exact ⟨rfl, rfl⟩ | exact ⟨trivial, trivial⟩
  refine ⟨on v, off v, ?_, ?_⟩
  · cases k with
    | bistable =>
      simp only [Valve.directSet]
      split
      · split <;> exact ⟨rfl, rfl⟩
      · exact ⟨rfl, rfl⟩
    | mix =>
      simp only [Valve.directSet]
      split
      · exact off v
      · split
        · split
          · exact off v
          · exact off v
        · split
          · split
            · exact off v
            · exact off v
          · exact on v
    | _ => exact ⟨rfl, rfl⟩
  · cases k with
    | bistable =>
      simp only [Valve.tick]
      cases Valve.toUnsigned 32 pOn with
      | none => exact ⟨rfl, rfl⟩
      | some t =>
        simp only [Option.map_some, Option.getD_some]
        split <;> split <;> exact ⟨rfl, rfl⟩
    | _ => exact ⟨rfl, rfl⟩

/-- The inputs of the valves are these. -/
def Inputs (g : Nat → Bool × Bool) (i : Nat) (b : Body) : Prop := (b.dv.x, b.dv.y) = g i

theorem inputs_kept (emu : Bool) (pOn : Fl) (kind : Nat → Kind) (g : Nat → Bool × Bool) :
    Kept (fun i => cls emu pOn (kind i)) (Inputs g) where
  on i t b h := by
    unfold Inputs at *
    cases q : kind i with
    | term c => cases c <;> exact h
    | bottom => cases emu <;> exact h
    | plain k =>
      cases emu with
      | true => exact h
      | false => rw [← h]; exact Prod.ext (plain_xy pOn k t 0 b.dv).1.1 (plain_xy pOn k t 0 b.dv).1.2
  off i t b h := by
    unfold Inputs at *
    cases q : kind i with
    | term c => cases c <;> exact h
    | bottom => cases emu <;> exact h
    | plain k =>
      cases emu with
      | true => exact h
      | false => rw [← h]; exact Prod.ext (plain_xy pOn k t 0 b.dv).2.1.1 (plain_xy pOn k t 0 b.dv).2.1.2
  set i t n b h := by
    unfold Inputs at *
    cases q : kind i with
    | term c =>
      simp only [cls, directSet]
      split <;> cases c <;> exact h
    | bottom => cases emu <;> exact h
    | plain k =>
      cases emu with
      | true => exact h
      | false => rw [← h]; exact Prod.ext (plain_xy pOn k t n b.dv).2.2.1.1 (plain_xy pOn k t n b.dv).2.2.1.2
  tick i t b h := by
    unfold Inputs at *
    cases q : kind i with
    | term c => exact h
    | bottom => exact h
    | plain k =>
      cases emu with
      | true => exact h
      | false => rw [← h]; exact Prod.ext (plain_xy pOn k t 0 b.dv).2.2.2.1 (plain_xy pOn k t 0 b.dv).2.2.2.2
  fin i f e t d b h := by
    unfold Inputs at *
    cases q : kind i with
    | term c => simp [cls, q] at e
    | plain k => simp [cls, q] at e
    | bottom =>
      simp only [cls, q, Option.some.injEq] at e
      subst e
      dsimp only
      split
      · exact h
      · split
        · cases emu <;> exact h
        · exact h

theorem setCmd_xy (emu : Bool) (p : String) (v : Fl) (b : Body) : (setCmd emu p v b).dv = b.dv := by
  unfold setCmd
  split
  · split <;> rfl
  · rfl

/-- The inputs of a valve are those it got last. -/
theorem inputs_last (emu : Bool) (pOn : Fl) (kind : Nat → Kind) (h : List Act) :
    ∀ i, Inputs (fun i => lastInputs i h) i ((run emu pOn kind h).vs i).body := by
  induction h using List.reverseRecOn with
  | nil =>
    intro i
    cases q : kind i with
    | term c => simp [run, ValveOff.Fleet.run, ValveOff.start, q, Inputs, lastInputs, Body.new]
    | bottom => simp [run, ValveOff.Fleet.run, ValveOff.start, q, Inputs, lastInputs, Body.new]
    | plain k => cases k <;> simp [run, ValveOff.Fleet.run, ValveOff.start, q, Inputs, lastInputs, Body.new]
  | append_singleton h a ih =>
    have e : run emu pOn kind (h ++ [a]) =
        (run emu pOn kind h).step (fun i => cls emu pOn (kind i)) (a.ev emu) := by
      simp [run, ValveOff.Fleet.run, List.map_append, List.foldl_append]
    rw [e]
    have nx : (∀ j x y, a ≠ .inputs j x y) → ∀ i, Inputs (fun i => lastInputs i (h ++ [a])) i
        (((run emu pOn kind h).step (fun i => cls emu pOn (kind i)) (a.ev emu)).vs i).body := by
      intro hne
      have el : (fun i => lastInputs i (h ++ [a])) = fun i => lastInputs i h := by
        funext i
        unfold lastInputs
        rw [List.foldl_append]
        cases a <;> first | rfl | exact absurd rfl (hne _ _ _)
      rw [el]
      exact step_all (inputs_kept emu pOn kind _) emu
        (fun i p v b q => by unfold Inputs at *; rw [setCmd_xy]; exact q) _ ih a
        (fun i x y b ea => absurd ea (hne i x y))
    cases a with
    | inputs j x y =>
      intro i
      simp only [Act.ev, ValveOff.Fleet.step, ValveOff.put, Inputs, lastInputs, List.foldl_append, List.foldl_cons,
        List.foldl_nil]
      by_cases c : i = j
      · subst c; simp
      · rw [if_neg c, if_neg (Ne.symm c)]
        exact ih i
    | _ => exact nx (by intro j x y hh; cases hh)

/-- The outputs at rest, but those of terminals. -/
def Quiet (kind : Nat → Kind) (i : Nat) (b : Body) : Prop :=
  (∀ c, kind i ≠ .term c) → outputs b = outputs (Body.new (kind i))

theorem setCmd_outputs (emu : Bool) (p : String) (v : Fl) (b : Body) : outputs (setCmd emu p v b) = outputs b := by
  unfold setCmd
  split
  · split <;> rfl
  · rfl

theorem quiet_kept (pOn : Fl) (kind : Nat → Kind) : Kept (fun i => cls true pOn (kind i)) (Quiet kind) where
  on i t b h ht := by
    rw [← h ht]
    cases g : kind i with
    | term c => exact absurd g (ht c)
    | _ => rfl
  off i t b h ht := by
    rw [← h ht]
    cases g : kind i with
    | term c => exact absurd g (ht c)
    | _ => rfl
  set i t n b h ht := by
    rw [← h ht]
    cases g : kind i with
    | term c => exact absurd g (ht c)
    | _ => rfl
  tick i t b h ht := by
    rw [← h ht]
    cases g : kind i with
    | term c => exact absurd g (ht c)
    | _ => rfl
  fin i f e t d b h ht := by
    rw [← h ht]
    cases g : kind i with
    | term c => exact absurd g (ht c)
    | plain k => simp [cls, g] at e
    | bottom =>
      simp only [cls, g, Option.some.injEq] at e
      subst e
      dsimp only
      split
      · rfl
      · split <;> rfl

/-- Valve `i` is shut out of the queue for good: asked to close, still open, not in the queue. -/
def Lost (i : Nat) (f : ValveOff.Fleet Body) : Prop :=
  i ∉ f.queue ∧ (f.vs i).switching = true ∧ (f.vs i).wasOnAuto = true ∧ (f.vs i).body.dv.state = 1

theorem put_other {i j : Nat} (h : j ≠ i) (vs : Nat → ValveOff.V Body) (v : ValveOff.V Body) :
    ValveOff.put vs j v i = vs i := by
  unfold ValveOff.put
  rw [if_neg (fun e => h e.symm)]

theorem fold_other (g : Nat → ValveOff.V Body → ValveOff.V Body) (i : Nat) : ∀ (q : List Nat) (vs : Nat → ValveOff.V Body), i ∉ q →
    (q.foldl (fun vs j => ValveOff.put vs j (g j (vs j))) vs) i = vs i := by
  intro q
  induction q with
  | nil => intro vs _; rfl
  | cons j q ih =>
    intro vs h
    rw [List.foldl_cons, ih _ (fun e => h (List.mem_cons_of_mem _ e)), put_other (fun e : j = i => h (e ▸ List.mem_cons_self))]

theorem sweep_other (cls : Nat → ValveOff.Cls Body) (now : Tm) (bd : BitVec 32) (i : Nat) : ∀ (q : List Nat) (vs : Nat → ValveOff.V Body),
    i ∉ q → i ∉ (ValveOff.sweep cls now bd q vs).1 ∧ (ValveOff.sweep cls now bd q vs).2 i = vs i := by
  intro q
  induction q with
  | nil => intro vs _; exact ⟨List.not_mem_nil, rfl⟩
  | cons j q ih =>
    intro vs h
    have hj : j ≠ i := fun e => h (e ▸ List.mem_cons_self)
    have r := ih (ValveOff.put vs j ((vs j).finished (cls j) now bd).2) (fun e => h (List.mem_cons_of_mem _ e))
    rw [put_other hj] at r
    simp only [ValveOff.sweep]
    refine ⟨?_, r.2⟩
    split
    · exact r.1
    · intro e
      rcases List.mem_cons.mp e with e | e
      · exact hj e.symm
      · exact r.1 e

theorem lost_put {i j : Nat} {f : ValveOff.Fleet Body} (h : Lost i f) (hj : j ≠ i) (v : ValveOff.V Body) :
    Lost i { f with vs := ValveOff.put f.vs j v } := by
  unfold Lost
  dsimp only
  rw [put_other hj]
  exact h

theorem lost_same {i : Nat} {f : ValveOff.Fleet Body} (h : Lost i f) (v : ValveOff.V Body)
    (hv : v.switching = true ∧ v.wasOnAuto = true ∧ v.body.dv.state = 1) : Lost i { f with vs := ValveOff.put f.vs i v } := by
  unfold Lost
  dsimp only [ValveOff.put]
  rw [if_pos rfl]
  exact ⟨h.1, hv⟩

theorem lost_step (pOn : Fl) (kind : Nat → Kind) (i : Nat) (hi : kind i = .bottom) (f : ValveOff.Fleet Body) (h : Lost i f) (a : Act)
    (ha : Asked i a) : Lost i (f.step (fun j => cls true pOn (kind j)) (a.ev true)) := by
  cases a with
  | on j t => exact lost_put h ha _
  | instantOff j t => exact lost_put h ha _
  | setState j t n => exact lost_put h ha _
  | oper j t n => exact lost_put h ha _
  | manual j m =>
    by_cases c : j = i
    · subst c; exact lost_same h _ h.2
    · exact lost_put h c _
  | inputs j x y =>
    by_cases c : j = i
    · subst c; exact lost_same h _ h.2
    · exact lost_put h c _
  | name j p v =>
    by_cases c : j = i
    · subst c
      refine lost_same h _ ⟨h.2.1, h.2.2.1, ?_⟩
      have e : (setCmd true p v (f.vs j).body).dv = (f.vs j).body.dv := by
        unfold setCmd
        split
        · split <;> rfl
        · rfl
      dsimp only
      rw [e]
      exact h.2.2.2
    · exact lost_put h c _
  | off j t =>
    simp only [Act.ev, ValveOff.Fleet.step, ValveOff.Fleet.off]
    by_cases c : j = i
    · subst c
      have e : (cls true pOn (kind j)).seat (f.vs j).body = false := by
        rw [hi]
        change (decide ((f.vs j).body.dv.state = 2) || decide ((f.vs j).body.dv.state = 3)) = false
        rw [h.2.2.2]
        rfl
      rw [h.2.2.1, e, h.2.1]
      exact h
    · split
      · split
        · exact h
        · exact lost_put h c _
      · split
        · have r := lost_put h c { f.vs j with switching := true, startOff := t }
          refine ⟨?_, r.2⟩
          intro e
          rcases List.mem_append.mp e with e | e
          · exact h.1 e
          · exact c (List.mem_singleton.mp e).symm
        · exact h
  | evaluate t d bd =>
    simp only [Act.ev, ValveOff.Fleet.step, ValveOff.Fleet.evaluate]
    have s := sweep_other (fun j => cls true pOn (kind j)) t bd i f.queue
      (f.queue.foldl (fun vs j => ValveOff.put vs j ((vs j).expire (cls true pOn (kind j)) t d))
        fun j => { f.vs j with body := (cls true pOn (kind j)).tick t (f.vs j).body }) h.1
    rw [fold_other (fun j v => v.expire (cls true pOn (kind j)) t d) i f.queue _ h.1] at s
    unfold Lost
    dsimp only
    rw [s.2]
    refine ⟨s.1, h.2.1, h.2.2.1, ?_⟩
    have e : (cls true pOn (kind i)).tick t (f.vs i).body = (f.vs i).body := by rw [hi]; rfl
    dsimp only
    rw [e]
    exact h.2.2.2

end Ptusa.Emul
