import Verif.Emul.Lemmas

/-!
# C232: valves without input/output modules
-/
namespace Ptusa.Emul
open Ptusa.Valve (Tm)

/-- **C232** (part: valves with discrete channels, known names) Without modules a valve reports, after any history of any
valves, what the simulated valve alone would: the state that the last command set, the feedbacks that were set by name. -/
theorem C232_state_partial (pOn : Fl) (kind : Nat → Kind) (h : List Act) (i : Nat) (k : Valve.Kind)
    (hi : kind i = .plain k) (hk : ∀ a ∈ h, Known a) :
    let b := ((run true pOn kind h).vs i).body
    let s := (simulated k i h).body
    simState (kind i) b = s.number ∧ valveState true (kind i) b = s.number ∧
      onFb true (kind i) b = (s.opened && decide (k ≠ .di1Off)) ∧
      offFb true (kind i) b = (s.closed && decide (k ≠ .di1On)) := by
  intro b s
  have r := refines pOn kind h i k hi hk
  have e : b.sim = s := congrArg ValveOff.S.body r
  have e1 : b.dv.state = s.number := congrArg Sim.number e
  have e2 : b.onFb = s.opened := congrArg Sim.opened e
  have e3 : b.offFb = s.closed := congrArg Sim.closed e
  rw [hi, ← e1, ← e2, ← e3]
  refine ⟨rfl, rfl, ?_, ?_⟩
  · cases k <;> simp [onFb]
  · cases k <;> simp [offFb]

/-- **C232** (part as above) The inputs do not matter: histories that differ in nothing but the inputs show the same. -/
theorem C232_inputs_partial (pOn : Fl) (kind : Nat → Kind) (h h' : List Act) (i : Nat) (k : Valve.Kind)
    (hi : kind i = .plain k) (hk : ∀ a ∈ h, Known a) (hk' : ∀ a ∈ h', Known a)
    (he : h.filter Act.notInput = h'.filter Act.notInput) :
    let b := ((run true pOn kind h).vs i).body
    let b' := ((run true pOn kind h').vs i).body
    simState (kind i) b = simState (kind i) b' ∧ onFb true (kind i) b = onFb true (kind i) b' ∧
      offFb true (kind i) b = offFb true (kind i) b' := by
  intro b b'
  have r := C232_state_partial pOn kind h i k hi hk
  have r' := C232_state_partial pOn kind h' i k hi hk'
  have e : simulated k i h = simulated k i h' := by
    unfold simulated
    rw [run_inputs _ _ h, he, ← run_inputs]
  simp only [e] at r
  exact ⟨r.1.trans r'.1.symm, r.2.2.1.trans r'.2.2.1.symm, r.2.2.2.trans r'.2.2.2.symm⟩

/-- **C232** (part: no valve of a terminal) Without modules no output is touched, whatever happens. -/
theorem C232_outputs_partial (pOn : Fl) (kind : Nat → Kind) (h : List Act) (i : Nat) (ht : ∀ c, kind i ≠ .term c) :
    outputs ((run true pOn kind h).vs i).body = [false, false, false, false, false, false, false] := by
  have q := run_all (quiet_kept pOn kind) true (fun i x y b q ht => q ht)
    (fun i p v b q ht => (setCmd_outputs true p v b).trans (q ht)) h
    (ValveOff.start fun i => Body.new (kind i)) (fun j _ => rfl) i ht
  refine q.trans ?_
  cases g : kind i with
  | term c => exact absurd g (ht c)
  | bottom => rfl
  | plain k => cases k <;> rfl

/-- **C232** (part as above) What the program asks for last is what it sees: after `on` outside manual mode the valve is on, as
long as nothing else is asked for, whatever its inputs and the other valves do. -/
theorem C232_on_partial (pOn : Fl) (kind : Nat → Kind) (h0 h1 : List Act) (i : Nat) (k : Valve.Kind) (t : Tm)
    (hi : kind i = .plain k) (hk : ∀ a ∈ h0 ++ .on i t :: h1, Known a) (hm : ((run true pOn kind h0).vs i).manual = false)
    (hq : ∀ a ∈ h1, (∃ x y, a = .inputs i x y) ∨ (∃ t d bd, a = .evaluate t d bd) ∨ a.sim.concerns i = false) :
    simState (kind i) ((run true pOn kind (h0 ++ .on i t :: h1)).vs i).body = 1 := by
  rw [(C232_state_partial pOn kind _ i k hi hk).1]
  have r0 := refines pOn kind h0 i k hi fun a ha => hk a (List.mem_append_left _ ha)
  have hm0 : (simulated k i h0).manual = false := by
    rw [← r0]; exact hm
  have key : ∀ (l : List Act) (s : ValveOff.S Sim), s.body.number = 1 → s.request = none →
      (∀ a ∈ l, (∃ x y, a = .inputs i x y) ∨ (∃ t d bd, a = .evaluate t d bd) ∨ a.sim.concerns i = false) →
      (((l.map Act.sim).filter (ValveOff.Ev.concerns i)).foldl (fun s e => s.step sim e) s).body.number = 1 := by
    intro l
    induction l with
    | nil => intro s a _ _; exact a
    | cons a l ih =>
      intro s hs hr hl
      have hl' := fun x hx => hl x (List.mem_cons_of_mem _ hx)
      rw [List.map_cons, List.filter_cons]
      rcases hl a List.mem_cons_self with ⟨x, y, rfl⟩ | ⟨t, d, bd, rfl⟩ | c
      · simp only [Act.sim, ValveOff.Ev.concerns, beq_self_eq_true, if_true, List.foldl_cons]
        exact ih _ hs hr hl'
      · simp only [Act.sim, ValveOff.Ev.concerns, if_true, List.foldl_cons]
        refine ih _ ?_ ?_ hl' <;> simp [ValveOff.S.step, hr, sim, hs]
      · simp only [c]
        exact ih _ hs hr hl'
  unfold simulated ValveOff.S.run at hm0 ⊢
  rw [List.map_append, List.filter_append, List.foldl_append, List.map_cons, List.filter_cons]
  simp only [Act.sim, ValveOff.Ev.concerns, beq_self_eq_true, if_true, List.foldl_cons]
  refine key h1 _ ?_ rfl hq
  generalize List.foldl (fun s e => ValveOff.S.step sim s e) _ _ = s0 at hm0 ⊢
  simp [ValveOff.S.step, hm0, sim]

/-- **C232** With modules it is the other way round: the feedbacks are the inputs that came last, and no command
by name changes them; a valve without feedbacks never shows one. -/
theorem C232_modules (pOn : Fl) (kind : Nat → Kind) (h : List Act) (i : Nat) (k : Valve.Kind) (hi : kind i = .plain k) :
    let b := ((run false pOn kind h).vs i).body
    let s := lastInputs i h
    (onFb false (kind i) b, offFb false (kind i) b) = feedbacks k s := by
  intro b s
  have r : (b.dv.x, b.dv.y) = s := inputs_last false pOn kind h i
  rw [← r, hi]
  have f : (k = .do1 ∨ k = .do2) → b.onFb = false ∧ b.offFb = false := by
    intro hk
    have K : Kept (fun i => cls false pOn (kind i))
        (fun j b => (kind j = .plain .do1 ∨ kind j = .plain .do2) → b.onFb = false ∧ b.offFb = false) := by
      constructor
      · intro j t b q e; rcases e with e | e <;> simpa [cls, e, directOn] using q (by simp [e])
      · intro j t b q e; rcases e with e | e <;> simpa [cls, e, directOff] using q (by simp [e])
      · intro j t n b q e; rcases e with e | e <;> simpa [cls, e, directSet] using q (by simp [e])
      · intro j t b q e; rcases e with e | e <;> simpa [cls, e] using q (by simp [e])
      · intro j f g t d b q e; rcases e with e | e <;> simp [cls, e] at g
    exact run_all K false (fun i x y b q e => q e) (fun i p v b q e => by simpa [setCmd] using q e) h
      (ValveOff.start fun i => Body.new (kind i))
      (fun j e => by rcases e with e | e <;> simp [ValveOff.start, e, Body.new]) i
      (by rw [hi]; rcases hk with rfl | rfl <;> simp)
  cases k with
  | do1 => simp [onFb, offFb, feedbacks, f (.inl rfl)]
  | do2 => simp [onFb, offFb, feedbacks, f (.inr rfl)]
  | _ => simp [onFb, offFb, feedbacks]

/-- A mix-proof valve and a bottom valve: opened, its upper seat, the feedback by name, inputs that say something else. -/
example :
    let kind : Nat → Kind := fun i => if i = 0 then .plain .mix else .bottom
    let h : List Act := [.on 0 10, .on 1 10, .inputs 0 false true, .setState 0 20 2, .name 0 "FB_OFF_ST" (.num 0),
      .evaluate 30 1000 1000]
    let b := ((run true (.num 0) kind h).vs 0).body
    (simState (kind 0) b, onFb true (kind 0) b, offFb true (kind 0) b) = (2, true, false) ∧
      outputs b = List.replicate 7 false ∧
      outputs ((run false (.num 0) kind h).vs 0).body = [false, true, false, false, false, false, false] := by
  decide +kernel

/-- A valve that closes with the delay of one second. -/
example :
    let h : List Act := [.on 0 10, .off 0 500, .evaluate 1500 1000 1000]
    simState (.plain .do1) ((run true (.num 0) (fun _ => .plain .do1) h).vs 0).body = 1 ∧
      simState (.plain .do1) ((run true (.num 0) (fun _ => .plain .do1) (h ++ [.evaluate 1501 1000 1000])).vs 0).body = 0 := by
  decide +kernel

/-- The hypothesis on names holds of real histories. -/
example : ∀ a ∈ [Act.name 0 "FB_ON_ST" (.num 1), .name 0 "P_ON_TIME" (.num 5), .on 0 1], Known a := by
  intro a ha
  simp only [List.mem_cons, List.not_mem_nil, or_false] at ha
  rcases ha with rfl | rfl | rfl
  · exact fun _ => Or.inl rfl
  · intro h; exact absurd h (by decide)
  · trivial

/-- **C232 is false of the code** for valves of terminals that are not configured: without modules no command has an effect,
in any history. -/
theorem C232_terminal_ignored_violated (pOn : Fl) (kind : Nat → Kind) (i : Nat) (hi : kind i = .term false)
    (h : List Act) : simState (kind i) ((run true pOn kind h).vs i).body = 0 := by
  have K : Kept (fun i => cls true pOn (kind i)) (fun j b => kind j = .term false → b.vst = 0) := by
    constructor
    · intro j t b q e; simpa [cls, e, directOn] using q e
    · intro j t b q e; simpa [cls, e, directOff] using q e
    · intro j t n b q e
      simp only [cls, e, directSet]
      split <;> simpa [directOn, directOff] using q e
    · intro j t b q e; simpa [cls, e] using q e
    · intro j f g t d b q e
      simp [cls, e] at g
  have r := run_all K true (fun i x y b q e => q e)
    (fun i p v b q e => by
      have := q e
      unfold setCmd
      split
      · split <;> exact this
      · exact this) h (ValveOff.start fun i => Body.new (kind i)) (fun j e => by simp [ValveOff.start, e, Body.new]) i hi
  rw [hi]
  exact r

/-- **C232 is false of the code** for valves of terminals that are configured: the simulated valve drives its output. -/
theorem C232_terminal_output_violated (pOn : Fl) (kind : Nat → Kind) (i : Nat) (hi : kind i = .term true) (t : Tm) :
    ((run true pOn kind [.on i t]).vs i).body.out = true := by
  simp [run, ValveOff.Fleet.run, ValveOff.Fleet.step, ValveOff.start, Act.ev, ValveOff.put, ValveOff.V.on, cls, hi, directOn]

/-- **C232 is false of the code** for names: any command whose name begins with an F sets the feedback of the closed end. -/
theorem C232_name_violated (pOn : Fl) (kind : Nat → Kind) (i : Nat) (k : Valve.Kind) (hi : kind i = .plain k)
    (p : String) (hp : p.toList.head? = some 'F') (h1 : p ≠ "FB_ON_ST") (v : Fl) :
    ((run true pOn kind [.name i p v]).vs i).body.offFb = !v.eq (.num 0) := by
  simp [run, ValveOff.Fleet.run, ValveOff.Fleet.step, ValveOff.start, Act.ev, ValveOff.put, setCmd, hp, h1]

/-- **C232 is false of the code** for bottom mix-proof valves: simulated too, such a valve that the program opened and asked to
close is never closed when the first evaluation comes within the delay: it stays open however often it is asked to close and
evaluated, and whatever other valves do. -/
theorem C232_bottom_violated (pOn : Fl) (kind : Nat → Kind) (i : Nat) (hi : kind i = .bottom) (t0 t1 t2 : Tm) (d bd : BitVec 32)
    (hd : ValveOff.elapsed t2 t1 ≤ d.toNat) (h : List Act) (hh : ∀ a ∈ h, Asked i a) :
    simState (kind i) ((run true pOn kind ([.on i t0, .off i t1, .evaluate t2 d bd] ++ h)).vs i).body = 1 := by
  have start : Lost i (run true pOn kind [.on i t0, .off i t1, .evaluate t2 d bd]) := by
    have hd' : ¬ (Time.deltaMs t2 t1).toNat > d.toNat := Nat.not_lt.mpr hd
    simp [Lost, run, ValveOff.Fleet.run, ValveOff.Fleet.step, ValveOff.start, Act.ev, ValveOff.put, ValveOff.V.on, ValveOff.Fleet.off,
      ValveOff.Fleet.evaluate, ValveOff.V.expire, ValveOff.sweep, ValveOff.V.finished, cls, hi, directOn, valveState, Body.new, hd']
  have key : ∀ (h : List Act) (f : ValveOff.Fleet Body), (∀ a ∈ h, Asked i a) → Lost i f →
      Lost i (f.run (fun j => cls true pOn (kind j)) (h.map (Act.ev true))) := by
    intro h
    induction h with
    | nil => intro f _ l; exact l
    | cons a h ih =>
      intro f q l
      exact ih _ (fun x hx => q x (List.mem_cons_of_mem _ hx)) (lost_step pOn kind i hi f l a (q a List.mem_cons_self))
  have e : run true pOn kind ([.on i t0, .off i t1, .evaluate t2 d bd] ++ h) =
      (run true pOn kind [.on i t0, .off i t1, .evaluate t2 d bd]).run (fun j => cls true pOn (kind j)) (h.map (Act.ev true)) := by
    unfold run ValveOff.Fleet.run
    rw [List.map_append, List.foldl_append]
  rw [e, hi]
  exact (key h _ hh start).2.2.2

/-- With other valves in between. -/
example :
    let h : List Act := [.on 0 0, .off 0 100, .evaluate 1000 1000 1200, .on 1 1100, .off 0 2000, .off 1 2000, .evaluate 5000 1000 1200]
    let f := run true (.num 0) (fun i => if i = 0 then .bottom else .plain .do1) h
    simState .bottom (f.vs 0).body = 1 ∧ simState (.plain .do1) (f.vs 1).body = 0 ∧ f.queue = [] := by
  decide +kernel

end Ptusa.Emul
