import Verif.ValveOff.Lemmas

/-!
# C47: closing valves with a delay
-/
namespace Ptusa.ValveOff
variable {σ : Type}

/-- **C47** (part: classes that do not override the end of the delay) Whatever the other valves do and however many of
them wait in the common queue, a valve behaves as it would on its own: a request to close a valve the program has
opened waits, an opening cancels it, and the first evaluation later than the delay closes the valve. -/
theorem C47_refines_partial (cls : Nat → Cls σ) (b : Nat → σ) (h : List (Ev σ)) (i : Nat)
    (hs : (cls i).finished = none) :
    (((start b).run cls h).vs i).view = ({ body := b i } : S σ).run (cls i) i h := by
  rw [view_run cls i hs h _ (Inv.start cls b)]
  rfl

/-- **C47** (part as above) The valve depends on nothing but the events that concern it: two histories that agree in
them lead it to the same place, and leave the same request. -/
theorem C47_independent_partial (cls : Nat → Cls σ) (b : Nat → σ) (h h' : List (Ev σ)) (i : Nat)
    (hs : (cls i).finished = none) (he : h.filter (Ev.concerns i) = h'.filter (Ev.concerns i)) :
    (((start b).run cls h).vs i).view = (((start b).run cls h').vs i).view := by
  rw [C47_refines_partial cls b h i hs, C47_refines_partial cls b h' i hs]
  unfold S.run
  rw [he]

/-- **C47** (part as above) An open valve that is asked to close at `t0` is not touched until the delay is over: opened
by the program (in any history), kept open, asked to close, and then only further requests and evaluations within the
delay. `P` is any property of open valves. -/
theorem C47_stays_open_partial (cls : Nat → Cls σ) (b : Nat → σ) (i : Nat) (hs : (cls i).finished = none)
    (ht : ∀ now s, (cls i).tick now s = s) (P : σ → Prop) (hP : ∀ t s, P ((cls i).directOn t s))
    (hseat : ∀ s, P s → (cls i).seat s = false) (h0 h1 h2 : List (Ev σ)) (t1 t0 : Tm)
    (hm : (((start b).run cls h0).vs i).manual = false) (hk : ∀ e ∈ h1, KeepsOpen i e) (hw : ∀ e ∈ h2, Waiting i t0 e) :
    P (((start b).run cls (h0 ++ [.on i t1] ++ h1 ++ [.off i t0] ++ h2)).vs i).body := by
  have hv := C47_refines_partial cls b (h0 ++ [.on i t1] ++ h1 ++ [.off i t0] ++ h2) i hs
  have hv0 := C47_refines_partial cls b h0 i hs
  rw [S.run_append, S.run_append, S.run_append, S.run_append, ← hv0] at hv
  have o0 : Opened P (((((start b).run cls h0).vs i).view).run (cls i) i [.on i t1]) := by
    rw [S.run_single _ _ _ _ (by simp [Ev.concerns])]
    exact ⟨by simpa [S.step, V.view] using hm, rfl, rfl, by simpa [S.step, V.view, hm] using hP _ _⟩
  have o1 := Opened.keeps ht hP i h1 _ o0 hk
  have hb := o1.2.2.2
  have as := o1.asked i t0 _ hseat
  have w := Asked.waits ht (hseat _ hb) i t0 h2 _ as hw
  rw [← hv] at w
  have := w.2.2.2
  simp only [V.view] at this
  rw [this]
  exact hb

/-- **C47** (part as above) The first evaluation later than the delay closes it. -/
theorem C47_closes_partial (cls : Nat → Cls σ) (b : Nat → σ) (i : Nat) (hs : (cls i).finished = none)
    (ht : ∀ now s, (cls i).tick now s = s) (P : σ → Prop) (hP : ∀ t s, P ((cls i).directOn t s))
    (hseat : ∀ s, P s → (cls i).seat s = false) (h0 h1 h2 : List (Ev σ)) (t1 t0 : Tm)
    (hm : (((start b).run cls h0).vs i).manual = false) (hk : ∀ e ∈ h1, KeepsOpen i e) (hw : ∀ e ∈ h2, Waiting i t0 e)
    (now : Tm) (d bd : BitVec 32) (hn : t0 ≤ now) (hd : now.toNat - t0.toNat > d.toNat) :
    let h := h0 ++ [.on i t1] ++ h1 ++ [.off i t0] ++ h2
    (((start b).run cls (h ++ [.evaluate now d bd])).vs i).body =
      (cls i).directOff now (((start b).run cls h).vs i).body := by
  intro h
  have hv := C47_refines_partial cls b h i hs
  have hv0 := C47_refines_partial cls b h0 i hs
  have hv1 := C47_refines_partial cls b (h ++ [.evaluate now d bd]) i hs
  rw [S.run_append, ← hv, S.run_single _ _ _ _ (by simp [Ev.concerns])] at hv1
  simp only [h] at hv
  rw [S.run_append, S.run_append, S.run_append, S.run_append, ← hv0] at hv
  have o0 : Opened P (((((start b).run cls h0).vs i).view).run (cls i) i [.on i t1]) := by
    rw [S.run_single _ _ _ _ (by simp [Ev.concerns])]
    exact ⟨by simpa [S.step, V.view] using hm, rfl, rfl, by simpa [S.step, V.view, hm] using hP _ _⟩
  have o1 := Opened.keeps ht hP i h1 _ o0 hk
  have hb := o1.2.2.2
  have as := o1.asked i t0 _ hseat
  have w := Asked.waits ht (hseat _ hb) i t0 h2 _ as hw
  rw [← hv] at w
  obtain ⟨m', a', r', -⟩ := w
  have hb1 : (((start b).run cls (h ++ [.evaluate now d bd])).vs i).body =
      (((start b).run cls (h ++ [.evaluate now d bd])).vs i).view.body := rfl
  rw [hb1, hv1]
  have he : elapsed now t0 > d.toNat := by rw [elapsed_eq now t0 hn]; omega
  simp only [S.step]
  simp only [h, r', m', he, if_true, ht]
  rfl

/-- **C47** (part as above) An opening cancels what was asked before: a valve the program has opened stays open as long
as nobody asks for anything else, at whatever times it is evaluated. -/
theorem C47_cancelled_partial (cls : Nat → Cls σ) (b : Nat → σ) (i : Nat) (hs : (cls i).finished = none)
    (ht : ∀ now s, (cls i).tick now s = s) (P : σ → Prop) (hP : ∀ t s, P ((cls i).directOn t s))
    (h0 h1 : List (Ev σ)) (t1 : Tm) (hm : (((start b).run cls h0).vs i).manual = false)
    (hk : ∀ e ∈ h1, KeepsOpen i e) :
    P (((start b).run cls (h0 ++ [.on i t1] ++ h1)).vs i).body := by
  have hv := C47_refines_partial cls b (h0 ++ [.on i t1] ++ h1) i hs
  rw [S.run_append, S.run_append, ← C47_refines_partial cls b h0 i hs] at hv
  have o0 : Opened P (((((start b).run cls h0).vs i).view).run (cls i) i [.on i t1]) := by
    rw [S.run_single _ _ _ _ (by simp [Ev.concerns])]
    exact ⟨by simpa [S.step, V.view] using hm, rfl, rfl, by simpa [S.step, V.view, hm] using hP _ _⟩
  have o1 := Opened.keeps ht hP i h1 _ o0 hk
  rw [← hv] at o1
  exact o1.2.2.2

/-- **C47** (part as above) An evaluation changes a valve only when the program asked to close it, more than the delay
ago, did not open it afterwards, and the valve is not in manual mode. -/
theorem C47_only_on_request_partial (cls : Nat → Cls σ) (b : Nat → σ) (i : Nat) (hs : (cls i).finished = none)
    (ht : ∀ now s, (cls i).tick now s = s) (h : List (Ev σ)) (now : Tm) (d bd : BitVec 32)
    (hc : (((start b).run cls (h ++ [.evaluate now d bd])).vs i).body ≠ (((start b).run cls h).vs i).body) :
    (((start b).run cls h).vs i).manual = false ∧
      ∃ h1 t0 h2, h = h1 ++ Ev.off i t0 :: h2 ∧ (∀ t, Ev.on i t ∉ h2) ∧ elapsed now t0 > d.toNat := by
  have hv := C47_refines_partial cls b h i hs
  have hv1 := C47_refines_partial cls b (h ++ [.evaluate now d bd]) i hs
  rw [S.run_append, ← hv, S.run_single _ _ _ _ (by simp [Ev.concerns])] at hv1
  have hb1 : (((start b).run cls (h ++ [.evaluate now d bd])).vs i).body =
      (((start b).run cls (h ++ [.evaluate now d bd])).vs i).view.body := rfl
  rw [hb1, hv1] at hc
  cases hr : (((start b).run cls h).vs i).view.request with
  | none => simp only [S.step, hr, ht] at hc; exact absurd rfl hc
  | some t0 =>
    simp only [S.step, hr, ht] at hc
    by_cases he : elapsed now t0 > d.toNat
    · rw [if_pos he] at hc
      refine ⟨?_, ?_⟩
      · cases hm : (((start b).run cls h).vs i).manual with
        | false => rfl
        | true => simp [V.view, hm] at hc
      · rw [hv] at hr
        obtain ⟨h1, h2, e1, e2⟩ := request_history (cls i) i t0 h _ rfl hr
        exact ⟨h1, t0, h2, e1, e2, he⟩
    · rw [if_neg he] at hc
      exact absurd rfl hc

/-- Two valves: both opened, both asked to close, at 500 and at 900; evaluations at 1000, 1501 and 1950 with a delay of
one second.  The first is closed by the second evaluation, the other by the third. -/
example :
    let h : List (Ev Mix) := [.on 0 100, .on 1 100, .evaluate 200 1000 1200, .off 0 500, .off 1 900,
      .evaluate 1000 1000 1200, .off 0 1400]
    let f := (start fun _ => ({} : Mix)).run (fun _ => mix) h
    ((f.vs 0).body.main, (f.vs 1).body.main) = (true, true) ∧
      (let g := f.run (fun _ => mix) [.evaluate 1501 1000 1200]
       ((g.vs 0).body.main, (g.vs 1).body.main) = (false, true)) ∧
      (let g := f.run (fun _ => mix) [.evaluate 1501 1000 1200, .evaluate 1950 1000 1200]
       ((g.vs 0).body.main, (g.vs 1).body.main) = (false, false)) := by decide

/-- The hypotheses on the class hold of real valves. -/
example : mix.finished = none ∧ (∀ now s, mix.tick now s = s) ∧ (∀ t s, (mix.directOn t s).main = true) ∧
    (∀ s : Mix, s.main = true → mix.seat s = false) := by
  refine ⟨rfl, fun _ _ => rfl, fun _ _ => rfl, fun s h => ?_⟩
  simp [mix, h]

/-- **C47 is false of the code** for bottom mix-proof valves: opened by the program and asked to close, such a valve
stays open for ever when the first evaluation comes within the delay, at whatever times it is evaluated later and
however often the program asks again. -/
theorem C47_bottom_violated (t1 t0 now : Tm) (d bd : BitVec 32) (hn : t0 ≤ now) (hd : now.toNat - t0.toNat ≤ d.toNat)
    (h : List (Ev Bottom)) (hh : ∀ e ∈ h, (∃ t, e = .off 0 t) ∨ ∃ t x y, e = .evaluate t x y) :
    ((((start fun _ => ({} : Bottom)).run (fun _ => bottom)
      ([.on 0 t1, .off 0 t0, .evaluate now d bd] ++ h)).vs 0).body.main) = true := by
  rw [run_append]
  have h1 : ¬ (Time.deltaMs now t0).toNat > d.toNat := by
    have := elapsed_eq now t0 hn
    unfold elapsed at this
    omega
  have hf : ∃ f : Fleet Bottom, (start fun _ => ({} : Bottom)).run (fun _ => bottom)
      [.on 0 t1, .off 0 t0, .evaluate now d bd] = f ∧ f.queue = [] ∧ (f.vs 0).body.main = true ∧
        (f.vs 0).switching = true ∧ (f.vs 0).wasOnAuto = true := by
    refine ⟨_, rfl, ?_, ?_, ?_, ?_⟩ <;>
      simp [Fleet.run, Fleet.step, start, put, V.on, Fleet.off, bottom, Bottom.directOn, Fleet.evaluate, V.expire, sweep,
        V.finished, Bottom.finished, h1]
  obtain ⟨f, e, hq, hm, hsw, hw⟩ := hf
  rw [e]
  clear e
  induction h generalizing f with
  | nil => exact hm
  | cons x h ih =>
    have hx := hh x List.mem_cons_self
    have ih' := fun f => ih (fun e he => hh e (List.mem_cons_of_mem _ he)) f
    unfold Fleet.run at ih' ⊢
    rw [List.foldl_cons]
    rcases hx with ⟨t, rfl⟩ | ⟨t, a, c, rfl⟩
    · have e1 : f.step (fun _ => bottom) (.off 0 t) = f := by
        simp [Fleet.step, Fleet.off, hw, hsw, bottom, hm]
      rw [e1]
      exact ih' f hq hm hsw hw
    · apply ih'
      · simp [Fleet.step, Fleet.evaluate, hq, sweep]
      · simp [Fleet.step, Fleet.evaluate, hq, sweep, bottom, hm]
      · simp [Fleet.step, Fleet.evaluate, hq, sweep, hsw]
      · simp [Fleet.step, Fleet.evaluate, hq, sweep, hw]

/-- **C47 is false of the code** for bottom mix-proof valves in another way: asked to open again while the micro valve
closes, the valve is opened and then closed by the evaluation although nobody asked for it. -/
theorem C47_bottom_reopened_violated :
    let h : List (Ev Bottom) := [.on 0 0, .off 0 100, .evaluate 1200 1000 1200, .on 0 1300]
    let f := (start fun _ => ({} : Bottom)).run (fun _ => bottom) h
    (f.vs 0).body.main = true ∧
      ((f.run (fun _ => bottom) [.evaluate 2500 1000 1200]).vs 0).body.main = false := by decide

/-- **C47 is false of the code** for a valve opened again by `set_state` (or by the operator's command): the old request
to close it is not cancelled. -/
theorem C47_set_state_violated :
    let h : List (Ev Mix) := [.on 0 0, .off 0 100, .evaluate 500 1000 1200, .setState 0 600 1]
    let f := (start fun _ => ({} : Mix)).run (fun _ => mix) h
    (f.vs 0).body.main = true ∧
      ((f.run (fun _ => mix) [.evaluate 1200 1000 1200]).vs 0).body.main = false := by decide

/-- **C38 is false of the code** for valves: a request of the program given in manual mode closes the valve after the
manual mode was left. -/
theorem C38_delayed_close_violated :
    let h : List (Ev Mix) := [.on 0 0, .manual 0 true, .off 0 100, .evaluate 500 1000 1200, .manual 0 false]
    let f := (start fun _ => ({} : Mix)).run (fun _ => mix) h
    (f.vs 0).body.main = true ∧
      ((f.run (fun _ => mix) [.evaluate 1200 1000 1200]).vs 0).body.main = false := by decide

/-- **C38 is false of the code** for bottom mix-proof valves: in manual mode the end of the delay drives the outputs,
here against the operator who has just opened the valve. -/
theorem C38_bottom_manual_violated :
    let h : List (Ev Bottom) := [.on 0 0, .off 0 100, .evaluate 1200 1000 1200, .manual 0 true, .oper 0 1300 1]
    let f := (start fun _ => ({} : Bottom)).run (fun _ => bottom) h
    (f.vs 0).body.main = true ∧ (f.vs 0).manual = true ∧
      ((f.run (fun _ => bottom) [.evaluate 2500 1000 1200]).vs 0).body.main = false := by decide

end Ptusa.ValveOff
