import Verif.CipFlow.LemmasFill
import Verif.CipFlow.PropsMix

/-!
# C118, C119, C120: water into the small tank, empty tanks, steam
-/
namespace Ptusa.CipFlow

open Ptusa.Cip (Outcome StepErr Opt knownSteps)

/-- C118 (partly: outside the self-cleaning, see `C118_selfclean_violated`).  After a cycle of a washing line that found the
small tank full and stayed in its step, the water valve `V00` is closed: the tank does not overflow.  Step 300 is that of
a Lua program; step 91 of a washed line ends in its first cycle. -/
theorem C118_full_partial (c : Cfg) (b : Bool) (evs : List Ev) (e : Env) (hw : (run c evs).Washing)
    (hsc : ¬SelfClean (run c evs).step) (h3 : (run c evs).step ≠ 300) (h9 : b = true → (run c evs).step ≠ 91)
    (hb : SameType b (evs ++ [.cycle e])) (hst : (run c (evs ++ [.cycle e])).step = (run c evs).step)
    (hh : e.lh = true) (hm : e.lm = true) : (run c (evs ++ [.cycle e])).v.v00 = false := by
  have hi := inv_run c evs
  have hrun : run c (evs ++ [.cycle e]) = (run c evs).progress c e := by rw [run_snoc, next_washing hw]
  have hl : e.line = b := hb e (by simp)
  have hb' : SameType b evs := fun e he => hb e (by simp [he])
  have hc := cycle_cases (c := c) hi.known e
  rw [← hrun] at hc
  have hp : ((run c evs).pids e).v.v00 = (run c evs).v.v00 := by
    obtain ⟨_, _, _, _, h⟩ := pids_eq (run c evs) e
    rw [h]
  have hpre (x : Int) (hx : (run c evs).step = x) (hn : ¬mayFill c b x) : ((run c evs).pids e).v.v00 = false := by
    rw [hp]
    exact v00_run c b evs hb' (by rw [hx]; exact hn)
  cases hc with
  | wait h5 h' =>
    rw [h']
    refine hpre 555 h5 ?_
    rintro ⟨i, n, a, r, o, ho, hf⟩
    obtain rfl : Op.last = o := Option.some.inj ho
    simp [opFills] at hf
  | finish h5 h' => rw [h']; rfl
  | fail h5 hs hp' hv hst' hr' =>
    obtain ⟨v, k, hv⟩ := hv
    rw [hv]
    rfl
  | go h5 he o ho hd h' =>
    obtain ⟨r, h'⟩ := h'
    rw [h']
    have hsp := op_special _ hi.known false e.noTank ((run c evs).prog.testBit 4) e.rinse
    rw [ho] at hsp
    refine doOp_full hh hm ?_ ?_ (fun hf => ?_) hd
    · rintro s d rfl
      simp [SelfClean] at hsp hsc
      omega
    · rintro rfl
      simp [h3] at hsp
    · rw [hl] at hf
      exact hpre _ rfl (opFills_same hi.known ho hf)
  | done h5 he o p ho hd h' =>
    have hds := (same_doOp ((run c evs).pids e) c e o).step.trans (pids_step _ e)
    split at h'
    · next hx => exact absurd (by rw [← hst, h', initStep_step]) hx
    · next hx =>
      simp only [not_not] at hx
      by_cases h91 : (run c evs).step = 91
      · have hbf : b = false := by
          cases hb2 : b with
          | false => rfl
          | true => exact absurd h91 (h9 hb2)
        have hf : opFills c b o = false := by
          rw [h91] at ho
          obtain ⟨d, rfl⟩ : ∃ d, o = .emptyObject d := ⟨_, (Option.some.inj ho).symm⟩
          exact hbf
        obtain ⟨x, y, hg⟩ := goTo_eq (((run c evs).pids e).doOp c e o).1 p e.opt
        rw [h', hg]
        exact doOp_v00 (by rw [hl]; exact hf) (hpre _ rfl (opFills_same hi.known ho hf))
      · refine absurd ?_ (goTo_leaves (l := (((run c evs).pids e).doOp c e o).1) p e.opt
          (by rw [hds]; exact hi.known) (by rw [hds]; exact h5) (by rw [hds]; exact h91) (by rw [hds]; exact h3))
        rw [hds, hx]

/-- Rinsing before a caustic wash: the small tank is refilled until it is full. -/
example : let e : Env := { noTank := true }
    let evs := start 128 e ++ skip 1 e
    (run {} evs).Washing ∧ (run {} evs).step = 7 ∧ (run {} (evs ++ [.cycle e])).v.v00 = true ∧
      (run {} (evs ++ [.cycle e, .cycle { e with lm := true, lh := true }])).v.v00 = false := by
  refine ⟨⟨?_, ?_, ?_⟩, ?_⟩ <;> decide +kernel

/-- C118 is violated by the self-cleaning: step 153 refills the small tank, and when it ends `V00` stays open through step
154, however long this lasts and however full the tank is. -/
theorem C118_selfclean_violated (n : Nat) :
    let e : Env := { ll := true, lm := true, lh := true }
    let l := run {} (start 0x800 {} ++ skip 2 {} ++ [.cycle {}] ++ skip 1 e ++ List.replicate n (.cycle e))
    l.step = 154 ∧ l.state = 1 ∧ l.v.v00 = true := by
  intro e
  have h : ∀ n, run {} (start 0x800 {} ++ skip 2 {} ++ [.cycle {}] ++ skip 1 e ++ List.replicate n (.cycle e)) =
      run {} (start 0x800 {} ++ skip 2 {} ++ [.cycle {}] ++ skip 1 e) := by
    intro n
    induction n with
    | zero => simp
    | succ n ih =>
      rw [List.replicate_succ', ← List.append_assoc, run_snoc, ih]
      decide +kernel
  rw [h]
  decide +kernel

/-! ## C119 -/

/-- The steps that feed a solution from its tank into the washed object. -/
def feeds (x : Int) : Option Tank :=
  if x = 22 ∨ x = 24 then some .caustic else if x = 42 ∨ x = 44 then some .acid else none

theorem feed_op {x : Int} {t : Tank} (h : feeds x = some t) (i n a r : Bool) :
    x ≠ 555 ∧ (op i n a r x = some (.toObject t.src .drain) ∨
      op i n a r x = some (.fromObject t.src .drain) ∧ (x = 24 ∨ x = 44)) := by
  unfold feeds at h
  split at h
  · obtain rfl : Tank.caustic = t := by simpa using h
    next hx => rcases hx with rfl | rfl <;> refine ⟨by decide, ?_⟩ <;> simp [op, Tank.src]
  · split at h
    · obtain rfl : Tank.acid = t := by simpa using h
      next hx => rcases hx with rfl | rfl <;> refine ⟨by decide, ?_⟩ <;> simp [op, Tank.src]
    · simp at h

theorem source_low {l : Line} {e : Env} {t : Tank} (h : e.low t = false) : ∃ x, (l.source e t.src).2 = some x := by
  cases t <;> simp_all [Line.source, Tank.src, Env.low]

/-- C119 (partly: for the steps that feed the solution through the object, see `C119_circuit_violated`).  A washing line
that finds the tank empty from which it feeds the object stops: an error is shown, the pump is off and the suction
valves are closed.  Only a step whose end is reached in the same cycle goes on to the next. -/
theorem C119_empty_partial (c : Cfg) (evs : List Ev) (e : Env) (t : Tank) (hw : (run c evs).Washing)
    (ht : feeds (run c evs).step = some t) (hl : e.low t = false) :
    let l := run c (evs ++ [.cycle e])
    (l.state < 0 ∧ l.step = (run c evs).step ∧ l.np = false ∧ l.v.sources = []) ∨
      (((run c evs).step = 24 ∨ (run c evs).step = 44) ∧ l.step ≠ (run c evs).step ∧ e.vol = true) := by
  intro l
  have hi := inv_run c evs
  have hrun : l = (run c evs).progress c e := (run_snoc c evs _).trans (next_washing hw e)
  have hc := cycle_cases (c := c) hi.known e
  rw [← hrun] at hc
  have h555 := (feed_op ht false false false false).1
  cases hc with
  | wait h5 h' => exact absurd h5 h555
  | finish h5 h' => exact absurd h5 h555
  | fail h5 hs hp hv hst hr =>
    obtain ⟨v, b, hv⟩ := hv
    exact .inl ⟨hs, hst, hp, by rw [hv]; rfl⟩
  | go _ he o ho hd h' =>
    exfalso
    rcases (feed_op ht false e.noTank ((run c evs).prog.testBit 4) e.rinse).2 with h | ⟨h, -⟩ <;> rw [h] at ho <;>
      obtain rfl := Option.some.inj ho
    · simp only [Line.doOp, Line.toObject] at hd
      split at hd
      · simp at hd
      · next hx =>
        obtain ⟨x, hx'⟩ := source_low (l := ((run c evs).pids e).setRet e _) hl
        rw [hx] at hx'
        simp at hx'
    · simp only [Line.doOp, Line.fromObject] at hd
      split at hd
      · next l1 o1 hx =>
        dsimp only at hd
        subst hd
        exact absurd (congrArg Prod.snd hx) (checkReturn_ne_go _ _ _)
      · split at hd
        · simp at hd
        · next hx =>
          obtain ⟨x, hx'⟩ := source_low (l := _) hl
          rw [hx] at hx'
          simp at hx'
  | done h5 he o p ho hd h' =>
    right
    rcases (feed_op ht false e.noTank ((run c evs).prog.testBit 4) e.rinse).2 with h | ⟨h, h24⟩ <;> rw [h] at ho <;>
      obtain rfl := Option.some.inj ho
    · exfalso
      simp only [Line.doOp, Line.toObject] at hd
      split at hd
      · simp at hd
      · next hx =>
        obtain ⟨x, hx'⟩ := source_low (l := ((run c evs).pids e).setRet e _) hl
        rw [hx] at hx'
        simp at hx'
    · refine ⟨h24, ?_, ?_⟩
      · have hds := (same_doOp ((run c evs).pids e) c e (.fromObject t.src .drain)).step.trans (pids_step _ e)
        have hne := goTo_ne (l := (((run c evs).pids e).doOp c e (.fromObject t.src .drain)).1) p e.opt
          (by rw [hds]; exact hi.known) (by rw [hds]; exact h5)
          (by rw [hds]; exact not_last _ hi.known h5 (by rcases h24 with h | h <;> simp [h]))
        rw [hds] at hne
        rw [if_pos hne] at h'
        rw [h', initStep_step]
        exact hne
      · simp only [Line.doOp, Line.fromObject] at hd
        split at hd
        · next l1 o1 hx =>
          dsimp only at hd
          subst hd
          exact checkReturn_vol (congrArg Prod.snd hx)
        · split at hd <;> simp at hd

/-- The tank of caustic runs empty while caustic is fed in. -/
example : (run {} (start 32 {})).Washing ∧ feeds (run {} (start 32 {})).step = some .caustic ∧
    (run {} (start 32 {})).np = true ∧ (run {} (start 32 {})).v.sources = [3] ∧
    (run {} (start 32 {} ++ [.cycle { lsl := false }])).state = -11 := by
  refine ⟨⟨?_, ?_, ?_⟩, ?_⟩ <;> decide +kernel

/-- C119 is violated while the circuit is filled (step 26): the pump is on and takes from the empty tank of caustic for as long
as the step lasts; no level is looked at. -/
theorem C119_circuit_violated (n : Nat) :
    let e : Env := { lsl := false }
    let l := run {} (start 32 {} ++ skip 3 {} ++ List.replicate n (.cycle e))
    l.step = 26 ∧ l.state = 1 ∧ l.np = true ∧ l.v.suction .caustic = true := by
  intro e
  have h : ∀ n, run {} (start 32 {} ++ skip 3 {} ++ List.replicate n (.cycle e)) =
      run {} (start 32 {} ++ skip 3 {}) := by
    intro n
    induction n with
    | zero => simp
    | succ n ih =>
      rw [List.replicate_succ', ← List.append_assoc, run_snoc, ih]
      decide +kernel
  rw [h]
  decide +kernel

/-! ## C120 -/

theorem steam_v13 {l : Line} {e : Env} (h : (l.steam e).v.v13 = true) : e.heat = true ∧ e.flow = true ∧ (l.steam e).np = true := by
  unfold Line.steam at h ⊢
  split
  · next hx =>
    simp only [Bool.and_eq_true] at hx
    exact ⟨hx.1.1, hx.1.2, hx.2⟩
  · next hx => rw [if_neg hx] at h; simp at h

theorem pids_np_hold {l : Line} {e : Env} (h : e.hold = some false) : (l.pids e).np = false := by
  unfold Line.pids Line.steam Line.holdPump
  rw [h]
  dsimp only
  split <;> rfl

/-- What a cycle of a washing line that stays in its step does to pump and steam. -/
theorem same_step_cycle {c : Cfg} {evs : List Ev} {e : Env} (hw : (run c evs).Washing)
    (hst : (run c (evs ++ [.cycle e])).step = (run c evs).step) :
    (run c (evs ++ [.cycle e])).np = false ∧ (run c (evs ++ [.cycle e])).v.v13 = false ∨
      (run c (evs ++ [.cycle e])).np = ((run c evs).pids e).np ∧
        (run c (evs ++ [.cycle e])).v.v13 = ((run c evs).pids e).v.v13 := by
  have hi := inv_run c evs
  have hrun : run c (evs ++ [.cycle e]) = (run c evs).progress c e := by rw [run_snoc, next_washing hw]
  have hc := cycle_cases (c := c) hi.known e
  rw [← hrun] at hc
  cases hc with
  | wait h5 h' => right; rw [h']; exact ⟨rfl, rfl⟩
  | finish h5 h' => left; rw [h']; exact ⟨rfl, rfl⟩
  | fail h5 hs hp hv hst hr =>
    obtain ⟨v, b, hv⟩ := hv
    left
    exact ⟨hp, by rw [hv]; rfl⟩
  | go _ he o ho hd h' =>
    obtain ⟨r, h'⟩ := h'
    right
    rw [h']
    exact ⟨(same_doOp ((run c evs).pids e) c e o).np, doOp_v13 ..⟩
  | done h5 he o p ho hd h' =>
    split at h'
    · next hx => exact absurd (by rw [← hst, h', initStep_step]) hx
    · obtain ⟨x, y, hg⟩ := goTo_eq (((run c evs).pids e).doOp c e o).1 p e.opt
      right
      rw [h', hg]
      exact ⟨(same_doOp ((run c evs).pids e) c e o).np, doOp_v13 ..⟩

/-- C120 (partly: for cycles that stay in their step, see `C120_start_violated`).  After such a cycle the steam valve `V13`
is open only if the pump is on, the flow is above its minimum and the heater is wanted; and the pump is off if the
object does not allow it. -/
theorem C120_steam_partial (c : Cfg) (evs : List Ev) (e : Env) (hw : (run c evs).Washing)
    (hst : (run c (evs ++ [.cycle e])).step = (run c evs).step) :
    ((run c (evs ++ [.cycle e])).v.v13 = true →
      (run c (evs ++ [.cycle e])).np = true ∧ e.flow = true ∧ e.heat = true) ∧
      (e.hold = some false → (run c (evs ++ [.cycle e])).np = false) := by
  rcases same_step_cycle hw hst with ⟨h1, h2⟩ | ⟨h1, h2⟩
  · rw [h1, h2]
    simp
  · rw [h1, h2]
    refine ⟨fun h => ?_, pids_np_hold⟩
    obtain ⟨a, b, d⟩ := steam_v13 h
    exact ⟨d, b, a⟩

/-- During circulation the steam opens after 1.2 s of flow and closes when the flow is lost or the object holds the pump. -/
example : let e : Env := { heat := true, flow := true }
    let evs := start 32 e ++ skip 4 e
    (run {} evs).Washing ∧ (run {} evs).step = 28 ∧
      (run {} (evs ++ [.cycle { e with now := 1300 }])).v.v13 = true ∧
      (run {} (evs ++ [.cycle { e with now := 1300 }, .cycle { e with now := 1400, flow := false }])).v.v13 = false ∧
      (run {} (evs ++ [.cycle { e with now := 1300 }, .cycle { e with now := 1400, hold := some false }])).np = false := by
  refine ⟨⟨?_, ?_, ?_⟩, ?_⟩ <;> decide +kernel

/-- C120 is violated for one cycle at the start of the preparation of a solution: the steam is opened with the pump, without flow
and without a demand for heat.  And a step that stops the pump leaves the steam open until the next cycle. -/
theorem C120_start_violated :
    (let l := run {} (start 0x200 {})
     l.step = 105 ∧ l.v.v13 = true) ∧
    (let e : Env := { heat := true, flow := true }
     let l := run {} (start 32 e ++ skip 5 e ++ [.cycle { e with now := 1300 }, .cycle { e with now := 1400, fin := true }])
     l.step = 31 ∧ l.v.v13 = true ∧ l.np = false) := by
  decide +kernel

end Ptusa.CipFlow
