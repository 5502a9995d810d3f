import Verif.ParInit.Lemmas

namespace Ptusa.ParInit.Props

open ParInit Spec Lemmas

/-! ### C208: parameters have the values of the project after a reset -/

/-- A saved parameter has, in memory and without power, the value that was set last; after a reset, and after a start with another number
of parameters, the last value given by the functions of the project, or 0: nothing remains of what was there before. -/
theorem C208_saved (p : Project) (ho : Runtime p.own) (s : St) (w : Which) (i : Nat) (v0 : Rat) (hw : w.saved = true)
    (hi : 1 ≤ i ∧ i ≤ p.count w) (h1 : s.ram w i = v0) (h2 : s.nv w i = v0) (h : List Ev) :
    (s.run p h).ram w i = savedVal p w i v0 h.reverse ∧ (s.run p h).nv w i = savedVal p w i v0 h.reverse :=
  saved_run p ho s w i v0 hw hi h1 h2 h

example : ((St.run { count := fun _ => 5, float := [⟨.parF, 2, 7⟩, ⟨.parF, 2, 8⟩] } ⟨fun _ _ => 3, fun _ _ => 3⟩
    [.set ⟨.parF, 2, 1⟩, .reset, .set ⟨.parF, 1, 4⟩, .start false]).ram .parF 2) = 8 := by decide +kernel

/-- A run-time parameter has the value set last; after a reset, and after a start with another number of parameters, that of
`init_runtime_params`, or 0; after another start the value its object gave it when it was set up, or 0. -/
theorem C208_runtime_partial (p : Project) (s : St) (w : Which) (i : Nat) (v0 : Rat) (hw : w.saved = false)
    (hi : 1 ≤ i ∧ i ≤ p.count w) (h1 : s.ram w i = v0) (h : List Ev) :
    (s.run p h).ram w i = runVal p w i v0 h.reverse :=
  runtime_run p s w i v0 hw hi h1 h

example : ((St.run { count := fun _ => 5, runtime := [⟨.rtF, 2, 7⟩], own := [⟨.rtF, 3, 9⟩] } ⟨fun _ _ => 3, fun _ _ => 3⟩
    [.start true, .start false]).ram .rtF 3) = 9 := by decide +kernel

/-- **Violated**: what the functions `init_rt_params_uint` and `init_rt_params_float` of an object assign to its run-time parameters is never
to be seen: every history ends as it does without these functions. -/
theorem C208_rt_functions_violated (p : Project) (hu : Runtime p.rtUint) (hf : Runtime p.rtFloat) (ho : Runtime p.own) (s : St) (w : Which)
    (i : Nat) (hi : 1 ≤ i ∧ i ≤ p.count w) (hs : s.nv w i = s.ram w i) (h : List Ev) :
    (s.run p h).ram w i = (s.run { p with rtUint := [], rtFloat := [] } h).ram w i := by
  cases hw : w.saved with
  | false =>
    rw [runtime_run p s w i _ hw hi rfl, runtime_run { p with rtUint := [], rtFloat := [] } s w i _ hw hi rfl]
    have : ∀ t v0, runVal p w i v0 t = runVal { p with rtUint := [], rtFloat := [] } w i v0 t := by
      intro t v0
      induction t with
      | nil => rfl
      | cons e t ih =>
        cases e with
        | reset => rfl
        | start ch => cases ch <;> rfl
        | set a => simp only [runVal, ih]
    exact this _ _
  | true =>
    rw [(saved_run p ho s w i _ hw hi rfl hs h).1,
      (saved_run { p with rtUint := [], rtFloat := [] } ho s w i _ hw hi rfl hs h).1]
    have hd : dflt p w i = dflt { p with rtUint := [], rtFloat := [] } w i := by
      simp only [dflt, last_append, last_runtime w i _ hu hw, last_runtime w i _ hf hw, last_nil]
    have : ∀ t v0, savedVal p w i v0 t = savedVal { p with rtUint := [], rtFloat := [] } w i v0 t := by
      intro t v0
      induction t with
      | nil => rfl
      | cons e t ih =>
        cases e with
        | reset => exact hd
        | start ch =>
          cases ch with
          | true => exact hd
          | false => exact ih
        | set a => simp only [savedVal, ih]
    exact this _ _

example : ((St.run { count := fun _ => 5, rtFloat := [⟨.rtF, 2, 7⟩] } ⟨fun _ _ => 0, fun _ _ => 0⟩ [.start true, .reset]).ram .rtF 2) = 0 := by
  decide +kernel

/-- **Violated**: the values of `init_runtime_params` are gone after the next start with the same number of parameters. -/
theorem C208_restart_violated (p : Project) (ho : p.own = []) (s : St) (w : Which) (i : Nat) (hw : w.saved = false)
    (hi : 1 ≤ i ∧ i ≤ p.count w) (h : List Ev) : (s.run p (h ++ [.start false])).ram w i = 0 := by
  rw [runtime_run p s w i _ hw hi rfl, List.reverse_append]
  show (last w i p.own).getD 0 = 0
  rw [ho]; rfl

example : ((St.run { count := fun _ => 5, runtime := [⟨.rtF, 2, 7⟩] } ⟨fun _ _ => 0, fun _ _ => 0⟩ [.start true, .start false]).ram .rtF 2) = 0 := by
  decide +kernel

/-- **Violated**: the command to reset the parameters - and the first start of a new project - takes from a washing line, also while it is
washing, the parameters of its regulators and of its supervision of flow, which it gets back only at the next start. -/
theorem C208_washing_line_violated (p : Project) (n z f : Nat) (hp : p.own = cipOwn n z f) (hr : p.runtime = []) (s : St) (h : List Ev)
    (i : Nat) (hi : 1 ≤ i ∧ i ≤ p.count .rtF) :
    (s.run p (h ++ [.reset])).ram .rtF i = 0 ∧ (s.run p (h ++ [.start true])).ram .rtF i = 0 ∧
      (s.run p (h ++ [.start false])).ram .rtF i = (last .rtF i (cipOwn n z f)).getD 0 := by
  rw [runtime_run p s .rtF i _ rfl hi rfl, runtime_run p s .rtF i _ rfl hi rfl, runtime_run p s .rtF i _ rfl hi rfl, List.reverse_append,
    List.reverse_append, List.reverse_append]
  refine ⟨?_, ?_, ?_⟩
  · show (last .rtF i p.runtime).getD 0 = 0
    rw [hr]; rfl
  · show (last .rtF i p.runtime).getD 0 = 0
    rw [hr]; rfl
  · show (last .rtF i p.own).getD 0 = _
    rw [hp]

/-- The amplification of the regulator of heating (`PIDP_k`, here number 51) is 2 after a start. -/
example : (last .rtF 51 (cipOwn 44 50 64)).getD 0 = 2 := by decide +kernel

/-- After a start with the same number of parameters a washing line works with the values it sets up; `n` is the number of `P_R_NO_FLOW`,
which the others follow. -/
theorem C208_washing_line_partial (p : Project) (n : Nat) (hn : 1 ≤ n) (hp : p.own = cipOwn n (n + 4) (n + 15)) (hc : n + 25 ≤ p.count .rtF)
    (s : St) (h : List Ev) (k : Nat) (hk : k < 26) : (s.run p (h ++ [.start false])).ram .rtF (n + k) = lineSetup.getD k 0 := by
  rw [runtime_run p s .rtF (n + k) _ rfl ⟨by omega, by omega⟩ rfl, List.reverse_append]
  show (last .rtF (n + k) p.own).getD 0 = _
  rw [hp]; exact line_last n k hk

example : lineSetup.length = 26 ∧ ((St.run { count := fun _ => 200, own := cipOwn 44 48 59 } ⟨fun _ _ => 3, fun _ _ => 3⟩
    [.start true, .start false]).ram .rtF 51) = 1 / 5 := by decide +kernel

end Ptusa.ParInit.Props
