import Verif.CipFlow.LemmasSort
import Verif.CipFlow.PropsMix

/-!
# C117: what goes back to the tanks of caustic and acid
-/
namespace Ptusa.CipFlow

/-- C117 (partly: for the steps that sort the return, from their first cycle on; see the violations below for the other
ways back to the tanks).  While caustic or acid is driven out of the washed object, the return is open to its tank only if
within the last 3 seconds, in the same visit of the step, the concentration of the return was at least the minimum
(`P_CMIN_S`, `P_CMIN_K`) and the tank was not full. -/
theorem C117_sorted_partial (c : Cfg) (evs : List Ev) (e : Env) (t : Tank) (hw : (run c evs).Washing)
    (ht : sorted (run c evs).step = some t) (hst : (run c (evs ++ [.cycle e])).step = (run c evs).step)
    (hs : 0 < (run c (evs ++ [.cycle e])).state) (hb : (run c (evs ++ [.cycle e])).v.back t = true) :
    ∃ pre e0 post, evs ++ [.cycle e] = pre ++ .cycle e0 :: post ∧ Visit c pre (.cycle e0 :: post) (run c evs).step ∧
      Time.deltaMs e.now e0.now < 3000 ∧ Concentrated e0 t ∧ ¬TankFull e0 t := by
  have conv : ∀ e0 : Env, e0.cmin t ≤ e0.conc t ∧ e0.high t = false → Concentrated e0 t ∧ ¬TankFull e0 t := by
    intro e0 h
    cases t
    · exact ⟨h.1, fun h2 => by have := h.2.symm.trans h2; cases this⟩
    · exact ⟨h.1, fun h2 => by have := h.2.symm.trans h2; cases this⟩
  have hi := inv_run c evs
  have hrun : run c (evs ++ [.cycle e]) = (run c evs).progress c e := by rw [run_snoc, next_washing hw]
  have h2 := sorts_cycle hi ht e (by rw [← hrun]; exact hs) (by rw [← hrun]; exact hst)
  rw [← hrun] at h2
  rcases h2 with ⟨-, h3, h4⟩ | ⟨h2, h3, h4, h5, h6⟩
  · refine ⟨evs, e, [], rfl, ?_, by simp [Time.deltaMs], conv _ (h4 hb)⟩
    intro q hq
    rcases List.prefix_cons_iff.1 hq with rfl | ⟨q', rfl, hq'⟩
    · simp
    · rw [List.prefix_nil.1 hq']; exact hst
  · have := sort_extend (ev := .cycle e) (sortInv_run c evs hw.1 t ht h5) hst h3 h4
    obtain ⟨pre, e0, post, ha, hv, hat, hc⟩ := this
    rw [hst] at hv
    refine ⟨pre, e0, post, ha, hv, ?_, conv _ (hc hb)⟩
    rw [← hat, h3]
    exact h6

/-- Caustic is driven out: first concentrated, then, one second later, no longer. -/
example : let e : Env := { cminS := 1, cdrainS := 1 / 2 }
    let evs := start 32 e ++ skip 6 e ++ [.cycle { e with lh := true }]
    let back := [Ev.cycle { e with now := 5000, cS := 2 }, .cycle { e with now := 6000, cS := 0 }]
    (run {} (evs ++ back)).Washing ∧ sorted (run {} (evs ++ back)).step = some .caustic ∧
      (run {} (evs ++ back)).v.back .caustic = true ∧
      (run {} (evs ++ back ++ [.cycle { e with now := 8000, cS := 2, lsh := true }])).v.ways = [12] ∧
      (run {} (evs ++ back ++ [.cycle { e with now := 8000, cS := 0 }])).v.ways = [11] := by
  refine ⟨⟨?_, ?_, ?_⟩, ?_⟩ <;> decide +kernel

/-- C117 is violated when the circulation is emptied (step 29): everything goes to the tank of caustic, without any
concentration and though the tank is full, for as long as the step lasts. -/
theorem C117_emptying_violated (n : Nat) :
    let e : Env := { cminS := 1, cdrainS := 1, cS := 0, lsh := true }
    let l := run {} (start 32 e ++ skip 5 e ++ List.replicate n (.cycle e))
    l.step = 29 ∧ l.v.ways = [9] ∧ l.np = true := by
  intro e
  have h : ∀ n, run {} (start 32 e ++ skip 5 e ++ List.replicate n (.cycle e)) =
      run {} (start 32 e ++ skip 5 e) := by
    intro n
    induction n with
    | zero => simp
    | succ n ih =>
      rw [List.replicate_succ', ← List.append_assoc, run_snoc, ih]
      decide +kernel
  rw [h]
  decide +kernel

/-- C117 is violated during the circulation too, when the line is set up not to stop its pump: the full small tank is relieved
into the tank of caustic, which is full itself. -/
theorem C117_circulation_violated :
    let e : Env := { cminS := 1, cdrainS := 1, cS := 0, lsh := true, lh := true, lm := true, ll := true }
    let l := run { noStop := true } (start 32 e ++ skip 4 e ++ [.cycle { e with now := 2000 }])
    l.step = 28 ∧ l.v.ways = [9] ∧ l.np = true := by
  decide +kernel

end Ptusa.CipFlow
