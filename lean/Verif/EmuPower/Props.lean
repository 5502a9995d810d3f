import Verif.EmuPower.Lemmas

/-!
# C237: simulated power supply

A channel is on if the last command for it, or for the whole unit outside manual mode, was not 0; the unit shows 1 if some channel is
on; a nominal current is the one set last; no command is undefined.
-/
namespace Ptusa.EmuPower

/-- Channels, for commands within their ranges. -/
theorem C237_channels_partial (h : List Ev) (hf : ∀ e ∈ h, Fits e) :
    ∃ s, run h = some s ∧ ∀ i : Fin 8, s.status i = if chanOn (i.val + 1) h.reverse then 1 else 0 := by
  obtain ⟨s, hs, hi⟩ := inv h hf
  exact ⟨s, hs, hi.ch⟩

/-- All on, channel 3 off, the manual mode, off by the program: the channels 1 and 3. -/
example : (run [.on, .ch 3 0, .manual true, .off]).map (fun s => (s.status 0, s.status 2)) = some (1, 0) := by
  decide +kernel

/-- The state shown, for commands within their ranges. -/
theorem C237_state_partial (h : List Ev) (hf : ∀ e ∈ h, Fits e) :
    ∃ s, run h = some s ∧
      (s.st = 0 ∨ s.st = 1) ∧ (s.st = 1 ↔ ∃ c, 1 ≤ c ∧ c ≤ 8 ∧ chanOn c h.reverse = true) := by
  obtain ⟨s, hs, hi⟩ := inv h hf
  refine ⟨s, hs, ?_⟩
  rw [hi.st]
  refine ⟨(anyOn_01 _).symm, (anyOn_iff _).trans ⟨?_, ?_⟩⟩
  · rintro ⟨i, hn⟩
    refine ⟨i.val + 1, by omega, by omega, ?_⟩
    by_contra x
    exact hn (by rw [hi.ch, if_neg x])
  · rintro ⟨c, h1, h8, hc⟩
    refine ⟨⟨c - 1, by omega⟩, ?_⟩
    rw [hi.ch, show c - 1 + 1 = c by omega, if_pos hc]; simp

/-- One channel on shows 1; the channel off again shows 0; a channel 9 is none. -/
example : (run [.ch 4 1]).map Pu.st = some 1 ∧ (run [.ch 4 1, .ch 4 0]).map Pu.st = some 0 ∧
    (run [.ch 9 1]).map Pu.st = some 0 := by decide +kernel

/-- Nominal currents, for commands within their ranges. -/
theorem C237_current_partial (h : List Ev) (hf : ∀ e ∈ h, Fits e) :
    ∃ s, run h = some s ∧ ∀ i : Fin 8, (s.cur i : Rat) = current (i.val + 1) h.reverse := by
  obtain ⟨s, hs, hi⟩ := inv h hf
  exact ⟨s, hs, hi.cur⟩

example : (run [.nominal 2 5, .nominal 3 7, .nominal 2 6]).map (fun s => (s.cur 1, s.cur 2)) = some (6, 7) := by
  decide +kernel

/-- The code violates the property outside these ranges: a channel switched on by 4, or by a half, is off, after every history that is
defined. -/
theorem C237_on_violated (h : List Ev) (i : Fin 8) (s : Pu) (hs : run h = some s) :
    (∃ t, run (h ++ [.ch (i.val + 1) 4]) = some t ∧ t.status i = 0) ∧
    (∃ t, run (h ++ [.ch (i.val + 1) (1 / 2)]) = some t ∧ t.status i = 0) ∧
    chanOn (i.val + 1) (h ++ [Ev.ch (i.val + 1) 4]).reverse = true ∧
    chanOn (i.val + 1) (h ++ [Ev.ch (i.val + 1) (1 / 2)]).reverse = true := by
  have e4 : toI8 4 = some 4 := by decide +kernel
  have e2 : toI8 (1 / 2) = some 0 := by decide +kernel
  refine ⟨⟨_, by rw [run_snoc, hs]; simp only [step, e4, Option.bind_some, Option.map_some]; rfl, by simp [put, bits2]⟩,
    ⟨_, by rw [run_snoc, hs]; simp only [step, e2, Option.bind_some, Option.map_some]; rfl, by simp [put, bits2]⟩, ?_, ?_⟩
  · simp [chanOn]
  · simp [chanOn]

example : (run [.on]).isSome := by decide +kernel

/-- A nominal current of 10 becomes 2, after every history that is defined. -/
theorem C237_wrap_violated (h : List Ev) (i : Fin 8) (s : Pu) (hs : run h = some s) :
    (∃ t, run (h ++ [.nominal (i.val + 1) 10]) = some t ∧ t.cur i = 2) ∧
    current (i.val + 1) (h ++ [Ev.nominal (i.val + 1) 10]).reverse = 10 := by
  have e : toI8 10 = some 10 := by decide +kernel
  exact ⟨⟨_, by rw [run_snoc, hs]; simp only [step, e, Option.bind_some, Option.map_some]; rfl, by simp [put, bits3]⟩,
    by simp [current]⟩

example : (run [.nominal 1 3]).isSome := by decide +kernel

/-- A value of 128 or more for a channel or a current, whatever the number of the channel, is undefined. -/
theorem C237_undefined_violated (h : List Ev) (idx : Nat) (v : Rat) (hv : 128 ≤ v) :
    run (h ++ [.ch idx v]) = none ∧ run (h ++ [.nominal idx v]) = none := by
  have e : toI8 v = none := by
    have h0 : (0 : Rat) ≤ v := le_trans (by norm_num) hv
    have h1 : (128 : Int) ≤ v.floor := by
      rw [Rat.le_floor_iff]; exact_mod_cast hv
    unfold toI8 trunc
    rw [if_pos h0, if_neg]; omega
  constructor <;> rw [run_snoc] <;> cases run h <;> simp [step, e]

example : (128 : Rat) ≤ 1000 := by decide +kernel

end Ptusa.EmuPower
