import Verif.EmuDev.Lemmas

/-!
# C233: signals, sensors and motors without input/output modules
-/
namespace Ptusa.EmuDev
open Ptusa.Valve (Tm)

/-- **C233** (part: not circuit breakers) Without modules a device reports the state that the last command that counts has set. -/
theorem C233_state_partial (k : Kind) (hk : k ≠ .breaker) (h : List (Tm × Ev)) :
    simState (run true k h) = stateOf (first k) h.reverse := run_state k hk h

/-- **C233** (part: neither circuit breakers nor inverters) It reports the value that was set last, 0 after it was switched off, and
a random one when this is asked for. -/
theorem C233_value_partial (k : Kind) (hk : k ≠ .breaker) (hi : k ≠ .inverter) (h : List (Tm × Ev)) (r : Rat) :
    simValue k r (run true k h) = if k.analog ∧ noisyOf h.reverse then r else valueOf h.reverse := by
  rw [← run_value k hk hi h, ← run_noisy true k h]
  cases k with
  | breaker => exact absurd rfl hk
  | inverter => exact absurd rfl hi
  | ao1 => simp [simValue, Kind.analog]
  | sensor => simp [simValue, Kind.analog]
  | _ => simp [simValue, Kind.analog]

/-- **C233** (part as the first) No output is touched. -/
theorem C233_outputs_partial (k : Kind) (hk : k ≠ .breaker) (h : List (Tm × Ev)) :
    outputs (run true k h) = (false, 0, (false, false, 0), (0, false, 0), false) := by
  unfold run
  have key : ∀ (h : List (Tm × Ev)) (d : Dev), outputs (h.foldl (step true k) d) = outputs d := by
    intro h
    induction h with
    | nil => intro d; rfl
    | cons e h ih => intro d; rw [List.foldl_cons, ih, sim_outputs k hk]
  rw [key]
  cases k <;> rfl

/-- **C233** (with modules) A discrete output is on exactly when the last `on` or `off` outside manual mode was `on`; an analog one has
the value set last.  The fields that are shown without modules play no part in a motor: its outputs change as `Motor` says. -/
theorem C233_modules (h : List (Tm × Ev)) :
    (run false .do1 h).o = outOf h.reverse ∧ (run false .ao1 h).ao = anaOf h.reverse ∧
      ∀ s e, (run false (.motor s) (h ++ [e])).mt = motorStep s (run false (.motor s) h).mt (inManual h.reverse) e ∧
        (run false (.motor s) h).state = 0 ∧ (run false (.motor s) h).value = 0 := by
  refine ⟨run_out h, run_ana h, fun s e => ⟨?_, ?_⟩⟩
  · rw [run_snoc, (real_motor s _ e).1, run_manual]
  · have key : ∀ (h : List (Tm × Ev)) (d : Dev), (h.foldl (step false (.motor s)) d).state = d.state ∧
        (h.foldl (step false (.motor s)) d).value = d.value := by
      intro h
      induction h with
      | nil => intro d; exact ⟨rfl, rfl⟩
      | cons e h ih =>
        intro d
        rw [List.foldl_cons]
        exact ⟨(ih _).1.trans (real_motor s d e).2.1, (ih _).2.trans (real_motor s d e).2.2⟩
    exact key h _

/-- With modules a signal stays on when it is switched off in manual mode. -/
example : (run false .do1 [(1, .on), (2, .manual true), (3, .off)]).o = true := by decide +kernel

/-- A motor with a frequency: 40 per cent, reverse, off in manual mode (ignored), then off. -/
example :
    let k : Kind := .motor ⟨.rev, true⟩
    let h : List (Tm × Ev) := [(1, .on), (2, .val 40), (3, .set 2), (4, .manual true), (5, .off)]
    (simState (run true k h), simValue k 7 (run true k h)) = (2, 40) ∧
      (let g := h ++ [(6, .manual false), (7, .off)]
       (simState (run true k g), simValue k 7 (run true k g)) = (0, 0)) ∧
      outputs (run false k h) = (false, 0, (true, true, 40), (0, false, 0), false) := by
  decide +kernel

/-- A sensor with a set value, then with random ones. -/
example : simValue .sensor 7 (run true .sensor [(1, .operVal 5)]) = 5 ∧
    simValue .sensor 7 (run true .sensor [(1, .operVal 5), (2, .noise true)]) = 7 ∧
    simState (run true .sensor []) = 1 := by
  decide +kernel

/-- **C233 is false of the code** for inverters: whatever happened before, a simulated inverter that is switched off goes on to show
the value set last, not 0. -/
theorem C233_inverter_violated (h : List (Tm × Ev)) (t t' : Tm) (v r : Rat) :
    simState (run true .inverter (h ++ [(t, .operVal v), (t', .manual false), (t', .off)])) = 0 ∧
      simValue .inverter r (run true .inverter (h ++ [(t, .operVal v), (t', .manual false), (t', .off)])) = v := by
  simp [run, List.foldl_append, step, setValue, directOff, simState, simValue]

/-- **C233 is false of the code** for circuit breakers: switched on in any way but by a state, a simulated breaker shows the state 0
for ever, although its channels are on; and it drives its outputs. -/
theorem C233_breaker_violated (h : List (Tm × Ev)) (hh : ∀ e ∈ h, ∀ n, e.2 ≠ .set n ∧ e.2 ≠ .operSet n) (t : Tm) :
    let d := run true .breaker (h ++ [(t, .manual false), (t, .on)])
    simState d = 0 ∧ d.st = true ∧ d.sw = true := by
  have key : ∀ (h : List (Tm × Ev)) (d : Dev), (∀ e ∈ h, ∀ n, e.2 ≠ .set n ∧ e.2 ≠ .operSet n) →
      (h.foldl (step true .breaker) d).state = d.state := by
    intro h
    induction h with
    | nil => intro d _; rfl
    | cons e h ih =>
      intro d hd
      rw [List.foldl_cons, ih _ fun x hx => hd x (List.mem_cons_of_mem _ hx), breaker_state d e (hd e List.mem_cons_self)]
  have s := key h (Dev.new .breaker) hh
  intro d
  have e : d = directOn true .breaker t { run true .breaker h with manual := false } := by
    simp [d, run, List.foldl_append, step]
  rw [e]
  exact ⟨s, rfl, rfl⟩

end Ptusa.EmuDev
