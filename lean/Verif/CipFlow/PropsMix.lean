import Verif.CipFlow.LemmasRun

/-!
# C115, C116: acid and caustic do not meet, and the return has one way

The histories are those of one line from an idle start with everything closed: cycles with any readings, commands and
choices of programs in any order.
-/
namespace Ptusa.CipFlow

/-- A wash with program `p` is begun in conditions `e`. -/
def start (p : Nat) (e : Env) : List Ev := [.program p, .cmd Cip.cmdEvaluate, .cycle { e with start := .go true }]

/-- The operator goes `n` steps further. -/
def skip (n : Nat) (e : Env) : List Ev := (List.replicate n [Ev.cmd Cip.cmdNext, .cycle e]).flatten

/-- C115.  In no history are the suction valves of acid and of caustic open together, nor the return valves of both.  What
is taken from one of the tanks cannot come back to the other, except in the two steps of the self-cleaning in which acid
is pumped into the emptied tank of caustic. -/
theorem C115_mix (c : Cfg) (evs : List Ev) :
    ¬((run c evs).v.v02 = true ∧ (run c evs).v.v03 = true) ∧
      ¬((run c evs).v.v08 = true ∧ (run c evs).v.v09 = true) ∧
        (¬AcrossTanks (run c evs).step → ¬(run c evs).v.Mixes) := by
  have h := (inv_run c evs).good
  refine ⟨fun ⟨a, b⟩ => h.take a b, fun ⟨a, b⟩ => h.give a b, fun hx hm => ?_⟩
  have hc : (flags (run c evs).step).cross = false := by
    simp only [AcrossTanks, not_or] at hx
    simp [flags, hx]
  rcases hm with ⟨a, b⟩ | ⟨a, b⟩ | ⟨a, b⟩ | ⟨a, b⟩
  · exact h.take a b
  · exact h.give a b
  · exact h.crossKS hc a b
  · exact h.crossSK hc a b

/-- A caustic wash followed by an acid wash: circulation of each over its tank. -/
example : let e : Env := { opt := { circS := true, circK := true } }
    let l := run {} (start 48 e ++ skip 3 e)
    let l' := run {} (start 48 e ++ skip 15 e)
    l.step = 28 ∧ l.v.v03 = true ∧ l.v.v09 = true ∧ l.np = true ∧
      l'.step = 48 ∧ l'.v.v02 = true ∧ l'.v.v08 = true ∧ l'.np = true := by decide +kernel

/-- In step 163 acid goes to the tank of caustic. -/
example : let l := run {} (start 0x800 {} ++ skip 9 {})
    l.step = 163 ∧ l.v.v02 = true ∧ l.v.v09 = true ∧ l.np = true := by decide +kernel

theorem ways_le (v : V) : v.ways.length ≤ 1 ↔ v.single = true := by
  cases v with
  | mk a0 a1 a2 a3 a4 a5 a6 a7 a8 a9 a10 a11 a12 a13 w k s =>
    simp only [V.ways, V.single]
    cases a7 <;> cases a8 <;> cases a9 <;> cases a10 <;> cases a11 <;> cases a12 <;> simp

theorem ways_ne (v : V) : v.ways ≠ [] ↔ (v.v07 || v.v08 || v.v09 || v.v10 || v.v11 || v.v12) = true := by
  cases v with
  | mk a0 a1 a2 a3 a4 a5 a6 a7 a8 a9 a10 a11 a12 a13 w k s =>
    simp only [V.ways]
    cases a7 <;> cases a8 <;> cases a9 <;> cases a10 <;> cases a11 <;> cases a12 <;> simp

theorem fill_false {x : Int} (h : ¬WaterFill x) : (flags x).fill = false := by
  simp only [WaterFill, not_or] at h
  simp [flags, h]

/-- C116 (partly: outside the steps that fill the small tank, see `C116_fill_violated`).  At most one of the valves `V07` to
`V12` is open: the return never splits. -/
theorem C116_one_partial (c : Cfg) (evs : List Ev) (h : ¬WaterFill (run c evs).step) :
    (run c evs).v.ways.length ≤ 1 :=
  (ways_le _).2 ((inv_run c evs).good.one (fill_false h))

example : ¬WaterFill (run {} (start 32 {} ++ skip 5 {})).step ∧
    (run {} (start 32 {} ++ skip 5 {})).v.ways = [9] := by
  constructor
  · unfold WaterFill; decide +kernel
  · decide +kernel

/-- C116.  The pump never works against closed valves: when it is on, the liquid has a way out.  Outside the self-cleaning
there is exactly one such way; in the self-cleaning it may be a washing head. -/
theorem C116_pump (c : Cfg) (evs : List Ev) (h : (run c evs).np = true) :
    ¬WaterFill (run c evs).step ∧
      (¬SelfClean (run c evs).step → (run c evs).v.ways.length = 1) ∧
        ((run c evs).v.ways ≠ [] ∨ (run c evs).v.wmg = true ∨ (run c evs).v.kmg = true ∨ (run c evs).v.smg = true) := by
  have hg := (inv_run c evs).good
  obtain ⟨hf, ho⟩ := hg.some (hg.np h)
  have h1 := (ways_le _).2 (hg.one hf)
  have hne : (run c evs).v.ways ≠ [] ∨ (run c evs).v.wmg = true ∨ (run c evs).v.kmg = true ∨
      (run c evs).v.smg = true := by
    rw [ways_ne]
    simp only [V.outlet, Bool.or_eq_true] at ho
    simp only [Bool.or_eq_true]
    tauto
  refine ⟨?_, fun hs => ?_, hne⟩
  · intro hw
    rcases hw with hw | hw | hw | hw | hw | hw <;> rw [hw] at hf <;> simp [flags] at hf
  · have hh : (flags (run c evs).step).head = false := by
      simp only [SelfClean, not_and_or] at hs
      simp only [flags, Bool.and_eq_false_iff, decide_eq_false_iff_not]
      omega
    obtain ⟨a, b, d⟩ := hg.heads hh
    rcases hne with hne | hne | hne | hne
    · have := List.length_pos_iff.2 hne
      omega
    · rw [a] at hne; simp at hne
    · rw [b] at hne; simp at hne
    · rw [d] at hne; simp at hne

example : (run {} (start 0x800 {} ++ skip 5 {})).np = true ∧
    (run { oldValves := true } (start 0x800 {} ++ skip 5 {})).np = true ∧
    (run { oldValves := true } (start 0x800 {} ++ skip 5 {})).v.ways = [] ∧
    (run { oldValves := true } (start 0x800 {} ++ skip 5 {})).v.wmg = true := by decide +kernel

/-- C116 is violated while the small tank is filled after the circulation of caustic: the return stays open to the tank of
caustic together with the drain; and when a line is washed, the return pump is switched on again, so that what is left of
the caustic is divided between its tank and the drain.  This lasts as long as the filling does. -/
theorem C116_fill_violated (n : Nat) :
    let e : Env := { line := true }
    let l := run {} (start 32 e ++ skip 6 e ++ List.replicate (n + 1) (.cycle e))
    l.step = 31 ∧ l.v.ways = [9, 11] ∧ l.ret = true := by
  intro e
  have h : ∀ n, run {} (start 32 e ++ skip 6 e ++ List.replicate (n + 1) (.cycle e)) =
      run {} (start 32 e ++ skip 6 e ++ [.cycle e]) := by
    intro n
    induction n with
    | zero => rfl
    | succ n ih =>
      rw [List.replicate_succ', ← List.append_assoc, run_snoc, ih]
      decide +kernel
  rw [h]
  decide +kernel

end Ptusa.CipFlow
