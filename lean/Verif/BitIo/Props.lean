import Verif.BitIo.Lemmas
import Verif.Valve.Lemmas
import Mathlib.Tactic.NormNum
import Mathlib.Tactic.Linarith

/-!
# C50: valves that share bytes do not disturb each other
-/
namespace Ptusa.BitIo

/-- C50, valves on terminals.  After any history of commands to any valves, every output of a valve is what the last
command to that valve asks for, whatever the other valves were told; an output of a valve that has got no command keeps
its value. -/
theorem C50_terminal (cfg : Nat → List Addr) (hw : Wired cfg) (m m' : Mem) (l : List (Nat × Cmd))
    (h : run cfg m l = some m') (i p : Nat) (a : Addr) (hp : (cfg i)[p]? = some a)
    (hc : configured m (cfg i) = true) :
    bit m' a = match last i l with
      | some c => decide (c.out = some p)
      | none => bit m a := by
  have ha : a.id > 0 := by
    unfold configured at hc
    rw [List.all_eq_true] at hc
    have := hc a (List.mem_of_getElem? hp)
    simp only [Bool.and_eq_true, decide_eq_true_eq] at this
    exact this.2
  induction l using List.reverseRecOn generalizing m' with
  | nil => simp only [run, Option.some.injEq] at h; subst h; rfl
  | append_singleton l jc ih =>
    obtain ⟨j, c⟩ := jc
    rw [run_append] at h
    simp only [run, Option.bind_eq_some_iff] at h
    obtain ⟨w, hw1, w', hw2, h⟩ := h
    simp only [Option.some.injEq] at h
    subst h
    obtain ⟨c1, _, c3⟩ := command_bit hw2 a ha
    rw [last_append]
    by_cases hj : j = i
    · subst hj
      rw [if_pos rfl]
      have hcw : configured w (cfg j) = true := by
        rw [configured_congr (run_length cfg l m w hw1)]; exact hc
      exact c3 hcw (wired_nodup cfg hw j) p hp
    · rw [if_neg hj, c1 ?_, ih w hw1]
      intro hm
      obtain ⟨q, hq⟩ := List.getElem?_of_mem hm
      exact hj (hw j i q p a hq hp).1

/-- C50, mix-proof valves on terminals.  After any history whose last command to valve `i` sets state `n`, its three outputs
are those of the state: 0 closed, 2 upper seat lifted, 3 lower seat lifted, anything else open. -/
theorem C50_terminal_states (cfg : Nat → List Addr) (hw : Wired cfg) (m m' : Mem) (l : List (Nat × Cmd))
    (h : run cfg m l = some m') (i : Nat) (main upper lower : Addr) (hp : cfg i = [main, upper, lower])
    (hc : configured m (cfg i) = true) (n : Int) (hn : last i l = some (cmdOfState true n)) :
    bit m' main = decide (n ≠ 0 ∧ n ≠ 2 ∧ n ≠ 3) ∧ bit m' upper = decide (n = 2) ∧ bit m' lower = decide (n = 3) := by
  have h0 := C50_terminal cfg hw m m' l h i 0 main (by rw [hp]; rfl) hc
  have h1 := C50_terminal cfg hw m m' l h i 1 upper (by rw [hp]; rfl) hc
  have h2 := C50_terminal cfg hw m m' l h i 2 lower (by rw [hp]; rfl) hc
  rw [hn] at h0 h1 h2
  simp only at h0 h1 h2
  rw [h0, h1, h2]
  by_cases n0 : n = 0
  · subst n0; decide
  by_cases n2 : n = 2
  · subst n2; decide
  by_cases n3 : n = 3
  · subst n3; decide
  simp [cmdOfState, n0, n2, n3, Cmd.out]

/-- C50, valves without seats on terminals: state 0 is closed, any other open. -/
theorem C50_terminal_state (cfg : Nat → List Addr) (hw : Wired cfg) (m m' : Mem) (l : List (Nat × Cmd))
    (h : run cfg m l = some m') (i : Nat) (main : Addr) (hp : cfg i = [main])
    (hc : configured m (cfg i) = true) (n : Int) (hn : last i l = some (cmdOfState false n)) :
    bit m' main = decide (n ≠ 0) := by
  have h0 := C50_terminal cfg hw m m' l h i 0 main (by rw [hp]; rfl) hc
  rw [hn] at h0
  simp only at h0
  rw [h0]
  by_cases n0 : n = 0
  · subst n0; decide
  · simp [cmdOfState, n0, Cmd.out]

/-- C50.  Bits that belong to no valve never change. -/
theorem C50_terminal_unused (cfg : Nat → List Addr) (m m' : Mem) (l : List (Nat × Cmd)) (h : run cfg m l = some m')
    (a : Addr) (ha : a.id > 0) (hn : ∀ i, a ∉ cfg i) : bit m' a = bit m a := by
  induction l using List.reverseRecOn generalizing m' with
  | nil => simp only [run, Option.some.injEq] at h; subst h; rfl
  | append_singleton l jc ih =>
    obtain ⟨j, c⟩ := jc
    rw [run_append] at h
    simp only [run, Option.bind_eq_some_iff] at h
    obtain ⟨w, hw1, w', hw2, h⟩ := h
    simp only [Option.some.injEq] at h
    subst h
    rw [(command_bit hw2 a ha).1 (hn j), ih w hw1]

/-- C50.  Nothing undefined happens when every number is within its image. -/
theorem C50_terminal_defined_partial (cfg : Nat → List Addr) (m : Mem) (l : List (Nat × Cmd))
    (hr : ∀ i, ∀ a ∈ cfg i, a.id ≤ 8 * (m a.img).length) : ∃ m', run cfg m l = some m' := by
  induction l generalizing m with
  | nil => exact ⟨m, rfl⟩
  | cons jc l ih =>
    obtain ⟨j, c⟩ := jc
    obtain ⟨w, hw⟩ : ∃ w, command m (cfg j) c = some w := by
      unfold command
      cases hc : configured m (cfg j)
      · exact ⟨m, rfl⟩
      · simp only [if_true]
        apply writeAll_defined
        intro p hp
        simp only [List.mem_mapIdx] at hp
        obtain ⟨k, hk, rfl⟩ := hp
        refine ⟨?_, hr j _ (List.getElem_mem hk)⟩
        unfold configured at hc
        rw [List.all_eq_true] at hc
        have := hc _ (List.getElem_mem hk)
        simp only [Bool.and_eq_true, decide_eq_true_eq] at this
        exact this.2
    obtain ⟨u, hu⟩ := ih w (fun i a ha => by rw [command_length hw]; exact hr i a ha)
    exact ⟨u, by simp [run, hw, hu]⟩

-- Two valves on one terminal of two bytes: 1-3 a mix-proof valve, 4 a simple one.
example : let cfg : Nat → List Addr := fun i => if i = 0 then [⟨0, 1⟩, ⟨0, 2⟩, ⟨0, 3⟩] else if i = 1 then [⟨0, 4⟩] else []
    (run cfg (fun _ => [0, 0]) [(0, .on), (1, .on), (0, .upper)]).map (fun m => m 0) = some [10, 0] := by
  decide +kernel

/-- C50 fails when a number is beyond the image: the check of the configuration accepts it, and the first command writes
outside. -/
theorem C50_terminal_range_violated (m : Mem) (a : Addr) (c : Cmd) (h0 : m a.img ≠ []) (h : 8 * (m a.img).length < a.id) :
    configured m [a] = true ∧ command m [a] c = none := by
  have hc : configured m [a] = true := by
    have : a.id > 0 := by omega
    simp [configured, this, h0]
  refine ⟨hc, ?_⟩
  unfold command
  rw [if_pos hc]
  simp only [List.mapIdx_cons, List.mapIdx_nil, writeAll, writeBit, change]
  rw [if_neg (by omega)]
  rfl

example : command (fun _ => [0, 0]) [⟨0, 17⟩] .on = none := by decide

/-- C50, valves on AS-i.  After any history of commands to any valves (all with different numbers or gateways), each
valve is in the state of the last command to it, whatever the others were told; one that has got no command stays in
its state. -/
theorem C50_as (cfg : Nat → As) (hw : ∀ i j, (cfg i).img = (cfg j).img → (cfg i).n = (cfg j).n → i = j) (m m' : Mem)
    (l : List (Nat × Cmd)) (h : asRun cfg m l = some m') (i : Nat) :
    (cfg i).valveState m' = match last i l with
      | some c => c.state
      | none => (cfg i).valveState m := by
  induction l using List.reverseRecOn generalizing m' with
  | nil => simp only [asRun, Option.some.injEq] at h; subst h; rfl
  | append_singleton l jc ih =>
    obtain ⟨j, c⟩ := jc
    rw [asRun_append] at h
    simp only [asRun, Option.bind_eq_some_iff] at h
    obtain ⟨w, hw1, w', hw2, h⟩ := h
    simp only [Option.some.injEq] at h
    subst h
    rw [last_append]
    by_cases hj : j = i
    · subst hj
      rw [if_pos rfl]
      exact asCommand_own hw2
    · rw [if_neg hj, valveState_congr (asCommand_other hw2 ?_), ih w hw1]
      rintro ⟨h1, h2⟩
      exact hj (hw i j h1 h2).symm

/-- C50.  Where the valves are: in consecutive half bytes of the image, the upper half of a byte first, from half byte 16
on; before number 32 one half byte is left out. -/
theorem C50_as_place (v : As) :
    2 * v.off + (if v.shift = 4 then 0 else 1) = if v.n < 32 then 16 + v.n else 17 + v.n := by
  unfold As.off As.shift
  by_cases h : v.n < 32 <;> by_cases h2 : v.n % 2 = 0 <;> simp [h, h2] <;> omega

example : As.off ⟨0, 33, false⟩ = 25 ∧ As.shift ⟨0, 33, false⟩ = 4 := by decide

/-- C50.  All four bits of a half byte to which no command was given stay as they are. -/
theorem C50_as_others (cfg : Nat → As) (m m' : Mem) (l : List (Nat × Cmd)) (h : asRun cfg m l = some m') (w : As)
    (hn : ∀ p ∈ l, ¬ (w.img = (cfg p.1).img ∧ w.n = (cfg p.1).n)) : w.nibble m' = w.nibble m := by
  induction l generalizing m with
  | nil => simp only [asRun, Option.some.injEq] at h; subst h; rfl
  | cons jc l ih =>
    obtain ⟨j, c⟩ := jc
    simp only [asRun, Option.bind_eq_some_iff] at h
    obtain ⟨u, hu, h⟩ := h
    rw [ih u h (fun p hp => hn p (List.mem_cons_of_mem _ hp)), asCommand_other hu (hn (j, c) List.mem_cons_self)]

/-- C50.  Nothing undefined happens when the image reaches to the half byte of every valve. -/
theorem C50_as_defined_partial (cfg : Nat → As) (m : Mem) (l : List (Nat × Cmd))
    (hr : ∀ i, (cfg i).off < (m (cfg i).img).length) : ∃ m', asRun cfg m l = some m' := by
  induction l generalizing m with
  | nil => exact ⟨m, rfl⟩
  | cons jc l ih =>
    obtain ⟨j, c⟩ := jc
    obtain ⟨w, hw⟩ : ∃ w, (cfg j).command m c = some w := change_defined (hr j)
    obtain ⟨u, hu⟩ := ih w (fun i => by rw [change_length hw]; exact hr i)
    exact ⟨u, by simp [asRun, hw, hu]⟩

-- Valves 2, 3, 32 and 33 of one gateway.
example : let cfg : Nat → As := fun i => ⟨0, if i = 0 then 2 else if i = 1 then 3 else if i = 2 then 32 else 33, false⟩
    (asRun cfg (fun _ => List.replicate 40 0) [(0, .on), (1, .upper), (2, .on), (3, .lower), (0, .off), (0, .lower)]).map
      (fun m => ((cfg 0).valveState m, (cfg 1).valveState m, (cfg 2).valveState m, (cfg 3).valveState m)) =
    some (3, 2, 1, 3) := by
  decide +kernel

/-- C50 fails when the gateway has no image, or one too short for the number: the command writes outside; the number
is never checked. -/
theorem C50_as_range_violated (m : Mem) (v : As) (c : Cmd) (h : (m v.img).length ≤ v.off) : v.command m c = none := by
  unfold As.command change
  rw [if_neg (by omega)]

example : As.command (fun _ => []) ⟨0, 5, false⟩ .on = none := by decide

/-- C48 fails for AS-i mix-proof valves: closing a seat does not start the time.  If the seat was lifted for longer than
`P_ON_TIME`, and the closed position is not confirmed at the very moment of the command, an error is reported at once.
`v` is the valve with the seat lifted at `v.start` as the mix-proof valve of `Valve` with the same outputs and inputs:
`get_fb_state` (valve.cpp lines 2869-2904) is the same code. -/
theorem C48_as_seat_violated (q : Rat) (h0 : 0 ≤ q) (h1 : q < 2 ^ 24) (pFb : Fl) (hf : pFb.eq (.num 0) = false)
    (v : Valve.Dv) (ha : v.a = false) (hy : v.y = false) (t : Valve.Tm) (m : Bool) (ht : v.start ≤ t)
    (hlong : q < ((t.toNat - v.start.toNat : Nat) : Rat)) :
    let w : Valve.Dv := { v with b := false, c := false, start := asStart v.a v.start t .off }
    Valve.exState .mix t t (.num q) pFb m w = some (if m then -13 else -3, w) := by
  have hl : ⌊q⌋.toNat < t.toNat - v.start.toNat := by
    have h2 : ⌊q⌋ < ((t.toNat - v.start.toNat : Nat) : Int) := by
      rw [Int.floor_lt]; exact_mod_cast hlong
    have := Int.floor_nonneg.mpr h0
    omega
  have hp : Valve.passed t v.start > ⌊q⌋.toNat := by rw [Valve.passed_eq _ _ ht]; exact hl
  intro w
  have hs : w.start = v.start := by simp [w, asStart, ha]
  have := Valve.exState_late .mix (by simp [Valve.Held]) q h0 h1 pFb t t m w hf
    (by simp [Valve.agrees, w, hy, ha]) (by rw [hs]; exact hp) (by rw [hs]; exact hp)
  rw [this]
  simp [Valve.valveState, w, ha]

-- The mix-proof valve with discrete outputs waits.
example : (Valve.exState .mix 9000 9000 (.num 3000) (.num 1) false
    (Valve.directOff .mix 9000 { b := true, start := 1000 })).map Prod.fst = some 0 := by
  decide +kernel

end Ptusa.BitIo
