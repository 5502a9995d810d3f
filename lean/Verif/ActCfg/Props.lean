import Verif.ActCfg.Lemmas

namespace Ptusa.ActCfg.Props

open ActCfg Spec Lemmas

/-! ### C206: an action has the devices, parameters and targets it was given -/

/-- In each subgroup of each group are the devices put there since the devices were taken away last, in their order; the action
is empty exactly when there is none. -/
theorem C206_devices_partial (k : Kind) (cnt : Nat) (h : List Call) :
    (∀ g s, (((Act.new k cnt).run h).at g s).getD [] = devicesOf g s (sinceClear h)) ∧
      (((Act.new k cnt).run h).isEmpty = true ↔ ∀ g s, devicesOf g s (sinceClear h) = []) := by
  refine ⟨get_run k cnt h, ?_⟩
  rw [empty_iff]
  constructor
  · intro he g s; rw [← get_run k cnt h]; exact he g s
  · intro he g s; rw [get_run]; exact he g s

example : (((Act.new .jump 2).run [.add 1 0 0, .clear, .add 7 2 1, .add 8 0 0, .add 9 2 1]).at 2 1) = some [7, 9] := by decide +kernel

/-- Every group that is there has all subgroups the action uses, and when some device was given since the last clearing the
first group is there: the loops of the actions never leave their lists. -/
theorem C206_no_missing_subgroup (k : Kind) (cnt : Nat) (h : List Call) (s : Nat) (hs : s < cnt) :
    (∀ g, g < ((Act.new k cnt).run h).devices.length → ∃ ds, ((Act.new k cnt).run h).at g s = some ds) ∧
      (((Act.new k cnt).run h).isEmpty = false → ∃ ds, ((Act.new k cnt).run h).at 0 s = some ds) := by
  have key : ∀ g, g < ((Act.new k cnt).run h).devices.length → ∃ ds, ((Act.new k cnt).run h).at g s = some ds := by
    intro g hg
    have hl := shape k cnt h _ (List.getElem_mem hg)
    refine ⟨(((Act.new k cnt).run h).devices[g])[s]'(by omega), ?_⟩
    unfold Act.at
    rw [List.getElem?_eq_getElem hg, Option.bind_some, List.getElem?_eq_getElem]
  refine ⟨key, fun he => key 0 ?_⟩
  cases hd : ((Act.new k cnt).run h).devices with
  | nil => exact absurd he (by simp [Act.isEmpty, hd])
  | cons x l => simp

example : ((Act.new .jump 2).run [.clear, .add 7 2 0]).devices.length = 3 ∧
    ((Act.new .jump 2).run [.clear, .add 7 2 0]).at 2 1 = some [] := by decide +kernel

/-- The parameter of a group is the one given last, and none when none was given; the target of a group of a conditional jump is the one
given last under any of the two names, and no target (-1) when none was given; the flag is the one given last, and set in the beginning. -/
theorem C206_values (k : Kind) (cnt : Nat) (h : List Call) :
    (∀ p, ((Act.new k cnt).run h).par p = (lastPar p h).getD 0) ∧
      (∀ g, ((Act.new .jump cnt).run h).getInt "next_step_n" g = (lastTarget g h).getD (-1)) ∧
      (((Act.new .enable cnt).run h).shouldTurnOff = true ↔
        (∀ g s, devicesOf g s (sinceClear h) = []) ∨ (lastFlag h).getD true = true) := by
  refine ⟨fun p => ?_, fun g => ?_, ?_⟩
  · rw [← par_run k cnt h]
    unfold Act.par
    by_cases hp : ((Act.new k cnt).run h).parIdx.length > p
    · rw [if_pos hp]
    · rw [if_neg hp, List.getD_eq_getElem?_getD, List.getElem?_eq_none (by omega)]; rfl
  · rw [← target_run cnt h]
    unfold Act.getInt
    by_cases hg : g < ((Act.new .jump cnt).run h).nextN.length
    · rw [if_pos ⟨rfl, hg⟩, List.getD_eq_getElem?_getD, List.getD_eq_getElem?_getD, List.getElem?_eq_getElem hg]; rfl
    · rw [if_neg (fun x => hg x.2), List.getD_eq_getElem?_getD, List.getElem?_eq_none (by omega)]; rfl
  · unfold Act.shouldTurnOff
    have he := (C206_devices_partial .enable cnt h).2
    rw [flag_run]
    by_cases e : ((Act.new .enable cnt).run h).isEmpty = true
    · rw [if_pos e]; exact ⟨fun _ => .inl (he.1 e), fun _ => rfl⟩
    · rw [if_neg e]; exact ⟨.inr, fun x => x.elim (fun y => absurd (he.2 y) e) id⟩

example : ((Act.new .jump 2).run [.int "next_step_n" 2 5, .int "next_state_n" 2 6]).getInt "next_step_n" 2 = 6 ∧
    ((Act.new .jump 2).run [.int "next_step_n" 2 5]).getInt "next_step_n" 1 = -1 ∧
    ((Act.new .plain 1).run [.par 1 4, .par 3 9]).par 1 = 4 := by decide +kernel

/-- A name the action does not know never changes anything, and a call which is answered with an error changed nothing; the conditional
jump and the enabling by signals answer exactly the names they do not know with an error. -/
theorem C206_names_partial (k : Kind) (cnt : Nat) (h : List Call) (n : String) :
    (∀ i v, ¬ KnownInt k n → (((Act.new k cnt).run h).setInt n i v).1 = (Act.new k cnt).run h) ∧
      (∀ v, ¬ KnownBool k n → (((Act.new k cnt).run h).setBool n v).1 = (Act.new k cnt).run h) ∧
      (∀ i v, k = .jump → ((((Act.new k cnt).run h).setInt n i v).2 = 0 ↔ KnownInt k n)) ∧
      (∀ v, k = .enable → ((((Act.new k cnt).run h).setBool n v).2 = 0 ↔ KnownBool k n)) := by
  have hk := (run_kind k cnt h).1
  refine ⟨fun i v hn => ?_, fun v hn => ?_, fun i v e => ?_, fun v e => ?_⟩
  · unfold Act.setInt
    rw [hk]
    cases k with
    | jump => exact congrArg Prod.fst (if_neg (fun x => hn ⟨rfl, x⟩))
    | plain => rfl
    | enable => rfl
  · unfold Act.setBool
    rw [hk]
    cases k with
    | enable => exact congrArg Prod.fst (if_neg (fun x => hn ⟨rfl, x⟩))
    | plain => rfl
    | jump => rfl
  · subst e
    unfold Act.setInt
    rw [hk]
    by_cases hn : n = "next_step_n" ∨ n = "next_state_n"
    · exact ⟨fun _ => ⟨rfl, hn⟩, fun _ => congrArg Prod.snd (if_pos hn)⟩
    · refine ⟨fun x => absurd x ?_, fun x => absurd x.2 hn⟩
      show ¬ (ite _ _ _ : Act × Int).2 = 0
      rw [if_neg hn]; exact Int.one_ne_zero
  · subst e
    unfold Act.setBool
    rw [hk]
    by_cases hn : n = "should_turn_off"
    · exact ⟨fun _ => ⟨rfl, hn⟩, fun _ => congrArg Prod.snd (if_pos hn)⟩
    · refine ⟨fun x => absurd x ?_, fun x => absurd x.2 hn⟩
      show ¬ (ite _ _ _ : Act × Int).2 = 0
      rw [if_neg hn]; exact Int.one_ne_zero

example : ((Act.new .jump 2).setInt "next_stp_n" 0 3) = (Act.new .jump 2, 1) := by decide +kernel

/-- **Violated**: an action without such properties answers every name, also a misspelt one, as if it had been set. -/
theorem C206_unknown_name_violated (cnt : Nat) (h : List Call) (n : String) (i : Nat) (v : Int) (b : Bool) :
    ((Act.new .plain cnt).run h).setInt n i v = ((Act.new .plain cnt).run h, 0) ∧
      ((Act.new .plain cnt).run h).setBool n b = ((Act.new .plain cnt).run h, 0) := by
  have hk := (run_kind .plain cnt h).1
  unfold Act.setInt Act.setBool
  rw [hk]; exact ⟨rfl, rfl⟩

example : (Act.new .plain 1).setBool "should_turn_off" false = (Act.new .plain 1, 0) := by decide +kernel

/-- **Violated**: the target of a jump to a state, set under its name, is never answered under that name. -/
theorem C206_state_target_violated (cnt : Nat) (h : List Call) (g : Nat) :
    ((Act.new .jump cnt).run h).getInt "next_state_n" g = -1 := by
  unfold Act.getInt
  exact if_neg (fun x => absurd x.1 (by decide))

example : ((Act.new .jump 2).run [.int "next_state_n" 0 3]).getInt "next_state_n" 0 = -1 ∧
    lastTarget 0 [.int "next_state_n" 0 3] = some 3 := by decide +kernel

/-- Seats given group after group are washed in the groups and in the order they were given; there is no group without a device. -/
theorem C206_seats_partial (h : List SeatCall) (ho : Ordered h) (low : Bool) (g : Nat) :
    (((Seat.run {} h).groups low)[g]?).getD [] = seatsOf g low h ∧
      (g < ((Seat.run {} h).groups low).length ↔ ∃ d, SeatCall.add d g low ∈ h) :=
  ⟨(seat_run h ho low).2 g, (seat_run h ho low).1 g⟩

example : Ordered [.add 1 0 true, .add 2 0 false, .add 3 1 true] := by
  have h1 : Ordered ([] ++ [.add 1 0 true]) := .add .nil (fun g' hg => absurd hg (Nat.not_lt_zero _))
  have h2 : Ordered (([] ++ [.add 1 0 true]) ++ [.add 2 0 false]) := .add h1 (fun g' hg => absurd hg (Nat.not_lt_zero _))
  refine Ordered.add h2 (fun g' hg => ⟨1, ?_⟩)
  have : g' = 0 := by omega
  subst this; decide

/-- **Violated**: a seat given for a group two beyond the last one is lost, and an empty group appears instead. -/
theorem C206_seat_lost_violated (h : List SeatCall) (low : Bool) (d g : Nat)
    (hg : ((Seat.run {} h).groups low).length < g) :
    (Seat.run {} (h ++ [.add d g low])).groups low = (Seat.run {} h).groups low ++ [[]] := by
  rw [seat_snoc]
  have hgr : ((Seat.run {} h).step (.add d g low)).groups low = seatAdd ((Seat.run {} h).groups low) d g := by cases low <;> rfl
  rw [hgr]
  have h1 : g ≥ ((Seat.run {} h).groups low).length := by omega
  have h2 : g ≥ ((Seat.run {} h).groups low ++ [[]]).length := by simp; omega
  unfold seatAdd
  simp only [if_pos h1, if_pos h2]

example : (Seat.run {} [.add 5 1 true]).groups true = [[]] := by decide +kernel

/-- **Violated**: taking the devices of an action away does not take its seats away. -/
theorem C206_seats_stay_violated (h : List SeatCall) : Seat.run {} (h ++ [.clear]) = Seat.run {} h := by
  rw [seat_snoc]; rfl

example : (Seat.run {} [.add 5 0 true, .clear]).groups true = [[5]] := by decide +kernel

end Ptusa.ActCfg.Props
