import Verif.Actions.Lemmas2

/-!
# C26, C27, C39–C44: actions of a step
-/
namespace Ptusa.Actions
open World

/-! ### C26: conditional jump -/

/-- C26 when every group has a condition and a target of its own (missing: groups without a condition
and groups without a target, where it is false): the jump is the configured decision. -/
theorem C26_jump_decision_partial (e : Env) (nextN : List Int) (groups : List JumpGroup)
    (hc : ∀ g ∈ groups, g.Configured) (hn : groups.length ≤ nextN.length) :
    (∀ n, isJump e nextN groups = (true, n) ↔ JumpTo e nextN groups n) ∧
    ((isJump e nextN groups).1 = false ↔ ∀ g ∈ groups, ¬ g.Sat e) := by
  have hcfg : ∀ (k : Nat) (g : JumpGroup), groups[k]? = some g → g.Configured :=
    fun k g h => hc g (List.mem_of_getElem? h)
  constructor
  · intro n
    unfold isJump
    split
    · rename_i h
      rw [List.isEmpty_iff] at h
      simp [h, JumpTo]
    · rw [jumpLoop_spec e nextN groups 0 (-1) (by omega)]
      unfold JumpTo
      constructor
      · rintro ⟨k, g, h1, h2, h3, h4⟩
        exact ⟨k, g, h1, hcfg k g h1, h2, by simpa using h3, fun j g' hj hg hh => h4 j g' hj hg hh.2⟩
      · rintro ⟨k, g, h1, _, h2, h3, h4⟩
        exact ⟨k, g, h1, h2, by simpa using h3, fun j g' hj hg hh => h4 j g' hj hg ⟨hcfg j g' hg, hh⟩⟩
  · unfold isJump
    split
    · rename_i h
      rw [List.isEmpty_iff] at h
      rw [h] at hn
      have : groups = [] := List.eq_nil_of_length_eq_zero (by simpa using hn)
      simp [this]
    · have := jumpLoop_fst e nextN groups 0 (-1)
      rw [← Bool.not_eq_true, this]
      simp

/-- Two groups; the second holds: jump to 7. -/
example : isJump { active := fun d => d == 2 } [5, 7] [{ on := [1] }, { on := [2], off := [3] }]
    = (true, 7) := by decide

/-- C26 is false of the code: a group without any condition – the constructor creates one before
the first device is added – jumps unconditionally. -/
theorem C26_jump_decision_violated :
    ¬ ∀ (e : Env) (nextN : List Int) (groups : List JumpGroup) (n : Int),
      isJump e nextN groups = (true, n) → JumpTo e nextN groups n := by
  intro h
  obtain ⟨k, g, h1, h2, _⟩ := h {} [5] [{}] 5 (by decide)
  cases k with
  | zero =>
    simp only [List.getElem?_cons_zero, Option.some.injEq] at h1
    subst h1
    rcases h2 with h2 | h2 <;> exact h2 rfl
  | succ k => simp at h1

/-- C26 is false of the code: a group without a target jumps to the target of an earlier group whose
condition does not hold. -/
theorem C26_jump_target_violated :
    ¬ ∀ (e : Env) (nextN : List Int) (groups : List JumpGroup) (n : Int),
      (∀ g ∈ groups, g.Configured) →
      isJump e nextN groups = (true, n) → JumpTo e nextN groups n := by
  intro h
  have hw := h { active := fun d => d == 2 } [5] [{ on := [1] }, { on := [2] }] 5
    (by intro g hg; simp at hg; rcases hg with rfl | rfl <;> exact .inl (by simp)) (by decide)
  obtain ⟨k, g, h1, h2, h3, h4, h5⟩ := hw
  match k, h1, h4 with
  | 0, h1, _ =>
    simp only [List.getElem?_cons_zero, Option.some.injEq] at h1
    subst h1
    have := h3.1 1 (by simp)
    rcases this with ⟨h6, _⟩ | ⟨_, h6⟩
    · simp at h6
    · simp at h6
  | k + 1, _, h4 => simp at h4

/-- C26: whether a step is enabled by signals: some group of signals is completely active, provided
every group has a signal (missing: a group left empty beside others enables the step always). -/
theorem C26_enable_by_signals_partial (e : Env) (main : List (List Nat)) (h : ∀ g ∈ main, g ≠ []) :
    isAnyGroupActive e main [] = true ↔ ∃ g ∈ main, ∀ d ∈ g, e.active d = true := by
  unfold isAnyGroupActive
  split
  · rename_i h1
    simp only [List.all_eq_true, List.mem_singleton, forall_eq, List.isEmpty_iff] at h1
    constructor
    · intro h2; simp at h2
    · rintro ⟨g, hg, _⟩; exact absurd (h1 g hg) (h g hg)
  · simp

example : isAnyGroupActive { active := fun d => d == 2 } [[1], [2]] [] = true := by decide

/-- An empty group beside a group whose signal is not active enables the step. -/
theorem C26_enable_by_signals_violated :
    ¬ ∀ (e : Env) (main : List (List Nat)), isAnyGroupActive e main [] = true →
      ∃ g ∈ main, g ≠ [] ∧ ∀ d ∈ g, e.active d = true := by
  intro h
  obtain ⟨g, hg, h1, h2⟩ := h {} [[], [1]] (by decide)
  simp at hg
  rcases hg with rfl | rfl
  · exact h1 rfl
  · simpa using h2 1 (by simp)

/-! ### C27: inputs to outputs -/

/-- C27, DI→DO: an output of the action follows the input of the last group it belongs to; nothing else is
touched. -/
theorem C27_di_do (e : Env) (groups : List (List Nat)) (w : World) :
    (∀ (k i : Nat) (outs : List Nat) (d : Nat), LastIn outputs groups k (i :: outs) d →
      (evalDIDO e groups w).st d = if e.active i = true then 1 else 0) ∧
    (∀ d, NotIn outputs groups d → (evalDIDO e groups w).st d = w.st d) :=
  ⟨fun k _ _ d h => fold_role _ (fun w => w.st) outputs
      (fun g => if e.active (g.headD 0) = true then 1 else 0) (dido_step e) groups w k _ d h,
    fun d h => fold_notRole _ (fun w => w.st) outputs
      (fun g => if e.active (g.headD 0) = true then 1 else 0) (dido_step e) groups w d h⟩

/-- C27, inverted DI→DO. -/
theorem C27_inverted_di_do (e : Env) (groups : List (List Nat)) (w : World) :
    (∀ (k i : Nat) (outs : List Nat) (d : Nat), LastIn outputs groups k (i :: outs) d →
      (evalInvDIDO e groups w).st d = if e.active i = true then 0 else 1) ∧
    (∀ d, NotIn outputs groups d → (evalInvDIDO e groups w).st d = w.st d) :=
  ⟨fun k _ _ d h => fold_role _ (fun w => w.st) outputs
      (fun g => if e.active (g.headD 0) = true then 0 else 1) (inv_step e) groups w k _ d h,
    fun d h => fold_notRole _ (fun w => w.st) outputs
      (fun g => if e.active (g.headD 0) = true then 0 else 1) (inv_step e) groups w d h⟩

/-- C27, AI→AO. -/
theorem C27_ai_ao (e : Env) (groups : List (List Nat)) (w : World) :
    (∀ (k i : Nat) (outs : List Nat) (d : Nat), LastIn outputs groups k (i :: outs) d →
      (evalAIAO e groups w).val d = e.read i) ∧
    (∀ d, NotIn outputs groups d → (evalAIAO e groups w).val d = w.val d) :=
  ⟨fun k _ _ d h => fold_role _ (fun w => w.val) outputs
      (fun g => e.read (g.headD 0)) (aiao_step e) groups w k _ d h,
    fun d h => fold_notRole _ (fun w => w.val) outputs
      (fun g => e.read (g.headD 0)) (aiao_step e) groups w d h⟩

/-- Output 11 is in both groups: the second decides. -/
example : LastIn outputs [[1, 10, 11], [2, 11]] 1 [2, 11] 11 :=
  ⟨rfl, by decide, fun j g hj h => by
    match j, hj with
    | j + 2, _ => simp at h⟩

/-! ### C39: washing of seats -/

/-- C39: whatever the history, an evaluation and a finalisation are defined (no index is out of range). -/
theorem C39_seat_index_safe (c : SeatCfg) (s : Seat) (w : World) (h : SeatReach c true s w)
    (e : Env) (hv : ∀ d, c.Has d → e.ty d = .valve) (now : BitVec 64) (flipUp flipLo : BitVec 32) :
    (seatEval c e now flipUp flipLo s w).isSome = true ∧ (seatFinal c e s w).isSome = true := by
  have hi := (seat_reach_inv c true s w h).1 rfl
  obtain ⟨s', w', h1, _⟩ := seatEval_spec c e now flipUp flipLo s w hi hv
  rw [h1, seatFinal_spec c e s w hi]
  exact ⟨rfl, rfl⟩

/-- C39: at most one group has its seats open: the group whose turn it is, and only while the action is
running. -/
theorem C39_one_group_open (c : SeatCfg) (r : Bool) (s : Seat) (w : World) (h : SeatReach c r s w)
    (d : Nat) (hd : c.Has d) (hs : w.seat d = true) :
    r = true ∧ s.phase ≠ .waiting ∧ ∃ g, (c.up ++ c.lo)[turn c s]? = some g ∧ d ∈ g := by
  have hi := seat_reach_inv c r s w h
  cases r with
  | false => rw [hi.2 rfl d hd] at hs; simp at hs
  | true =>
    have := (hi.1 rfl).flags d hd hs
    have ht := active_turn c s w (hi.1 rfl) d this
    exact ⟨rfl, ht.1, _, ht.2.2.1, this⟩

/-- C39: the groups take turns: the turn moves to the next group (after the last one to the first)
exactly when the washing of a group ends. -/
theorem C39_groups_take_turns (c : SeatCfg) (s : Seat) (w : World) (h : SeatReach c true s w)
    (e : Env) (hv : ∀ d, c.Has d → e.ty d = .valve) (now : BitVec 64) (flipUp flipLo : BitVec 32)
    (s' : Seat) (w' : World) (he : seatEval c e now flipUp flipLo s w = some (s', w')) :
    turn c s' = if s.phase ≠ .waiting ∧ s'.phase = .waiting
      then (turn c s + 1) % (c.up.length + c.lo.length) else turn c s := by
  have hi := (seat_reach_inv c true s w h).1 rfl
  obtain ⟨s2, w2, h1, _, h3⟩ := seatEval_spec c e now flipUp flipLo s w hi hv
  rw [he] at h1
  cases h1
  exact h3

/-- C39: a new washing starts with the first group. -/
theorem C39_starts_with_first (c : SeatCfg) (now : BitVec 64) (period flipUp flipLo : BitVec 32)
    (s : Seat) (hne : c.up ≠ [] ∨ c.lo ≠ []) :
    turn c (seatInit c now period flipUp flipLo s) = 0 ∧
      (seatInit c now period flipUp flipLo s).phase = .waiting := by
  unfold seatInit
  rw [if_neg]
  · simp [turn]
  · simp only [List.isEmpty_iff]
    rintro ⟨h1, h2⟩
    rcases hne with h | h
    · exact h h1
    · exact h h2

/-- C39: while the washing time of the group runs, an evaluation opens the seats of the group whose turn it
is: the upper seats (state 2) or the lower seats (state 3). -/
theorem C39_open_commands (c : SeatCfg) (s : Seat) (w : World) (h : SeatReach c true s w)
    (e : Env) (hv : ∀ d, c.Has d → e.ty d = .valve) (now : BitVec 64) (flipUp flipLo : BitVec 32)
    (s' : Seat) (w' : World) (he : seatEval c e now flipUp flipLo s w = some (s', w'))
    (hp : s.phase ≠ .waiting) (g : List Nat) (hg : (c.up ++ c.lo)[turn c s]? = some g) (d : Nat)
    (hd : d ∈ g) (hturn : turn c s < c.up.length ↔ s.phase = .upper)
    (ht : since now s.start < (if s.phase = .upper then flipUp else flipLo).zeroExtend 64) :
    w'.st d = seatState c (turn c s) ∧ w'.seat d = true ∧ s' = s := by
  have hi := (seat_reach_inv c true s w h).1 rfl
  have hnx : s.next = s.phase := by
    rcases hi.phase with h1 | h1
    · exact absurd h1 hp
    · exact h1.symm
  have hact := hi.act
  rw [hnx] at hact
  have hne : groupsOf c s.phase ≠ [] := by
    intro hempty
    have h0 : s.act = 0 := by
      rcases hact with h2 | h2
      · rw [hempty] at h2; simp at h2
      · exact h2.2
    have hlt := (List.getElem?_eq_some_iff.mp hg).1
    simp only [List.length_append] at hlt
    unfold turn at hturn hlt
    rw [hnx] at hturn hlt
    cases hph : s.phase with
    | waiting => exact hp hph
    | upper =>
      rw [hph] at hempty hturn
      simp only [groupsOf] at hempty
      simp [hempty] at hturn
    | lower =>
      rw [hph] at hempty hturn hlt
      simp only [groupsOf] at hempty
      have hul : 0 < c.up.length := by
        rcases Nat.eq_zero_or_pos c.up.length with h5 | h5
        · simp [h5, hempty] at hlt
        · exact h5
      simp [hempty, h0] at hturn
      exact absurd hturn (by intro hh; simp [hh] at hul)
  have hlt : s.act < (groupsOf c s.phase).length := by
    rcases hact with h2 | h2
    · exact h2
    · exact absurd h2.1 hne
  obtain ⟨ga, hga⟩ : ∃ ga, (groupsOf c s.phase)[s.act]? = some ga := ⟨_, List.getElem?_eq_getElem hlt⟩
  have hgeq : g = ga := by
    unfold turn at hg
    rw [hnx] at hg
    cases hph : s.phase with
    | waiting => exact absurd hph hp
    | upper =>
      rw [hph] at hg hga hlt
      simp only [groupsOf] at hga hlt
      simp only at hg
      rw [Nat.mod_eq_of_lt (by omega), List.getElem?_append_left hlt, hga] at hg
      exact (Option.some.inj hg).symm
    | lower =>
      rw [hph] at hg hga hlt
      simp only [groupsOf] at hga hlt
      simp only at hg
      rw [Nat.mod_eq_of_lt (by omega), List.getElem?_append_right (by omega),
        show c.up.length + s.act - c.up.length = s.act by omega, hga] at hg
      exact (Option.some.inj hg).symm
  subst hgeq
  have hvg : ∀ x ∈ g, e.ty x = .valve := fun x hx => hv x (c.has_of_group _ _ g hga x hx)
  have hnotemp : ¬ (c.up.isEmpty = true ∧ c.lo.isEmpty = true) := by
    simp only [List.isEmpty_iff]
    rintro ⟨h1, h2⟩
    apply hne
    cases s.phase <;> simp [groupsOf, h1, h2]
  unfold seatEval at he
  rw [if_neg hnotemp] at he
  unfold seatState
  cases hph : s.phase with
  | waiting => exact absurd hph hp
  | upper =>
    rw [if_pos (hturn.mpr hph)]
    rcases seatOpen_spec c e now flipUp 2 s w hi hp with ⟨h1, _⟩ | ⟨g', h1, h2, h3⟩ | ⟨g', h1, h2, h3⟩
    · exact absurd h1 hne
    · rw [hph] at he h3
      simp only [groupsOf, Phase.other] at h3
      simp only at he
      rw [h3] at he
      cases he
      rw [hga] at h1
      cases h1
      rw [onGroup_st e 2 g w hvg, onGroup_seat e 2 g w hvg]
      simp [hd]
    · rw [hph] at ht
      exact absurd (by simpa using ht) h2
  | lower =>
    rw [if_neg (by rw [hturn, hph]; simp)]
    rcases seatOpen_spec c e now flipLo 3 s w hi hp with ⟨h1, _⟩ | ⟨g', h1, h2, h3⟩ | ⟨g', h1, h2, h3⟩
    · exact absurd h1 hne
    · rw [hph] at he h3
      simp only [groupsOf, Phase.other] at h3
      simp only at he
      rw [h3] at he
      cases he
      rw [hga] at h1
      cases h1
      rw [onGroup_st e 3 g w hvg, onGroup_seat e 3 g w hvg]
      simp [hd]
    · rw [hph] at ht
      exact absurd (by simpa using ht) h2

/-- C39: finalising the action leaves no seat open, and closes every valve whose seats were open. -/
theorem C39_finalise_closes (c : SeatCfg) (s : Seat) (w : World) (h : SeatReach c true s w)
    (e : Env) (hv : ∀ d, c.Has d → e.ty d = .valve) (w' : World) (hf : seatFinal c e s w = some w')
    (d : Nat) (hd : c.Has d) : w'.seat d = false ∧ (w.seat d = true → w'.st d = 0) := by
  have hi := (seat_reach_inv c true s w h).1 rfl
  rw [seatFinal_spec c e s w hi] at hf
  cases hf
  refine ⟨final_flags c e s w hi hv d hd, fun hs => ?_⟩
  rw [offGroup_st, if_pos (hi.flags d hd hs)]

/-- A history in which the seat of valve 0 is open: started, waited, opened. -/
example : SeatReach exSeats true { phase := .upper, next := .upper, act := 0, wait := 8500, start := 9000 }
    (onGroup { ty := fun _ => .valve } 2 [0] {}) := by
  have h0 : SeatReach exSeats true (seatInit exSeats 0 40000 2000 1000 {}) {} :=
    .init 0 40000 2000 1000 (.start {} fun _ _ => rfl)
  have h1 : SeatReach exSeats true { phase := .upper, next := .upper, act := 0, wait := 8500, start := 9000 }
      (exSeats.up.foldl (fun w g => offGroupChecked { ty := fun _ => .valve } g w)
        (exSeats.lo.foldl (fun w g => offGroupChecked { ty := fun _ => .valve } g w) {})) :=
    .eval { ty := fun _ => .valve } 9000 2000 1000 h0 (fun _ _ => rfl) rfl
  have h2 := SeatReach.env {} h1 (fun d hd => by rw [offAll_seat, offAll_seat])
  exact .eval { ty := fun _ => .valve } 9500 2000 1000 h2 (fun _ _ => rfl) rfl

/-- C39, the waiting time when the washings fit into the period (missing: when they do not, where it is
false): the waits before, between and after the washings of all groups and the washings themselves fill
the period, up to rounding. -/
theorem C39_wait_time_partial (period flip : BitVec 32) (g : Nat) (hg : g < 2 ^ 31)
    (hfit : g * flip.toNat ≤ period.toNat) :
    (g + 1) * (waitTime period flip g).toNat + g * flip.toNat ≤ period.toNat ∧
    period.toNat < (g + 1) * ((waitTime period flip g).toNat + 1) + g * flip.toNat := by
  have hp := period.isLt
  have hf := flip.isLt
  have hw : (waitTime period flip g).toNat = (period.toNat - g * flip.toNat) / (g + 1) := by
    have h1 : (period.zeroExtend 64).toNat = period.toNat := by simp; omega
    have h2 : (flip.zeroExtend 64 * BitVec.ofNat 64 g).toNat = g * flip.toNat := by
      rw [BitVec.toNat_mul]
      simp only [BitVec.toNat_setWidth, BitVec.toNat_ofNat]
      rw [Nat.mod_eq_of_lt (show flip.toNat < 2 ^ 64 by omega),
        Nat.mod_eq_of_lt (show g < 2 ^ 64 by omega), Nat.mul_comm]
      exact Nat.mod_eq_of_lt (by omega)
    have h3 : (period.zeroExtend 64 - flip.zeroExtend 64 * BitVec.ofNat 64 g).toNat
        = period.toNat - g * flip.toNat := by
      rw [BitVec.toNat_sub, h1, h2]; omega
    have h4 : (BitVec.ofNat 64 (g + 1)).toNat = g + 1 := by
      simp only [BitVec.toNat_ofNat]; omega
    unfold waitTime
    rw [BitVec.toNat_setWidth, BitVec.toNat_udiv, h3, h4]
    apply Nat.mod_eq_of_lt
    exact Nat.lt_of_le_of_lt (Nat.div_le_self _ _) (by omega)
  rw [hw]
  generalize hx : period.toNat - g * flip.toNat = x
  have h5 := Nat.div_add_mod x (g + 1)
  have h6 := Nat.mod_lt x (show g + 1 > 0 by omega)
  generalize x / (g + 1) = q at h5
  generalize x % (g + 1) = r at h5 h6
  rw [Nat.mul_add]
  omega

example : (3 : Nat) * (2000 : BitVec 32).toNat ≤ (40000 : BitVec 32).toNat := by decide

/-- C39 is false of the code: in a step shorter than the washings – in particular one without a time
limit, whose time is 0 – the subtraction wraps and the first washing waits for 49 days. -/
theorem C39_wait_time_violated :
    ¬ ∀ (period flip : BitVec 32) (g : Nat), g < 2 ^ 31 →
      (waitTime period flip g).toNat ≤ period.toNat := by
  intro h
  have := h 0 2000 1 (by decide)
  revert this
  decide

example : (waitTime 0 2000 1).toNat = 4294966296 := by decide

/-! ### C40: delays -/

/-- C40: the delayed-on action switches a device on once the delay of its group has passed, and leaves it
alone before (the device is in one group). -/
theorem C40_delay_on (parIdx : List Int) (par : Int → Fl) (elapsed : Nat) (groups : List (List Nat))
    (w : World) (k : Nat) (g : List Nat) (d : Nat) (hk : groups[k]? = some g) (hd : d ∈ g)
    (honly : ∀ (j : Nat) (g' : List Nat), groups[j]? = some g' → d ∈ g' → j = k) :
    (Passed parIdx par elapsed k → (evalDelayOn parIdx par elapsed groups w).st d = 1) ∧
    (¬ Passed parIdx par elapsed k → (evalDelayOn parIdx par elapsed groups w).st d = w.st d) := by
  have hother : ∀ (j : Nat) (p : List Nat × Nat), groups.zipIdx[j]? = some p → j ≠ k →
      d ∉ p.1 ∧ p.2 = j := by
    intro j p hj hne
    rw [zip_get] at hj
    cases hg : groups[j]? with
    | none => simp [hg] at hj
    | some g' =>
      simp only [hg, Option.map_some, Option.some.injEq] at hj
      subst hj
      exact ⟨fun hm => hne (honly j g' hg hm), rfl⟩
  have hskip : ∀ (p : List Nat × Nat) (w : World), d ∉ p.1 →
      ((match delayOf parIdx par p.2 with
        | some dt => if Fl.le (Fl.num elapsed) dt = true then w else w.setAll p.1 1
        | none => w.setAll p.1 1) : World).st d = w.st d := by
    intro p w hp
    split
    · split
      · rfl
      · rw [setAll_st, if_neg hp]
    · rw [setAll_st, if_neg hp]
  constructor
  · intro hpass
    refine fold_last _ (fun w => w.st d) 1 groups.zipIdx w k (g, k) (by rw [zip_get, hk]; rfl)
      (fun w => ?_) fun j p hj hjp w => ?_
    · simp only [delayOf]
      rcases hpass with h | h
      · rw [if_neg (by omega)]
        simp only [setAll_st, hd, if_true]
      · by_cases h0 : parIdx.getD k 0 > 0
        · rw [if_pos h0]
          simp only [h, Bool.false_eq_true, if_false, setAll_st, hd, if_true]
        · rw [if_neg h0]
          simp only [setAll_st, hd, if_true]
    · exact hskip p w (hother j p hjp (by omega)).1
  · intro hpass
    unfold Passed at hpass
    rw [not_or] at hpass
    obtain ⟨h1, h2⟩ := hpass
    refine fold_keep _ (fun w => w.st d) groups.zipIdx w fun p hp w => ?_
    obtain ⟨j, hj⟩ := List.getElem?_of_mem hp
    by_cases hjk : j = k
    · subst hjk
      rw [zip_get, hk] at hj
      simp only [Option.map_some, Option.some.injEq] at hj
      subst hj
      simp only [delayOf]
      rw [if_pos (by omega)]
      rw [Bool.not_eq_false] at h2
      simp only [h2, if_true]
    · exact hskip p w (hother j p hj hjk).1

/-- C40: the delayed-off action keeps a device on while the delay of its group runs and switches it off
once it has passed. -/
theorem C40_delay_off (parIdx : List Int) (par : Int → Fl) (elapsed : Nat) (groups : List (List Nat))
    (w : World) (k : Nat) (g : List Nat) (d : Nat) (hk : groups[k]? = some g) (hd : d ∈ g)
    (honly : ∀ (j : Nat) (g' : List Nat), groups[j]? = some g' → d ∈ g' → j = k) :
    (Passed parIdx par elapsed k → (evalDelayOff parIdx par elapsed groups w).st d = 0) ∧
    (¬ Passed parIdx par elapsed k → (evalDelayOff parIdx par elapsed groups w).st d = 1) := by
  have hlater : ∀ (j : Nat) (p : List Nat × Nat), k < j → groups.zipIdx[j]? = some p → d ∉ p.1 := by
    intro j p hlt hj
    rw [zip_get] at hj
    cases hg : groups[j]? with
    | none => simp [hg] at hj
    | some g' =>
      simp only [hg, Option.map_some, Option.some.injEq] at hj
      subst hj
      exact fun hm => absurd (honly j g' hg hm) (by omega)
  constructor
  · intro hpass
    refine fold_last _ (fun w => w.st d) 0 groups.zipIdx w k (g, k) (by rw [zip_get, hk]; rfl)
      (fun w => ?_) fun j p hj hjp w => ?_
    · simp only [setAll_st, hd, if_true, delayOf]
      rcases hpass with h | h
      · rw [if_neg (by omega)]
      · by_cases h0 : parIdx.getD k 0 > 0
        · rw [if_pos h0]
          simp only [h, Bool.false_eq_true, if_false]
        · rw [if_neg h0]
    · simp only [setAll_st]
      rw [if_neg (hlater j p hj hjp)]
  · intro hpass
    unfold Passed at hpass
    rw [not_or] at hpass
    obtain ⟨h1, h2⟩ := hpass
    refine fold_last _ (fun w => w.st d) 1 groups.zipIdx w k (g, k) (by rw [zip_get, hk]; rfl)
      (fun w => ?_) fun j p hj hjp w => ?_
    · simp only [setAll_st, hd, if_true, delayOf]
      rw [if_pos (by omega)]
      rw [Bool.not_eq_false] at h2
      simp only [h2, if_true]
    · simp only [setAll_st]
      rw [if_neg (hlater j p hj hjp)]

/-- Group 1 with a delay of 500 ms: at 500 ms it runs, at 501 ms it has passed. -/
example : ¬ Passed [0, 3] (fun _ => Fl.num 500) 500 1 ∧ Passed [0, 3] (fun _ => Fl.num 500) 501 1 := by
  unfold Passed; decide +kernel

/-- C40: of on, reverse and off lists the later wins: off, then reverse, then on; a valve whose seat is
being washed is not switched off. -/
theorem C40_on_off_priority (e : Env) (on rev off : List Nat) (w : World) (d : Nat) :
    (evalOnOff e on rev off w).st d =
      if d ∈ off ∧ ¬ (e.ty d = .valve ∧ w.seat d = true) then 0
      else if d ∈ rev then 2 else if d ∈ on then 1 else w.st d := by
  have hseat : (evalReverse rev (evalOn on w)).seat = w.seat := by
    unfold evalReverse evalOn; rw [setAll_seat, setAll_seat]
  have hoff : ∀ (l : List Nat) (w : World), (evalOff e l w).st d =
      if d ∈ l ∧ ¬ (e.ty d = .valve ∧ w.seat d = true) then 0 else w.st d := by
    intro l
    induction l with
    | nil => intro w; simp [evalOff]
    | cons x xs ih =>
      intro w
      have h1 : evalOff e (x :: xs) w = evalOff e xs
          (if e.ty x = .valve ∧ w.seat x = true then w else w.setState x 0) := rfl
      have h2 : (if e.ty x = .valve ∧ w.seat x = true then w else w.setState x 0).seat = w.seat := by
        split <;> rfl
      rw [h1, ih, h2]
      by_cases hx : d = x
      · subst hx
        by_cases hb : e.ty d = .valve ∧ w.seat d = true
        · simp [hb]
        · simp [hb, setState]
      · have h3 : (if e.ty x = .valve ∧ w.seat x = true then w else w.setState x 0).st d = w.st d := by
          split
          · rfl
          · simp [setState, hx]
        rw [h3]
        simp [hx]
  unfold evalOnOff
  rw [hoff, hseat]
  unfold evalReverse evalOn
  rw [setAll_st, setAll_st]

example : (evalOnOff {} [1, 2, 3] [2, 3] [3] {}).st 1 = 1 ∧ (evalOnOff {} [1, 2, 3] [2, 3] [3] {}).st 2 = 2 ∧
    (evalOnOff {} [1, 2, 3] [2, 3] [3] {}).st 3 = 0 := by decide

/-! ### C41: washing by request -/

/-- C41: the devices of a group are on exactly when washing is requested, the reversed devices run in
reverse exactly then. -/
theorem C41_wash_devices (e : Env) (parIdx : List Int) (par : Int → Fl) (groups : List WashGroup)
    (w : World) (k : Nat) (g : WashGroup) (hk : groups[k]? = some g) (hdis : g.Disjoint) (d : Nat)
    (hlater : ∀ (j : Nat) (g' : WashGroup), k < j → groups[j]? = some g' → d ∉ g'.all) :
    (d ∈ g.devs → g.Requested e → (evalWash e parIdx par groups w).st d = 1) ∧
    (d ∈ g.devs → ¬ g.Requested e → (evalWash e parIdx par groups w).st d = 0) ∧
    (d ∈ g.rev → g.Requested e → (evalWash e parIdx par groups w).st d = 2) ∧
    (d ∈ g.rev → ¬ g.Requested e → (evalWash e parIdx par groups w).st d = 0) := by
  have hkeep : ∀ (j : Nat) (p : WashGroup × Nat), k < j → groups.zipIdx[j]? = some p → ∀ w : World,
      (evalWashGroup e parIdx par p.2 p.1 w).st d = w.st d := by
    intro j p hlt hj w
    rw [zip_get] at hj
    cases hg : groups[j]? with
    | none => simp [hg] at hj
    | some g' =>
      simp only [hg, Option.map_some, Option.some.injEq] at hj
      subst hj
      have hn := hlater j g' hlt hg
      simp only [WashGroup.all, List.mem_append, not_or] at hn
      rw [wash_group_st]
      simp [hn.1.1, hn.1.2, hn.2]
  have hmain : ∀ v : Int, (∀ w : World, (evalWashGroup e parIdx par k g w).st d = v) →
      (evalWash e parIdx par groups w).st d = v := fun v hv =>
    fold_last _ (fun w => w.st d) v groups.zipIdx w k (g, k) (by rw [zip_get, hk]; rfl) hv
      fun j p hj hjp w => hkeep j p hj hjp w
  have hr : ¬ g.Requested e → washReq e g = 0 := by
    intro h
    rcases washReq_01 e g with h1 | h1
    · exact absurd ((washReq_iff e g).mpr h1) h
    · exact h1
  refine ⟨fun hd h => hmain 1 fun w => ?_, fun hd h => hmain 0 fun w => ?_, fun hd h => hmain 2 fun w => ?_,
    fun hd h => hmain 0 fun w => ?_⟩
  all_goals rw [wash_group_st]
  · have := hdis.1 d hd
    simp [this.1, this.2, hd, (washReq_iff e g).mp h]
  · have := hdis.1 d hd
    simp [this.1, this.2, hd, hr h]
  · have := hdis.2 d hd
    simp [this, hd, (washReq_iff e g).mp h]
  · have := hdis.2 d hd
    simp [this, hd, hr h]

/-- C41: the ready signals of a group are on exactly when none of its devices, as commanded, is in error. -/
theorem C41_wash_ready (e : Env) (parIdx : List Int) (par : Int → Fl) (groups : List WashGroup)
    (w : World) (k : Nat) (g : WashGroup) (hk : groups[k]? = some g) (hdis : g.Disjoint) (d : Nat)
    (hd : d ∈ g.dos)
    (hlater : ∀ (j : Nat) (g' : WashGroup), k < j → groups[j]? = some g' → d ∉ g'.all) :
    ((evalWash e parIdx par groups w).st d = 1 ∨ (evalWash e parIdx par groups w).st d = 0) ∧
    ((evalWash e parIdx par groups w).st d = 1 ↔
      (∀ x ∈ g.devs, e.err x (washReq e g) = false) ∧
      (∀ x ∈ g.rev, e.err x (if washReq e g = 1 then 2 else 0) = false)) := by
  have hkeep : ∀ (j : Nat) (p : WashGroup × Nat), k < j → groups.zipIdx[j]? = some p → ∀ w : World,
      (evalWashGroup e parIdx par p.2 p.1 w).st d = w.st d := by
    intro j p hlt hj w
    rw [zip_get] at hj
    cases hg : groups[j]? with
    | none => simp [hg] at hj
    | some g' =>
      simp only [hg, Option.map_some, Option.some.injEq] at hj
      subst hj
      have hn := hlater j g' hlt hg
      simp only [WashGroup.all, List.mem_append, not_or] at hn
      rw [wash_group_st]
      simp [hn.1.1, hn.1.2, hn.2]
  have hndev : d ∉ g.devs := fun h => (hdis.1 d h).1 hd
  have hnrev : d ∉ g.rev := fun h => hdis.2 d h hd
  have hval : (evalWash e parIdx par groups w).st d =
      if ((g.devs ++ g.rev).any fun x => e.err x
          (if x ∈ g.rev then (if washReq e g > 0 then 2 else 0) else washReq e g)) = true then 0 else 1 :=
    fold_last _ (fun w => w.st d) _ groups.zipIdx w k (g, k) (by rw [zip_get, hk]; rfl)
      (fun w => by
        show (evalWashGroup e parIdx par k g w).st d = _
        rw [wash_group_st]
        simp only [hd, and_true, hndev, hnrev, if_false, if_true])
      fun j p hj hjp w => hkeep j p hj hjp w
  have hpos : (if washReq e g > 0 then (2 : Int) else 0) = if washReq e g = 1 then 2 else 0 := by
    rcases washReq_01 e g with h | h <;> simp [h]
  rw [hval]
  generalize hb : ((g.devs ++ g.rev).any fun x => e.err x
    (if x ∈ g.rev then (if washReq e g > 0 then 2 else 0) else washReq e g)) = b
  cases b with
  | true =>
    refine ⟨.inr rfl, fun h0 => by simp at h0, fun ⟨h1, h2⟩ => ?_⟩
    simp only [List.any_eq_true, List.mem_append] at hb
    obtain ⟨x, hx, hex⟩ := hb
    by_cases hxr : x ∈ g.rev
    · rw [if_pos hxr, hpos, h2 x hxr] at hex; simp at hex
    · rw [if_neg hxr] at hex
      rcases hx with hx | hx
      · rw [h1 x hx] at hex; simp at hex
      · exact absurd hx hxr
  | false =>
    refine ⟨.inl rfl, fun _ => ⟨fun x hx => ?_, fun x hx => ?_⟩, fun _ => rfl⟩
    all_goals simp only [List.any_eq_false, List.mem_append] at hb
    · have := hb x (.inl hx)
      rw [if_neg (hdis.1 x hx).2] at this
      simpa using this
    · have := hb x (.inr hx)
      rw [if_pos hx, hpos] at this
      simpa using this

example : exWash.Disjoint ∧ exWash.Requested { active := fun d => d == 1 } ∧ ¬ exWash.Requested {} := by
  unfold WashGroup.Disjoint WashGroup.Requested exWash
  decide

/-! ### C42: description of devices in error -/

/-- C42 is false of the code: with devices in error in two subgroups of an action the description is
written beyond the end of the buffer (a buffer of 20 bytes, 32 bytes written). -/
theorem C42_error_text_in_buffer_violated :
    ¬ ∀ (size : Nat) (devices : List (List (List (Option Nat)))), 4 ≤ size →
      ∃ n, checkDevicesExtent size devices = some n ∧ n ≤ size := by
  intro h
  obtain ⟨n, h1, h2⟩ := h 20 [[[some 12, some 12], [some 12, some 14]]] (by decide)
  revert h1 h2
  rw [show checkDevicesExtent 20 [[[some 12, some 12], [some 12, some 14]]] = some 32 by decide]
  rintro ⟨⟩
  decide

/-- C42 when the space runs out, if at all, in the last subgroup that has a device in error (missing: a
device in error in a later subgroup, where it is false): the description stays in the buffer. -/
theorem C42_error_text_in_buffer_partial (size : Nat) (devices : List (List (List (Option Nat))))
    (pre : List (List (Option Nat))) (s : List (Option Nat)) (post : List (List (Option Nat)))
    (hsize : 4 ≤ size)
    (hdev : devices.flatten = pre ++ s :: post)
    (hpre : (pre.map textLen).sum < size) (hpost : ∀ t ∈ post, ∀ x ∈ t, x = none) :
    ∃ n, checkDevicesExtent size devices = some n ∧ n ≤ size := by
  have hb0 : Fits size { free := (size : Int) - 1 } := ⟨rfl, rfl, by simp, by simp; omega⟩
  have h1 := foldSub_fits size pre _ hb0 (by simpa using hpre)
  unfold checkDevicesExtent
  rw [fold_flatten, hdev, List.foldl_append, List.foldl_cons, foldSub_none post hpost]
  generalize hb1 : pre.foldl (fun b s => Buf.subgroup s b) { free := (size : Int) - 1 } = b1 at h1
  rcases subgroup_spec size s b1 h1.1 with ⟨h2, h3⟩ | ⟨h2, h3, h4, h5⟩
  · generalize Buf.subgroup s b1 = b2 at h2 h3
    obtain ⟨e1, e2, e3, e4⟩ := h2
    dsimp only
    have hmax : max b2.top (b2.out + 1) ≤ size := by rw [Nat.max_def]; split <;> omega
    by_cases hw : b2.written > 2
    · rw [if_pos hw, if_neg (by omega), if_neg (by omega)]
      exact ⟨_, rfl, hmax⟩
    · rw [if_neg hw]
      exact ⟨_, rfl, hmax⟩
  · generalize Buf.subgroup s b1 = b2 at h2 h3 h4
    dsimp only
    have hmax : max b2.top (b2.out + 1) ≤ size := by rw [Nat.max_def]; split <;> omega
    by_cases hw : b2.written > 2
    · rw [if_pos hw, if_pos h2, if_neg (by omega)]
      exact ⟨_, rfl, hmax⟩
    · rw [if_neg hw]
      exact ⟨_, rfl, hmax⟩

example : checkDevicesExtent 20 [[[some 12, none, some 12, some 12], [none]]] = some 20 := by decide

/-! ### C43: finalising a step -/

/-- C43: after a step has been finalised every device that any of its actions may have switched on is
commanded off. -/
theorem C43_finalise_switches_off (e : Env) (acts : List Act) (w w' : World)
    (h : stepFinal e acts w = some w') (a : Act) (ha : a ∈ acts) (d : Nat) (hd : a.Drives d) :
    w'.st d = 0 := by
  have hkeep : ∀ (acts : List Act) (w w' : World), stepFinal e acts w = some w' → w.st d = 0 →
      w'.st d = 0 := by
    intro acts
    induction acts with
    | nil => intro w w' h h0; cases h; exact h0
    | cons a as ih =>
      intro w w' h h0
      simp only [stepFinal, Option.bind_eq_some_iff] at h
      obtain ⟨w1, h1, h2⟩ := h
      exact ih w1 w' h2 (final_zero_keep e a w w1 h1 d h0)
  induction acts generalizing w with
  | nil => simp at ha
  | cons b as ih =>
    simp only [stepFinal, Option.bind_eq_some_iff] at h
    obtain ⟨w1, h1, h2⟩ := h
    rcases List.mem_cons.mp ha with rfl | ha
    · exact hkeep as w1 w' h2 (final_zero e a w w1 h1 d hd)
    · exact ih w1 h2 ha

/-- C43: devices that no action of the step drives keep their state. -/
theorem C43_finalise_touches_only_own (e : Env) (acts : List Act) (w w' : World)
    (h : stepFinal e acts w = some w') (d : Nat) (hd : ∀ a ∈ acts, ¬ a.Drives d) :
    w'.st d = w.st d := by
  induction acts generalizing w with
  | nil => cases h; rfl
  | cons a as ih =>
    simp only [stepFinal, Option.bind_eq_some_iff] at h
    obtain ⟨w1, h1, h2⟩ := h
    rw [ih w1 h2 fun b hb => hd b (List.mem_cons_of_mem _ hb)]
    have hn := hd a (List.mem_cons_self ..)
    cases a with
    | plain devices =>
      cases h1
      refine fold_keep _ (fun w => w.st d) devices w fun g hg w => ?_
      refine fold_keep _ (fun w => w.st d) g w fun s hs w => ?_
      simp only [setAll_st]
      rw [if_neg fun hds => hn ⟨g, hg, s, hs, hds⟩]
    | io groups =>
      cases h1
      rw [finalIO_st]
      exact if_neg hn
    | wash groups =>
      cases h1
      refine fold_keep _ (fun w => w.st d) groups w fun g hg w => ?_
      have hnot : d ∉ g.all := fun hds => hn ⟨g, hg, hds⟩
      simp only [WashGroup.all, List.mem_append, not_or] at hnot
      simp only [setAll_st, hnot.1.1, hnot.1.2, hnot.2, if_false]
    | seat c s =>
      simp only [Act.Drives] at hn
      simp only [finalAct, seatFinal] at h1
      split at h1
      · cases h1; rfl
      · cases hp : s.phase with
        | waiting => simp only [hp] at h1; cases h1; rfl
        | upper =>
          simp only [hp] at hn h1
          split at h1
          · cases h1; rfl
          · obtain ⟨g, hg, rfl⟩ := Option.map_eq_some_iff.mp h1
            rw [offGroup_st, if_neg fun hdg => hn ⟨g, hg, hdg⟩]
        | lower =>
          simp only [hp] at hn h1
          split at h1
          · cases h1; rfl
          · obtain ⟨g, hg, rfl⟩ := Option.map_eq_some_iff.mp h1
            rw [offGroup_st, if_neg fun hdg => hn ⟨g, hg, hdg⟩]
    | passive => cases h1; rfl

example : ∃ w', stepFinal {} [.plain [[[1, 2]]], .io [[3, 4]], .wash [exWash],
    .seat exSeats { phase := .upper }] { st := fun _ => 1 } = some w' ∧ w'.st 1 = 0 ∧ w'.st 3 = 0 ∧
    w'.st 5 = 1 := ⟨_, rfl, by decide⟩

/-! ### C44: supervision of the step time -/

/-- C44 for the main step (missing: extra steps, where it is false): an error is reported exactly when the
active step is overdue, with its number and its maximal time. -/
theorem C44_step_time_partial (steps a : Nat) (ha : a < steps) (maxOf elapsed : Nat → Nat) :
    (Overdue maxOf elapsed (a + 1) →
      checkMaxStepTime steps (some a) maxOf elapsed [] = some (some ⟨a + 1, maxOf a⟩)) ∧
    (¬ Overdue maxOf elapsed (a + 1) → checkMaxStepTime steps (some a) maxOf elapsed [] = some none) := by
  unfold Overdue checkMaxStepTime
  simp only [Nat.add_sub_cancel]
  constructor
  · intro h
    rw [if_pos ⟨ha, h⟩]
    simp [makeStr, ha]
  · intro h
    rw [if_neg fun hh => h hh.2]
    rfl

example : Overdue (fun _ => 5) (fun _ => 5000) 1 ∧ ¬ Overdue (fun _ => 5) (fun _ => 4999) 1 := by
  unfold Overdue; decide

/-- C44 is false of the code: for an overdue extra step the number of the step and the time are exchanged. -/
theorem C44_step_time_violated :
    ¬ ∀ (steps : Nat) (maxOf elapsed : Nat → Nat) (extra : List Nat) (r : TimeErr),
      (∀ n ∈ extra, 1 ≤ n ∧ n ≤ steps) →
      checkMaxStepTime steps none maxOf elapsed extra = some (some r) →
      r.step ∈ extra ∧ Overdue maxOf elapsed r.step ∧ r.time = maxOf (r.step - 1) := by
  intro h
  have := h 3 (fun _ => 1) (fun _ => 60000) [3] ⟨2, 2⟩ (by decide) (by decide)
  simp at this

/-- C44 is false of the code: with a maximal time (in seconds) not less than the number of steps an overdue
extra step makes the code read beyond the list of steps. -/
theorem C44_step_time_defined_violated :
    ¬ ∀ (steps : Nat) (maxOf elapsed : Nat → Nat) (extra : List Nat),
      (∀ n ∈ extra, 1 ≤ n ∧ n ≤ steps) →
      (checkMaxStepTime steps none maxOf elapsed extra).isSome = true := by
  intro h
  have := h 3 (fun _ => 60) (fun _ => 60000) [3] (by decide)
  revert this
  decide

/-- C44 when no extra step is overdue: nothing is reported but the main step. -/
theorem C44_no_extra_overdue_partial (steps : Nat) (maxOf elapsed : Nat → Nat) (extra : List Nat)
    (h : ∀ n ∈ extra, ¬ Overdue maxOf elapsed n) (active : Option Nat) :
    checkMaxStepTime steps active maxOf elapsed extra = checkMaxStepTime steps active maxOf elapsed [] := by
  have hx : checkExtra steps maxOf elapsed extra = some none := by
    induction extra with
    | nil => rfl
    | cons a as ih =>
      unfold checkExtra
      exact (if_neg (h a (List.mem_cons_self ..))).trans (ih fun n hn => h n (List.mem_cons_of_mem _ hn))
  unfold checkMaxStepTime
  rw [hx]
  rfl

end Ptusa.Actions
