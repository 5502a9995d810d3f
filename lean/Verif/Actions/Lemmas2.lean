import Verif.Actions.Lemmas

/-!
# Lemmas about the washing of seats
-/
namespace Ptusa.Actions
open World

theorem offChecked_seat (e : Env) (g : List Nat) (w : World) :
    (offGroupChecked e g w).seat = w.seat := by
  refine fold_keep _ (fun w => w.seat) g w fun d _ w => ?_
  split <;> rfl

theorem offAll_seat (e : Env) (gs : List (List Nat)) (w : World) :
    (gs.foldl (fun w g => offGroupChecked e g w) w).seat = w.seat :=
  fold_keep _ (fun w => w.seat) gs w fun g _ w => offChecked_seat e g w

theorem offGroup_seat (e : Env) (g : List Nat) (w : World) (hv : ∀ d ∈ g, e.ty d = .valve) (d : Nat) :
    (offGroup e g w).seat d = if d ∈ g then false else w.seat d := by
  induction g generalizing w with
  | nil => simp [offGroup]
  | cons x xs ih =>
    have h1 : offGroup e (x :: xs) w = offGroup e xs ((w.setState x 0).setSeat x false) := by
      simp [offGroup, hv x (List.mem_cons_self ..)]
    rw [h1, ih _ fun d hd => hv d (List.mem_cons_of_mem _ hd)]
    by_cases h2 : d ∈ xs
    · simp [h2]
    · by_cases h3 : d = x <;> simp [h2, h3, setSeat, setState]

theorem offGroup_st (e : Env) (g : List Nat) (w : World) (d : Nat) :
    (offGroup e g w).st d = if d ∈ g then 0 else w.st d := by
  induction g generalizing w with
  | nil => simp [offGroup]
  | cons x xs ih =>
    have h1 : offGroup e (x :: xs) w = offGroup e xs
        (if e.ty x = .valve then (w.setState x 0).setSeat x false else w.setState x 0) := rfl
    rw [h1, ih]
    by_cases h2 : d ∈ xs
    · simp [h2]
    · by_cases h4 : e.ty x = .valve <;> by_cases h3 : d = x <;> simp [h2, h3, h4, setSeat, setState]

theorem onGroup_seat (e : Env) (st : Int) (g : List Nat) (w : World)
    (hv : ∀ d ∈ g, e.ty d = .valve) (d : Nat) :
    (onGroup e st g w).seat d = if d ∈ g then true else w.seat d := by
  induction g generalizing w with
  | nil => simp [onGroup]
  | cons x xs ih =>
    have h1 : onGroup e st (x :: xs) w = onGroup e st xs ((w.setState x st).setSeat x true) := by
      simp [onGroup, hv x (List.mem_cons_self ..)]
    rw [h1, ih _ fun d hd => hv d (List.mem_cons_of_mem _ hd)]
    by_cases h2 : d ∈ xs
    · simp [h2]
    · by_cases h3 : d = x <;> simp [h2, h3, setSeat, setState]

theorem onGroup_st (e : Env) (st : Int) (g : List Nat) (w : World) (hv : ∀ d ∈ g, e.ty d = .valve)
    (d : Nat) : (onGroup e st g w).st d = if d ∈ g then st else w.st d := by
  induction g generalizing w with
  | nil => simp [onGroup]
  | cons x xs ih =>
    have h1 : onGroup e st (x :: xs) w = onGroup e st xs ((w.setState x st).setSeat x true) := by
      simp [onGroup, hv x (List.mem_cons_self ..)]
    rw [h1, ih _ fun d hd => hv d (List.mem_cons_of_mem _ hd)]
    by_cases h2 : d ∈ xs
    · simp [h2]
    · by_cases h3 : d = x <;> simp [h2, h3, setSeat, setState]

/-- The groups of a phase. -/
def groupsOf (c : SeatCfg) : Phase → List (List Nat)
  | .waiting => []
  | .upper => c.up
  | .lower => c.lo

/-- The group being washed. -/
def activeGroup (c : SeatCfg) (s : Seat) : List Nat := (groupsOf c s.phase).getD s.act []

/-- Invariant of a running action. -/
structure SInv (c : SeatCfg) (s : Seat) (w : World) : Prop where
  next : s.next ≠ .waiting
  phase : s.phase = .waiting ∨ s.phase = s.next
  act : s.act < (groupsOf c s.next).length ∨ (groupsOf c s.next = [] ∧ s.act = 0)
  flags : ∀ d, c.Has d → w.seat d = true → d ∈ activeGroup c s

/-- The other kind of seats. -/
def Phase.other : Phase → Phase
  | .upper => .lower
  | _ => .upper

theorem SeatCfg.has_of_group (c : SeatCfg) (p : Phase) (k : Nat) (g : List Nat)
    (h : (groupsOf c p)[k]? = some g) (d : Nat) (hd : d ∈ g) : c.Has d := by
  cases p with
  | waiting => simp [groupsOf] at h
  | upper => exact ⟨g, List.mem_append_left _ (List.mem_of_getElem? h), hd⟩
  | lower => exact ⟨g, List.mem_append_right _ (List.mem_of_getElem? h), hd⟩

/-- Finalising: what it does in every phase. -/
theorem seatFinal_spec (c : SeatCfg) (e : Env) (s : Seat) (w : World) (h : SInv c s w) :
    seatFinal c e s w = some (offGroup e (activeGroup c s) w) := by
  have hact := h.act
  have hn := h.next
  have hp := h.phase
  unfold seatFinal activeGroup
  split
  · rename_i he
    simp only [List.isEmpty_iff] at he
    have : groupsOf c s.phase = [] := by cases hph : s.phase <;> simp [groupsOf, he.1, he.2]
    rw [this]; simp [offGroup]
  · cases hph : s.phase with
    | waiting => simp [groupsOf, offGroup]
    | upper =>
      have hnx : s.next = .upper := by rcases hp with h1 | h1 <;> rw [hph] at h1 <;> simp_all
      rw [hnx] at hact
      simp only [groupsOf] at hact ⊢
      split
      · rename_i h1
        rw [List.isEmpty_iff] at h1
        simp [h1, offGroup]
      · rename_i h1
        rw [List.isEmpty_iff] at h1
        have hlt : s.act < c.up.length := by
          rcases hact with h2 | h2
          · exact h2
          · exact absurd h2.1 h1
        simp [List.getElem?_eq_getElem hlt, List.getD]
    | lower =>
      have hnx : s.next = .lower := by rcases hp with h1 | h1 <;> rw [hph] at h1 <;> simp_all
      rw [hnx] at hact
      simp only [groupsOf] at hact ⊢
      split
      · rename_i h1
        rw [List.isEmpty_iff] at h1
        simp [h1, offGroup]
      · rename_i h1
        rw [List.isEmpty_iff] at h1
        have hlt : s.act < c.lo.length := by
          rcases hact with h2 | h2
          · exact h2
          · exact absurd h2.1 h1
        simp [List.getElem?_eq_getElem hlt, List.getD]

theorem active_has (c : SeatCfg) (s : Seat) (d : Nat) (h : d ∈ activeGroup c s) : c.Has d := by
  unfold activeGroup at h
  cases hg : (groupsOf c s.phase)[s.act]? with
  | none => simp [List.getD, hg] at h
  | some g =>
    simp only [List.getD, hg, Option.getD_some] at h
    exact c.has_of_group _ _ g hg d h

/-- After finalising no seat flag is left. -/
theorem final_flags (c : SeatCfg) (e : Env) (s : Seat) (w : World) (h : SInv c s w)
    (hv : ∀ d, c.Has d → e.ty d = .valve) (d : Nat) (hd : c.Has d) :
    (offGroup e (activeGroup c s) w).seat d = false := by
  rw [offGroup_seat e _ w fun x hx => hv x (active_has c s x hx)]
  split
  · rfl
  · rename_i h1
    cases hs : w.seat d with
    | false => rfl
    | true => exact absurd (h.flags d hd hs) h1

/-- The branch for open seats. -/
theorem seatOpen_spec (c : SeatCfg) (e : Env) (now : BitVec 64) (flip : BitVec 32) (st : Int)
    (s : Seat) (w : World) (h : SInv c s w) (hph : s.phase ≠ .waiting) :
    (groupsOf c s.phase = [] ∧ seatOpen c e now flip (groupsOf c s.phase) st s.phase.other s w
      = some ({ s with phase := s.phase.other, next := s.phase.other }, w)) ∨
    (∃ g, (groupsOf c s.phase)[s.act]? = some g ∧
      since now s.start < flip.zeroExtend 64 ∧
      seatOpen c e now flip (groupsOf c s.phase) st s.phase.other s w = some (s, onGroup e st g w)) ∨
    (∃ g, (groupsOf c s.phase)[s.act]? = some g ∧
      ¬ since now s.start < flip.zeroExtend 64 ∧
      seatOpen c e now flip (groupsOf c s.phase) st s.phase.other s w =
        some ({ s with phase := .waiting, start := now.truncate 32,
                       act := if s.act + 1 ≥ (groupsOf c s.phase).length then 0 else s.act + 1,
                       next := if s.act + 1 ≥ (groupsOf c s.phase).length then s.phase.other
                               else s.next }, offGroup e (activeGroup c s) w)) := by
  have hnx : s.next = s.phase := by
    rcases h.phase with h1 | h1
    · exact absurd h1 hph
    · exact h1.symm
  have hact := h.act
  rw [hnx] at hact
  unfold seatOpen
  by_cases hemp : groupsOf c s.phase = []
  · exact .inl ⟨hemp, by rw [hemp]; rfl⟩
  · have hlt : s.act < (groupsOf c s.phase).length := by
      rcases hact with h2 | h2
      · exact h2
      · exact absurd h2.1 hemp
    have hne : (groupsOf c s.phase).isEmpty = false := by
      rw [Bool.eq_false_iff]; intro hh; exact hemp (List.isEmpty_iff.mp hh)
    have hg := List.getElem?_eq_getElem hlt
    right
    simp only [hne, Bool.false_eq_true, if_false]
    by_cases ht : since now s.start < flip.zeroExtend 64
    · exact .inl ⟨_, hg, ht, by rw [if_pos ht, hg]; rfl⟩
    · refine .inr ⟨_, hg, ht, ?_⟩
      rw [if_neg ht, seatFinal_spec c e s w h]
      simp

/-- An evaluation keeps the invariant and never leaves the index range; the turn advances exactly when a
washing ends. -/
theorem seatEval_spec (c : SeatCfg) (e : Env) (now : BitVec 64) (flipUp flipLo : BitVec 32)
    (s : Seat) (w : World) (h : SInv c s w) (hv : ∀ d, c.Has d → e.ty d = .valve) :
    ∃ s' w', seatEval c e now flipUp flipLo s w = some (s', w') ∧ SInv c s' w' ∧
      (turn c s' = if s.phase ≠ .waiting ∧ s'.phase = .waiting
        then (turn c s + 1) % (c.up.length + c.lo.length) else turn c s) := by
  unfold seatEval
  split
  · exact ⟨s, w, rfl, h, by
      rw [if_neg]; rintro ⟨h1, h2⟩; exact h1 h2⟩
  · rename_i hne
    have key : ∀ (st : Int) (flip : BitVec 32), s.phase ≠ .waiting →
        ∃ s' w', seatOpen c e now flip (groupsOf c s.phase) st s.phase.other s w = some (s', w') ∧
          SInv c s' w' ∧
          (turn c s' = if s.phase ≠ .waiting ∧ s'.phase = .waiting
            then (turn c s + 1) % (c.up.length + c.lo.length) else turn c s) := by
      intro st flip hph
      have hnx : s.next = s.phase := by
        rcases h.phase with h1 | h1
        · exact absurd h1 hph
        · exact h1.symm
      have hact := h.act
      have hother : s.phase.other ≠ .waiting := by cases s.phase <;> simp [Phase.other]
      have hzero : 0 < (groupsOf c s.phase.other).length ∨ groupsOf c s.phase.other = [] := by
        cases groupsOf c s.phase.other <;> simp
      have htot : (groupsOf c s.phase).length + (groupsOf c s.phase.other).length
          = c.up.length + c.lo.length := by
        cases hp : s.phase with
        | waiting => exact absurd hp hph
        | upper => rfl
        | lower => simp [groupsOf, Phase.other, Nat.add_comm]
      rcases seatOpen_spec c e now flip st s w h hph with ⟨h1, h2⟩ | ⟨g, h1, h2, h3⟩ | ⟨g, h1, h2, h3⟩
      · refine ⟨_, _, h2, ⟨hother, .inr rfl, ?_, ?_⟩, ?_⟩
        · have h0 : s.act = 0 := by
            rcases hact with h4 | h4
            · rw [hnx, h1] at h4; exact absurd h4 (by simp)
            · exact h4.2
          rcases hzero with h5 | h5
          · exact .inl (by rw [h0]; exact h5)
          · exact .inr ⟨h5, h0⟩
        · intro d hd hs
          have := h.flags d hd hs
          unfold activeGroup at this
          rw [h1] at this
          simp at this
        · have h0 : s.act = 0 := by
            rcases hact with h4 | h4
            · rw [hnx, h1] at h4; exact absurd h4 (by simp)
            · exact h4.2
          rw [if_neg (by intro hh; exact hother hh.2)]
          have htot2 := htot
          rw [h1] at htot2
          unfold turn
          rw [hnx]
          cases hp : s.phase with
          | waiting => exact absurd hp hph
          | upper =>
            rw [hp] at h1
            simp only [groupsOf] at h1
            simp [Phase.other, h0, h1]
          | lower =>
            rw [hp] at h1
            simp only [groupsOf] at h1
            simp [Phase.other, h0, h1]
      · refine ⟨_, _, h3, ⟨h.next, h.phase, hact, ?_⟩, ?_⟩
        · intro d hd hs
          rw [onGroup_seat e st g w fun x hx => hv x (c.has_of_group _ _ g h1 x hx)] at hs
          have hag : activeGroup c s = g := by simp [activeGroup, List.getD, h1]
          split at hs
          · rename_i h5; rw [hag]; exact h5
          · exact h.flags d hd hs
        · rw [if_neg]; rintro ⟨h4, h5⟩; exact h4 h5
      · have hlt : s.act < (groupsOf c s.phase).length := (List.getElem?_eq_some_iff.mp h1).1
        refine ⟨_, _, h3, ⟨?_, .inl rfl, ?_, ?_⟩, ?_⟩
        · dsimp only; split
          · exact hother
          · exact h.next
        · dsimp only
          by_cases hl : s.act + 1 ≥ (groupsOf c s.phase).length
          · rw [if_pos hl, if_pos hl]
            rcases hzero with h5 | h5
            · exact .inl h5
            · exact .inr ⟨h5, rfl⟩
          · rw [if_neg hl, if_neg hl, hnx]
            exact .inl (by omega)
        · intro d hd hs
          rw [final_flags c e s w h hv d hd] at hs
          simp at hs
        · refine Eq.trans ?_ (if_pos ⟨hph, rfl⟩).symm
          unfold turn
          rw [hnx]
          cases hp : s.phase with
          | waiting => exact absurd hp hph
          | upper =>
            rw [hp] at hlt
            simp only [groupsOf] at hlt
            simp only [Phase.other, groupsOf]
            by_cases hl : s.act + 1 ≥ c.up.length
            · simp only [hl, if_true]
              rw [Nat.mod_eq_of_lt (show s.act < c.up.length + c.lo.length by omega)]
              congr 1; omega
            · simp only [hl, if_false]
              rw [Nat.mod_eq_of_lt (show s.act < c.up.length + c.lo.length by omega)]
          | lower =>
            rw [hp] at hlt
            simp only [groupsOf] at hlt
            simp only [Phase.other, groupsOf]
            by_cases hl : s.act + 1 ≥ c.lo.length
            · simp only [hl, if_true]
              rw [Nat.mod_eq_of_lt (show c.up.length + s.act < c.up.length + c.lo.length by omega),
                show c.up.length + s.act + 1 = c.up.length + c.lo.length by omega]
              simp
            · simp only [hl, if_false]
              rw [Nat.mod_eq_of_lt (show c.up.length + s.act < c.up.length + c.lo.length by omega)]
              rfl
    cases hp : s.phase with
    | waiting =>
      dsimp only
      have hflag : ∀ d, c.Has d → w.seat d = false := by
        intro d hd
        cases hs : w.seat d with
        | false => rfl
        | true =>
          have := h.flags d hd hs
          simp [activeGroup, hp, groupsOf] at this
      split
      · refine ⟨_, _, rfl, ⟨h.next, .inr rfl, h.act, ?_⟩, ?_⟩
        · intro d hd hs
          rw [offAll_seat, offAll_seat, hflag d hd] at hs
          simp at hs
        · simp [turn]
      · refine ⟨_, _, rfl, ⟨h.next, h.phase, h.act, ?_⟩, ?_⟩
        · intro d hd hs
          rw [offAll_seat, offAll_seat, hflag d hd] at hs
          simp at hs
        · simp
    | upper =>
      have := key 2 flipUp (by rw [hp]; simp)
      rw [hp] at this
      exact this
    | lower =>
      have := key 3 flipLo (by rw [hp]; simp)
      rw [hp] at this
      exact this

/-- Reachable states. -/
theorem seat_reach_inv (c : SeatCfg) (r : Bool) (s : Seat) (w : World) (h : SeatReach c r s w) :
    (r = true → SInv c s w) ∧ (r = false → ∀ d, c.Has d → w.seat d = false) := by
  induction h with
  | start w hw => exact ⟨by simp, fun _ => hw⟩
  | env w' _ hw' ih =>
    refine ⟨fun hr => ?_, fun hr d hd => ?_⟩
    · have := ih.1 hr
      exact ⟨this.next, this.phase, this.act, fun d hd hs => this.flags d hd (by rw [← hw' d hd]; exact hs)⟩
    · rw [hw' d hd]; exact ih.2 hr d hd
  | @init s w now period flipUp flipLo hs ih =>
    refine ⟨fun _ => ?_, by simp⟩
    have hf := ih.2 rfl
    unfold seatInit
    split
    · rename_i he
      simp only [List.isEmpty_iff] at he
      have hno : ∀ d, ¬ c.Has d := by
        rintro d ⟨g, hg, _⟩
        simp [he.1, he.2] at hg
      have : s.next ≠ .waiting ∧ (s.phase = .waiting ∨ s.phase = s.next) ∧ s.act = 0 := by
        have hempty : ∀ r s w, SeatReach c r s w →
            s.next ≠ .waiting ∧ (s.phase = .waiting ∨ s.phase = s.next) ∧ s.act = 0 := by
          intro r s w h
          induction h with
          | start => exact ⟨by simp, .inl rfl, rfl⟩
          | env _ _ _ ih => exact ih
          | init _ _ _ _ _ ih =>
            unfold seatInit
            rw [if_pos (by simp [he.1, he.2])]
            exact ih
          | eval _ _ _ _ _ _ he2 ih =>
            unfold seatEval at he2
            rw [if_pos (by simp [he.1, he.2])] at he2
            cases he2
            exact ih
          | fin _ _ _ _ ih => exact ih
        exact hempty _ _ _ hs
      refine ⟨this.1, this.2.1, .inr ⟨?_, this.2.2⟩, fun d hd => absurd hd (hno d)⟩
      cases hn : s.next <;> simp [groupsOf, he.1, he.2]
    · refine ⟨by simp, .inl rfl, ?_, fun d hd hs => ?_⟩
      · show 0 < c.up.length ∨ (c.up = [] ∧ 0 = 0)
        cases hu : c.up <;> simp
      · rw [hf d hd] at hs; simp at hs
  | @eval s w s' w' e now fu fl _ hv he ih =>
    refine ⟨fun _ => ?_, by simp⟩
    obtain ⟨s2, w2, h2, h3, _⟩ := seatEval_spec c e now fu fl s w (ih.1 rfl) hv
    rw [he] at h2
    cases h2
    exact h3
  | @fin s w w' e _ hv hf ih =>
    refine ⟨by simp, fun _ d hd => ?_⟩
    have hi := ih.1 rfl
    rw [seatFinal_spec c e s w hi] at hf
    cases hf
    exact final_flags c e s w hi hv d hd

/-- The active group is the one whose turn it is. -/
theorem active_turn (c : SeatCfg) (s : Seat) (w : World) (h : SInv c s w) (d : Nat)
    (hd : d ∈ activeGroup c s) :
    s.phase ≠ .waiting ∧ (groupsOf c s.phase)[s.act]? = some (activeGroup c s) ∧
    (c.up ++ c.lo)[turn c s]? = some (activeGroup c s) ∧
    (turn c s < c.up.length ↔ s.phase = .upper) := by
  have hph : s.phase ≠ .waiting := by
    intro hp
    simp [activeGroup, hp, groupsOf] at hd
  have hnx : s.next = s.phase := by
    rcases h.phase with h1 | h1
    · exact absurd h1 hph
    · exact h1.symm
  cases hg : (groupsOf c s.phase)[s.act]? with
  | none => simp [activeGroup, List.getD, hg] at hd
  | some g =>
    have hag : activeGroup c s = g := by simp [activeGroup, List.getD, hg]
    rw [hag]
    have hlt : s.act < (groupsOf c s.phase).length := (List.getElem?_eq_some_iff.mp hg).1
    refine ⟨hph, rfl, ?_⟩
    unfold turn
    rw [hnx]
    cases hp : s.phase with
    | waiting => exact absurd hp hph
    | upper =>
      rw [hp] at hg hlt
      simp only [groupsOf] at hg hlt
      simp only
      rw [Nat.mod_eq_of_lt (by omega), List.getElem?_append_left hlt]
      exact ⟨hg, by simp [hlt]⟩
    | lower =>
      rw [hp] at hg hlt
      simp only [groupsOf] at hg hlt
      simp only
      rw [Nat.mod_eq_of_lt (by omega), List.getElem?_append_right (by omega)]
      refine ⟨by rw [show c.up.length + s.act - c.up.length = s.act by omega]; exact hg, ?_⟩
      simp

/-! ### Finalising a step -/

theorem final_zero_keep (e : Env) (a : Act) (w w' : World) (h : finalAct e a w = some w') (d : Nat)
    (hd : w.st d = 0) : w'.st d = 0 := by
  cases a with
  | plain devices =>
    cases h
    unfold finalAll
    rw [fold_const (fun w g => g.foldl (fun w s => w.setAll s 0) w) (fun w => w.st) List.flatten 0
      (fun w g d => by
        rw [fold_const (fun w s => w.setAll s 0) (fun w => w.st) id 0 (fun w s d => setAll_st s 0 w d)]
        simp [List.mem_flatten])]
    split
    · rfl
    · exact hd
  | io groups =>
    cases h
    rw [finalIO_st]
    split
    · rfl
    · exact hd
  | wash groups =>
    cases h
    unfold finalWash
    rw [fold_const (fun w g => ((w.setAll g.dos 0).setAll g.devs 0).setAll g.rev 0) (fun w => w.st)
      WashGroup.all 0 (fun w g d => by
        simp only [setAll_st, WashGroup.all, List.mem_append]
        by_cases h1 : d ∈ g.rev <;> by_cases h2 : d ∈ g.devs <;> by_cases h3 : d ∈ g.dos <;>
          simp [h1, h2, h3])]
    split
    · rfl
    · exact hd
  | seat c s =>
    simp only [finalAct, seatFinal] at h
    split at h
    · cases h; exact hd
    · split at h
      · cases h; exact hd
      · split at h
        · cases h; exact hd
        · obtain ⟨g, _, rfl⟩ := Option.map_eq_some_iff.mp h
          rw [offGroup_st]; split
          · rfl
          · exact hd
      · split at h
        · cases h; exact hd
        · obtain ⟨g, _, rfl⟩ := Option.map_eq_some_iff.mp h
          rw [offGroup_st]; split
          · rfl
          · exact hd
  | passive => cases h; exact hd

theorem final_zero (e : Env) (a : Act) (w w' : World) (h : finalAct e a w = some w') (d : Nat)
    (hd : a.Drives d) : w'.st d = 0 := by
  cases a with
  | plain devices =>
    cases h
    unfold finalAll
    rw [fold_const (fun w g => g.foldl (fun w s => w.setAll s 0) w) (fun w => w.st) List.flatten 0
      (fun w g d => by
        rw [fold_const (fun w s => w.setAll s 0) (fun w => w.st) id 0 (fun w s d => setAll_st s 0 w d)]
        simp [List.mem_flatten])]
    obtain ⟨g, hg, s, hs, hds⟩ := hd
    rw [if_pos ⟨g, hg, List.mem_flatten.mpr ⟨s, hs, hds⟩⟩]
  | io groups =>
    cases h
    rw [finalIO_st]
    exact if_pos hd
  | wash groups =>
    cases h
    unfold finalWash
    rw [fold_const (fun w g => ((w.setAll g.dos 0).setAll g.devs 0).setAll g.rev 0) (fun w => w.st)
      WashGroup.all 0 (fun w g d => by
        simp only [setAll_st, WashGroup.all, List.mem_append]
        by_cases h1 : d ∈ g.rev <;> by_cases h2 : d ∈ g.devs <;> by_cases h3 : d ∈ g.dos <;>
          simp [h1, h2, h3])]
    exact if_pos hd
  | seat c s =>
    simp only [Act.Drives] at hd
    simp only [finalAct, seatFinal] at h
    cases hp : s.phase with
    | waiting => simp [hp] at hd
    | upper =>
      simp only [hp] at hd h
      obtain ⟨g, hg, hdg⟩ := hd
      have hne : c.up ≠ [] := by intro h0; simp [h0] at hg
      simp only [List.isEmpty_iff, hne, false_and, if_false, hg, Option.map_some,
        Option.some.injEq] at h
      subst h
      rw [offGroup_st, if_pos hdg]
    | lower =>
      simp only [hp] at hd h
      obtain ⟨g, hg, hdg⟩ := hd
      have hne : c.lo ≠ [] := by intro h0; simp [h0] at hg
      simp only [List.isEmpty_iff, hne, and_false, if_false, hg, Option.map_some,
        Option.some.injEq] at h
      subst h
      rw [offGroup_st, if_pos hdg]
  | passive => exact absurd hd id

end Ptusa.Actions
