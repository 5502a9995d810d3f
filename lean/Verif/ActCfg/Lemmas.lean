import Verif.ActCfg.Spec
import Mathlib.Data.List.Induction

namespace Ptusa.ActCfg.Lemmas

open ActCfg Spec

theorem run_snoc (a : Act) (h : List Call) (c : Call) : a.run (h ++ [c]) = ((a.run h).step c).1 := by
  simp [Act.run, List.foldl_append]

theorem seat_snoc (a : Seat) (h : List SeatCall) (c : SeatCall) : a.run (h ++ [c]) = (a.run h).step c := by
  simp [Seat.run, List.foldl_append]

theorem grow_get {α : Type} (l : List α) (i j : Nat) (x : α) :
    (grow l i x)[j]? = if j < l.length then l[j]? else if j ≤ i then some x else none := by
  unfold grow
  by_cases h : j < l.length
  · rw [if_pos h, List.getElem?_append_left h]
  · rw [if_neg h, List.getElem?_append_right (by omega), List.getElem?_replicate]
    by_cases h2 : j ≤ i
    · rw [if_pos h2, if_pos (by omega)]
    · rw [if_neg h2, if_neg (by omega)]

theorem grow_len {α : Type} (l : List α) (i : Nat) (x : α) : i < (grow l i x).length := by
  unfold grow; simp; omega

theorem step_kind (a : Act) (c : Call) : (a.step c).1.kind = a.kind ∧ (a.step c).1.cnt = a.cnt := by
  cases c with
  | add d g s => exact ⟨rfl, rfl⟩
  | clear => exact ⟨rfl, rfl⟩
  | par p i => exact ⟨rfl, rfl⟩
  | int n i v => simp only [Act.step, Act.setInt]; split <;> (try split) <;> exact ⟨rfl, rfl⟩
  | bool n v => simp only [Act.step, Act.setBool]; split <;> (try split) <;> exact ⟨rfl, rfl⟩

theorem run_kind (k : Kind) (cnt : Nat) (h : List Call) :
    ((Act.new k cnt).run h).kind = k ∧ ((Act.new k cnt).run h).cnt = cnt := by
  induction h using List.reverseRecOn with
  | nil => exact ⟨rfl, rfl⟩
  | append_singleton h c ih => rw [run_snoc]; obtain ⟨x, y⟩ := step_kind ((Act.new k cnt).run h) c; exact ⟨x.trans ih.1, y.trans ih.2⟩

/-- Calls other than `add` and `clear` leave the devices. -/
theorem step_devices (a : Act) (c : Call) (h1 : c ≠ .clear) (h2 : ∀ d g s, c ≠ .add d g s) : (a.step c).1.devices = a.devices := by
  cases c with
  | add d g s => exact absurd rfl (h2 d g s)
  | clear => exact absurd rfl h1
  | par p i => rfl
  | int n i v => simp only [Act.step, Act.setInt]; split <;> (try split) <;> rfl
  | bool n v => simp only [Act.step, Act.setBool]; split <;> (try split) <;> rfl

/-- The devices at a place, or none. -/
def get (a : Act) (g s : Nat) : List Nat := (a.at g s).getD []

theorem modify_get {α : Type} (l : List α) (i j : Nat) (f : α → α) :
    (l.modify i f)[j]? = if i = j then l[j]?.map f else l[j]? := by
  rw [List.getElem?_modify]
  by_cases e : i = j
  · rw [if_pos e]; simp [e]
  · rw [if_neg e]; simp [e]

theorem sub_get (l : List (List Nat)) (i j d : Nat) :
    (((grow l i []).modify i (fun ds => ds ++ [d]))[j]?).getD [] = if i = j then (l[j]?).getD [] ++ [d] else (l[j]?).getD [] := by
  rw [modify_get, grow_get]
  by_cases e : i = j
  · subst e
    rw [if_pos rfl, if_pos rfl]
    by_cases h : i < l.length
    · rw [if_pos h, List.getElem?_eq_getElem h]; rfl
    · rw [if_neg h, if_pos (Nat.le_refl _), List.getElem?_eq_none (Nat.le_of_not_lt h)]; rfl
  · rw [if_neg e, if_neg e]
    by_cases h : j < l.length
    · rw [if_pos h]
    · rw [if_neg h, List.getElem?_eq_none (Nat.le_of_not_lt h)]
      split <;> rfl

theorem get_eq (a : Act) (g s : Nat) : get a g s = (((a.devices[g]?).getD [])[s]?).getD [] := by
  unfold get Act.at
  cases a.devices[g]? <;> rfl

theorem rep_get (n s : Nat) : ((List.replicate n ([] : List Nat))[s]?).getD [] = [] := by
  rw [List.getElem?_replicate]; split <;> rfl

theorem get_add (a : Act) (d g s g' s' : Nat) :
    get (a.addDev d g s) g' s' = if g = g' ∧ s = s' then get a g' s' ++ [d] else get a g' s' := by
  rw [get_eq, get_eq]
  show ((((((grow a.devices g (List.replicate a.cnt [])).modify g
    (fun gr => (grow gr s []).modify s (fun ds => ds ++ [d])))[g']?).getD [])[s']?).getD []) = _
  rw [modify_get, grow_get]
  by_cases e : g = g'
  · subst e
    rw [if_pos rfl]
    by_cases h : g < a.devices.length
    · rw [if_pos h, List.getElem?_eq_getElem h]
      simp only [Option.map_some, Option.getD_some]
      rw [sub_get]; simp
    · rw [if_neg h, if_pos (Nat.le_refl _), List.getElem?_eq_none (Nat.le_of_not_lt h)]
      simp only [Option.map_some, Option.getD_some]
      rw [sub_get, rep_get]; simp
  · have ne : ¬ (g = g' ∧ s = s') := fun x => e x.1
    rw [if_neg e, if_neg ne]
    by_cases h : g' < a.devices.length
    · rw [if_pos h]
    · rw [if_neg h, List.getElem?_eq_none (Nat.le_of_not_lt h)]
      split
      · exact rep_get _ _
      · rfl

theorem since_clear (h : List Call) : sinceClear (h ++ [.clear]) = [] := by
  simp [sinceClear]

theorem since_other (h : List Call) (c : Call) (hc : c ≠ .clear) : sinceClear (h ++ [c]) = sinceClear h ++ [c] := by
  simp [sinceClear, hc]

theorem devicesOf_snoc (g s : Nat) (h : List Call) (c : Call) : devicesOf g s (h ++ [c]) = devicesOf g s h ++ devicesOf g s [c] := by
  simp [devicesOf]

theorem get_run (k : Kind) (cnt : Nat) (h : List Call) (g s : Nat) :
    get ((Act.new k cnt).run h) g s = devicesOf g s (sinceClear h) := by
  induction h using List.reverseRecOn with
  | nil =>
    show get (Act.new k cnt) g s = []
    unfold get Act.at Act.new
    cases g with
    | zero => simp only [List.getElem?_cons_zero, Option.bind_some, List.getElem?_replicate]; split <;> rfl
    | succ g => simp
  | append_singleton h c ih =>
    rw [run_snoc]
    by_cases hc : c = .clear
    · subst hc; rw [since_clear]; simp [get, Act.at, Act.step, Act.clear, devicesOf]
    · rw [since_other h c hc, devicesOf_snoc, ← ih]
      cases c with
      | add d g' s' =>
        show get (Act.addDev _ d g' s') g s = _
        rw [get_add]
        by_cases e : g' = g ∧ s' = s
        · rw [if_pos e]; simp [devicesOf, e]
        · rw [if_neg e]; simp [devicesOf, e]
      | clear => exact absurd rfl hc
      | par p i => simp [devicesOf, get, Act.at, Act.step, Act.setPar]
      | int n i v =>
        have := step_devices ((Act.new k cnt).run h) (.int n i v) (by simp) (by simp)
        simp [devicesOf, get, Act.at, this]
      | bool n v =>
        have := step_devices ((Act.new k cnt).run h) (.bool n v) (by simp) (by simp)
        simp [devicesOf, get, Act.at, this]

theorem grow_mem {α : Type} (l : List α) (i : Nat) (x y : α) : y ∈ grow l i x → y ∈ l ∨ y = x := by
  unfold grow
  intro hm
  rcases List.mem_append.1 hm with hm | hm
  · exact .inl hm
  · exact .inr (List.eq_of_mem_replicate hm)

theorem modify_mem {α : Type} (f : α → α) : ∀ (l : List α) (i : Nat) (y : α), y ∈ l.modify i f → y ∈ l ∨ ∃ x ∈ l, y = f x
  | [], i, y, h => by simp at h
  | a :: l, 0, y, h => by
    rcases List.mem_cons.1 (by simpa using h) with rfl | h
    · exact .inr ⟨a, List.mem_cons_self, rfl⟩
    · exact .inl (List.mem_cons_of_mem _ h)
  | a :: l, i + 1, y, h => by
    rcases List.mem_cons.1 (by simpa using h) with rfl | h
    · exact .inl List.mem_cons_self
    · rcases modify_mem f l i y h with h | ⟨x, hx, e⟩
      · exact .inl (List.mem_cons_of_mem _ h)
      · exact .inr ⟨x, List.mem_cons_of_mem _ hx, e⟩

/-- Every group has all the subgroups its action needs. -/
theorem shape (k : Kind) (cnt : Nat) (h : List Call) : ∀ gr ∈ ((Act.new k cnt).run h).devices, cnt ≤ gr.length := by
  induction h using List.reverseRecOn with
  | nil =>
    intro gr hm
    have : gr = List.replicate cnt [] := by simpa [Act.run, Act.new] using hm
    rw [this]; simp
  | append_singleton h c ih =>
    rw [run_snoc]
    by_cases hc : c = .clear
    · subst hc; intro gr hm; exact absurd hm (by simp [Act.step, Act.clear])
    · by_cases ha : ∃ d g s, c = .add d g s
      · obtain ⟨d, g, s, rfl⟩ := ha
        intro gr hm
        have hk := (run_kind k cnt h).2
        have hg : ∀ x ∈ grow ((Act.new k cnt).run h).devices g (List.replicate ((Act.new k cnt).run h).cnt []), cnt ≤ x.length := by
          intro x hx
          rcases grow_mem _ _ _ _ hx with hx | rfl
          · exact ih x hx
          · rw [hk]; simp
        rcases modify_mem _ _ _ _ hm with hm | ⟨x, hx, rfl⟩
        · exact hg _ hm
        · have := hg x hx
          simp only [List.length_modify, grow, List.length_append]; omega
      · rw [step_devices _ c hc (fun d g s e => ha ⟨d, g, s, e⟩)]; exact ih

theorem empty_iff (a : Act) : a.isEmpty = true ↔ ∀ g s, get a g s = [] := by
  unfold Act.isEmpty get Act.at
  simp only [List.all_eq_true, List.isEmpty_iff]
  constructor
  · intro h g s
    cases hg : a.devices[g]? with
    | none => rfl
    | some gr =>
      simp only [Option.bind_some]
      cases hs : gr[s]? with
      | none => rfl
      | some ds => exact h gr (List.mem_of_getElem? hg) ds (List.mem_of_getElem? hs)
  · intro h gr hgr ds hds
    obtain ⟨g, hg⟩ := List.getElem?_of_mem hgr
    obtain ⟨s, hs⟩ := List.getElem?_of_mem hds
    have := h g s
    rw [hg] at this; simp only [Option.bind_some, hs] at this; exact this

theorem set_grow_get (l : List Int) (p q : Nat) (x v : Int) :
    ((grow l p x).set p v).getD q x = if p = q then v else l.getD q x := by
  simp only [List.getD_eq_getElem?_getD, List.getElem?_set, grow_get]
  by_cases e : p = q
  · subst e; simp [grow_len]
  · simp only [if_neg e]
    by_cases h : q < l.length
    · simp [if_pos h]
    · simp only [if_neg h, List.getElem?_eq_none (Nat.le_of_not_lt h)]
      split <;> rfl

theorem par_run (k : Kind) (cnt : Nat) (h : List Call) (p : Nat) :
    ((Act.new k cnt).run h).parIdx.getD p 0 = (lastPar p h).getD 0 := by
  induction h using List.reverseRecOn with
  | nil => rfl
  | append_singleton h c ih =>
    rw [run_snoc]
    cases c with
    | par p' i =>
      show ((grow _ p' 0).set p' i).getD p 0 = _
      rw [set_grow_get, ih]
      by_cases e : p' = p <;> simp [lastPar, e]
    | add d g s => simpa [lastPar, Act.step, Act.addDev] using ih
    | clear => simpa [lastPar, Act.step, Act.clear] using ih
    | int n i v =>
      have : (((Act.new k cnt).run h).step (.int n i v)).1.parIdx = ((Act.new k cnt).run h).parIdx := by
        simp only [Act.step, Act.setInt]; split <;> (try split) <;> rfl
      rw [this]; simpa [lastPar] using ih
    | bool n v =>
      have : (((Act.new k cnt).run h).step (.bool n v)).1.parIdx = ((Act.new k cnt).run h).parIdx := by
        simp only [Act.step, Act.setBool]; split <;> (try split) <;> rfl
      rw [this]; simpa [lastPar] using ih

theorem target_run (cnt : Nat) (h : List Call) (g : Nat) :
    ((Act.new .jump cnt).run h).nextN.getD g (-1) = (lastTarget g h).getD (-1) := by
  induction h using List.reverseRecOn with
  | nil => rfl
  | append_singleton h c ih =>
    rw [run_snoc]
    have hk := (run_kind .jump cnt h).1
    cases c with
    | int n i v =>
      simp only [Act.step, Act.setInt, hk]
      by_cases e : n = "next_step_n" ∨ n = "next_state_n"
      · rw [if_pos e]
        show ((grow _ i (-1)).set i v).getD g (-1) = _
        rw [set_grow_get, ih]
        by_cases e2 : i = g <;> simp [lastTarget, e, e2]
      · rw [if_neg e, ih]; simp [lastTarget, e]
    | par p' i => simpa [lastTarget, Act.step, Act.setPar] using ih
    | add d g s => simpa [lastTarget, Act.step, Act.addDev] using ih
    | clear => simpa [lastTarget, Act.step, Act.clear] using ih
    | bool n v => simpa [lastTarget, Act.step, Act.setBool, hk] using ih

theorem flag_run (cnt : Nat) (h : List Call) :
    ((Act.new .enable cnt).run h).turnOff = (lastFlag h).getD true := by
  induction h using List.reverseRecOn with
  | nil => rfl
  | append_singleton h c ih =>
    rw [run_snoc]
    have hk := (run_kind .enable cnt h).1
    cases c with
    | bool n v =>
      simp only [Act.step, Act.setBool, hk]
      by_cases e : n = "should_turn_off"
      · rw [if_pos e]; simp [lastFlag, e]
      · rw [if_neg e, ih]; simp [lastFlag, e]
    | par p' i => simpa [lastFlag, Act.step, Act.setPar] using ih
    | add d g s => simpa [lastFlag, Act.step, Act.addDev] using ih
    | clear => simpa [lastFlag, Act.step, Act.clear] using ih
    | int n i v => simpa [lastFlag, Act.step, Act.setInt, hk] using ih

theorem seatAdd_get (l : List (List Nat)) (d g : Nat) (hg : g ≤ l.length) (j : Nat) :
    ((seatAdd l d g)[j]?).getD [] = if j = g then (l[j]?).getD [] ++ [d] else (l[j]?).getD [] := by
  unfold seatAdd
  by_cases h : g ≥ l.length
  · have e : g = l.length := by omega
    subst e
    simp only [Nat.le_refl, ge_iff_le, if_true, List.length_append, List.length_cons, List.length_nil]
    rw [if_neg (by omega), modify_get]
    by_cases hj : j = l.length
    · subst hj; simp
    · rw [if_neg hj, if_neg (fun e => hj e.symm)]
      by_cases h2 : j < l.length
      · simp [List.getElem?_append_left h2]
      · rw [List.getElem?_eq_none (by simp; omega), List.getElem?_eq_none (by omega)]
  · simp only [ge_iff_le, if_neg h]
    rw [modify_get]
    by_cases hj : j = g
    · subst hj; simp [List.getElem?_eq_getElem (Nat.lt_of_not_le h)]
    · rw [if_neg hj, if_neg (fun e => hj e.symm)]

theorem seatAdd_len (l : List (List Nat)) (d g : Nat) (hg : g ≤ l.length) : (seatAdd l d g).length = max l.length (g + 1) := by
  unfold seatAdd
  by_cases h : g ≥ l.length
  · simp only [ge_iff_le, if_pos h, List.length_append, List.length_cons, List.length_nil]
    rw [if_neg (by omega), List.length_modify, List.length_append]; simp; omega
  · simp only [ge_iff_le, if_neg h]
    rw [List.length_modify]; omega

theorem seat_run (h : List SeatCall) (ho : Ordered h) (low : Bool) :
    (∀ g, g < ((Seat.run {} h).groups low).length ↔ ∃ d, SeatCall.add d g low ∈ h) ∧
      ∀ g, (((Seat.run {} h).groups low)[g]?).getD [] = seatsOf g low h := by
  induction ho with
  | nil => refine ⟨fun g => ?_, fun g => ?_⟩ <;> cases low <;> simp [Seat.run, Seat.groups, seatsOf]
  | @add h d g l _ hp ih =>
    rw [seat_snoc]
    by_cases e : l = low
    · subst e
      have hlen : g ≤ ((Seat.run {} h).groups l).length := by
        rcases Nat.lt_or_ge ((Seat.run {} h).groups l).length g with hlt | hge
        · exact absurd ((ih.1 _).2 (hp _ hlt)) (Nat.lt_irrefl _)
        · exact hge
      have hgr : ((Seat.run {} h).step (.add d g l)).groups l = seatAdd ((Seat.run {} h).groups l) d g := by
        cases l <;> rfl
      rw [hgr]
      refine ⟨fun g' => ?_, fun g' => ?_⟩
      · rw [seatAdd_len _ _ _ hlen]
        constructor
        · intro hlt
          rcases Nat.lt_or_ge g' ((Seat.run {} h).groups l).length with h1 | h1
          · obtain ⟨d', hd⟩ := (ih.1 g').1 h1; exact ⟨d', List.mem_append_left _ hd⟩
          · have : g' = g := by omega
            subst this; exact ⟨d, by simp⟩
        · rintro ⟨d', hd⟩
          rcases List.mem_append.1 hd with hd | hd
          · have := (ih.1 g').2 ⟨d', hd⟩; omega
          · have : g' = g := by simp at hd; exact hd.2
            omega
      · rw [seatAdd_get _ _ _ hlen, ih.2]
        by_cases e2 : g' = g
        · subst e2; simp [seatsOf]
        · have e3 : ¬ g = g' := fun x => e2 x.symm
          simp [seatsOf, e2, e3]
    · have hgr : ((Seat.run {} h).step (.add d g l)).groups low = (Seat.run {} h).groups low := by
        cases l <;> cases low <;> first | rfl | exact absurd rfl e
      rw [hgr]
      refine ⟨fun g' => ?_, fun g' => ?_⟩
      · have e3 : ¬ low = l := fun x => e x.symm
        rw [ih.1]; simp [e3]
      · rw [ih.2]; simp [seatsOf, e]

end Ptusa.ActCfg.Lemmas
