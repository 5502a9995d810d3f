import Verif.Actions.Spec

/-!
# Lemmas about actions
-/
namespace Ptusa.Actions
open World

theorem setAll_st (ds : List Nat) (s : Int) (w : World) (d : Nat) :
    (w.setAll ds s).st d = if d ∈ ds then s else w.st d := by
  induction ds generalizing w with
  | nil => simp [setAll]
  | cons x xs ih =>
    have : (w.setAll (x :: xs) s) = (w.setState x s).setAll xs s := rfl
    rw [this, ih]
    by_cases h1 : d ∈ xs
    · simp [h1]
    · by_cases h2 : d = x <;> simp [h1, h2, setState]

theorem setAll_val (ds : List Nat) (s : Int) (w : World) : (w.setAll ds s).val = w.val := by
  induction ds generalizing w with
  | nil => rfl
  | cons x xs ih =>
    have : (w.setAll (x :: xs) s) = (w.setState x s).setAll xs s := rfl
    rw [this, ih]; rfl

theorem setAll_seat (ds : List Nat) (s : Int) (w : World) : (w.setAll ds s).seat = w.seat := by
  induction ds generalizing w with
  | nil => rfl
  | cons x xs ih =>
    have : (w.setAll (x :: xs) s) = (w.setState x s).setAll xs s := rfl
    rw [this, ih]; rfl

theorem setVals_val (ds : List Nat) (v : Fl) (w : World) (d : Nat) :
    (w.setVals ds v).val d = if d ∈ ds then v else w.val d := by
  induction ds generalizing w with
  | nil => simp [setVals]
  | cons x xs ih =>
    have : (w.setVals (x :: xs) v) = (w.setValue x v).setVals xs v := rfl
    rw [this, ih]
    by_cases h1 : d ∈ xs
    · simp [h1]
    · by_cases h2 : d = x <;> simp [h1, h2, setValue]

theorem setVals_st (ds : List Nat) (v : Fl) (w : World) : (w.setVals ds v).st = w.st := by
  induction ds generalizing w with
  | nil => rfl
  | cons x xs ih =>
    have : (w.setVals (x :: xs) v) = (w.setValue x v).setVals xs v := rfl
    rw [this, ih]; rfl

/-- A fold that leaves a device alone. -/
theorem fold_keep {G α : Type} (f : World → G → World) (get : World → α)
    (l : List G) (w : World) (h : ∀ g ∈ l, ∀ w, get (f w g) = get w) :
    get (l.foldl f w) = get w := by
  induction l generalizing w with
  | nil => rfl
  | cons g l ih =>
    rw [List.foldl_cons, ih _ fun g' hg' => h g' (List.mem_cons_of_mem _ hg')]
    exact h g (List.mem_cons_self ..) w

/-- A fold: the last element that matters decides. -/
theorem fold_last {G α : Type} (f : World → G → World) (get : World → α) (v : α)
    (l : List G) (w : World) (k : Nat) (g : G) (hk : l[k]? = some g)
    (hg : ∀ w, get (f w g) = v)
    (h : ∀ (j : Nat) (g' : G), k < j → l[j]? = some g' → ∀ w, get (f w g') = get w) :
    get (l.foldl f w) = v := by
  induction l generalizing w k with
  | nil => simp at hk
  | cons x l ih =>
    rw [List.foldl_cons]
    cases k with
    | zero =>
      simp only [List.getElem?_cons_zero, Option.some.injEq] at hk
      subst hk
      rw [fold_keep f get l _ fun g' hg' w => ?_]
      · exact hg w
      · obtain ⟨j, hj⟩ := List.getElem?_of_mem hg'
        exact h (j + 1) g' (by omega) (by simpa using hj) w
    | succ k =>
      exact ih _ k (by simpa using hk) fun j g' hj hjg => h (j + 1) g' (by omega) (by simpa using hjg)

theorem zip_get {G : Type} (l : List G) (k : Nat) : l.zipIdx[k]? = (l[k]?).map fun g => (g, k) := by
  simp [List.getElem?_zipIdx]

/-- The last group having the device in a role decides (`f` sets the devices of the role). -/
theorem fold_role {G α : Type} (f : World → G → World) (get : World → Nat → α) (role : G → List Nat)
    (v : G → α) (hf : ∀ w g d, get (f w g) d = if d ∈ role g then v g else get w d)
    (l : List G) (w : World) (k : Nat) (g : G) (d : Nat) (h : LastIn role l k g d) :
    get (l.foldl f w) d = v g := by
  obtain ⟨h1, h2, h3⟩ := h
  refine fold_last f (fun w => get w d) (v g) l w k g h1 (fun w => ?_) fun j g' hj hjg w => ?_
  · simp only [hf, h2, if_true]
  · simp only [hf, h3 j g' hj hjg, if_false]

theorem fold_notRole {G α : Type} (f : World → G → World) (get : World → Nat → α) (role : G → List Nat)
    (v : G → α) (hf : ∀ w g d, get (f w g) d = if d ∈ role g then v g else get w d)
    (l : List G) (w : World) (d : Nat) (h : NotIn role l d) :
    get (l.foldl f w) d = get w d := by
  refine fold_keep f (fun w => get w d) l w fun g hg w => ?_
  simp only [hf, h g hg, if_false]

/-- Setting always to the same value: every device in the role gets it. -/
theorem fold_const {G α : Type} (f : World → G → World) (get : World → Nat → α) (role : G → List Nat)
    (v : α) (hf : ∀ w g d, get (f w g) d = if d ∈ role g then v else get w d)
    (l : List G) (w : World) (d : Nat) :
    get (l.foldl f w) d = if ∃ g ∈ l, d ∈ role g then v else get w d := by
  induction l generalizing w with
  | nil => simp
  | cons g l ih =>
    rw [List.foldl_cons, ih, hf]
    by_cases h1 : ∃ g ∈ l, d ∈ role g
    · rw [if_pos h1, if_pos]
      obtain ⟨g', hg', hd⟩ := h1
      exact ⟨g', List.mem_cons_of_mem _ hg', hd⟩
    · rw [if_neg h1]
      by_cases h2 : d ∈ role g
      · rw [if_pos h2, if_pos ⟨g, List.mem_cons_self .., h2⟩]
      · rw [if_neg h2, if_neg]
        rintro ⟨g', hg', hd⟩
        rcases List.mem_cons.mp hg' with rfl | hg'
        · exact h2 hd
        · exact h1 ⟨g', hg', hd⟩

/-! ### Inputs to outputs -/

theorem dido_step (e : Env) (w : World) (g : List Nat) (d : Nat) :
    ((match g with
      | [] => w
      | i :: outs => if e.active i = true then w.setAll outs 1 else w.setAll outs 0) : World).st d
    = if d ∈ outputs g then (if e.active (g.headD 0) = true then 1 else 0) else w.st d := by
  cases g with
  | nil => simp [outputs]
  | cons i outs =>
    by_cases h : e.active i = true <;> simp [h, outputs, setAll_st]

theorem inv_step (e : Env) (w : World) (g : List Nat) (d : Nat) :
    ((match g with
      | [] => w
      | i :: outs => w.setAll outs (if e.active i = true then 0 else 1)) : World).st d
    = if d ∈ outputs g then (if e.active (g.headD 0) = true then 0 else 1) else w.st d := by
  cases g with
  | nil => simp [outputs]
  | cons i outs => simp [outputs, setAll_st]

theorem aiao_step (e : Env) (w : World) (g : List Nat) (d : Nat) :
    ((match g with
      | [] => w
      | i :: outs => w.setVals outs (e.read i)) : World).val d
    = if d ∈ outputs g then e.read (g.headD 0) else w.val d := by
  cases g with
  | nil => simp [outputs]
  | cons i outs => simp [outputs, setVals_val]

theorem finalIO_step (w : World) (g : List Nat) (d : Nat) :
    ((match g with
      | [] => w
      | _ :: outs => w.setAll outs 0) : World).st d
    = if d ∈ outputs g then 0 else w.st d := by
  cases g with
  | nil => simp [outputs]
  | cons i outs => exact setAll_st outs 0 w d

theorem finalIO_st (groups : List (List Nat)) (w : World) (d : Nat) :
    (finalIO groups w).st d = if ∃ g ∈ groups, d ∈ outputs g then 0 else w.st d :=
  fold_const _ (fun w => w.st) outputs 0 finalIO_step groups w d

/-! ### Conditional jump -/

theorem jumpCheck_on (e : Env) (ds : List Nat) : jumpCheck e ds true = true ↔ ∀ d ∈ ds, IsOn e d := by
  simp only [jumpCheck, List.all_eq_true, IsOn]
  refine forall_congr' fun d => forall_congr' fun _ => ?_
  by_cases h : e.ty d = .valve <;> simp [h]

theorem jumpCheck_off (e : Env) (ds : List Nat) :
    jumpCheck e ds false = true ↔ ∀ d ∈ ds, IsOff e d := by
  simp only [jumpCheck, List.all_eq_true, IsOff]
  refine forall_congr' fun d => forall_congr' fun _ => ?_
  by_cases h : e.ty d = .valve <;> simp [h]

theorem sat_iff (e : Env) (g : JumpGroup) :
    (jumpCheck e g.on true && jumpCheck e g.off false) = true ↔ g.Sat e := by
  rw [Bool.and_eq_true, jumpCheck_on, jumpCheck_off]; rfl

theorem jumpLoop_spec (e : Env) (nextN : List Int) (gs : List JumpGroup) (idx : Nat) (nx : Int)
    (hl : idx + gs.length ≤ nextN.length) (n : Int) :
    jumpLoop e nextN gs idx nx = (true, n) ↔
      ∃ (k : Nat) (g : JumpGroup), gs[k]? = some g ∧ g.Sat e ∧ nextN[idx + k]? = some n ∧
        ∀ (j : Nat) (g' : JumpGroup), j < k → gs[j]? = some g' → ¬ g'.Sat e := by
  induction gs generalizing idx nx with
  | nil => simp [jumpLoop]
  | cons g gs ih =>
    simp only [List.length_cons] at hl
    have hi : idx < nextN.length := by omega
    simp only [jumpLoop, hi, if_true]
    by_cases hs : g.Sat e
    · rw [if_pos ((sat_iff e g).mpr hs)]
      constructor
      · intro h
        simp only [Prod.mk.injEq, true_and] at h
        refine ⟨0, g, rfl, hs, ?_, fun j _ hj => by omega⟩
        rw [Nat.add_zero, List.getElem?_eq_getElem hi, ← h]
        simp [List.getD, List.getElem?_eq_getElem hi]
      · rintro ⟨k, g', hk, _, hn, hj⟩
        cases k with
        | zero =>
          rw [Nat.add_zero, List.getElem?_eq_getElem hi] at hn
          simp only [Option.some.injEq] at hn
          simp [List.getD, List.getElem?_eq_getElem hi, hn]
        | succ k => exact absurd hs (hj 0 g (by omega) rfl)
    · rw [if_neg (fun h => hs ((sat_iff e g).mp h)), ih (idx + 1) _ (by omega)]
      constructor
      · rintro ⟨k, g', hk, h2, hn, hj⟩
        refine ⟨k + 1, g', by simpa using hk, h2, by rw [← hn]; congr 1; omega, ?_⟩
        intro j g'' hj' hjg
        cases j with
        | zero => simp only [List.getElem?_cons_zero, Option.some.injEq] at hjg; exact hjg ▸ hs
        | succ j => exact hj j g'' (by omega) (by simpa using hjg)
      · rintro ⟨k, g', hk, h2, hn, hj⟩
        cases k with
        | zero => simp only [List.getElem?_cons_zero, Option.some.injEq] at hk; exact absurd (hk ▸ h2) hs
        | succ k =>
          refine ⟨k, g', by simpa using hk, h2, by rw [← hn]; congr 1; omega, ?_⟩
          intro j g'' hj' hjg
          exact hj (j + 1) g'' (by omega) (by simpa using hjg)

/-- The loop says "no jump" exactly when no group holds. -/
theorem jumpLoop_fst (e : Env) (nextN : List Int) (gs : List JumpGroup) (idx : Nat) (nx : Int) :
    (jumpLoop e nextN gs idx nx).1 = true ↔ ∃ g ∈ gs, g.Sat e := by
  induction gs generalizing idx nx with
  | nil => simp [jumpLoop]
  | cons g gs ih =>
    simp only [jumpLoop]
    by_cases hs : g.Sat e
    · rw [if_pos ((sat_iff e g).mpr hs)]
      simp [hs]
    · rw [if_neg (fun h => hs ((sat_iff e g).mp h)), ih]
      simp [hs]

/-! ### Washing by request -/

theorem washDev_st (e : Env) (s : Int) (v : Option Fl) (d : Nat) (w : World) :
    (washDev e s v d w).st = (w.setState d s).st := by
  unfold washDev
  cases v with
  | none => rfl
  | some x => dsimp only; split <;> rfl

theorem washRev_st (e : Env) (s : Int) (v : Option Fl) (d : Nat) (w : World) :
    (washRev e s v d w).st = (w.setState d (if s > 0 then 2 else 0)).st := by
  unfold washRev
  cases v with
  | none => rfl
  | some x => dsimp only; split <;> rfl

theorem washReq_iff (e : Env) (g : WashGroup) : g.Requested e ↔ washReq e g = 1 := by
  unfold WashGroup.Requested washReq
  cases h : g.di with
  | nil => simp
  | cons a as =>
    by_cases hx : (a :: as).any e.active = true
    · have hx2 := hx
      simp only [List.any_eq_true] at hx2
      simp only [List.isEmpty_cons, hx, if_true]
      simpa using hx2
    · have hx2 := hx
      simp only [List.any_eq_true] at hx2
      simp only [List.isEmpty_cons, hx]
      simpa using hx2

theorem washReq_01 (e : Env) (g : WashGroup) : washReq e g = 1 ∨ washReq e g = 0 := by
  unfold washReq
  split
  · exact .inl rfl
  · split
    · exact .inl rfl
    · exact .inr rfl

/-- State after the devices of a group have been commanded. -/
theorem wash_cmd_st (e : Env) (s : Int) (v : Option Fl) (g : WashGroup) (w : World) (d : Nat) :
    (g.rev.foldl (fun w d => washRev e s v d w)
      (g.devs.foldl (fun w d => washDev e s v d w) (w.setAll g.dos 1))).st d
    = if d ∈ g.rev then (if s > 0 then 2 else 0) else if d ∈ g.devs then s
      else if d ∈ g.dos then 1 else w.st d := by
  rw [fold_const (fun w d => washRev e s v d w) (fun w => w.st) (fun x => [x])
    (if s > 0 then 2 else 0) (fun w x d => by
      simp only [washRev_st, setState, List.mem_singleton]),
    fold_const (fun w d => washDev e s v d w) (fun w => w.st) (fun x => [x]) s (fun w x d => by
      simp only [washDev_st, setState, List.mem_singleton]), setAll_st]
  simp

theorem wash_group_st (e : Env) (parIdx : List Int) (par : Int → Fl) (idx : Nat) (g : WashGroup)
    (w : World) (d : Nat) :
    (evalWashGroup e parIdx par idx g w).st d
    = if ((g.devs ++ g.rev).any fun x => e.err x
          (if x ∈ g.rev then (if washReq e g > 0 then 2 else 0) else washReq e g)) = true ∧ d ∈ g.dos
      then 0
      else if d ∈ g.rev then (if washReq e g > 0 then 2 else 0)
      else if d ∈ g.devs then washReq e g
      else if d ∈ g.dos then 1 else w.st d := by
  have hany : ((g.devs ++ g.rev).any fun x => e.err x
          ((g.rev.foldl (fun w d => washRev e (washReq e g) (washVal e parIdx par idx g) d w)
      (g.devs.foldl (fun w d => washDev e (washReq e g) (washVal e parIdx par idx g) d w)
        (w.setAll g.dos 1))).st x))
      = ((g.devs ++ g.rev).any fun x => e.err x
          (if x ∈ g.rev then (if washReq e g > 0 then 2 else 0) else washReq e g)) := by
    rw [Bool.eq_iff_iff, List.any_eq_true, List.any_eq_true]
    refine exists_congr fun x => and_congr_right fun hx => ?_
    rw [wash_cmd_st]
    rcases List.mem_append.mp hx with h | h
    · by_cases h2 : x ∈ g.rev <;> simp [h, h2]
    · simp [h]
  unfold evalWashGroup
  dsimp only
  rw [hany]
  generalize ((g.devs ++ g.rev).any fun x => e.err x
          (if x ∈ g.rev then (if washReq e g > 0 then 2 else 0) else washReq e g)) = b
  cases b with
  | true =>
    rw [if_pos rfl, setAll_st, wash_cmd_st]
    by_cases h : d ∈ g.dos <;> simp [h]
  | false => simp [wash_cmd_st]

/-! ### Error description -/

theorem subgroup_none (s : List (Option Nat)) (h : ∀ x ∈ s, x = none) (b : Buf) :
    Buf.subgroup s b = b := by
  induction s with
  | nil => rfl
  | cons x s ih =>
    have := h x (List.mem_cons_self ..)
    subst this
    exact ih fun y hy => h y (List.mem_cons_of_mem _ hy)

/-- The buffer state while everything fits. -/
def Fits (size : Nat) (b : Buf) : Prop :=
  b.out = b.written ∧ b.top = b.out ∧ b.free = (size : Int) - 1 - b.written ∧ 0 ≤ b.free

theorem append_fits (size : Nat) (b : Buf) (len : Nat) (hb : Fits size b) :
    if (b.append len).free < 0 then
      (b.append len).out = size - 1 ∧ (b.append len).top = size - 1 ∧
        (b.append len).written = b.written + len
    else Fits size (b.append len) ∧ (b.append len).written = b.written + len := by
  obtain ⟨h1, h2, h3, h4⟩ := hb
  have hnf : ¬ b.free < 0 := by omega
  simp only [Buf.append, hnf, if_false]
  split
  · rename_i h
    refine ⟨?_, ?_, trivial⟩ <;> (try simp only [Nat.max_def, Nat.min_def]) <;> (repeat' split) <;> omega
  · rename_i h
    refine ⟨⟨?_, ?_, ?_, ?_⟩, trivial⟩ <;> (try simp only [Nat.max_def, Nat.min_def]) <;>
      (repeat' split) <;> omega

theorem subgroup_spec (size : Nat) (s : List (Option Nat)) (b : Buf) (hb : Fits size b) :
    (Fits size (Buf.subgroup s b) ∧ (Buf.subgroup s b).written = b.written + textLen s) ∨
    ((Buf.subgroup s b).free < 0 ∧ (Buf.subgroup s b).out = size - 1 ∧
      (Buf.subgroup s b).top = size - 1 ∧ size ≤ b.written + textLen s) := by
  induction s generalizing b with
  | nil => exact .inl ⟨hb, by simp [Buf.subgroup, textLen]⟩
  | cons x s ih =>
    cases x with
    | none =>
      have : textLen (none :: s) = textLen s := by simp [textLen]
      rw [this]
      exact ih b hb
    | some len =>
      have ht : textLen (some len :: s) = len + textLen s := by simp [textLen]
      rw [ht]
      simp only [Buf.subgroup]
      have ha := append_fits size b len hb
      split
      · rename_i h
        rw [if_pos h] at ha
        refine .inr ⟨h, ha.1, ha.2.1, ?_⟩
        obtain ⟨h1, h2, h3, h4⟩ := hb
        simp only [Buf.append] at h
        omega
      · rename_i h
        rw [if_neg h] at ha
        rcases ih _ ha.1 with h5 | h5
        · exact .inl ⟨h5.1, by rw [h5.2, ha.2]; omega⟩
        · exact .inr ⟨h5.1, h5.2.1, h5.2.2.1, by have := h5.2.2.2; rw [ha.2] at this; omega⟩

theorem foldSub_none (l : List (List (Option Nat))) (h : ∀ s ∈ l, ∀ x ∈ s, x = none) (b : Buf) :
    l.foldl (fun b s => Buf.subgroup s b) b = b := by
  induction l with
  | nil => rfl
  | cons s l ih =>
    rw [List.foldl_cons, subgroup_none s (h s (List.mem_cons_self ..))]
    exact ih fun t ht => h t (List.mem_cons_of_mem _ ht)

theorem foldSub_fits (size : Nat) (l : List (List (Option Nat))) (b : Buf) (hb : Fits size b)
    (hlen : b.written + (l.map textLen).sum < size) :
    Fits size (l.foldl (fun b s => Buf.subgroup s b) b) ∧
      (l.foldl (fun b s => Buf.subgroup s b) b).written = b.written + (l.map textLen).sum := by
  induction l generalizing b with
  | nil => exact ⟨hb, by simp⟩
  | cons s l ih =>
    simp only [List.map_cons, List.sum_cons] at hlen ⊢
    rw [List.foldl_cons]
    rcases subgroup_spec size s b hb with h | h
    · have := ih _ h.1 (by rw [h.2]; omega)
      exact ⟨this.1, by rw [this.2, h.2]; omega⟩
    · have := h.2.2.2; omega

theorem fold_flatten (devices : List (List (List (Option Nat)))) (b : Buf) :
    devices.foldl (fun b g => g.foldl (fun b s => Buf.subgroup s b) b) b
      = devices.flatten.foldl (fun b s => Buf.subgroup s b) b := by
  induction devices generalizing b with
  | nil => rfl
  | cons g gs ih => rw [List.foldl_cons, List.flatten_cons, List.foldl_append, ih]

end Ptusa.Actions
