import Verif.RecSave.Spec
import Verif.RecFile.Lemmas

/-! # Lemmas about saving of recipes and lists -/
namespace Ptusa.RecSave

open Spec SaveDev RecFile

variable {V : Type}

/-- A restart gives the contents back. -/
def Item.Cur (d : V) (a : Item V) : Prop := a.file.getD d = a.val

/-- How many items have to be saved. -/
def todo (as : List (Item V)) : Nat := as.countP fun a => a.changed

/-- Changed or up to date. -/
def Ok (d : V) (as : List (Item V)) : Prop := ∀ a ∈ as, a.changed = true ∨ a.Cur d

theorem kept_of (d : V) (q : Q V) (h : ∀ a ∈ q.items, a.Cur d) : Kept d q := by
  unfold Kept start
  simp only [List.map_map]
  apply List.map_congr_left
  intro a ha
  exact h a ha

theorem saveFirst_ok (d : V) (due : Bool) (as : List (Item V)) (h : Ok d as) : Ok d (saveFirst due true as).1 := by
  induction as with
  | nil => exact h
  | cons a as ih =>
    unfold saveFirst
    by_cases e : (a.changed && due) = true
    · rw [if_pos e]
      intro b hb
      rcases List.mem_cons.mp hb with hb | hb
      · rw [hb]; exact Or.inr rfl
      · exact h b (List.mem_cons_of_mem _ hb)
    · rw [if_neg e]
      intro b hb
      rcases List.mem_cons.mp hb with hb | hb
      · rw [hb]; exact h a List.mem_cons_self
      · exact ih (fun x hx => h x (List.mem_cons_of_mem _ hx)) b hb

theorem saveFirst_todo (due ok : Bool) (as : List (Item V)) :
    todo (saveFirst due ok as).1 + (if (saveFirst due ok as).2 then 1 else 0) = todo as := by
  induction as with
  | nil => rfl
  | cons a as ih =>
    unfold saveFirst
    by_cases e : (a.changed && due) = true
    · rw [if_pos e]
      have ha : a.changed = true := (Bool.and_eq_true _ _ ▸ e).1
      simp [todo, ha]
    · rw [if_neg e]
      simp only [todo, List.countP_cons] at ih ⊢
      omega

theorem saveFirst_due (ok : Bool) (as : List (Item V)) (h : (saveFirst true ok as).2 = false) : todo as = 0 := by
  induction as with
  | nil => rfl
  | cons a as ih =>
    unfold saveFirst at h
    by_cases e : (a.changed && true) = true
    · rw [if_pos e] at h
      exact nomatch h
    · rw [if_neg e] at h
      have ha : a.changed = false := by
        rw [Bool.and_true] at e
        exact Bool.eq_false_iff.mpr e
      have := ih h
      simp only [todo, List.countP_cons, ha] at this ⊢
      simpa using this

theorem modify_mem {α : Type} {l : List α} {i : Nat} {f : α → α} {b : α} (h : b ∈ l.modify i f) : b ∈ l ∨ ∃ a ∈ l, b = f a := by
  obtain ⟨j, hj, rfl⟩ := List.mem_iff_getElem.mp h
  have hj' : j < l.length := by rw [List.length_modify] at hj; exact hj
  rw [List.getElem_modify]
  by_cases e : i = j
  · rw [if_pos e]
    exact Or.inr ⟨_, List.getElem_mem hj', rfl⟩
  · rw [if_neg e]
    exact Or.inl (List.getElem_mem hj')

theorem reload_todo (q : Q V) (i : Nat) : todo (q.reload i).items = todo q.items := by
  unfold Q.reload todo
  show List.countP _ (q.items.modify i _) = _
  generalize q.items = l
  induction l generalizing i with
  | nil => cases i <;> rfl
  | cons a l ih =>
    cases i with
    | zero => simp [List.countP_cons]
    | succ i =>
      rw [List.modify_succ_cons, List.countP_cons, List.countP_cons, ih]

theorem step_ok (d : V) (q : Q V) (e : Ev V) (h : Ok d q.items) (ho : ∀ now ok, e = .eval now ok → ok = true) :
    Ok d (q.step e).items := by
  cases e with
  | change i v now =>
    intro b hb
    rcases modify_mem hb with hb | ⟨a, -, rfl⟩
    · exact h b hb
    · exact Or.inl rfl
  | reload i now =>
    intro b hb
    rcases modify_mem hb with hb | ⟨a, ha, rfl⟩
    · exact h b hb
    · rcases h a ha with hc | hc
      · exact Or.inl hc
      · right
        show a.file.getD d = a.file.getD a.val
        cases hf : a.file with
        | none =>
          unfold Item.Cur at hc
          rw [hf] at hc
          exact hc
        | some x => rfl
  | eval now ok =>
    rw [ho now ok rfl]
    exact saveFirst_ok d _ q.items h

theorem run_ok (d : V) (es : List (Ev V)) : ∀ (q : Q V), Ok d q.items → Opens es → Ok d (q.run es).items := by
  induction es with
  | nil => intro q h _; exact h
  | cons e es ih =>
    intro q h ho
    exact ih (q.step e) (step_ok d q e h fun now ok he => ho now ok (by rw [he]; exact List.mem_cons_self))
      fun now ok he => ho now ok (List.mem_cons_of_mem _ he)

/-- The last saving is not later than the last event. -/
theorem run_time (es : List (Ev V)) : ∀ (q : Q V) (x : Nat), q.t ≤ x → (∀ e ∈ es, time e ≤ x) → (q.run es).t ≤ x := by
  induction es with
  | nil => intro q x h _; exact h
  | cons e es ih =>
    intro q x h hl
    refine ih (q.step e) x ?_ fun y hy => hl y (List.mem_cons_of_mem _ hy)
    have he := hl e List.mem_cons_self
    cases e with
    | change i v now => exact h
    | reload i now => exact h
    | eval now ok =>
      show (if _ then now else q.t) ≤ x
      split
      · exact he
      · exact h

theorem forward_times {w x : Nat} {seg es : List (Ev V)} (h : Forward w (seg ++ .eval x true :: es)) :
    Forward x es ∧ ∀ e ∈ seg, time e ≤ x := by
  induction seg generalizing w with
  | nil => exact ⟨h.2, fun e he => absurd he List.not_mem_nil⟩
  | cons e seg ih =>
    obtain ⟨h1, h2⟩ := ih h.2
    refine ⟨h1, fun y hy => ?_⟩
    rcases List.mem_cons.mp hy with hy | hy
    · rw [hy]
      cases seg with
      | nil => exact h.2.1
      | cons f seg => exact Nat.le_trans h.2.1 (h2 f List.mem_cons_self)
    · exact h2 y hy

/-- In a quiet history fewer items have to be saved, and a saving has the time of the evaluation. -/
theorem run_quiet (es : List (Ev V)) : ∀ (q : Q V), Quiet es →
    todo (q.run es).items ≤ todo q.items ∧ (todo (q.run es).items = todo q.items → (q.run es).t = q.t) := by
  induction es with
  | nil => intro q _; exact ⟨Nat.le_refl _, fun _ => rfl⟩
  | cons e es ih =>
    intro q hq
    obtain ⟨h1, h2⟩ := ih (q.step e) fun i v now h => hq i v now (List.mem_cons_of_mem _ h)
    have key : todo (q.step e).items ≤ todo q.items ∧ (todo (q.step e).items = todo q.items → (q.step e).t = q.t) := by
      cases e with
      | change i v now => exact absurd List.mem_cons_self (hq i v now)
      | reload i now => exact ⟨Nat.le_of_eq (reload_todo q i), fun _ => rfl⟩
      | eval now ok =>
        have := saveFirst_todo (decide (RecFile.interval < now - q.t)) ok q.items
        constructor
        · show todo (saveFirst _ _ _).1 ≤ _
          omega
        · intro he
          have he : todo (saveFirst (decide (RecFile.interval < now - q.t)) ok q.items).1 = todo q.items := he
          show (if _ then now else q.t) = q.t
          cases hs : (saveFirst (decide (RecFile.interval < now - q.t)) ok q.items).2 with
          | false => rfl
          | true =>
            rw [hs] at this
            simp only [if_true] at this
            omega
    refine ⟨Nat.le_trans h1 key.1, fun he => ?_⟩
    show ((q.step e).run es).t = q.t
    have he : todo ((q.step e).run es).items = todo q.items := he
    rw [h2 (by omega), key.2 (by omega)]

theorem run_append (q : Q V) (a b : List (Ev V)) : q.run (a ++ b) = (q.run a).run b := by
  unfold Q.run
  rw [List.foldl_append]

/-- One part saves an item, if one is left. -/
theorem part_saves (q : Q V) (t x : Nat) (seg : List (Ev V)) (ht : q.t ≤ t) (hx : t + 10000 < x) (hq : Quiet seg) :
    todo ((q.run seg).eval x true).items < todo q.items ∨ todo ((q.run seg).eval x true).items = 0 := by
  obtain ⟨h1, h2⟩ := run_quiet seg q hq
  have h3 := saveFirst_todo (decide (RecFile.interval < x - (q.run seg).t)) true (q.run seg).items
  by_cases e : todo (q.run seg).items = todo q.items
  · have ht' := h2 e
    have hd : decide (RecFile.interval < x - (q.run seg).t) = true := by
      rw [decide_eq_true_eq, ht']
      show 10000 < _
      omega
    cases hs : (saveFirst (decide (RecFile.interval < x - (q.run seg).t)) true (q.run seg).items).2 with
    | true =>
      left
      rw [hs] at h3
      show todo (saveFirst _ _ _).1 < _
      simp only [if_true] at h3
      omega
    | false =>
      right
      rw [hs] at h3
      rw [hd] at hs h3
      have := saveFirst_due true (q.run seg).items hs
      show todo (saveFirst (decide (RecFile.interval < x - (q.run seg).t)) true (q.run seg).items).1 = 0
      rw [hd]
      omega
  · left
    show todo (saveFirst _ _ _).1 < _
    omega

theorem parts_save' {n t : Nat} {es : List (Ev V)} (h : Parts n t es) : ∀ (q : Q V) {w : Nat}, q.t ≤ t → w ≤ t → Forward w es → Quiet es →
    todo q.items ≤ n → todo (q.run es).items = 0 := by
  induction h with
  | nil t => intro q _ _ _ _ _ hn; exact Nat.le_zero.mp hn
  | @part n t es seg x hx _ ih =>
    intro q w ht hw hf hq hn
    have hseg : Quiet seg := fun i v now hm => hq i v now (List.mem_append_left _ hm)
    have hes : Quiet es := fun i v now hm => hq i v now (List.mem_append_right _ (List.mem_cons_of_mem _ hm))
    have e : q.run (seg ++ .eval x true :: es) = ((q.run seg).eval x true).run es := run_append q seg _
    rw [e]
    obtain ⟨k4, hsx⟩ := forward_times hf
    have htr := run_time seg q x (by omega) hsx
    have htx : ((q.run seg).eval x true).t ≤ x := by
      show (if _ then x else (q.run seg).t) ≤ x
      split
      · exact Nat.le_refl _
      · exact htr
    refine ih _ htx (Nat.le_refl _) k4 hes ?_
    have := part_saves q t x seg ht hx hseg
    omega

theorem todo_le (as : List (Item V)) : todo as ≤ as.length := List.countP_le_length

theorem step_length (q : Q V) (e : Ev V) : (q.step e).items.length = q.items.length := by
  cases e with
  | change i v now => exact List.length_modify ..
  | reload i now => exact List.length_modify ..
  | eval now ok =>
    show (saveFirst (decide (RecFile.interval < now - q.t)) ok q.items).1.length = _
    generalize decide (RecFile.interval < now - q.t) = due
    generalize q.items = as
    induction as with
    | nil => rfl
    | cons a as ih =>
      unfold saveFirst
      by_cases c : (a.changed && due) = true
      · rw [if_pos c]; rfl
      · rw [if_neg c]
        simp [ih]

theorem run_length (es : List (Ev V)) : ∀ q : Q V, (q.run es).items.length = q.items.length := by
  induction es with
  | nil => intro q; rfl
  | cons e es ih => intro q; rw [← step_length q e]; exact ih (q.step e)

theorem ok_zero (d : V) (as : List (Item V)) (h : Ok d as) (h0 : todo as = 0) : ∀ a ∈ as, a.Cur d := by
  intro a ha
  rcases h a ha with hc | hc
  · have := List.countP_eq_zero.mp h0 a ha
    exact absurd hc this
  · exact hc

/-! ### The file of an adapter -/

theorem readInt_blank (z : Int) (h : -2147483648 ≤ z ∧ z ≤ 2147483647) (sep : Char) (hs : sep.isDigit = false) (r : Txt) :
    readInt ⟨intText z ++ sep :: r, true⟩ = (z, ⟨sep :: r, true⟩) := by
  obtain ⟨c, t, hc, hd⟩ := natText_cons' z.natAbs
  obtain ⟨hsp, hm, hp⟩ := digit_not_space c hd
  obtain ⟨h1, h2⟩ := natText_takeWhile z.natAbs sep hs r
  have hne := natText_ne z.natAbs
  have hv := natText_val z.natAbs
  unfold readInt
  rw [if_pos rfl]
  by_cases e : z < 0
  · have e1 : (intText z ++ sep :: r) = '-' :: (natText z.natAbs ++ sep :: r) := by
      unfold intText
      rw [if_pos e]
      rfl
    have e2 : ('-' :: (natText z.natAbs ++ sep :: r)).dropWhile isSpace = '-' :: (natText z.natAbs ++ sep :: r) :=
      List.dropWhile_cons_of_neg (by decide)
    simp only [e1, e2, List.head?_cons, true_or, if_true, List.tail_cons, h1, h2]
    rw [if_neg hne]
    have e3 : toInt (some '-' == some '-') (natText z.natAbs) = (z, true) := by
      unfold toInt
      have e4 : (some '-' == some '-') = true := rfl
      simp only [e4, if_true, hv]
      have e5 : -((z.natAbs : Nat) : Int) = z := by omega
      rw [e5, if_neg (by omega), if_neg (by omega)]
    rw [e3]
    rfl
  · have e1 : (intText z ++ sep :: r) = natText z.natAbs ++ sep :: r := by
      unfold intText
      rw [if_neg e]
    have e2 : (natText z.natAbs ++ sep :: r).dropWhile isSpace = natText z.natAbs ++ sep :: r := by
      rw [hc]
      exact List.dropWhile_cons_of_neg (by simp [hsp])
    have e3 : (natText z.natAbs ++ sep :: r).head? = some c := by rw [hc]; rfl
    have e4 : ¬ (some c = some '-' ∨ some c = some '+') := by
      rintro (e | e)
      · exact hm (Option.some.inj e)
      · exact hp (Option.some.inj e)
    simp only [e1, e2, e3]
    rw [if_neg e4, h1, h2, if_neg hne]
    have e5 : toInt (some c == some '-') (natText z.natAbs) = (z, true) := by
      unfold toInt
      have e6 : (some c == some '-') = false := by
        rw [beq_eq_false_iff_ne]
        intro e
        exact hm (Option.some.inj e)
      simp only [e6, Bool.false_eq_true, if_false, hv]
      have e7 : ((z.natAbs : Nat) : Int) = z := by omega
      rw [e7, if_neg (by omega), if_neg (by omega)]
    rw [e5]
    rfl

/-- A blank before the number does not matter. -/
theorem readInt_skip (s : Char) (hs : isSpace s = true) (r : Txt) : readInt ⟨s :: r, true⟩ = readInt ⟨r, true⟩ := by
  unfold readInt
  rw [if_pos rfl, if_pos rfl]
  have e : (s :: r).dropWhile isSpace = r.dropWhile isSpace := List.dropWhile_cons_of_pos hs
  simp only [e]

theorem intText_ne_space (z : Int) (r : Txt) : (intText z ++ r).dropWhile isSpace ≠ [] := by
  have hx : ∀ x c t, x = c :: t → isSpace c = false → x.dropWhile isSpace ≠ [] := by
    intro x c t hx hc h
    rw [hx, List.dropWhile_cons_of_neg (by simp [hc])] at h
    exact nomatch h
  unfold intText
  by_cases e : z < 0
  · rw [if_pos e]
    exact hx _ '-' (natText z.natAbs ++ r) rfl (by decide)
  · rw [if_neg e]
    obtain ⟨c, t, hc, hd⟩ := natText_cons' z.natAbs
    exact hx _ c (t ++ r) (by rw [hc]; rfl) (digit_not_space c hd).1

theorem readVar_text (s : Char) (hs : isSpace s = true) (z : Int) (h : -2147483648 ≤ z ∧ z ≤ 2147483647) (sep : Char)
    (hsep : sep.isDigit = false) (r : Txt) :
    readVar ⟨s :: (intText z ++ sep :: r), true⟩ = (some z, ⟨sep :: r, true⟩) := by
  have e : readInt ⟨s :: (intText z ++ sep :: r), true⟩ = (z, ⟨sep :: r, true⟩) := by
    rw [readInt_skip s hs, readInt_blank z h sep hsep r]
  unfold readVar
  have hd : (s :: (intText z ++ sep :: r)).dropWhile isSpace ≠ [] := by
    rw [List.dropWhile_cons_of_pos hs]
    exact intText_ne_space z _
  rw [if_pos ⟨rfl, hd⟩, e]

/-- Marks are read one after the other. -/
theorem readMarks_text (saved : List Int) : ∀ (i : Nat) (marks : List Int) (s : Char) (_ : isSpace s = true)
    (_ : ∀ x ∈ saved, -2147483648 ≤ x ∧ x ≤ 2147483647),
    ∃ m, readMarks saved.length i ⟨s :: saved.flatMap fun x => intText x ++ [' '], true⟩ marks = some m ∧ m.length = marks.length ∧
      ∀ j, j < marks.length → m[j]? = if i ≤ j ∧ j < i + saved.length then saved[j - i]? else marks[j]? := by
  induction saved with
  | nil =>
    intro i marks s _ _
    refine ⟨marks, rfl, rfl, fun j _ => ?_⟩
    rw [if_neg (by simp only [List.length_nil]; omega)]
  | cons x saved ih =>
    intro i marks s hs hr
    have e : (x :: saved).flatMap (fun x => intText x ++ [' ']) = intText x ++ ' ' :: saved.flatMap fun x => intText x ++ [' '] := by
      rw [List.flatMap_cons]
      simp
    have hrd := readVar_text s hs x (hr x List.mem_cons_self) ' ' (by decide) (saved.flatMap fun x => intText x ++ [' '])
    rw [List.length_cons, e]
    unfold readMarks
    simp only [hrd]
    have hr' : ∀ y ∈ saved, -2147483648 ≤ y ∧ y ≤ 2147483647 := fun y hy => hr y (List.mem_cons_of_mem _ hy)
    by_cases c : i < marks.length
    · rw [if_pos c]
      obtain ⟨m, h1, h2, h3⟩ := ih (i + 1) (marks.set i x) ' ' (by decide) hr'
      refine ⟨m, h1, by rw [h2, List.length_set], fun j hj => ?_⟩
      rw [h3 j (by rw [List.length_set]; exact hj)]
      by_cases c2 : i = j
      · subst c2
        rw [if_neg (by omega), if_pos (by omega), List.getElem?_set_self c, Nat.sub_self]
        rfl
      · rw [List.getElem?_set_ne c2]
        by_cases c3 : i + 1 ≤ j ∧ j < i + 1 + saved.length
        · rw [if_pos c3, if_pos (by omega)]
          have : j - i = (j - (i + 1)) + 1 := by omega
          rw [this, List.getElem?_cons_succ]
        · rw [if_neg c3, if_neg (by omega)]
    · rw [if_neg c]
      obtain ⟨m, h1, h2, h3⟩ := ih (i + 1) marks ' ' (by decide) hr'
      refine ⟨m, h1, h2, fun j hj => ?_⟩
      rw [h3 j hj, if_neg (by omega), if_neg (by omega)]

end Ptusa.RecSave
