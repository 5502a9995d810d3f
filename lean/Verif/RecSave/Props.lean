import Verif.RecSave.Lemmas

/-! # C205: changed recipes and lists of recipes reach their files -/
namespace Ptusa.RecSave

open Spec SaveDev RecFile

variable {V : Type}

/-- **C205, partial.** Missing: files which cannot be opened, failures of power, changes that go on. After any history nothing is changed for a time
with as many evaluations as there are items, the first more than ten seconds after the history and each more than ten seconds
after the one before, with any other evaluations between them: then every item has in its file what it contains. -/
theorem C205_saved_partial (d : V) (files : List (Option V)) (t0 t : Nat) (es qs : List (Ev V))
    (hf : Forward t0 (es ++ qs)) (ho : Opens (es ++ qs)) (hl : ∀ e ∈ es, time e ≤ t) (h0 : t0 ≤ t)
    (hq : Quiet qs) (hp : Parts files.length t qs) : Kept d ((start d files t0).run (es ++ qs)) := by
  rw [run_append]
  have hok0 : Ok d (start d files t0).items := by
    intro a ha
    obtain ⟨f, -, rfl⟩ := List.mem_map.mp ha
    exact Or.inr rfl
  have hok := run_ok d es _ hok0 fun now ok h => ho now ok (List.mem_append_left _ h)
  have hok2 := run_ok d qs _ hok fun now ok h => ho now ok (List.mem_append_right _ h)
  have hfw : ∀ (es : List (Ev V)) (u : Nat), u ≤ t → Forward u (es ++ qs) → (∀ e ∈ es, time e ≤ t) → ∃ w, w ≤ t ∧ Forward w qs := by
    intro es
    induction es with
    | nil => intro u hu hf _; exact ⟨u, hu, hf⟩
    | cons e es ih => intro u _ hf hl; exact ih (time e) (hl e List.mem_cons_self) hf.2 fun x hx => hl x (List.mem_cons_of_mem _ hx)
  obtain ⟨w, hw, hfq⟩ := hfw es t0 h0 hf hl
  apply kept_of
  refine ok_zero d _ hok2 ?_
  have hlen : ((start d files t0).run es).items.length = files.length := by
    rw [run_length]
    exact List.length_map _
  have hn : todo ((start d files t0).run es).items ≤ files.length := hlen ▸ todo_le _
  have ht := run_time es (start d files t0) t h0 hl
  exact parts_save' hp _ ht hw hfq hq hn

/-- Two items are changed in the first second; the first evaluation after ten seconds saves one, the next one nothing, the third the other. -/
example :
    let es := [Ev.change 1 7 300, .change 0 5 900]
    let qs := [Ev.eval 10901 true, .eval 10950 true, .eval 20902 true]
    Parts 2 900 qs ∧ Kept 0 ((start 0 [none, some 3] 0).run (es ++ qs)) ∧
    ((start 0 [none, some 3] 0).run (es ++ qs)).items = [⟨5, false, some 5⟩, ⟨7, false, some 7⟩] ∧
    ((start 0 [none, some 3] 0).run (es ++ qs.take 2)).items = [⟨5, false, some 5⟩, ⟨7, true, some 3⟩] := by
  refine ⟨.part [] 10901 (by omega) (.part [.eval 10950 true] 20902 (by omega) (.nil _)), by unfold Kept; decide, by decide, by decide⟩

/-- C205: an evaluation writes at most one file, not earlier than ten seconds after the last one, with what its item contains, and this is the
first item that has to be saved; it changes no contents. -/
theorem C205_one_file (q : Q V) (now : Nat) (ok : Bool) :
    (q.eval now ok).items.map (·.val) = q.items.map (·.val) ∧
    ((q.eval now ok) = q ∨ q.t + 10000 < now ∧ (q.eval now ok).t = now ∧ ∃ pre a post, q.items = pre ++ a :: post ∧ (∀ b ∈ pre, b.changed = false) ∧
      a.changed = true ∧ (q.eval now ok).items = pre ++ ⟨a.val, false, if ok then some a.val else a.file⟩ :: post) := by
  have key : ∀ (due : Bool) (as : List (Item V)), (saveFirst due ok as).1.map (·.val) = as.map (·.val) ∧
      ((saveFirst due ok as) = (as, false) ∨ due = true ∧ (saveFirst due ok as).2 = true ∧
        ∃ pre a post, as = pre ++ a :: post ∧ (∀ b ∈ pre, b.changed = false) ∧
        a.changed = true ∧ (saveFirst due ok as).1 = pre ++ ⟨a.val, false, if ok then some a.val else a.file⟩ :: post) := by
    intro due as
    induction as with
    | nil => exact ⟨rfl, Or.inl rfl⟩
    | cons a as ih =>
      unfold saveFirst
      by_cases e : (a.changed && due) = true
      · rw [if_pos e]
        have e' := Bool.and_eq_true _ _ ▸ e
        exact ⟨rfl, Or.inr ⟨e'.2, rfl, [], a, as, rfl, fun b hb => absurd hb List.not_mem_nil, e'.1, rfl⟩⟩
      · rw [if_neg e]
        obtain ⟨h1, h2⟩ := ih
        refine ⟨by simp [h1], ?_⟩
        rcases h2 with h2 | ⟨hd, hs, pre, b, post, h3, h4, h5, h6⟩
        · left
          simp [h2]
        · right
          refine ⟨hd, hs, a :: pre, b, post, by rw [h3]; rfl, ?_, h5, by simp [h6]⟩
          intro c hc
          rcases List.mem_cons.mp hc with hc | hc
          · rw [hc]
            rw [hd, Bool.and_true] at e
            exact Bool.eq_false_iff.mpr e
          · exact h4 c hc
  obtain ⟨h1, h2⟩ := key (decide (RecFile.interval < now - q.t)) q.items
  refine ⟨h1, ?_⟩
  rcases h2 with h2 | ⟨hd, hs, pre, a, post, h3, h4, h5, h6⟩
  · left
    unfold Q.eval
    rw [h2]
    rfl
  · right
    rw [decide_eq_true_eq] at hd
    have hi : RecFile.interval = 10000 := rfl
    refine ⟨by omega, ?_, pre, a, post, h3, h4, h5, h6⟩
    show (if _ then now else q.t) = now
    rw [hs]
    rfl

/-- C205 is violated by changes that go on: an item that is changed every ten seconds is always the first, and a later one is never saved. -/
theorem C205_starved_violated (d x y : V) (hx : x ≠ d) (r : Nat) :
    let es := (List.range r).flatMap fun i => [Ev.change 0 y (10001 * i), .eval (10001 * (i + 1)) true]
    let q := (start d [none, none] 0).run (.change 1 x 0 :: es)
    q.items[1]? = some ⟨x, true, none⟩ ∧ ¬ Kept d q := by
  intro es q
  have e : ∀ r, ∃ a, (⟨[⟨d, false, none⟩, ⟨x, true, none⟩], 0⟩ : Q V).run
      ((List.range r).flatMap fun i => [Ev.change 0 y (10001 * i), .eval (10001 * (i + 1)) true]) = ⟨[a, ⟨x, true, none⟩], 10001 * r⟩ := by
    intro r
    induction r with
    | zero => exact ⟨_, rfl⟩
    | succ r ih =>
      obtain ⟨a, ih⟩ := ih
      rw [List.range_succ, List.flatMap_append, run_append, ih]
      have hd : decide (RecFile.interval < 10001 * (r + 1) - 10001 * r) = true := by
        rw [decide_eq_true_eq]
        show 10000 < _
        omega
      refine ⟨⟨y, false, some y⟩, ?_⟩
      show Q.eval ⟨[⟨y, true, a.file⟩, ⟨x, true, none⟩], 10001 * r⟩ (10001 * (r + 1)) true = _
      unfold Q.eval
      simp only [hd]
      rfl
  obtain ⟨a, h⟩ := e r
  have hq : q = ⟨[a, ⟨x, true, none⟩], 10001 * r⟩ := h
  rw [hq]
  refine ⟨rfl, fun hk => ?_⟩
  have := congrArg (·[1]?) hk
  exact hx (Option.some.inj this).symm

/-- C205 is violated by a file that cannot be opened once: later evaluations do not write it. -/
theorem C205_not_opened_violated (d x : V) (hx : x ≠ d) (times : List Nat) :
    let q := ((start d [none] 0).run [.change 0 x 0, .eval 10001 false]).run (times.map fun now => .eval now true)
    q.items = [⟨x, false, none⟩] ∧ ¬ Kept d q := by
  intro q
  have key : ∀ (l : List Nat) (t : Nat), (⟨[⟨x, false, none⟩], t⟩ : Q V).run (l.map fun now => .eval now true) = ⟨[⟨x, false, none⟩], t⟩ := by
    intro l
    induction l with
    | nil => intro t; rfl
    | cons a l ih =>
      intro t
      have : (⟨[⟨x, false, none⟩], t⟩ : Q V).eval a true = ⟨[⟨x, false, none⟩], t⟩ := rfl
      show ((⟨[⟨x, false, none⟩], t⟩ : Q V).eval a true).run _ = _
      rw [this]
      exact ih t
  have hq : q = ⟨[⟨x, false, none⟩], 10001⟩ := key times 10001
  rw [hq]
  refine ⟨rfl, fun hk => ?_⟩
  have := congrArg (·[0]?) hk
  exact hx (Option.some.inj this).symm

/-! ### The marks of the enabled recipes -/

/-- C205: the marks of the enabled recipes that an adapter has written are read at the next start; the project may have more recipes then
(the others are enabled) or fewer. -/
theorem C205_marks (saved : List Int) (hr : ∀ x ∈ saved, -2147483648 ≤ x ∧ x ≤ 2147483647) (hl : saved.length ≤ 2147483647) (n : Nat) :
    loadMarks n (some (marksText saved)) = some (marksOf n saved) := by
  have e : marksText saved = intText saved.length ++ '\n' :: saved.flatMap fun x => intText x ++ [' '] := by
    unfold marksText intText
    rw [if_neg (by omega), Int.natAbs_natCast]
  have hv : readVar ⟨marksText saved, true⟩ = (some (saved.length : Int), ⟨'\n' :: saved.flatMap fun x => intText x ++ [' '], true⟩) := by
    rw [e]
    unfold readVar
    rw [if_pos ⟨rfl, intText_ne_space _ _⟩, readInt_blank _ ⟨by omega, by omega⟩ '\n' (by decide)]
  unfold loadMarks
  simp only [hv, Int.toNat_natCast]
  obtain ⟨m, h1, h2, h3⟩ := readMarks_text saved 0 (List.replicate n 1) '\n' (by decide) hr
  rw [h1]
  congr 1
  rw [List.length_replicate] at h2 h3
  apply List.ext_getElem?
  intro j
  unfold marksOf
  by_cases hj : j < n
  · rw [h3 j hj, List.getElem?_map, List.getElem?_range hj, Option.map_some]
    by_cases c : j < saved.length
    · rw [if_pos (by omega), Nat.sub_zero, List.getElem?_eq_getElem c]
      rfl
    · have c' : saved[j]? = none := List.getElem?_eq_none (by omega)
      rw [if_neg (by omega), c', List.getElem?_replicate, if_pos hj]
      rfl
  · rw [List.getElem?_eq_none (by omega), List.getElem?_eq_none (by rw [List.length_map, List.length_range]; omega)]

example : loadMarks 4 (some (marksText [0, 1, 0])) = some [0, 1, 0, 1] ∧ loadMarks 2 (some (marksText [0, 1, 0])) = some [0, 1] ∧
    marksText [0, 1, 0] = "3\n0 1 0 ".toList := by decide +kernel

/-- C205 is violated by a failure of power while the file is written: a file that is cut off, or empty, is read into uninitialised
variables. -/
theorem C205_crash_violated : ∃ (saved : List Int) (cut : Nat), cut < (marksText saved).length ∧
    loadMarks 3 (some ((marksText saved).take cut)) = none ∧ loadMarks 3 (some []) = none ∧
    loadMarks 3 (some (marksText saved)) = some saved :=
  ⟨[0, 1, 0], 5, by decide +kernel, by decide +kernel, by decide +kernel, by decide +kernel⟩

/-- **C205**. Without a file all recipes are enabled. -/
theorem C205_no_marks (n : Nat) : loadMarks n none = some (marksOf n []) := by
  show some (List.replicate n (1 : Int)) = some ((List.range n).map fun i => ((([] : List Int)[i]?).getD 1))
  congr 1
  simp [List.map_const']

example : loadMarks 3 none = some [1, 1, 1] := by decide +kernel

end Ptusa.RecSave
