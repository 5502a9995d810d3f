import Verif.RecFile.Lemmas

/-! # C203: the recipe loaded last is known after a restart -/
namespace Ptusa.RecFile

open Spec SaveDev

/-- C203: what has been saved for the objects is shown after a restart; the project may have more objects then (the others show that no
recipe was loaded) or fewer. -/
theorem C203_round_trip (objs : List Obj) (h : ∀ o ∈ objs, Good o) (hl : objs.length ≤ 2147483647) (n k now : Nat) :
    (start n k (some (saveText objs)) now).objs = shown n objs := by
  show loadFile (List.replicate n noRecipe) (some (saveText objs)) = _
  rw [loadFile_shown, records_saveText objs h hl]

/-- Two objects were saved, the project has three now: one name is empty, one has digits and blanks. -/
example : (start 3 1 (some (saveText [⟨[], 12⟩, ⟨" 7 up".toList, -5⟩])) 0).objs = [⟨[], 12⟩, ⟨" 7 up".toList, -5⟩, noRecipe] ∧
    saveText [⟨[], 12⟩, ⟨" 7 up".toList, -5⟩] = "2\n\n12\n 7 up\n-5\n".toList := by decide +kernel

/-- C203: the names and numbers of the objects are those of the recipes loaded last. -/
theorem C203_objects (n k : Nat) (f : Option Txt) (t : Nat) (es : List Ev) (i : Nat) (hi : i < n) :
    ∃ x, (start n k f t).objs[i]? = some x ∧ ((start n k f t).run es).objs[i]? = some (last k i es x) := by
  have hlen : (start n k f t).objs.length = n := by rw [start, loadFile_length, List.length_replicate]
  have hads : (start n k f t).ads.length = k := by rw [start, List.length_replicate]
  refine ⟨(start n k f t).objs[i]'(by omega), List.getElem?_eq_getElem _, ?_⟩
  have key : ∀ (es : List Ev) (m : M) (x : Obj), m.objs.length = n → m.ads.length = k → m.objs[i]? = some x →
      (m.run es).objs[i]? = some (last k i es x) := by
    intro es
    induction es with
    | nil => intro m x _ _ h; exact h
    | cons e es ih =>
      intro m x hn hk h
      cases e with
      | load a o y now =>
        show ((m.load a o y).run es).objs[i]? = some (last k i es (if o = i ∧ a < k then y else x))
        unfold M.load
        by_cases c : a < m.ads.length ∧ o < m.objs.length
        · rw [if_pos c]
          refine ih _ _ (by show (m.objs.set o y).length = n; rw [List.length_set, hn])
            (by show (List.modify _ _ _).length = k; rw [List.length_modify, hk]) ?_
          show (m.objs.set o y)[i]? = _
          rw [List.getElem?_set]
          by_cases c2 : o = i
          · rw [if_pos c2, if_pos (by omega), if_pos ⟨c2, by omega⟩]
          · rw [if_neg c2, h, if_neg fun hh => c2 hh.1]
        · rw [if_neg c]
          have c2 : ¬ (o = i ∧ a < k) := by omega
          rw [if_neg c2]
          exact ih m x hn hk h
      | enable a now =>
        exact ih _ x hn (by show (List.modify _ _ _).length = k; rw [List.length_modify, hk]) h
      | eval now ok =>
        exact ih _ x hn (by show (evalAds _ _ m.ads).1.length = k; rw [evalAds_length, hk]) h
  exact key es _ _ hlen hads (List.getElem?_eq_getElem _)

example : last 2 0 [.load 1 0 ⟨['a'], 1⟩ 5, .eval 6 true, .load 0 1 ⟨['b'], 2⟩ 7, .load 2 0 ⟨['c'], 3⟩ 8] noRecipe = ⟨['a'], 1⟩ := by
  decide

/-- **C203, partial.** Missing: a file which cannot be opened, a failure of power within the first ten seconds or during the writing, and evaluations
more than ten seconds apart. Two evaluations, more than ten seconds after the last loading and at most ten seconds apart:
after a restart the objects show the same recipes as before. -/
theorem C203_restart_partial (n k : Nat) (hn : n ≤ 2147483647) (f : Option Txt) (t L : Nat) (es : List Ev) (a b : Nat)
    (hf : Forward t (es ++ [.eval a true, .eval b true])) (hg : GoodLoads es) (ho : Opens es) (hL : NoLoadAfter L es)
    (ha : L + 10000 < a) (hb : b ≤ a + 10000) (k' now : Nat) :
    let m := (start n k f t).run (es ++ [.eval a true, .eval b true])
    (start n k' m.file now).objs = m.objs := by
  intro m
  obtain ⟨t', h, hu⟩ := Inv.run (n := n) (k := k) (L := L) hn es t _ (Inv.start n k f t L) (forward_append hf) hg ho hL
  obtain ⟨h1, h2, -⟩ := hu _ hf
  have e : m = (((start n k f t).run es).eval a true).eval b true := by
    show M.run _ _ = _
    unfold M.run
    rw [List.foldl_append]
    rfl
  rw [e]
  exact h.two hn a b h1 h2 ha hb

/-- Two recipes are loaded in the first second and an adapter has to be saved too: the first evaluation after ten seconds saves the adapter, the
second one the recipes. -/
example :
    let es := [Ev.load 1 0 ⟨['a'], 1⟩ 500, .enable 0 700, .load 1 2 ⟨['b'], 2⟩ 1000, .eval 2000 true]
    Forward 0 (es ++ [.eval 11001 true, .eval 11101 true]) ∧
    ((start 3 2 none 0).run (es ++ [.eval 11001 true])).file = none ∧
    ((start 3 2 none 0).run (es ++ [.eval 11001 true, .eval 11101 true])).file =
      some (saveText [⟨['a'], 1⟩, noRecipe, ⟨['b'], 2⟩]) := by
  refine ⟨by simp [Forward, time], by decide +kernel, by decide +kernel⟩

/-- C203: the file changes only by being written with what the objects show, and not more often than every ten seconds. -/
theorem C203_writes (n k : Nat) (f : Option Txt) (t : Nat) (es : List Ev) (now : Nat) (ok : Bool) :
    let m := (start n k f t).run es
    ((m.eval now ok).file = m.file ∨ (m.eval now ok).file = some (saveText m.objs) ∧ ok = true ∧ m.tT + 10000 < now ∧ (m.eval now ok).tT = now) ∧
    (m.eval now ok).objs = m.objs := by
  intro m
  refine ⟨?_, rfl⟩
  cases e : (evalAds (decide (interval < now - m.tA)) (decide (interval < now - m.tT)) m.ads).2.2 with
  | false =>
    left
    show (if _ then _ else _) = _
    rw [e]
    rfl
  | true =>
    cases ok with
    | false =>
      left
      show (if _ then _ else _) = _
      rw [e]
      rfl
    | true =>
      right
      have hd : decide (interval < now - m.tT) = true := by
        cases hd : decide (interval < now - m.tT) with
        | true => rfl
        | false =>
          rw [hd] at e
          have : ∀ (dA : Bool) (as : List Ad), (evalAds dA false as).2.2 = false := by
            intro dA as
            induction as with
            | nil => rfl
            | cons a as ih =>
              unfold evalAds
              by_cases c : (a.changed && dA) = true
              · rw [if_pos c]
              · rw [if_neg c, Bool.and_false, if_neg Bool.false_ne_true]
                exact ih
          rw [this] at e
          exact nomatch e
      rw [decide_eq_true_eq] at hd
      have hi : interval = 10000 := rfl
      refine ⟨?_, rfl, by omega, ?_⟩
      · show (if _ then _ else _) = _
        rw [e]
        rfl
      · show (if _ then _ else _) = _
        rw [e]
        rfl

/-- C203 is violated by a file which cannot be opened once: the flag is cleared although nothing was written, and no later evaluation
writes the recipe. -/
theorem C203_not_opened_violated (x : Obj) (hx : x ≠ noRecipe) (es : List Nat) :
    let m := ((start 1 1 none 0).run [.load 0 0 x 0, .eval 10001 false]).run (es.map fun now => .eval now true)
    m.objs = [x] ∧ m.file = none ∧ (start 1 1 m.file 0).objs ≠ m.objs := by
  intro m
  have key : ∀ (es : List Nat) (tT : Nat),
      (⟨[⟨false, false⟩], 0, tT, [x], none⟩ : M).run (es.map fun now => .eval now true) = ⟨[⟨false, false⟩], 0, tT, [x], none⟩ := by
    intro es
    induction es with
    | nil => intro _; rfl
    | cons now es ih =>
      intro tT
      show M.run (M.eval _ now true) _ = _
      have : (⟨[⟨false, false⟩], 0, tT, [x], none⟩ : M).eval now true = ⟨[⟨false, false⟩], 0, tT, [x], none⟩ := rfl
      rw [this]
      exact ih tT
  have e : m = ⟨[⟨false, false⟩], 0, 10001, [x], none⟩ := key es 10001
  rw [e]
  exact ⟨rfl, rfl, fun h => hx (List.cons.inj h).1.symm⟩

/-- C203 is violated by a failure of power in the ten seconds after a loading. -/
theorem C203_early_violated (x : Obj) (hx : x ≠ noRecipe) (a : Nat) (ha : a ≤ 10000) :
    let m := (start 1 1 none 0).run [.load 0 0 x 0, .eval a true]
    m.objs = [x] ∧ (start 1 1 m.file 0).objs = [noRecipe] ∧ m.objs ≠ (start 1 1 m.file 0).objs := by
  intro m
  have hd : decide (interval < a - 0) = false := by
    rw [decide_eq_false_iff_not]
    show ¬ 10000 < _
    omega
  have e : m = ⟨[⟨false, true⟩], 0, 0, [x], none⟩ := by
    show M.eval ⟨[⟨false, true⟩], 0, 0, [x], none⟩ a true = _
    unfold M.eval
    simp only [hd]
    rfl
  rw [e]
  exact ⟨rfl, rfl, fun h => hx (List.cons.inj h).1⟩

/-- C203 is violated by a failure of power during the writing: the file has been emptied, and what was saved before is lost. -/
theorem C203_crash_violated : ∃ (objs : List Obj) (cut : Nat), (∀ o ∈ objs, Good o) ∧
    (start 2 1 (some (saveText objs)) 0).objs = objs ∧
    (start 2 1 (some ((saveText objs).take cut)) 0).objs = [⟨['a'], 1⟩, ⟨[], 0⟩] ∧
    (start 2 1 (some ((saveText objs).take 0)) 0).objs = [noRecipe, noRecipe] :=
  ⟨[⟨['a'], 12⟩, ⟨['b'], 3⟩], 5, by
    intro o ho
    rcases List.mem_cons.mp ho with h | h
    · rw [h]; exact ⟨by decide, by decide, by decide⟩
    · rw [List.mem_singleton.mp h]; exact ⟨by decide, by decide, by decide⟩, by decide +kernel, by decide +kernel, by decide +kernel⟩

/-- C203 is violated when an adapter is changed between evaluations more than ten seconds apart: the recipe is never saved. -/
theorem C203_starved_violated (x : Obj) (hx : x ≠ noRecipe) (r : Nat) :
    let es := (List.range r).flatMap fun i => [Ev.enable 0 (10001 * i), .eval (10001 * (i + 1)) true]
    let m := (start 1 1 none 0).run (.load 0 0 x 0 :: es)
    m.objs = [x] ∧ m.file = none ∧ m.objs ≠ (start 1 1 m.file 0).objs := by
  intro es m
  have e : m = ⟨[⟨false, true⟩], 10001 * r, 0, [x], none⟩ := by
    show M.run ⟨[⟨false, true⟩], 0, 0, [x], none⟩ es = _
    have : ∀ r, M.run ⟨[⟨false, true⟩], 0, 0, [x], none⟩
        ((List.range r).flatMap fun i => [Ev.enable 0 (10001 * i), .eval (10001 * (i + 1)) true]) =
          ⟨[⟨false, true⟩], 10001 * r, 0, [x], none⟩ := by
      intro r
      induction r with
      | zero => rfl
      | succ r ih =>
        rw [List.range_succ, List.flatMap_append]
        unfold M.run at ih ⊢
        rw [List.foldl_append, ih]
        show M.eval ⟨[⟨true, true⟩], 10001 * r, 0, [x], none⟩ (10001 * (r + 1)) true = _
        have hd : decide (interval < 10001 * (r + 1) - 10001 * r) = true := by
          rw [decide_eq_true_eq]
          show 10000 < _
          omega
        unfold M.eval
        simp only [hd]
        rfl
    exact this r
  rw [e]
  exact ⟨rfl, rfl, fun h => hx (List.cons.inj h).1⟩

end Ptusa.RecFile
