import Verif.TechObj.Lemmas2

/-!
# Properties C17–C21, C23 of technological objects
-/
namespace Ptusa.TechObj
open Ptusa.Operation

/-! ## C17: the mode agrees with the state of the operation -/

/-- After any history an operation that is not idle has mode 1. -/
theorem C17_active_has_mode (c : Cfg) (es : List OEv) (m : Nat)
    (h : ((Obj.fresh c).run c es).opState c m ≠ .idle) :
    ((Obj.fresh c).run c es).getMode c m = 1 := by
  unfold Obj.opState at h
  split at h
  · exact absurd rfl h
  · rename_i hm
    have hok := Ok.runEv es (ok_fresh c)
    exact (getMode_one _ _ _).mpr ⟨by omega, by omega, hok.run (m - 1) (by omega) h⟩

/-- After any history `is_idle` is true exactly when every operation has mode 0. -/
theorem C17_is_idle_iff_no_mode (c : Cfg) (es : List OEv) :
    ((Obj.fresh c).run c es).isIdle = true ↔
      ∀ m, ((Obj.fresh c).run c es).getMode c m = 0 := by
  have hok := Ok.runEv es (ok_fresh c)
  generalize (Obj.fresh c).run c es = o at hok
  unfold Obj.isIdle
  rw [List.all_eq_true]
  constructor
  · intro h m
    by_cases hm : 1 ≤ m ∧ m ≤ c.n
    · rw [getMode_eq _ _ _ hm.1 hm.2]
      have hlt : (m - 1) / 32 < o.words.length := by rw [hok.words]; exact idx_lt (by omega)
      have := h (o.words[(m - 1) / 32]) (List.getElem_mem _)
      unfold isOn
      rw [List.getD_eq_getElem?_getD, List.getElem?_eq_getElem hlt, Option.getD_some]
      simp only [decide_eq_true_eq] at this
      rw [this]; simp
    · unfold Obj.getMode; rw [if_pos (by omega)]
  · intro h w hw
    simp only [decide_eq_true_eq]
    obtain ⟨k, hk, rfl⟩ := List.getElem_of_mem hw
    apply BitVec.eq_of_getLsbD_eq
    intro i hi
    have hoff : isOn o.words (32 * k + i) = false := by
      by_cases hn : 32 * k + i < c.n
      · have := h (32 * k + i + 1)
        rw [getMode_eq _ _ _ (by omega) (by omega)] at this
        cases hb : isOn o.words (32 * k + i)
        · rfl
        · rw [show 32 * k + i + 1 - 1 = 32 * k + i by omega, hb] at this
          cases this
      · exact hok.high _ (by omega)
    unfold isOn at hoff
    rw [show (32 * k + i) / 32 = k by omega, show (32 * k + i) % 32 = i by omega,
      List.getD_eq_getElem?_getD, List.getElem?_eq_getElem hk, Option.getD_some] at hoff
    rw [hoff]; simp

/-- In histories where pause and stop commands address only operations that are on, the mode is 1
exactly when the operation is not idle, and what is published agrees.  Missing: other histories, see
`C17_violated_…`. -/
theorem C17_mode_iff_active_partial (c : Cfg) (es : List OEv) (hp : Proper c (Obj.fresh c) es)
    (m : Nat) :
    (((Obj.fresh c).run c es).getMode c m = 1 ↔ ((Obj.fresh c).run c es).opState c m ≠ .idle) ∧
    ((Obj.fresh c).run c es).shownMode c m = ((Obj.fresh c).run c es).getMode c m := by
  have hcon := Con.runEv es (ok_fresh c) (con_fresh c) hp
  have hact := C17_active_has_mode c es m
  generalize (Obj.fresh c).run c es = o at *
  have hiff : o.getMode c m = 1 ↔ o.opState c m ≠ .idle := by
    constructor
    · intro h
      have hv := (getMode_one _ _ _).mp h
      unfold Obj.opState
      rw [if_neg (by omega)]
      exact hcon (m - 1) (by omega) hv.2.2
    · exact hact
  refine ⟨hiff, ?_⟩
  unfold Obj.shownMode
  split
  · rename_i h; exact (hiff.mpr h).symm
  · rename_i h
    rcases getMode_le c o m with h0 | h1
    · exact h0.symm
    · exact absurd (hiff.mp h1) h

/-- In such histories `is_idle` is true exactly when all operations are idle. -/
theorem C17_is_idle_partial (c : Cfg) (es : List OEv) (hp : Proper c (Obj.fresh c) es) :
    ((Obj.fresh c).run c es).isIdle = true ↔
      ∀ m, ((Obj.fresh c).run c es).opState c m = .idle := by
  rw [C17_is_idle_iff_no_mode]
  constructor
  · intro h m
    apply Classical.byContradiction
    intro hc
    have := (C17_mode_iff_active_partial c es hp m).1.mpr hc
    rw [h m] at this; cases this
  · intro h m
    rcases getMode_le c ((Obj.fresh c).run c es) m with h0 | h1
    · exact h0
    · exact absurd (h m) ((C17_mode_iff_active_partial c es hp m).1.mp h1)

/-- A pause command for an idle operation sets its mode while the operation stays idle: `get_mode` is 1
and `is_idle` is false although every operation is idle, and the line `MODES` disagrees. -/
theorem C17_violated_pause_of_idle :
    ∃ (c : Cfg) (es : List OEv),
      (∀ m, ((Obj.fresh c).run c es).opState c m = .idle) ∧
      ((Obj.fresh c).run c es).getMode c 1 = 1 ∧
      ((Obj.fresh c).run c es).isIdle = false ∧
      ((Obj.fresh c).run c es).shownMode c 1 = 0 := by
  refine ⟨{ n := 1 }, [.mode 1 2 {} none], ?_, by decide, by decide, by decide⟩
  intro m
  unfold Obj.opState
  split
  · rfl
  · rename_i h
    have : m = 1 := by simp only [not_or] at h; omega
    subst this; decide

/-- A proper history of an object with 40 operations: the last one is started, paused; the first
is started and switched off. -/
example :
    let c : Cfg := { n := 40 }
    let es : List OEv := [.mode 40 1 {} none, .mode 40 2 {} none, .mode 1 1 {} none, .mode 1 0 {} none]
    Proper c (Obj.fresh c) es ∧ ((Obj.fresh c).run c es).getMode c 40 = 1 ∧
      ((Obj.fresh c).run c es).opState c 40 = .pause ∧
      ((Obj.fresh c).run c es).getMode c 1 = 0 := by
  refine ⟨⟨by decide, by decide, by decide, by decide, trivial⟩, by decide, by decide, by decide⟩

/-! ## C18: restricted operations -/

/-- Switching on is refused, without any change, while an operation of the same or another object
that forbids it is on. -/
theorem C18_forbidden_is_refused (cs : List Cfg) (p : Plant) (hok : PlantOk cs p) (k m l i : Nat)
    (newm : Int) (a : Ans) (hk : 1 ≤ k) (hl : 1 ≤ l) (hkn : k ≤ cs.length)
    (hn2 : newm ≠ 2) (hn3 : newm ≠ 3) (hn0 : newm ≠ 0)
    (hr : a.restrOn = true) (hoff : modeOf cs p k m = 0)
    (hf : forbids cs l i k m = true) (hon : modeOf cs p l i = 1) :
    (p.setMode cs a k m newm).1 = p ∧ (p.setMode cs a k m newm).2 ≠ 0 := by
  have hc : cs[k - 1]? = some cs[k - 1] := List.getElem?_eq_getElem _
  have hp : p[k - 1]? = some (p[k - 1]'(by rw [hok.1]; omega)) := List.getElem?_eq_getElem _
  generalize cs[k - 1] = c at hc
  generalize p[k - 1]'(by rw [hok.1]; omega) = o at hp
  have hset : p.set (k - 1) o = p := by
    apply List.ext_getElem?
    intro j
    rw [List.getElem?_set]
    split
    · rename_i hj
      subst hj
      split
      · exact hp.symm
      · rename_i hlen; exact absurd (by rw [hok.1]; omega) hlen
    · rfl
  have hmode : o.getMode c m = 0 := by
    unfold modeOf at hoff; rw [hc, hp] at hoff; exact hoff
  have hck : o.checkOn c a (search cs p k m) m ≠ 0 ∧ o.checkOn c a (search cs p k m) m > 0 := by
    have hpos : ∀ x : Int, x = o.checkOn c a (search cs p k m) m → (0 < x) := by
      intro x hx
      unfold Obj.checkOn at hx
      simp only [hr, if_true] at hx
      split at hx
      · omega
      · rename_i hnone
        split at hx
        · omega
        · rename_i hs
          exfalso
          unfold forbids at hf
          rw [hc] at hf
          simp only [Bool.or_eq_true, Bool.and_eq_true, decide_eq_true_eq] at hf
          unfold modeOf at hon
          rcases hf with ⟨hlk, hown⟩ | hfor
          · rw [hlk, hc, hp] at hon
            have hv := (getMode_one _ _ _).mp hon
            have := firstOp_none.mp hnone i hv.1 hv.2.1
            simp [hown, hon] at this
          · split at hon
            · rename_i cl ol hcl hol
              exact search_none hs hl hcl hol hc hfor hon
            · cases hon
    have := hpos _ rfl
    exact ⟨by omega, this⟩
  have hres : (o.setMode c a (search cs p k m) m newm).1 = o ∧
      (o.setMode c a (search cs p k m) m newm).2 ≠ 0 := by
    unfold Obj.setMode
    by_cases h0 : m = 0
    · simp [h0]
    rw [if_neg h0]
    by_cases hm : m > c.n
    · simp [hm]
    rw [if_neg hm, if_neg hn2, if_neg hn3]
    simp only [if_neg hn0]
    rw [hmode, if_neg (by simp), if_neg (by simp)]
    split
    · exact ⟨rfl, by show ((m : Int) + 1000) ≠ 0; omega⟩
    · rw [if_neg hck.1]
      exact ⟨rfl, by show o.checkOn c a (search cs p k m) m + 100 ≠ 0; omega⟩
  unfold Plant.setMode
  rw [hc, hp]
  refine ⟨?_, hres.2⟩
  show p.set (k - 1) (o.setMode c a (search cs p k m) m newm).1 = p
  rw [hres.1]; exact hset

/-- With restrictions enabled, two operations (of one or two objects) that forbid each other are never
on together.  Missing: histories with pause or stop commands for operations that are off. -/
theorem C18_never_together_partial (cs : List Cfg) (es : List Ev)
    (hev : ∀ e ∈ es, match e with | .mode k .. => 1 ≤ k | .fail .. => True)
    (hp : ProperAll cs (Plant.fresh cs) es)
    (k m l i : Nat) (hk : 1 ≤ k) (hl : 1 ≤ l) (hne : (k, m) ≠ (l, i))
    (h1 : forbids cs l i k m = true) (h2 : forbids cs k m l i = true) :
    ¬ (modeOf cs ((Plant.fresh cs).run cs es) k m = 1 ∧
       modeOf cs ((Plant.fresh cs).run cs es) l i = 1) := by
  have hfresh : modeOf cs (Plant.fresh cs) k m = 0 := by
    unfold modeOf
    split
    · rename_i c o hc ho
      simp only [Plant.fresh, List.getElem?_map, hc, Option.map_some, Option.some.injEq] at ho
      subst ho
      rcases getMode_le c (Obj.fresh c) m with h | h
      · exact h
      · have := (getMode_one _ _ _).mp h
        exfalso
        have hh := this.2.2
        simp only [isOn, Obj.fresh, List.getD_eq_getElem?_getD, List.getElem?_replicate] at hh
        split at hh <;> simp at hh
    · rfl
  have gen : ∀ (es : List Ev) (p : Plant), PlantOk cs p → ProperAll cs p es →
      (∀ e ∈ es, match e with | .mode k .. => 1 ≤ k | .fail .. => True) →
      ¬ (modeOf cs p k m = 1 ∧ modeOf cs p l i = 1) →
      ¬ (modeOf cs (p.run cs es) k m = 1 ∧ modeOf cs (p.run cs es) l i = 1) := by
    intro es
    induction es with
    | nil => intro p _ _ _ h; exact h
    | cons e es ih =>
      intro p hok hp hev h
      refine ih (p.step cs e) (hok.step e) hp.2
        (fun e' he' => hev e' (List.mem_cons_of_mem _ he')) ?_
      intro ⟨ha, hb⟩
      have hthis := hev e List.mem_cons_self
      cases e with
      | mode k' m' newm a =>
        have hpr := hp.1
        simp only at hpr hthis
        have key : ∀ x y, 1 ≤ x → modeOf cs (p.step cs (.mode k' m' newm a)) x y = 1 →
            modeOf cs p x y = 1 ∨ (x = k' ∧ y = m' ∧ ∀ l' i', 1 ≤ l' →
              forbids cs l' i' k' m' = true → modeOf cs p l' i' ≠ 1) := by
          intro x y hx hxy
          rcases step_comes_on hok k' m' newm a hthis hx hxy with h | ⟨e1, e2, h | h | h⟩
          · exact .inl h
          · left; rw [e1, e2]; exact hpr.2 (.inl h)
          · left; rw [e1, e2]; exact hpr.2 (.inr h)
          · exact .inr ⟨e1, e2, h hpr.1⟩
        rcases key k m hk ha with ha' | ⟨e1, e2, hno⟩
        · rcases key l i hl hb with hb' | ⟨e1, e2, hno⟩
          · exact h ⟨ha', hb'⟩
          · subst e1; subst e2
            exact hno k m hk h2 ha'
        · rcases key l i hl hb with hb' | ⟨e3, e4, _⟩
          · subst e1; subst e2
            exact hno l i hl h1 hb'
          · apply hne
            rw [e1, e2, e3, e4]
      | fail k' m' a =>
        exact h ⟨step_fail_comes_on hok k' m' a ha, step_fail_comes_on hok k' m' a hb⟩
  refine gen es (Plant.fresh cs) (plantOk_fresh cs) hp hev ?_
  intro h
  rw [hfresh] at h
  cases h.1

/-- With restrictions enabled an operation that is off is started although an operation that forbids
it (and that it forbids) is running: after a pause command for the idle operation the next command
"on" takes the path of continuing a paused operation, which checks no restrictions. -/
theorem C18_violated_pause_then_on :
    ∃ (cs : List Cfg) (es : List Ev),
      (∀ e ∈ es, match e with | .mode _ _ _ a => a.restrOn = true | .fail .. => True) ∧
      forbids cs 1 1 1 2 = true ∧ forbids cs 1 2 1 1 = true ∧
      ((Plant.fresh cs).run cs es).map (fun o => o.ops) = [[St.run, St.run]] := by
  refine ⟨[{ n := 2, own := fun x y => decide (x ≠ y) }],
    [.mode 1 1 1 {}, .mode 1 2 2 {}, .mode 1 2 1 {}], ?_, by decide, by decide, by decide⟩
  intro e he
  simp only [List.mem_cons, List.not_mem_nil, or_false] at he
  rcases he with rfl | rfl | rfl <;> rfl

/-- Two objects whose second operations forbid each other: the second request is refused with code
10102 and granted after the first is off. -/
example :
    let c1 : Cfg := { n := 2, foreign := fun m k i => decide (m = 2 ∧ k = 2 ∧ i = 2) }
    let c2 : Cfg := { n := 2, foreign := fun m k i => decide (m = 2 ∧ k = 1 ∧ i = 2) }
    let cs := [c1, c2]
    let p := (Plant.fresh cs).step cs (.mode 1 2 1 {})
    ProperAll cs (Plant.fresh cs) [.mode 1 2 1 {}, .mode 2 2 1 {}, .mode 1 2 0 {}, .mode 2 2 1 {}] ∧
    forbids cs 1 2 2 2 = true ∧ forbids cs 2 2 1 2 = true ∧
    (p.setMode cs {} 2 2 1).2 = 10102 ∧
    modeOf cs (p.run cs [.mode 1 2 0 {}, .mode 2 2 1 {}]) 2 2 = 1 := by
  refine ⟨⟨⟨rfl, by decide⟩, ⟨rfl, by decide⟩, ⟨rfl, by decide⟩, ⟨rfl, by decide⟩, trivial⟩,
    by decide, by decide, by decide, by decide⟩

/-! ## C19: refused commands -/

/-- A command is refused exactly for the reasons of `refusal`; then nothing changes and the code of
the reason is returned.  Otherwise the code is 0 or the (negative) result of the user check of
switching off. -/
theorem C19_refused_changes_nothing (c : Cfg) (a : Ans) (ext : Option Nat) (m : Nat) (newm : Int)
    (o : Obj) :
    match refusal c a ext m newm (fun i => decide (o.getMode c i = 1))
        (decide (o.opState c m = .run)) with
    | some r => (o.setMode c a ext m newm).1 = o ∧ (o.setMode c a ext m newm).2 = r.code m
    | none => (o.setMode c a ext m newm).2 ≤ 0 := by
  unfold refusal Obj.setMode
  by_cases h0 : m = 0
  · simp [h0, Reason.code]
  by_cases hn : c.n < m
  · simp [h0, hn, Reason.code]
  simp only [h0, hn, if_false]
  by_cases h2 : newm = 2
  · by_cases hc : a.pauseChk = 0
    · simp [h2, hc]
    · simp [h2, hc, Reason.code, Int.add_comm]
  by_cases h3 : newm = 3
  · by_cases hc : a.stopChk = 0
    · simp [h3, hc]
    · simp [h3, hc, Reason.code, Int.add_comm]
  simp only [h2, h3, if_false]
  by_cases hz : newm = 0
  · rcases getMode_le c o m with hg | hg
    · simp [hz, hg, Reason.code]
    · by_cases hc : a.offChk ≤ 0
      · simp [hz, hg, hc]
      · simp [hz, hg, hc, Reason.code, Int.add_comm]
  simp only [if_neg hz]
  rcases getMode_le c o m with hg | hg
  · simp only [hg, Nat.zero_ne_one, decide_false, Bool.false_eq_true, if_false, Nat.one_ne_zero]
    by_cases hd : a.devErr = true ∧ a.checkMode = 1
    · simp [hd, Reason.code, Int.add_comm]
    simp only [hd, if_false]
    have hpred : (fun i => c.own m i && o.getMode c i == 1) =
        fun i => c.own m i && decide (o.getMode c i = 1) := by
      funext i
      by_cases h : o.getMode c i = 1 <;> simp [h]
    unfold Obj.checkOn Obj.firstOp
    rw [hpred]
    have rest : ∀ x : Int, x = (if a.runChk ≠ 0 then 1000 + (a.runChk : Int) else a.luaOn) →
        match (if a.runChk ≠ 0 then some (Reason.stepsCheck a.runChk)
          else if a.luaOn ≠ 0 then some (Reason.userCheck a.luaOn) else none) with
        | some r => x ≠ 0 ∧ x + 100 = r.code m
        | none => x = 0 := by
      intro x hx
      subst hx
      by_cases hr : a.runChk = 0
      · by_cases hl : a.luaOn = 0
        · simp [hr, hl]
        · simp [hr, hl, Reason.code, Int.add_comm]
      · simp only [ne_eq, hr, not_false_eq_true, if_true, Reason.code]
        omega
    have fin : ∀ (x : Int) (q : Option Reason) (o1 : Obj),
        (match q with
        | some r => x ≠ 0 ∧ x + 100 = r.code m
        | none => x = 0) →
        match q with
        | some r => (if x = 0 then (o1, (0 : Int)) else (o, x + 100)).1 = o ∧
            (if x = 0 then (o1, (0 : Int)) else (o, x + 100)).2 = r.code m
        | none => (if x = 0 then (o1, (0 : Int)) else (o, x + 100)).2 ≤ 0 := by
      intro x q o1 h
      cases q with
      | none => simp only at h ⊢; simp [h]
      | some r => simp only at h ⊢; simp [h.1, h.2]
    apply fin
    cases hro : a.restrOn
    · simp only [Bool.false_eq_true, if_false]
      exact rest _ rfl
    · simp only [if_true]
      cases hf : List.find? (fun i => c.own m i && decide (o.getMode c i = 1))
          ((List.range c.n).map (· + 1)) with
      | some i => simp only [Reason.code]; omega
      | none =>
        cases ext with
        | some i => simp only [Reason.code]; omega
        | none => exact rest _ rfl
  · simp only [hg, decide_true, if_true]
    by_cases hr : o.opState c m = .run
    · simp [hr, Reason.code]
    · by_cases hc : a.startChk = 0
      · simp [hr, hc]
      · simp [hr, hc, Reason.code, Int.add_comm]

/-- A positive result means that nothing has changed. -/
theorem C19_positive_code_means_refused (c : Cfg) (a : Ans) (ext : Option Nat) (m : Nat) (newm : Int)
    (o : Obj) (h : 0 < (o.setMode c a ext m newm).2) : (o.setMode c a ext m newm).1 = o := by
  have := C19_refused_changes_nothing c a ext m newm o
  split at this
  · exact this.1
  · omega

/-- Results of the user checks in the range in which codes are told apart. -/
def Documented (n : Nat) : Reason → Prop
  | .pauseCheck r | .stopCheck r | .startCheck r | .offCheck r | .userCheck r => 0 < r ∧ r < 100
  | .restrictedBy i => 1 ≤ i ∧ i ≤ n
  | .restrictedByOther i => 1 ≤ i
  | .stepsCheck _ => False
  | _ => True

/-- If the user checks answer 0 to 99, no step check is involved and operation numbers stay below 100,
the code is 0 exactly for a performed command, and the code of a refused command tells the reason
(which check, which forbidding operation).  Missing: the other results, see `C19_violated_…`. -/
theorem C19_code_tells_reason_partial (m : Nat) (newm : Int) (hm : m < 100)
    (c c' : Cfg) (a a' : Ans) (ext ext' : Option Nat) (on on' : Nat → Bool) (run run' : Bool)
    (hc : c.n < 100) (hc' : c'.n < 100) (r r' : Reason)
    (h : refusal c a ext m newm on run = some r) (h' : refusal c' a' ext' m newm on' run' = some r')
    (hd : Documented c.n r) (hd' : Documented c'.n r') (hcode : r.code m = r'.code m) :
    r = r' ∧ 0 < r.code m := by
  have k1 := fun x => refusal_off_kind c a ext m newm on run x
  have k2 := fun x => refusal_user_kind c a ext m newm on run x
  have k3 := fun x => refusal_off_kind c' a' ext' m newm on' run' x
  have k4 := fun x => refusal_user_kind c' a' ext' m newm on' run' x
  cases r <;> cases r' <;> simp only [Documented, Reason.code] at hd hd' hcode ⊢ <;>
    first
    | exact ⟨rfl, by omega⟩
    | exact ⟨trivial, by omega⟩
    | exact ⟨trivial, by decide⟩
    | (exfalso; omega)
    | (refine ⟨?_, by omega⟩; congr 1; omega)
    | exact absurd (k1 _ h) (k4 _ h')
    | exact absurd (k3 _ h') (k2 _ h)

/-- The user check of switching off may answer a negative number: the operation is switched off, yet
the returned code is not 0 (and `CMD` shows it as an error). -/
theorem C19_violated_off_with_negative_check :
    ∃ (c : Cfg) (a : Ans) (o : Obj), o.getMode c 1 = 1 ∧
      (o.setMode c a none 1 0).1.getMode c 1 = 0 ∧ (o.setMode c a none 1 0).2 ≠ 0 :=
  ⟨{ n := 1 }, { offChk := -1 }, ((Obj.fresh { n := 1 }).setMode { n := 1 } {} none 1 1).1,
    by decide, by decide, by decide⟩

/-- A refused command may return 0: a pause check answering -200. -/
theorem C19_violated_refused_with_code_zero :
    ∃ (c : Cfg) (a : Ans) (o : Obj), refusal c a none 1 2 (fun i => decide (o.getMode c i = 1))
      (decide (o.opState c 1 = .run)) ≠ none ∧ (o.setMode c a none 1 2).1 = o ∧
      o.opState c 1 = .run ∧ (o.setMode c a none 1 2).2 = 0 :=
  ⟨{ n := 1 }, { pauseChk := -200 }, ((Obj.fresh { n := 1 }).setMode { n := 1 } {} none 1 1).1,
    by decide, by decide, by decide, by decide⟩

/-- One code for two reasons: 1101 means both "operation 1 forbids it" and "a step check refuses
with 1". -/
theorem C19_violated_same_code :
    ∃ (c : Cfg) (a a' : Ans) (o o' : Obj),
      refusal c a none 2 1 (fun i => decide (o.getMode c i = 1)) (decide (o.opState c 2 = .run)) =
        some (.restrictedBy 1) ∧
      refusal c a' none 2 1 (fun i => decide (o'.getMode c i = 1)) (decide (o'.opState c 2 = .run)) =
        some (.stepsCheck 1) ∧
      (o.setMode c a none 2 1).2 = (o'.setMode c a' none 2 1).2 :=
  let c : Cfg := { n := 2, own := fun m i => decide (m = 2 ∧ i = 1) }
  ⟨c, {}, { runChk := 1 }, ((Obj.fresh c).setMode c {} none 1 1).1, Obj.fresh c,
    by decide, by decide, by decide⟩

/-- A refusal by a restriction and a refusal by the user check. -/
example :
    let c : Cfg := { n := 2, own := fun m i => decide (m = 2 ∧ i = 1) }
    let o := ((Obj.fresh c).setMode c {} none 1 1).1
    (o.setMode c {} none 2 1) = (o, 1101) ∧
    ((Obj.fresh c).setMode c { luaOn := 7 } none 2 1) = (Obj.fresh c, 107) ∧
    Documented 2 (.restrictedBy 1) ∧ Documented 2 (.userCheck 7) := by
  refine ⟨by decide, by decide, ?_, ?_⟩ <;> simp [Documented]

/-! ## C20: the bit mask -/

/-- A command for operation `m` leaves the mode of every other operation as it was, for any number of
operations and in any state reached by a history. -/
theorem C20_other_operations_keep_mode (c : Cfg) (es : List OEv) (m : Nat) (newm : Int) (a : Ans)
    (ext : Option Nat) (j : Nat) (hj : j ≠ m) :
    (((Obj.fresh c).run c es).setMode c a ext m newm).1.getMode c j =
      ((Obj.fresh c).run c es).getMode c j := by
  have hok := Ok.runEv es (ok_fresh c)
  generalize (Obj.fresh c).run c es = o at hok
  have hnest : ∀ (b o1 : Obj), Ok c o1 → 1 ≤ m → m ≤ c.n →
      (Obj.nested c a m b o1).getMode c j = o1.getMode c j := by
    intro b o1 hok1 h1 h2
    unfold Obj.nested
    split
    · rw [getMode_clearBit hok1 h1 h2 rfl, if_neg hj]
    · rfl
  rcases setMode_cases c a ext m newm o with e | ⟨h1, h2, ⟨hn, e⟩ | ⟨hn, e⟩ | ⟨_, _, hon, e⟩ |
    ⟨_, hon, e⟩ | ⟨_, _, _, _, hck, e⟩⟩
  · rw [e]
  · have hlt : (m - 1) / 32 < o.words.length := by rw [hok.words]; exact idx_lt (by omega)
    rw [e, hnest _ _ ((hok.on h1 h2).move .pause h1 h2 (by rw [isOn_setBit _ _ _ hlt]; simp)) h1 h2,
      getMode_setBit hok h1 h2 rfl, if_neg hj]
  · have hlt : (m - 1) / 32 < o.words.length := by rw [hok.words]; exact idx_lt (by omega)
    rw [e, hnest _ _ ((hok.on h1 h2).move .stop h1 h2 (by rw [isOn_setBit _ _ _ hlt]; simp)) h1 h2,
      getMode_setBit hok h1 h2 rfl, if_neg hj]
  · rw [e, hnest _ _ (hok.move .start h1 h2 hon) h1 h2]
    exact getMode_congr rfl j
  · rw [e, getMode_clearBit hok h1 h2 rfl, if_neg hj]
  · rw [e, getMode_setBit hok h1 h2 rfl, if_neg hj]

/-- A successful "on" makes the mode of `m` 1 and a successful "off" makes it 0 (when the operation does
not switch itself off at once). -/
theorem C20_addressed_operation_changes (c : Cfg) (es : List OEv) (m : Nat) (newm : Int) (a : Ans)
    (ext : Option Nat) (hn2 : newm ≠ 2) (hn3 : newm ≠ 3) (hreq : a.offReq = false)
    (h : refusal c a ext m newm (fun i => decide (((Obj.fresh c).run c es).getMode c i = 1))
      (decide (((Obj.fresh c).run c es).opState c m = .run)) = none) :
    (((Obj.fresh c).run c es).setMode c a ext m newm).1.getMode c m = if newm = 0 then 0 else 1 := by
  have hok := Ok.runEv es (ok_fresh c)
  generalize (Obj.fresh c).run c es = o at hok h
  by_cases h0 : m = 0
  · simp [refusal, h0] at h
  by_cases hn : c.n < m
  · simp [refusal, h0, hn] at h
  have h1 : 1 ≤ m := by omega
  have h2 : m ≤ c.n := by omega
  by_cases hz : newm = 0
  · subst hz
    rw [if_pos rfl]
    simp only [refusal, h0, hn, if_false, hn2, hn3, if_true] at h
    rcases getMode_le c o m with hg | hg
    · simp [hg] at h
    · simp only [hg, decide_true, if_true] at h
      have hc : a.offChk ≤ 0 := by
        apply Classical.byContradiction; intro hc; rw [if_neg hc] at h; cases h
      have e : (o.setMode c a ext m 0).1 = o.switchOff c m := by
        unfold Obj.setMode
        simp [h0, hn, hg, hc]
      rw [e, getMode_clearBit hok h1 h2 rfl, if_pos rfl]
  · rw [if_neg hz]
    rcases getMode_le c o m with hg | hg
    · have hthis := C19_refused_changes_nothing c a ext m newm o
      rw [h] at hthis
      have hnd : ¬ (a.devErr = true ∧ a.checkMode = 1) := by
        intro hd
        simp [refusal, h0, hn, hn2, hn3, hz, hg, hd] at h
      have hck : o.checkOn c a ext m = 0 := by
        apply Classical.byContradiction
        intro hck
        have e : (o.setMode c a ext m newm).2 = o.checkOn c a ext m + 100 := by
          unfold Obj.setMode
          simp [h0, hn, hn2, hn3, hz, hg, hck, hnd]
        simp only [refusal, h0, hn, hn2, hn3, hz, hg, hnd, if_false, Nat.zero_ne_one, decide_false,
          Bool.false_eq_true] at h
        apply hck
        unfold Obj.checkOn Obj.firstOp
        have hpred : (fun i => c.own m i && o.getMode c i == 1) =
            fun i => c.own m i && decide (o.getMode c i = 1) := by
          funext i
          by_cases h : o.getMode c i = 1 <;> simp [h]
        rw [hpred]
        have rest : (if a.runChk ≠ 0 then some (Reason.stepsCheck a.runChk)
            else if a.luaOn ≠ 0 then some (Reason.userCheck a.luaOn) else none) = none →
            (if a.runChk ≠ 0 then 1000 + (a.runChk : Int) else a.luaOn) = 0 := by
          intro h
          by_cases hr : a.runChk = 0
          · by_cases hl : a.luaOn = 0
            · simp [hr, hl]
            · simp [hr, hl] at h
          · simp [hr] at h
        cases hro : a.restrOn
        · rw [hro] at h
          exact rest h
        · rw [hro] at h
          simp only [if_true] at h ⊢
          cases hf : List.find? (fun i => c.own m i && decide (o.getMode c i = 1))
              ((List.range c.n).map (· + 1)) with
          | some i => rw [hf] at h; cases h
          | none =>
            rw [hf] at h
            cases ext with
            | some i => cases h
            | none => exact rest h
      have e : (o.setMode c a ext m newm).1 = { (o.move c .start m).initMode c m with
          words := setBit ((o.move c .start m).initMode c m).words (m - 1) } := by
        unfold Obj.setMode
        simp [h0, hn, hn2, hn3, hz, hg, hck, hnd]
      rw [e, getMode_setBit hok h1 h2 rfl, if_pos rfl]
    · have hon := ((getMode_one c o m).mp hg).2.2
      rcases setMode_cases c a ext m newm o with e | ⟨_, _, ⟨hx, _⟩ | ⟨hx, _⟩ | ⟨_, _, _, e⟩ |
        ⟨hx, _, _⟩ | ⟨_, _, _, hoff, _, _⟩⟩
      · rw [e]; exact hg
      · exact absurd hx hn2
      · exact absurd hx hn3
      · rw [e]
        unfold Obj.nested
        rw [if_neg (by simp [hreq])]
        rw [getMode_congr (words_move c .start m o)]; exact hg
      · exact absurd hx hz
      · rw [hon] at hoff; cases hoff

/-- Operations 33 and 65 of 70 share the bit position of operation 1. -/
example :
    let c : Cfg := { n := 70 }
    let o := (Obj.fresh c).run c [.mode 33 1 {} none, .mode 65 1 {} none, .mode 1 1 {} none,
      .mode 33 0 {} none]
    o.getMode c 1 = 1 ∧ o.getMode c 33 = 0 ∧ o.getMode c 65 = 1 ∧ o.getMode c 64 = 0 := by
  decide

/-! ## C21: numeric commands -/

/-- The codes written by the operator station. -/
def encode : Action → Option Int
  | .mode op 1 => some (1000 + op)
  | .mode op 0 => some (2000 + op)
  | .state op s => some (100000 + 100 * op + s)
  | .extra op st true => some (200000 + 100 * op + st)
  | .extra op st false => some (300000 + 100 * op + st)
  | _ => none

/-- Commands that have a code: operation numbers below 1000 (for switching on and off up to one more than
the number of operations), states and steps below 100. -/
def Encodable (count : Nat) : Action → Prop
  | .mode op s => op < 1000 ∧ op ≤ count + 1 ∧ s < 2
  | .state op s => op < 1000 ∧ s < 100
  | .extra op st _ => op < 1000 ∧ st < 100
  | _ => False

/-- The number of a command is decoded to that command. -/
theorem C21_decode_encode (count : Nat) (act : Action) (h : Encodable count act) :
    ∃ v : Int, encode act = some v ∧ decode count false v = act := by
  cases act with
  | clear => exact absurd h (by simp [Encodable])
  | user n => exact absurd h (by simp [Encodable])
  | reject => exact absurd h (by simp [Encodable])
  | mode op s =>
    obtain ⟨h1, h2, h3⟩ := h
    have : s = 0 ∨ s = 1 := by omega
    rcases this with rfl | rfl
    · refine ⟨((2000 + op : Nat) : Int), by simp [encode], ?_⟩
      rw [decode_nat _ _ (by omega)]
      unfold decodeN
      rw [if_neg (by omega), if_neg (by omega), if_neg (by omega),
        if_pos (by omega), if_neg (by omega)]
      rw [show 2000 + op - 2000 = op by omega]
    · refine ⟨((1000 + op : Nat) : Int), by simp [encode], ?_⟩
      rw [decode_nat _ _ (by omega)]
      unfold decodeN
      rw [if_neg (by omega), if_neg (by omega), if_pos (by omega), if_neg (by omega)]
      rw [show 1000 + op - 1000 = op by omega]
  | state op s =>
    obtain ⟨h1, h2⟩ := h
    refine ⟨((100000 + 100 * op + s : Nat) : Int), by simp [encode], ?_⟩
    rw [decode_nat _ _ (by omega)]
    unfold decodeN
    rw [if_neg (by omega), if_neg (by omega), if_neg (by omega),
      if_neg (by omega), if_pos (by omega), show (100000 + 100 * op + s) / 100 - 1000 = op by omega,
      show (100000 + 100 * op + s) % 100 = s by omega]
  | extra op st on =>
    obtain ⟨h1, h2⟩ := h
    cases on
    · refine ⟨((300000 + 100 * op + st : Nat) : Int), by simp [encode], ?_⟩
      rw [decode_nat _ _ (by omega)]
      unfold decodeN
      rw [if_neg (by omega), if_pos (by omega),
        show (300000 + 100 * op + st) / 100 - 3000 = op by omega,
        show (300000 + 100 * op + st) % 100 = st by omega]
    · refine ⟨((200000 + 100 * op + st : Nat) : Int), by simp [encode], ?_⟩
      rw [decode_nat _ _ (by omega)]
      unfold decodeN
      rw [if_pos (by omega), show (200000 + 100 * op + st) / 100 - 2000 = op by omega,
        show (200000 + 100 * op + st) % 100 = st by omega]

/-- Every other 32-bit number is rejected, unless it is in the ranges of switching on and off with
an operation number beyond the operations (user command). -/
theorem C21_others_rejected (count : Nat) (v : Int) (hlo : -2 ^ 31 ≤ v) (hhi : v < 2 ^ 31)
    (h : ∀ act, Encodable count act → encode act ≠ some v)
    (hu : ¬ ((1000 + (count : Int) + 1 < v ∧ v < 2000) ∨ (2000 + (count : Int) + 1 < v ∧ v < 3000))) :
    decode count false v = .reject := by
  rw [decode_eq]
  by_cases hneg : v < 0
  · have e : (BitVec.ofInt 32 v).toNat = (v + 2 ^ 32).toNat := by
      rw [BitVec.toNat_ofInt]
      congr 1
      omega
    rw [e]
    unfold decodeN
    rw [if_neg (by omega), if_neg (by omega), if_neg (by omega),
      if_neg (by omega), if_neg (by omega)]
  · obtain ⟨n, rfl⟩ := Int.eq_ofNat_of_zero_le (Int.not_lt.mp hneg)
    rw [← decode_eq, decode_nat _ _ (by omega)]
    have hon := h (.mode (n - 1000) 1)
    have hoff := h (.mode (n - 2000) 0)
    have hst := h (.state (n / 100 - 1000) (n % 100))
    have he1 := h (.extra (n / 100 - 2000) (n % 100) true)
    have he2 := h (.extra (n / 100 - 3000) (n % 100) false)
    simp only [Encodable, encode, ne_eq, Option.some.injEq] at hon hoff hst he1 he2
    unfold decodeN
    rw [if_neg (by omega), if_neg (by omega), if_neg (by omega),
      if_neg (by omega), if_neg (by omega)]

/-- No two numbers are decoded to the same command (other than a user command or a rejection). -/
theorem C21_unambiguous (count : Nat) (v w : Int) (hv : -2 ^ 31 ≤ v ∧ v < 2 ^ 31)
    (hw : -2 ^ 31 ≤ w ∧ w < 2 ^ 31) (h : decode count false v = decode count false w)
    (hr : decode count false v ≠ .reject) (hu : ∀ n, decode count false v ≠ .user n) : v = w := by
  have inj : (BitVec.ofInt 32 v).toNat = (BitVec.ofInt 32 w).toNat → v = w := by
    simp only [BitVec.toNat_ofInt]
    omega
  apply inj
  rw [decode_eq] at h hr hu
  rw [decode_eq] at h
  have i1 := decodeN_inv count (BitVec.ofInt 32 v).toNat
  have i2 := decodeN_inv count (BitVec.ofInt 32 w).toNat
  rw [← h] at i2
  cases hd : decodeN count (BitVec.ofInt 32 v).toNat with
  | clear => rw [hd] at i1; exact i1.elim
  | reject => exact absurd hd hr
  | user n => exact absurd hd (hu n)
  | mode op s => rw [hd] at i1 i2; simp only at i1 i2; omega
  | state op s => rw [hd] at i1 i2; simp only at i1 i2; omega
  | extra op st on => rw [hd] at i1 i2; cases on <;> simp only at i1 i2 <;> omega

/-- "Switch on" and "switch off" with a number beyond the operations are one and the same user command:
the numbers 1000 + n and 2000 + n cannot be told apart. -/
theorem C21_violated_user_command :
    ∃ (count : Nat) (v w : Int), v ≠ w ∧ decode count false v = decode count false w ∧
      decode count false v ≠ .reject :=
  ⟨5, 1050, 2050, by decide, by decide, by decide⟩

example : decode 12 false 1012 = .mode 12 1 ∧ decode 12 false 2012 = .mode 12 0 ∧
    decode 12 false 101203 = .state 12 3 ∧ decode 12 false 201299 = .extra 12 99 true ∧
    decode 12 false 399999 = .extra 999 99 false ∧ decode 12 false 400000 = .reject ∧
    decode 12 false 999 = .reject ∧ decode 12 false (-1) = .reject := by decide

/-! ## C23: availability -/

/-- In histories where pause and stop commands address only operations that are on, the published
availability of operation `i` is "not available" exactly when an operation that is on forbids it, or
an operation that has been switched off since the last switching on forbids it as a successor.
Missing: other histories, see `C23_violated_…`. -/
theorem C23_availability_partial (c : Cfg) (hn : c.n < 2 ^ 31) (es : List OEv)
    (hp : Proper c (Obj.fresh c) es) (i : Nat) (h1 : 1 ≤ i) (h2 : i ≤ c.n) :
    ((Obj.fresh c).run c es).shownAvail i = 0 ↔
      (∃ j, j ≠ i ∧ c.own i j = true ∧ ((Obj.fresh c).run c es).getMode c j = 1) ∨
      (∃ j ∈ finishedRun c (Obj.fresh c) es [], c.succ j i = true) := by
  have h := avail_run es (ok_fresh c) (availInv_fresh c) ⟨List.nodup_nil, by simp⟩ hp
  generalize (Obj.fresh c).run c es = o at h ⊢
  generalize finishedRun c (Obj.fresh c) es [] = f at h ⊢
  obtain ⟨hav, hfin⟩ := h
  have hi := hav (i - 1) (by omega)
  rw [show i - 1 + 1 = i by omega] at hi
  have hb : blockers c o i ≤ c.n := by
    unfold blockers
    refine Nat.le_trans List.countP_le_length ?_
    simp
  have hf : (f.countP fun x => c.succ x i) ≤ c.n := by
    refine Nat.le_trans List.countP_le_length ?_
    have hsub : f ⊆ allOps c := fun x hx => mem_allOps.mpr ⟨(hfin.2 x hx).1, (hfin.2 x hx).2.1⟩
    have := hfin.1.length_le_of_subset hsub
    simpa [allOps] using this
  unfold Obj.shownAvail
  rw [List.getD_eq_getElem?_getD, hi, Option.getD_some]
  have hz : BitVec.ofNat 32 (blockers c o i + f.countP fun x => c.succ x i) = 0 ↔
      blockers c o i = 0 ∧ (f.countP fun x => c.succ x i) = 0 := by
    constructor
    · intro h
      have := congrArg BitVec.toNat h
      simp only [BitVec.toNat_ofNat, BitVec.ofNat_eq_ofNat] at this
      omega
    · intro ⟨e1, e2⟩
      rw [e1, e2]; rfl
  have hb0 : blockers c o i = 0 ↔ ¬ ∃ j, j ≠ i ∧ c.own i j = true ∧ o.getMode c j = 1 := by
    unfold blockers
    rw [List.countP_eq_zero]
    constructor
    · rintro h ⟨j, hj, ho, hg⟩
      have hv := (getMode_one _ _ _).mp hg
      have := h j (mem_allOps.mpr ⟨hv.1, hv.2.1⟩)
      simp [hj, ho, hg] at this
    · intro h j _ hc
      apply h
      simp only [ne_eq, Bool.and_eq_true, decide_eq_true_eq] at hc
      exact ⟨j, hc.1.1, hc.1.2, hc.2⟩
  have hf0 : (f.countP fun x => c.succ x i) = 0 ↔ ¬ ∃ j ∈ f, c.succ j i = true := by
    rw [List.countP_eq_zero]
    constructor
    · rintro h ⟨j, hj, hs⟩; exact h j hj hs
    · intro h j hj hs; exact h ⟨j, hj, hs⟩
  constructor
  · intro h
    apply Classical.byContradiction
    intro hc
    rw [if_pos (hz.mpr ⟨hb0.mpr fun e => hc (.inl e), hf0.mpr fun e => hc (.inr e)⟩)] at h
    cases h
  · intro h
    rw [if_neg]
    intro hc
    have := hz.mp hc
    rcases h with h | h
    · exact hb0.mp this.1 h
    · exact hf0.mp this.2 h

/-- The counter of operation `i` is the number of the reasons; it does not wrap. -/
theorem C23_counter_partial (c : Cfg) (hn : c.n < 2 ^ 31) (es : List OEv)
    (hp : Proper c (Obj.fresh c) es) (i : Nat) (h1 : 1 ≤ i) (h2 : i ≤ c.n) :
    (((Obj.fresh c).run c es).avail.getD (i - 1) 0).toNat =
      blockers c ((Obj.fresh c).run c es) i +
        ((finishedRun c (Obj.fresh c) es []).filter fun j => c.succ j i).length := by
  have h := avail_run es (ok_fresh c) (availInv_fresh c) ⟨List.nodup_nil, by simp⟩ hp
  generalize (Obj.fresh c).run c es = o at h ⊢
  generalize finishedRun c (Obj.fresh c) es [] = f at h ⊢
  obtain ⟨hav, hfin⟩ := h
  have hi := hav (i - 1) (by omega)
  rw [show i - 1 + 1 = i by omega] at hi
  have hb : blockers c o i ≤ c.n := by
    unfold blockers
    refine Nat.le_trans List.countP_le_length ?_
    simp
  have hf : (f.countP fun x => c.succ x i) ≤ c.n := by
    refine Nat.le_trans List.countP_le_length ?_
    have hsub : f ⊆ allOps c := fun x hx => mem_allOps.mpr ⟨(hfin.2 x hx).1, (hfin.2 x hx).2.1⟩
    have := hfin.1.length_le_of_subset hsub
    simpa [allOps] using this
  rw [List.getD_eq_getElem?_getD, hi, Option.getD_some, BitVec.toNat_ofNat,
    ← List.countP_eq_length_filter]
  omega

/-- A pause of an idle operation followed by "off" takes one from a counter that was never
incremented: it wraps, and an operation that nothing forbids is shown as not available. -/
theorem C23_violated_counter_wraps :
    ∃ (c : Cfg) (es : List OEv),
      (∀ m, ((Obj.fresh c).run c es).getMode c m = 0) ∧ (∀ m i, c.succ m i = false) ∧
      ((Obj.fresh c).run c es).avail.getD 1 0 = 4294967295#32 ∧
      ((Obj.fresh c).run c es).shownAvail 2 = 0 := by
  refine ⟨{ n := 2, own := fun i j => decide (i = 2 ∧ j = 1) },
    [.mode 1 2 {} none, .mode 1 0 {} none], ?_, fun _ _ => rfl, by decide, by decide⟩
  intro m
  by_cases h : m = 1 ∨ m = 2
  · rcases h with rfl | rfl <;> decide
  · unfold Obj.getMode
    rw [if_pos]
    simp only [not_or] at h
    show m > 2 ∨ m = 0
    omega

/-- Operation 1 forbids 2; operation 3, once finished, forbids 2 as a successor. -/
example :
    let c : Cfg := { n := 3, own := fun i j => decide (i = 2 ∧ j = 1),
                     succ := fun j i => decide (j = 3 ∧ i = 2) }
    let es : List OEv := [.mode 3 1 {} none, .mode 1 1 {} none, .mode 1 0 {} none, .mode 3 0 {} none]
    Proper c (Obj.fresh c) es ∧
    ((Obj.fresh c).run c (es.take 2)).shownAvail 2 = 0 ∧
    ((Obj.fresh c).run c (es.take 3)).shownAvail 2 = 1 ∧
    ((Obj.fresh c).run c es).shownAvail 2 = 0 ∧
    finishedRun c (Obj.fresh c) es [] = [1, 3] := by
  refine ⟨⟨by decide, by decide, by decide, by decide, trivial⟩, by decide, by decide, by decide,
    by decide⟩

end Ptusa.TechObj
