import Verif.Guard.Spec
import Verif.Operation.Props

namespace Ptusa.Guard

open Operation (St SCfg Env Op Ev OpState Quiet diagram)
open Actions (TimeErr checkMaxStepTime)

/-! ## The checks of the devices -/

theorem mem_faults (w : Nat → Dev) (a : Act) (d : Nat) :
    d ∈ a.faults w ↔ Fault w d ∧ a.isPlain ∧ a.owns d := by
  cases a with
  | plain g =>
    simp only [Act.faults, Act.devices, Act.isPlain, Act.owns, Fault, List.mem_filter, List.mem_flatten,
      Bool.and_eq_true, decide_eq_true_eq, Bool.not_eq_true', true_and]
    constructor
    · rintro ⟨⟨y, ⟨x, hx, hy⟩, hd⟩, hf⟩; exact ⟨hf, x, hx, y, hy, hd⟩
    · rintro ⟨hf, x, hx, y, hy, hd⟩; exact ⟨⟨y, ⟨x, hx, hy⟩, hd⟩, hf⟩
  | seats u l => simp [Act.faults, Act.devices, Act.isPlain]

theorem stepFaults_none {w : Nat → Dev} {l : List Act} : stepFaults w l = none ↔ ∀ d, ¬ FaultyPlain w l d := by
  induction l with
  | nil => simp [stepFaults, FaultyPlain]
  | cons a l ih =>
    unfold stepFaults
    by_cases h : a.faults w = []
    · rw [if_pos h, ih]
      constructor
      · rintro hl d ⟨hf, b, hb, hp, ho⟩
        rcases List.mem_cons.mp hb with rfl | hb
        · have := (mem_faults w b d).mpr ⟨hf, hp, ho⟩
          rw [h] at this; cases this
        · exact hl d ⟨hf, b, hb, hp, ho⟩
      · rintro hl d ⟨hf, b, hb, hp, ho⟩
        exact hl d ⟨hf, b, List.mem_cons_of_mem _ hb, hp, ho⟩
    · rw [if_neg h]
      simp only [reduceCtorEq, false_iff, not_forall, not_not]
      obtain ⟨d, hd⟩ := List.exists_mem_of_ne_nil _ h
      obtain ⟨hf, hp, ho⟩ := (mem_faults w a d).mp hd
      exact ⟨d, hf, a, List.mem_cons_self, hp, ho⟩

theorem stepFaults_some {w : Nat → Dev} {l : List Act} {f : List Nat} (h : stepFaults w l = some f) :
    f ≠ [] ∧ ∃ a ∈ l, ∀ d, d ∈ f ↔ Fault w d ∧ a.isPlain ∧ a.owns d := by
  induction l with
  | nil => cases h
  | cons a l ih =>
    unfold stepFaults at h
    by_cases ha : a.faults w = []
    · rw [if_pos ha] at h
      obtain ⟨h1, b, hb, h2⟩ := ih h
      exact ⟨h1, b, List.mem_cons_of_mem _ hb, h2⟩
    · rw [if_neg ha] at h
      cases h
      exact ⟨ha, a, List.mem_cons_self, mem_faults w a⟩

theorem faultyPlain_append {w : Nat → Dev} {l m : List Act} {d : Nat} :
    FaultyPlain w (l ++ m) d ↔ FaultyPlain w l d ∨ FaultyPlain w m d := by
  simp only [FaultyPlain, List.mem_append]
  constructor
  · rintro ⟨hf, a, ha | ha, h⟩
    · exact .inl ⟨hf, a, ha, h⟩
    · exact .inr ⟨hf, a, ha, h⟩
  · rintro (⟨hf, a, ha, h⟩ | ⟨hf, a, ha, h⟩)
    · exact ⟨hf, a, .inl ha, h⟩
    · exact ⟨hf, a, .inr ha, h⟩

theorem faults_none {c : Cfg} {w : Nat → Dev} {r : OpState} (hm : ∀ m, r.main = some m → m < (c.sc .run).steps) :
    faults c w r = none ↔ ∀ d, ¬ FaultyPlain w (mainActs c r) d := by
  unfold faults mainActs
  cases h : stepFaults w c.mode with
  | some l =>
    simp only [reduceCtorEq, false_iff, not_forall, not_not]
    by_contra hc
    simp only [not_exists, faultyPlain_append, not_or] at hc
    rw [stepFaults_none.mpr fun d => (hc d).1] at h
    cases h
  | none =>
    have h0 := stepFaults_none.mp h
    simp only [faultyPlain_append]
    cases hr : r.main with
    | none => simp only [ite_self, FaultyPlain, List.not_mem_nil, false_and, exists_false, and_false, or_false, true_iff]; exact h0
    | some m =>
      have := hm m hr
      rw [if_neg (by omega)]
      simp only [if_pos this, stepFaults_none]
      constructor
      · intro h1 d hd; exact hd.elim (h0 d) (h1 d)
      · intro h1 d hd; exact h1 d (.inr hd)

theorem faults_some {c : Cfg} {w : Nat → Dev} {r : OpState} {f : List Nat} (h : faults c w r = some f) :
    f ≠ [] ∧ ∃ a ∈ mainActs c r, ∀ d, d ∈ f ↔ Fault w d ∧ a.isPlain ∧ a.owns d := by
  unfold faults at h
  unfold mainActs
  cases hs : stepFaults w c.mode with
  | some l =>
    rw [hs] at h
    cases h
    obtain ⟨h1, a, ha, h2⟩ := stepFaults_some hs
    exact ⟨h1, a, List.mem_append_left _ ha, h2⟩
  | none =>
    rw [hs] at h
    dsimp only at h
    split at h
    · cases h
    · cases hr : r.main with
      | none => rw [hr] at h; cases h
      | some m =>
        rw [hr] at h
        dsimp only at h
        split at h
        · obtain ⟨h1, a, ha, h2⟩ := stepFaults_some h
          exact ⟨h1, a, List.mem_append_right _ ha, h2⟩
        · cases h

theorem allZero_iff (c : Cfg) (param : Int → Fl) : allZero c param = true ↔ NoDuration c param := by
  unfold allZero NoDuration
  simp only [Bool.and_eq_true, Bool.not_eq_true', List.isEmpty_eq_false_iff, List.all_eq_true, decide_eq_true_eq]
  refine and_congr_right fun _ => forall_congr' fun n => imp_congr_right fun _ => and_congr_right fun _ => ?_
  cases param n <;> simp [Fl.lt]

theorem checkOn_iff (r : Int) : checkOn r = true ↔ r < 0 ∨ r = 1 := by
  unfold checkOn
  rw [decide_eq_true_eq]
  split <;> omega

/-! ## Histories -/

theorem runEv_append (c : St → SCfg) (es es' : List Ev) : ∀ o : Op,
    o.runEv c (es ++ es') = (o.runEv c es).bind fun o' => o'.runEv c es' := by
  induction es with
  | nil => intro o; rfl
  | cons e es ih =>
    intro o
    simp only [List.cons_append, Op.runEv]
    cases o.step c e with
    | none => rfl
    | some o1 => simpa using ih o1

/-- The state in which the checks are made is the end of a history. -/
theorem history {c : Cfg} {w : World} {es : List Ev} {o o1 : Op} (h : (Op.fresh c.sc).runEv c.sc es = some o)
    (h1 : (o.evalCur c.sc w.eval).runEv c.sc w.inner = some o1) :
    (Op.fresh c.sc).runEv c.sc (es ++ .evaluate w.eval :: w.inner) = some o1 := by
  rw [runEv_append, h]
  simpa [Op.runEv, Op.step] using h1

theorem pass_eq {c : Cfg} {w : World} {o o1 : Op} (h1 : (o.evalCur c.sc w.eval).runEv c.sc w.inner = some o1) :
    pass c w o = supervise c w o1 := by
  simp [pass, h1]

theorem main_lt {c : Cfg} {es : List Ev} {o : Op} (h : (Op.fresh c.sc).runEv c.sc es = some o) (m : Nat)
    (hm : (o.st .run).main = some m) : m < (c.sc .run).steps :=
  (((Operation.inv_fresh c.sc).runEv es h).basic .run).main m hm

theorem pause_run {c : St → SCfg} {es : List Ev} {o : Op} (h : (Op.fresh c).runEv c es = some o) (hc : o.cur = .run)
    (e e2 : Env) :
    (o.pause c e e2).cur = (if (c .pausing).empty then .pause else .pausing) ∧ Quiet ((o.pause c e e2).st .run) := by
  have hcur : (o.pause c e e2).cur = (if (c .pausing).empty then .pause else .pausing) := by
    rw [Operation.pause_cur, hc]
    cases he : (c .pausing).empty <;> simp [diagram, he]
  refine ⟨hcur, ?_⟩
  have hh : (Op.fresh c).runEv c (es ++ [.pause e e2]) = some (o.pause c e e2) := by
    rw [runEv_append, h]
    rfl
  refine Operation.C16_only_current_active_partial c _ _ hh .run ?_ (.inl (by decide))
  rw [hcur]
  split <;> decide

/-! ## Filling of actions -/

theorem getD_out {α : Type} (l : List α) (i : Nat) (d : α) (h : l.length ≤ i) : l.getD i d = d := by
  rw [List.getD_eq_getElem?_getD, List.getElem?_eq_none h]; rfl

theorem getD_grow {α : Type} (x : α) (n : Nat) (l : List α) (i : Nat) (d : α) :
    (grow x n l).getD i d = if i < l.length then l.getD i d else if i < n then x else d := by
  unfold grow
  simp only [List.getD_eq_getElem?_getD]
  by_cases h : i < l.length
  · rw [List.getElem?_append_left h, if_pos h]
  · rw [List.getElem?_append_right (by omega), if_neg h, List.getElem?_replicate]
    by_cases h2 : i < n
    · rw [if_pos (by omega), if_pos h2]; rfl
    · rw [if_neg (by omega), if_neg h2]; rfl

theorem length_grow {α : Type} (x : α) (n : Nat) (l : List α) : (grow x n l).length = max l.length n := by
  simp [grow]; omega

theorem getD_set {α : Type} (l : List α) (i j : Nat) (x d : α) (h : i < l.length) :
    (l.set i x).getD j d = if j = i then x else l.getD j d := by
  simp only [List.getD_eq_getElem?_getD, List.getElem?_set]
  by_cases hj : j = i
  · subst hj; simp [h]
  · rw [if_neg (fun e => hj e.symm), if_neg hj]

theorem getD_grow_nil (n : Nat) (l : List (List Nat)) (i : Nat) : (grow [] n l).getD i [] = l.getD i [] := by
  rw [getD_grow]
  split
  · rfl
  · rw [getD_out l i [] (by omega)]
    simp

theorem group_grow (sub n : Nat) (g : List (List (List Nat))) (i s : Nat) :
    ((grow (List.replicate sub []) n g).getD i []).getD s [] = group g i s := by
  unfold group
  rw [getD_grow]
  split
  · rfl
  · rw [getD_out g i [] (by omega)]
    split
    · simp only [List.getD_eq_getElem?_getD, List.getElem?_replicate]; split <;> rfl
    · rfl

theorem group_addDev (sub : Nat) (g : List (List (List Nat))) (dev i s j t : Nat) :
    group (addDev sub g dev i s) j t = if i = j ∧ s = t then group g j t ++ [dev] else group g j t := by
  unfold addDev
  simp only
  have hl : i < (grow (List.replicate sub ([] : List Nat)) (i + 1) g).length := by rw [length_grow]; omega
  conv_lhs => unfold group
  rw [getD_set _ _ _ _ _ hl]
  by_cases hj : j = i
  · subst hj
    rw [if_pos rfl, getD_set _ _ _ _ _ (by rw [length_grow]; omega)]
    by_cases ht : t = s
    · subst ht
      rw [if_pos rfl, if_pos ⟨rfl, rfl⟩, getD_grow_nil, group_grow]
    · rw [if_neg ht, if_neg (fun h => ht h.2.symm), getD_grow_nil, group_grow]
  · rw [if_neg hj, if_neg (fun h => hj h.1.symm), group_grow]

theorem group_empty (sub i s : Nat) : group (emptyGroups sub) i s = [] := by
  unfold group emptyGroups
  cases i with
  | zero =>
    rw [List.getD_cons_zero, List.getD_eq_getElem?_getD, List.getElem?_replicate]
    split <;> rfl
  | succ n => simp

theorem group_adds (sub : Nat) (l : List (Nat × Nat × Nat)) (j t : Nat) : ∀ g : List (List (List Nat)),
    group (l.foldl (fun g x => addDev sub g x.1 x.2.1 x.2.2) g) j t = group g j t ++ given l j t := by
  induction l with
  | nil => intro g; simp [given]
  | cons x l ih =>
    intro g
    rw [List.foldl_cons, ih, group_addDev]
    unfold given
    rw [List.filter_cons]
    by_cases h : x.2.1 = j ∧ x.2.2 = t
    · rw [if_pos h, if_pos (by simpa using h)]
      simp
    · rw [if_neg h, if_neg (by simpa using h)]

theorem addSeat_ok (l : List (List Nat)) (dev g j : Nat) (h : g ≤ l.length) :
    (addSeat l dev g).getD j [] = (if g = j then l.getD j [] ++ [dev] else l.getD j []) ∧
      (addSeat l dev g).length = max l.length (g + 1) := by
  unfold addSeat
  by_cases hg : l.length ≤ g
  · have hge : g = l.length := by omega
    subst hge
    simp only [le_refl, if_true]
    rw [if_neg (by simp)]
    rw [getD_set _ _ _ _ _ (by simp)]
    refine ⟨?_, by simp⟩
    by_cases hj : j = l.length
    · subst hj; simp
    · rw [if_neg hj, if_neg (fun e => hj e.symm)]
      simp only [List.getD_eq_getElem?_getD]
      by_cases h2 : j < l.length
      · rw [List.getElem?_append_left h2]
      · rw [List.getElem?_eq_none (by simp; omega), List.getElem?_eq_none (by omega)]
  · simp only [hg, if_false]
    rw [getD_set _ _ _ _ _ (by omega)]
    refine ⟨?_, by simp; omega⟩
    by_cases hj : j = g
    · subst hj; simp
    · rw [if_neg hj, if_neg (fun e => hj e.symm)]

theorem seats_adds (l : List (Nat × Nat)) (j : Nat) : ∀ g : List (List Nat), InTurn g.length l →
    (l.foldl (fun g x => addSeat g x.1 x.2) g).getD j [] = g.getD j [] ++ (l.filter fun x => decide (x.2 = j)).map fun x => x.1 := by
  induction l with
  | nil => intro g _; simp
  | cons x l ih =>
    intro g hg
    obtain ⟨h1, h2⟩ := hg
    obtain ⟨ha, hl⟩ := addSeat_ok g x.1 x.2 j h1
    rw [List.foldl_cons, ih _ (by rw [hl]; exact h2), ha, List.filter_cons]
    by_cases h : x.2 = j
    · rw [if_pos h, if_pos (by simpa using h)]; simp
    · rw [if_neg h, if_neg (by simpa using h)]

/-! ## Automatic switching on -/

theorem deltaMs_toNat {now t : BitVec 64} (h : t.toNat ≤ now.toNat) :
    (Time.deltaMs now t).toNat = now.toNat - t.toNat := by
  unfold Time.deltaMs
  have h1 : ¬ now < t := by rw [BitVec.lt_def]; omega
  have h2 : t ≤ now := by rw [BitVec.le_def]; exact h
  simp only [h1, if_false, h2, if_true]
  rw [BitVec.toNat_sub_of_le h2]

theorem late_iff {now t : BitVec 64} (w : BitVec 32) (h : t.toNat ≤ now.toNat) :
    w.zeroExtend 64 < Time.deltaMs now t ↔ w.toNat < now.toNat - t.toNat := by
  rw [BitVec.lt_def, deltaMs_toNat h]
  have : (w.zeroExtend 64).toNat = w.toNat := by
    simp only [BitVec.truncate_eq_setWidth, BitVec.toNat_setWidth]
    have := w.isLt
    omega
  rw [this]

/-- The state of a request after its first refusal. -/
def Waiting (t0 : BitVec 64) (a : Auto) : Prop := a.first = false ∧ a.wait = t0

theorem step_waiting {t0 : BitVec 64} {a : Auto} {i : Idle} (h : Waiting t0 a) (hs : i.signal = true)
    (hc : i.can = false ∨ a.fail = true) (ht : t0.toNat ≤ i.now.toNat) :
    Waiting t0 (a.step i).1 ∧ Out.switchedOn ∉ (a.step i).2 ∧
      ((a.step i).1.fail = true ↔ a.fail = true ∨ i.waitTime.toNat < i.now.toNat - t0.toNat) ∧
      (a.fail = true → (a.step i).2 = []) ∧
      (a.fail = false → Out.tried false ∈ (a.step i).2 ∧
        (Out.gaveUp ∈ (a.step i).2 ↔ i.waitTime.toNat < i.now.toNat - t0.toNat)) := by
  obtain ⟨h1, h2⟩ := h
  subst h2
  unfold Auto.step
  cases hf : a.fail with
  | true => simp [hs, Waiting, h1, hf]
  | false =>
    have hc' : i.can = false := by rcases hc with h | h; exact h; rw [hf] at h; cases h
    simp only [hs, h1, hc', Bool.true_eq_false, Bool.false_eq_true, if_false]
    by_cases hw : i.warnTime.zeroExtend 64 < Time.deltaMs i.now a.warn
    · simp only [hw, if_true, late_iff i.waitTime ht]
      by_cases hl : i.waitTime.toNat < i.now.toNat - a.wait.toNat
      · simp [hl, Waiting, h1]
      · simp [hl, Waiting, h1, hf]
    · simp only [hw, if_false, late_iff i.waitTime ht]
      by_cases hl : i.waitTime.toNat < i.now.toNat - a.wait.toNat
      · simp [hl, Waiting, h1]
      · simp [hl, Waiting, h1, hf]

theorem step_can {a : Auto} {i : Idle} (hs : i.signal = true) (hf : a.fail = false) (hc : i.can = true) :
    (a.step i).2 = [.tried true, .switchedOn] := by
  unfold Auto.step
  simp [hs, hf, hc]

/-- The evaluations of a request after its first refusal. -/
theorem run_waiting {t0 : BitVec 64} {W : Nat} (l : List Idle) : ∀ (a : Auto), Waiting t0 a →
    (∀ i ∈ l, i.signal = true) → (∀ i ∈ l, i.waitTime.toNat = W) → (∀ i ∈ l, t0.toNat ≤ i.now.toNat) →
    ∀ (j : Nat) (i : Idle), l[j]? = some i →
      (∀ (m : Nat) (k : Idle), m < j → l[m]? = some k → k.can = false ∨ a.fail = true ∨
        ∃ (m' : Nat) (k' : Idle), m' < m ∧ l[m']? = some k' ∧ W < k'.now.toNat - t0.toNat) →
      ∃ out, (a.run l).2[j]? = some out ∧
        ((a.fail = true ∨ ∃ (m : Nat) (k : Idle), m < j ∧ l[m]? = some k ∧ W < k.now.toNat - t0.toNat) → out = []) ∧
        (¬ (a.fail = true ∨ ∃ (m : Nat) (k : Idle), m < j ∧ l[m]? = some k ∧ W < k.now.toNat - t0.toNat) →
          Out.tried i.can ∈ out ∧ (Out.switchedOn ∈ out ↔ i.can = true) ∧
            (Out.gaveUp ∈ out ↔ i.can = false ∧ W < i.now.toNat - t0.toNat)) := by
  induction l with
  | nil => intro a _ _ _ _ j i h; simp at h
  | cons x l ih =>
    intro a ha hs hw ht j i hj hb
    have hxs := hs x List.mem_cons_self
    have hxw := hw x List.mem_cons_self
    have hxt := ht x List.mem_cons_self
    cases j with
    | zero =>
      have hix : x = i := by simpa using hj
      subst hix
      have hout : (a.run (x :: l)).2[0]? = some (a.step x).2 := by
        simp only [Auto.run]
        split <;> rfl
      refine ⟨_, hout, ?_, ?_⟩
      · rintro (hf | ⟨m, k, hm, _⟩)
        · exact (step_waiting ha hxs (.inr hf) hxt).2.2.2.1 hf
        · omega
      · intro hn
        have hf : a.fail = false := by
          cases h : a.fail with
          | true => exact absurd (.inl h) hn
          | false => rfl
        cases hc : x.can with
        | true =>
          rw [step_can hxs hf hc]
          simp
        | false =>
          obtain ⟨_, h2, _, _, h5⟩ := step_waiting ha hxs (.inl hc) hxt
          obtain ⟨h6, h7⟩ := h5 hf
          rw [hxw] at h7
          exact ⟨h6, by simp [h2], by simp [h7]⟩
    | succ j =>
      have hc : x.can = false ∨ a.fail = true := by
        rcases hb 0 x (by omega) rfl with h | h | ⟨m', _, hm', _⟩
        · exact .inl h
        · exact .inr h
        · omega
      obtain ⟨h1, h2, h3, _, _⟩ := step_waiting ha hxs hc hxt
      rw [hxw] at h3
      have hrun : (a.run (x :: l)).2[j + 1]? = ((a.step x).1.run l).2[j]? := by
        simp only [Auto.run, if_neg h2, List.getElem?_cons_succ]
      have hbefore : ((a.step x).1.fail = true ∨ ∃ (m : Nat) (k : Idle), m < j ∧ l[m]? = some k ∧ W < k.now.toNat - t0.toNat) ↔
          (a.fail = true ∨ ∃ (m : Nat) (k : Idle), m < j + 1 ∧ (x :: l)[m]? = some k ∧ W < k.now.toNat - t0.toNat) := by
        rw [h3]
        constructor
        · rintro ((h | h) | ⟨m, k, hm, hk, hl⟩)
          · exact .inl h
          · exact .inr ⟨0, x, by omega, rfl, h⟩
          · exact .inr ⟨m + 1, k, by omega, by simpa using hk, hl⟩
        · rintro (h | ⟨m, k, hm, hk, hl⟩)
          · exact .inl (.inl h)
          · cases m with
            | zero =>
              have : x = k := by simpa using hk
              subst this
              exact .inl (.inr hl)
            | succ m => exact .inr ⟨m, k, by omega, by simpa using hk, hl⟩
      obtain ⟨out, ho, ho1, ho2⟩ := ih (a.step x).1 h1 (fun i hi => hs i (List.mem_cons_of_mem _ hi))
        (fun i hi => hw i (List.mem_cons_of_mem _ hi)) (fun i hi => ht i (List.mem_cons_of_mem _ hi)) j i (by simpa using hj) (by
          intro m k hm hk
          rcases hb (m + 1) k (by omega) (by simpa using hk) with h | h | ⟨m', k', hm', hk', hl⟩
          · exact .inl h
          · exact .inr (.inl (h3.mpr (.inl h)))
          · cases m' with
            | zero =>
              have : x = k' := by simpa using hk'
              subst this
              exact .inr (.inl (h3.mpr (.inr hl)))
            | succ m' => exact .inr (.inr ⟨m', k', by omega, by simpa using hk', hl⟩))
      refine ⟨out, by rw [hrun]; exact ho, ?_, ?_⟩
      · intro h; exact ho1 (hbefore.mpr h)
      · intro h; exact ho2 (fun hc => h (hbefore.mp hc))

/-- Repeated refusals are reported no sooner than the setting says. -/
theorem run_refused (l : List Idle) : ∀ (a : Auto), a.first = false →
    (∀ i ∈ l, i.signal = true) → (∀ i ∈ l, a.warn.toNat ≤ i.now.toNat) →
    ∀ (j : Nat) (i : Idle) (out : List Out), l[j]? = some i → (a.run l).2[j]? = some out → Out.refused ∈ out →
      (∀ (m : Nat) (o : List Out), m < j → (a.run l).2[m]? = some o → Out.refused ∉ o) →
      i.warnTime.toNat < i.now.toNat - a.warn.toNat := by
  induction l with
  | nil => intro a _ _ _ j i out h; simp at h
  | cons x l ih =>
    intro a hfirst hs ht j i out hj ho hr hb
    have hxs := hs x List.mem_cons_self
    have hxt := ht x List.mem_cons_self
    have hout : (a.run (x :: l)).2[0]? = some (a.step x).2 := by
      simp only [Auto.run]
      split <;> rfl
    have hstep : (Out.refused ∈ (a.step x).2 → x.warnTime.toNat < x.now.toNat - a.warn.toNat) ∧
        (Out.refused ∉ (a.step x).2 → (a.step x).1.first = false ∧ (a.step x).1.warn = a.warn) := by
      unfold Auto.step
      simp only [hxs, hfirst, Bool.true_eq_false, Bool.false_eq_true, if_false]
      split
      · simp [hfirst]
      · split
        · simp [hfirst]
        · by_cases hw : x.warnTime.zeroExtend 64 < Time.deltaMs x.now a.warn
          · simp only [hw, if_true]
            refine ⟨fun _ => (late_iff _ hxt).mp hw, ?_⟩
            split <;> simp
          · simp only [hw, if_false]
            split <;> simp [hfirst]
    cases j with
    | zero =>
      have hix : x = i := by simpa using hj
      subst hix
      rw [hout] at ho
      cases ho
      exact hstep.1 hr
    | succ j =>
      have h0 := hb 0 _ (by omega) hout
      obtain ⟨h1, h2⟩ := hstep.2 h0
      have hsw : Out.switchedOn ∉ (a.step x).2 := by
        intro hc
        simp [Auto.run, hc] at ho
      have hrun : ∀ m, (a.run (x :: l)).2[m + 1]? = ((a.step x).1.run l).2[m]? := by
        intro m
        simp only [Auto.run, if_neg hsw, List.getElem?_cons_succ]
      rw [← h2]
      refine ih _ h1 (fun i hi => hs i (List.mem_cons_of_mem _ hi)) (fun i hi => ?_) j i out (by simpa using hj)
        (by rw [← hrun]; exact ho) hr (fun m o hm h => hb (m + 1) o (by omega) (by rw [hrun]; exact h))
      rw [h2]
      exact ht i (List.mem_cons_of_mem _ hi)

end Ptusa.Guard
