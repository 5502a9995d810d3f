import Verif.Alarm.Spec

/-!
# Lemmas about the alarm model
-/
namespace Ptusa.Alarm

abbrev Items := List ((Nat × Nat) × Item)

/-! ### Evaluation element by element -/

/-- One element after an evaluation (flags left out). -/
def Item.after (neg : Bool) : Item → Item
  | .dev d => .dev (d.evaluate neg Flags.clear).1
  | .obj o => .obj (o.evaluate Flags.clear).1

theorem dev_eval_fst (d : Dev) (neg : Bool) (f g : Flags) :
    (d.evaluate neg f).1 = (d.evaluate neg g).1 := by
  cases neg <;> cases h : d.st <;> simp [Dev.evaluate, h]

theorem obj_eval_fst (o : Obj) (f g : Flags) : (o.evaluate f).1 = (o.evaluate g).1 := by
  simp only [Obj.evaluate]
  split <;> rfl

theorem evalItems_fst (neg : Nat → Bool) : ∀ (l : Items) (i : Nat) (f : Flags),
    (evalItems neg i l f).1 = l.mapIdx fun j it => (it.1, it.2.after (neg (i + j)))
  | [], _, _ => rfl
  | (k, .dev d) :: rest, i, f => by
    simp only [evalItems, List.mapIdx_cons]
    rw [evalItems_fst neg rest, dev_eval_fst d (neg i) f Flags.clear]
    simp [Item.after, Nat.add_assoc, Nat.add_comm 1]
  | (k, .obj o) :: rest, i, f => by
    simp only [evalItems, List.mapIdx_cons]
    rw [evalItems_fst neg rest, obj_eval_fst o f Flags.clear]
    simp [Item.after, Nat.add_assoc, Nat.add_comm 1]

theorem evaluate_get (m : Mgr) (neg : Nat → Bool) (i : Nat) :
    (m.evaluate neg).items[i]? = (m.items[i]?).map fun it => (it.1, it.2.after (neg i)) := by
  simp only [Mgr.evaluate, evalItems_fst]
  rw [List.getElem?_mapIdx]
  simp

/-! ### Commands element by element -/

/-- One element after a command addressed to it. -/
def Item.commanded (cmd : Nat) (n : Int) : Item → Item
  | .dev d => .dev (d.setCmd cmd).1
  | .obj o => .obj (o.setCmd n).1

theorem cmdItems_get (cmd : Nat) (key : Nat × Nat) (n : Int) : ∀ (l : Items) (i : Nat),
    (l.map (·.1)).Nodup →
    (cmdItems cmd key n l).1[i]? =
      (l[i]?).map fun it => (it.1, if it.1 = key then it.2.commanded cmd n else it.2)
  | [], _, _ => by simp [cmdItems]
  | (k, it) :: rest, i, hnd => by
    simp only [List.map_cons, List.nodup_cons] at hnd
    by_cases hk : k = key
    · have hrest : ∀ j : Nat, (rest[j]?).map (fun it =>
          (it.1, if it.1 = key then it.2.commanded cmd n else it.2)) = rest[j]? := by
        intro j
        cases hj : rest[j]? with
        | none => rfl
        | some x =>
          have hm : x ∈ rest := List.mem_of_getElem? hj
          have : x.1 ≠ key := by
            intro he
            exact hnd.1 (by rw [hk, ← he]; exact List.mem_map_of_mem hm)
          simp [this]
      cases it with
      | dev d =>
        cases i with
        | zero => simp [cmdItems, hk, Item.commanded]
        | succ j => simp only [cmdItems, hk, if_true, List.getElem?_cons_succ]; rw [hrest]
      | obj o =>
        cases i with
        | zero => simp [cmdItems, hk, Item.commanded]
        | succ j => simp only [cmdItems, hk, if_true, List.getElem?_cons_succ]; rw [hrest]
    · cases i with
      | zero => simp [cmdItems, hk]
      | succ j =>
        simp only [cmdItems, hk, if_false, List.getElem?_cons_succ]
        exact cmdItems_get cmd key n rest j hnd.2

theorem cmdItems_keys (cmd : Nat) (key : Nat × Nat) (n : Int) : ∀ (l : Items),
    (cmdItems cmd key n l).1.map (·.1) = l.map (·.1)
  | [] => rfl
  | (k, it) :: rest => by
    by_cases hk : k = key
    · cases it <;> simp [cmdItems, hk]
    · simp [cmdItems, hk, cmdItems_keys cmd key n rest]

theorem post_get (m : Mgr) (i text j : Nat) :
    (m.post i text).items[j]? =
      (m.items[j]?).map fun it =>
        (it.1, if j = i then it.2.posted (m.counter + 1) text else it.2) := by
  simp only [Mgr.post, List.getElem?_mapIdx]

theorem keys_step (m : Mgr) (e : Ev) : (m.step e).keys = m.keys := by
  cases e with
  | eval neg =>
    apply List.ext_getElem?
    intro j
    simp only [Mgr.keys, Mgr.step, List.getElem?_map, evaluate_get, Option.map_map]
    rfl
  | cmd c k n => exact cmdItems_keys c k n m.items
  | post i t =>
    apply List.ext_getElem?
    intro j
    simp only [Mgr.keys, Mgr.step, List.getElem?_map, post_get, Option.map_map]
    rfl

theorem keys_run (m : Mgr) (es : List Ev) : (m.run es).keys = m.keys := by
  induction es generalizing m with
  | nil => rfl
  | cons e es ih => exact (ih (m.step e)).trans (keys_step m e)

theorem run_snoc (m : Mgr) (es : List Ev) (e : Ev) :
    m.run (es ++ [e]) = (m.run es).step e := by
  simp [Mgr.run]

theorem run_append (m : Mgr) (es fs : List Ev) : m.run (es ++ fs) = (m.run es).run fs := by
  simp [Mgr.run]

/-! ### The life-cycle of one alarm -/

theorem acknowledged_ever : ∀ h : List DEv, acknowledged h = true → everBad h = true
  | [], h => by simp [acknowledged] at h
  | .accepted :: t, h => by
    simp only [acknowledged] at h
    simpa [everBad] using h
  | .looked true :: t, _ => by simp [everBad]
  | .looked false :: t, h => by
    have := acknowledged_ever t (by simpa [acknowledged] using h)
    simpa [everBad] using this
  | .other :: t, h => by
    have := acknowledged_ever t (by simpa [acknowledged] using h)
    simpa [everBad] using this

theorem nowBad_ever : ∀ h : List DEv, nowBad h = true → everBad h = true
  | [], h => by simp [nowBad] at h
  | .accepted :: t, h => by
    have := nowBad_ever t (by simpa [nowBad] using h)
    simpa [everBad] using this
  | .looked true :: t, _ => by simp [everBad]
  | .looked false :: t, h => by simp [nowBad] at h
  | .other :: t, h => by
    have := nowBad_ever t (by simpa [nowBad] using h)
    simpa [everBad] using this

theorem state_looked (t : List DEv) (b : Bool) (p : BitVec 32) (f : Flags) :
    (Dev.evaluate ⟨alarmState t, p⟩ b f).1 = ⟨alarmState (.looked b :: t), p⟩ := by
  have h1 := acknowledged_ever t
  have h2 := nowBad_ever t
  cases b <;> cases hn : nowBad t <;> cases ha : acknowledged t <;> cases he : everBad t <;>
    simp_all [alarmState, nowBad, acknowledged, Dev.evaluate, everBad]

theorem state_accepted (t : List DEv) (p : BitVec 32) :
    (Dev.setCmd ⟨alarmState t, p⟩ 100).1 = ⟨alarmState (.accepted :: t), p⟩ := by
  have h1 := acknowledged_ever t
  have h2 := nowBad_ever t
  cases hn : nowBad t <;> cases ha : acknowledged t <;> cases he : everBad t <;>
    simp_all [alarmState, nowBad, acknowledged, Dev.setCmd, everBad]

theorem state_other (t : List DEv) : alarmState (.other :: t) = alarmState t := by
  have he : everBad (.other :: t) = everBad t := by simp [everBad]
  simp only [alarmState, nowBad, acknowledged, he]
  rfl

theorem setCmd_not_accept (d : Dev) (c : Nat) (hc : c ≠ 100) : (d.setCmd c).1.st = d.st := by
  unfold Dev.setCmd
  split
  · rfl
  · split
    · rfl
    · rfl

/-! ### Common flags -/

theorem flags_error (neg : Nat → Bool) : ∀ (l : Items) (i : Nat) (f : Flags),
    (evalItems neg i l f).2.anyError = true ↔
      (∃ (a : Nat) (k : Nat × Nat) (d : Dev), l[a]? = some (k, .dev d) ∧ neg (i + a) = true ∧
        isSuppressed d.par = false ∧
        ∀ (b : Nat) (k' : Nat × Nat) (d' : Dev), a < b → l[b]? = some (k', .dev d') →
          neg (i + b) = true → isSuppressed d'.par = false) ∨
      (f.anyError = true ∧ ∀ (b : Nat) (k' : Nat × Nat) (d' : Dev),
        l[b]? = some (k', .dev d') → neg (i + b) = true → isSuppressed d'.par = false)
  | [], i, f => by simp [evalItems]
  | (k, it) :: rest, i, f => by
    have key : ∀ g : Flags, (evalItems neg (i + 1) rest g).2.anyError = true ↔ _ :=
      fun g => flags_error neg rest (i + 1) g
    have hshift : ∀ a : Nat, i + 1 + a = i + (a + 1) := by intro a; omega
    simp only [hshift] at key
    -- the tail part, shifted by one
    have hall : (∀ (b : Nat) (k' : Nat × Nat) (d' : Dev),
        ((k, it) :: rest)[b]? = some (k', .dev d') → neg (i + b) = true →
          isSuppressed d'.par = false) ↔
        ((∀ d', it = .dev d' → neg i = true → isSuppressed d'.par = false) ∧
        ∀ (b : Nat) (k' : Nat × Nat) (d' : Dev), rest[b]? = some (k', .dev d') →
          neg (i + (b + 1)) = true → isSuppressed d'.par = false) := by
      constructor
      · intro h
        exact ⟨fun d' hd => h 0 k d' (by simp [hd]), fun b k' d' hb => h (b + 1) k' d' (by simpa using hb)⟩
      · rintro ⟨h0, hr⟩ b k' d' hb
        cases b with
        | zero =>
          simp only [List.getElem?_cons_zero, Option.some.injEq, Prod.mk.injEq] at hb
          exact h0 d' hb.2
        | succ b => exact hr b k' d' (by simpa using hb)
    have hex : (∃ (a : Nat) (k1 : Nat × Nat) (d : Dev), ((k, it) :: rest)[a]? = some (k1, .dev d) ∧
        neg (i + a) = true ∧ isSuppressed d.par = false ∧
        ∀ (b : Nat) (k' : Nat × Nat) (d' : Dev), a < b → ((k, it) :: rest)[b]? = some (k', .dev d') →
          neg (i + b) = true → isSuppressed d'.par = false) ↔
        ((∃ d, it = .dev d ∧ neg i = true ∧ isSuppressed d.par = false ∧
          ∀ (b : Nat) (k' : Nat × Nat) (d' : Dev), rest[b]? = some (k', .dev d') →
            neg (i + (b + 1)) = true → isSuppressed d'.par = false) ∨
        ∃ (a : Nat) (k1 : Nat × Nat) (d : Dev), rest[a]? = some (k1, .dev d) ∧
          neg (i + (a + 1)) = true ∧ isSuppressed d.par = false ∧
          ∀ (b : Nat) (k' : Nat × Nat) (d' : Dev), a < b → rest[b]? = some (k', .dev d') →
            neg (i + (b + 1)) = true → isSuppressed d'.par = false) := by
      constructor
      · rintro ⟨a, k1, d, ha, hn, hs, hb⟩
        cases a with
        | zero =>
          simp only [List.getElem?_cons_zero, Option.some.injEq, Prod.mk.injEq] at ha
          exact Or.inl ⟨d, ha.2, hn, hs, fun b k' d' hr => hb (b + 1) k' d' (by omega) (by simpa using hr)⟩
        | succ a =>
          exact Or.inr ⟨a, k1, d, by simpa using ha, hn, hs,
            fun b k' d' hlt hr => hb (b + 1) k' d' (by omega) (by simpa using hr)⟩
      · rintro (⟨d, hd, hn, hs, hb⟩ | ⟨a, k1, d, ha, hn, hs, hb⟩)
        · refine ⟨0, k, d, by simp [hd], hn, hs, ?_⟩
          intro b k' d' hlt hr
          cases b with
          | zero => omega
          | succ b => exact hb b k' d' (by simpa using hr)
        · refine ⟨a + 1, k1, d, by simpa using ha, hn, hs, ?_⟩
          intro b k' d' hlt hr
          cases b with
          | zero => omega
          | succ b => exact hb b k' d' (by omega) (by simpa using hr)
    rw [hall, hex]
    cases it with
    | obj o =>
      simp only [evalItems]
      rw [key]
      have : (o.evaluate f).2.anyError = f.anyError := by
        simp only [Obj.evaluate]
        split <;> split <;> rfl
      rw [this]
      simp
    | dev d =>
      simp only [evalItems]
      rw [key]
      cases hn : neg i with
      | false =>
        have : (d.evaluate false f).2.anyError = f.anyError := by
          cases h : d.st <;> simp [Dev.evaluate, h]
        rw [this]
        simp
      | true =>
        cases hs : isSuppressed d.par with
        | true =>
          have : (d.evaluate true f).2.anyError = false := by
            simp [Dev.evaluate, hs]
          rw [this]
          simp [hs]
        | false =>
          have : (d.evaluate true f).2.anyError = true := by
            simp [Dev.evaluate, hs]
          rw [this]
          simp only [true_and, Item.dev.injEq, exists_eq_left', hs, forall_eq', true_implies]
          constructor
          · rintro (h | h)
            · exact Or.inl (Or.inr h)
            · exact Or.inl (Or.inl h)
          · rintro ((h | h) | h)
            · exact Or.inr h
            · exact Or.inl h
            · exact Or.inr h.2

theorem flags_noack (neg : Nat → Bool) : ∀ (l : Items) (i : Nat) (f : Flags),
    (evalItems neg i l f).2.anyNoAck = true ↔
      (∃ (a : Nat) (k : Nat × Nat) (d : Dev), l[a]? = some (k, .dev d) ∧ neg (i + a) = true ∧
        isSuppressed d.par = false ∧ d.st ≠ .accept ∧
        ∀ (b : Nat) (k' : Nat × Nat) (d' : Dev), a < b → l[b]? = some (k', .dev d') →
          neg (i + b) = true → isSuppressed d'.par = false) ∨
      (f.anyNoAck = true ∧ ∀ (b : Nat) (k' : Nat × Nat) (d' : Dev),
        l[b]? = some (k', .dev d') → neg (i + b) = true → isSuppressed d'.par = false)
  | [], i, f => by simp [evalItems]
  | (k, it) :: rest, i, f => by
    have key : ∀ g : Flags, (evalItems neg (i + 1) rest g).2.anyNoAck = true ↔ _ :=
      fun g => flags_noack neg rest (i + 1) g
    have hshift : ∀ a : Nat, i + 1 + a = i + (a + 1) := by intro a; omega
    simp only [hshift] at key
    have hall : (∀ (b : Nat) (k' : Nat × Nat) (d' : Dev),
        ((k, it) :: rest)[b]? = some (k', .dev d') → neg (i + b) = true →
          isSuppressed d'.par = false) ↔
        ((∀ d', it = .dev d' → neg i = true → isSuppressed d'.par = false) ∧
        ∀ (b : Nat) (k' : Nat × Nat) (d' : Dev), rest[b]? = some (k', .dev d') →
          neg (i + (b + 1)) = true → isSuppressed d'.par = false) := by
      constructor
      · intro h
        exact ⟨fun d' hd => h 0 k d' (by simp [hd]), fun b k' d' hb => h (b + 1) k' d' (by simpa using hb)⟩
      · rintro ⟨h0, hr⟩ b k' d' hb
        cases b with
        | zero =>
          simp only [List.getElem?_cons_zero, Option.some.injEq, Prod.mk.injEq] at hb
          exact h0 d' hb.2
        | succ b => exact hr b k' d' (by simpa using hb)
    have hex : (∃ (a : Nat) (k1 : Nat × Nat) (d : Dev), ((k, it) :: rest)[a]? = some (k1, .dev d) ∧
        neg (i + a) = true ∧ isSuppressed d.par = false ∧ d.st ≠ .accept ∧
        ∀ (b : Nat) (k' : Nat × Nat) (d' : Dev), a < b → ((k, it) :: rest)[b]? = some (k', .dev d') →
          neg (i + b) = true → isSuppressed d'.par = false) ↔
        ((∃ d, it = .dev d ∧ neg i = true ∧ isSuppressed d.par = false ∧ d.st ≠ .accept ∧
          ∀ (b : Nat) (k' : Nat × Nat) (d' : Dev), rest[b]? = some (k', .dev d') →
            neg (i + (b + 1)) = true → isSuppressed d'.par = false) ∨
        ∃ (a : Nat) (k1 : Nat × Nat) (d : Dev), rest[a]? = some (k1, .dev d) ∧
          neg (i + (a + 1)) = true ∧ isSuppressed d.par = false ∧ d.st ≠ .accept ∧
          ∀ (b : Nat) (k' : Nat × Nat) (d' : Dev), a < b → rest[b]? = some (k', .dev d') →
            neg (i + (b + 1)) = true → isSuppressed d'.par = false) := by
      constructor
      · rintro ⟨a, k1, d, ha, hn, hs, hst, hb⟩
        cases a with
        | zero =>
          simp only [List.getElem?_cons_zero, Option.some.injEq, Prod.mk.injEq] at ha
          exact Or.inl ⟨d, ha.2, hn, hs, hst,
            fun b k' d' hr => hb (b + 1) k' d' (by omega) (by simpa using hr)⟩
        | succ a =>
          exact Or.inr ⟨a, k1, d, by simpa using ha, hn, hs, hst,
            fun b k' d' hlt hr => hb (b + 1) k' d' (by omega) (by simpa using hr)⟩
      · rintro (⟨d, hd, hn, hs, hst, hb⟩ | ⟨a, k1, d, ha, hn, hs, hst, hb⟩)
        · refine ⟨0, k, d, by simp [hd], hn, hs, hst, ?_⟩
          intro b k' d' hlt hr
          cases b with
          | zero => omega
          | succ b => exact hb b k' d' (by simpa using hr)
        · refine ⟨a + 1, k1, d, by simpa using ha, hn, hs, hst, ?_⟩
          intro b k' d' hlt hr
          cases b with
          | zero => omega
          | succ b => exact hb b k' d' (by omega) (by simpa using hr)
    rw [hall, hex]
    cases it with
    | obj o =>
      simp only [evalItems]
      rw [key]
      have : (o.evaluate f).2.anyNoAck = f.anyNoAck := by
        simp only [Obj.evaluate]
        split <;> split <;> rfl
      rw [this]
      simp
    | dev d =>
      simp only [evalItems]
      rw [key]
      cases hn : neg i with
      | false =>
        have : (d.evaluate false f).2.anyNoAck = f.anyNoAck := by
          cases h : d.st <;> simp [Dev.evaluate, h]
        rw [this]
        simp
      | true =>
        cases hs : isSuppressed d.par with
        | true =>
          have : (d.evaluate true f).2.anyNoAck = false := by
            simp [Dev.evaluate, hs]
          rw [this]
          simp [hs]
        | false =>
          by_cases hst : d.st = .accept
          · have : (d.evaluate true f).2.anyNoAck = f.anyNoAck := by
              simp [Dev.evaluate, hs, hst]
            rw [this]
            simp [hs, hst]
          · have : (d.evaluate true f).2.anyNoAck = true := by
              cases h : d.st <;> simp_all [Dev.evaluate]
            rw [this]
            simp only [true_and, Item.dev.injEq, exists_eq_left', hs, forall_eq', true_implies]
            constructor
            · rintro (h | h)
              · exact Or.inl (Or.inr h)
              · exact Or.inl (Or.inl ⟨hst, h⟩)
            · rintro ((h | h) | h)
              · exact Or.inr h.2
              · exact Or.inl h
              · exact Or.inr h.2

/-! ### Changes of the list and its id -/

/-- `it` shows what `it0` showed when it was last evaluated, plus messages posted since; the
posting has not been noticed yet. -/
def Grown : Item → Item → Prop
  | .dev d0, .dev d => d = d0
  | .obj o0, .obj o => (∃ extra, o.msgs = o0.msgs ++ extra) ∧ o.prevSize = o0.msgs.length ∧
      o.wasSetCmd = false
  | _, _ => False

/-- Pointwise. -/
def GrownL : Items → Items → Prop
  | [], [] => True
  | x :: xs, y :: ys => x.1 = y.1 ∧ Grown x.2 y.2 ∧ GrownL xs ys
  | _, _ => False

/-- Nothing new in the element, and what was posted has been noticed. -/
def Still : Item → Prop
  | .dev _ => True
  | .obj o => o.prevSize = o.msgs.length ∧ o.wasSetCmd = false

theorem dev_newState (d : Dev) (neg : Bool) (f : Flags) :
    (d.evaluate neg f).2.newState = false ↔
      f.newState = false ∧ (d.evaluate neg f).1 = d := by
  obtain ⟨st, par⟩ := d
  cases neg <;> cases st <;> cases hs : isSuppressed par <;> simp [Dev.evaluate, hs]

theorem obj_newState (o : Obj) (f : Flags) :
    (o.evaluate f).2.newState = false ↔
      f.newState = false ∧ o.msgs.length = o.prevSize ∧ o.wasSetCmd = false := by
  simp only [Obj.evaluate]
  by_cases h : o.msgs.length ≠ o.prevSize ∨ o.wasSetCmd = true
  · simp only [h, if_true]
    have : ¬ (o.msgs.length = o.prevSize ∧ o.wasSetCmd = false) := by
      rintro ⟨h1, h2⟩
      rcases h with h | h
      · exact h h1
      · rw [h2] at h; cases h
    split <;> simp_all
  · simp only [h, if_false]
    have : o.msgs.length = o.prevSize ∧ o.wasSetCmd = false := by
      constructor
      · exact Classical.byContradiction fun hn => h (Or.inl hn)
      · cases hw : o.wasSetCmd
        · rfl
        · exact absurd (Or.inr hw) h
    split <;> simp_all

theorem evalItems_quiet (neg : Nat → Bool) : ∀ (l : Items) (i : Nat) (f : Flags),
    (evalItems neg i l f).2.newState = false →
      f.newState = false ∧ (evalItems neg i l f).1 = l ∧ ∀ x ∈ l, Still x.2
  | [], i, f, h => ⟨h, rfl, by simp⟩
  | (k, .dev d) :: rest, i, f, h => by
    simp only [evalItems] at h ⊢
    obtain ⟨h1, h2, h3⟩ := evalItems_quiet neg rest (i + 1) _ h
    obtain ⟨h4, h5⟩ := (dev_newState d (neg i) f).1 h1
    refine ⟨h4, by rw [h5, h2], ?_⟩
    intro x hx
    rcases List.mem_cons.1 hx with rfl | hx
    · trivial
    · exact h3 x hx
  | (k, .obj o) :: rest, i, f, h => by
    simp only [evalItems] at h ⊢
    obtain ⟨h1, h2, h3⟩ := evalItems_quiet neg rest (i + 1) _ h
    obtain ⟨h4, h5, h6⟩ := (obj_newState o f).1 h1
    refine ⟨h4, ?_, ?_⟩
    · have : (o.evaluate f).1 = o := by simp [Obj.evaluate, h5, h6]
      rw [this, h2]
    · intro x hx
      rcases List.mem_cons.1 hx with rfl | hx
      · exact ⟨h5.symm, h6⟩
      · exact h3 x hx

theorem evalItems_still (neg : Nat → Bool) : ∀ (l : Items) (i : Nat) (f : Flags),
    ∀ x ∈ (evalItems neg i l f).1, Still x.2
  | [], _, _ => by simp [evalItems]
  | (k, .dev d) :: rest, i, f => by
    intro x hx
    simp only [evalItems, List.mem_cons] at hx
    rcases hx with rfl | hx
    · trivial
    · exact evalItems_still neg rest _ _ x hx
  | (k, .obj o) :: rest, i, f => by
    intro x hx
    simp only [evalItems, List.mem_cons] at hx
    rcases hx with rfl | hx
    · simp only [Obj.evaluate, Still]
      by_cases h : o.msgs.length ≠ o.prevSize ∨ o.wasSetCmd = true
      · simp only [h, if_true]
        exact ⟨trivial, trivial⟩
      · simp only [h, if_false]
        constructor
        · exact (Classical.byContradiction fun hn => h (Or.inl (Ne.symm hn)))
        · cases hw : o.wasSetCmd
          · rfl
          · exact absurd (Or.inr hw) h
    · exact evalItems_still neg rest _ _ x hx

theorem grown_refl : ∀ (l : Items), (∀ x ∈ l, Still x.2) → GrownL l l
  | [], _ => trivial
  | (k, .dev d) :: rest, h => ⟨rfl, rfl, grown_refl rest fun x hx => h x (List.mem_cons_of_mem _ hx)⟩
  | (k, .obj o) :: rest, h =>
    have h0 : Still (.obj o) := h (k, .obj o) List.mem_cons_self
    ⟨rfl, ⟨⟨[], by simp⟩, h0.1, h0.2⟩, grown_refl rest fun x hx => h x (List.mem_cons_of_mem _ hx)⟩

theorem grown_still : ∀ (l0 l : Items), GrownL l0 l → (∀ x ∈ l, Still x.2) →
    l.flatMap (fun it => match it with
      | (k, .dev d) => if d.st = .normal then [] else [Shown.dev k d.st (isSuppressed d.par)]
      | (k, .obj o) => o.msgs.map (Shown.msg k)) =
    l0.flatMap (fun it => match it with
      | (k, .dev d) => if d.st = .normal then [] else [Shown.dev k d.st (isSuppressed d.par)]
      | (k, .obj o) => o.msgs.map (Shown.msg k))
  | [], [], _, _ => rfl
  | (k0, it0) :: l0, (k, it) :: l, ⟨hk, hg, hr⟩, hs => by
    have ih := grown_still l0 l hr fun x hx => hs x (List.mem_cons_of_mem _ hx)
    have h0 : Still it := hs (k, it) List.mem_cons_self
    simp only at hk
    subst hk
    simp only [List.flatMap_cons]
    rw [ih]
    cases it0 with
    | dev d0 =>
      cases it with
      | dev d => simp only [Grown] at hg; subst hg; rfl
      | obj o => exact absurd hg (by simp [Grown])
    | obj o0 =>
      cases it with
      | dev d => exact absurd hg (by simp [Grown])
      | obj o =>
        obtain ⟨⟨extra, he⟩, hp, hw⟩ := hg
        have hl : o.prevSize = o.msgs.length := h0.1
        have : extra = [] := by
          rw [hp, he, List.length_append] at hl
          exact List.eq_nil_of_length_eq_zero (by omega)
        rw [this, List.append_nil] at he
        simp [he]

theorem grown_cmd (cmd : Nat) (key : Nat × Nat) (n : Int) : ∀ (l : Items),
    (cmdItems cmd key n l).2 ≠ 0 → (cmdItems cmd key n l).1 = l
  | [], _ => rfl
  | (k, it) :: rest, h => by
    by_cases hk : k = key
    · cases it with
      | dev d =>
        simp only [cmdItems, hk, if_true] at h ⊢
        have : (d.setCmd cmd).1 = d := by
          revert h
          unfold Dev.setCmd
          split
          · simp
          · split
            · simp
            · split
              · split <;> simp
              · simp
        rw [this]
      | obj o =>
        simp only [cmdItems, hk, if_true] at h ⊢
        have : (o.setCmd n).1 = o := by
          revert h
          unfold Obj.setCmd
          split <;> simp
        rw [this]
    · simp only [cmdItems, hk, if_false] at h ⊢
      rw [grown_cmd cmd key n rest h]

theorem grown_post (c : Int) (text : Nat) : ∀ (l0 l : Items), GrownL l0 l →
    ∀ p : Nat → Bool, GrownL l0 (l.mapIdx fun j it =>
      (it.1, if p j then it.2.posted c text else it.2))
  | [], [], _, _ => trivial
  | (k0, it0) :: l0, (k, it) :: l, ⟨hk, hg, hr⟩, p => by
    have ih := grown_post c text l0 l hr (fun j => p (j + 1))
    simp only [List.mapIdx_cons]
    refine ⟨hk, ?_, ih⟩
    split
    · cases it0 with
      | dev d0 =>
        cases it with
        | dev d => exact hg
        | obj o => exact absurd hg (by simp [Grown])
      | obj o0 =>
        cases it with
        | dev d => exact absurd hg (by simp [Grown])
        | obj o =>
          obtain ⟨⟨extra, he⟩, hp, hw⟩ := hg
          simp only [Item.posted]
          split
          · exact ⟨⟨extra ++ [⟨c, text⟩], by simp [he]⟩, hp, hw⟩
          · exact ⟨⟨extra, he⟩, hp, hw⟩
    · exact hg

theorem step_id (l0 : Items) (m : Mgr) (e : Ev) (hg : GrownL l0 m.items) :
    (m.step e).id = m.id + 1 ∨ ((m.step e).id = m.id ∧ GrownL l0 (m.step e).items) := by
  cases e with
  | eval neg =>
    simp only [Mgr.step, Mgr.evaluate]
    cases h : (evalItems neg 0 m.items Flags.clear).2.newState with
    | true => left; simp
    | false =>
      right
      refine ⟨by simp, ?_⟩
      rw [(evalItems_quiet neg _ _ _ h).2.1]
      exact hg
  | cmd c k n =>
    simp only [Mgr.step, Mgr.setCmd]
    by_cases h : (cmdItems c k n m.items).2 = 0
    · left; simp [h]
    · right
      refine ⟨by simp [h], ?_⟩
      rw [grown_cmd c k n _ h]
      exact hg
  | post i t =>
    right
    refine ⟨rfl, ?_⟩
    have := grown_post (m.counter + 1) t l0 m.items hg (fun j => decide (j = i))
    simpa only [Mgr.step, Mgr.post, decide_eq_true_eq] using this

theorem step_id_any (m : Mgr) (e : Ev) : (m.step e).id = m.id + 1 ∨ (m.step e).id = m.id := by
  cases e with
  | eval neg => simp only [Mgr.step, Mgr.evaluate]; split <;> simp
  | cmd c k n => simp only [Mgr.step, Mgr.setCmd]; split <;> simp
  | post i t => right; rfl

theorem run_id_any (m : Mgr) (es : List Ev) :
    ∃ n, n ≤ es.length ∧ (m.run es).id = m.id + BitVec.ofNat 16 n := by
  induction es generalizing m with
  | nil => exact ⟨0, Nat.le_refl _, by simp [Mgr.run]⟩
  | cons e es ih =>
    obtain ⟨n, hn, hid⟩ := ih (m.step e)
    have hrun : m.run (e :: es) = (m.step e).run es := rfl
    rw [hrun, hid]
    rcases step_id_any m e with h | h
    · refine ⟨n + 1, by simp; omega, ?_⟩
      rw [h, BitVec.ofNat_add, BitVec.add_assoc, BitVec.add_comm 1]
      rfl
    · exact ⟨n, by simp; omega, by rw [h]⟩

theorem run_id (l0 : Items) (m : Mgr) (es : List Ev) (hg : GrownL l0 m.items) :
    (∃ n, 1 ≤ n ∧ n ≤ es.length ∧ (m.run es).id = m.id + BitVec.ofNat 16 n) ∨
      ((m.run es).id = m.id ∧ GrownL l0 (m.run es).items) := by
  induction es generalizing m with
  | nil => exact Or.inr ⟨rfl, hg⟩
  | cons e es ih =>
    have hrun : m.run (e :: es) = (m.step e).run es := rfl
    rw [hrun]
    rcases step_id l0 m e hg with h | ⟨h, hg'⟩
    · obtain ⟨n, hn, hid⟩ := run_id_any (m.step e) es
      refine Or.inl ⟨n + 1, by omega, by simp; omega, ?_⟩
      rw [hid, h, BitVec.ofNat_add, BitVec.add_assoc, BitVec.add_comm 1]
      rfl
    · rcases ih (m.step e) hg' with ⟨n, h1, h2, h3⟩ | h'
      · exact Or.inl ⟨n, h1, by simp; omega, by rw [h3, h]⟩
      · exact Or.inr ⟨by rw [h'.1, h], h'.2⟩

/-! ### Messages -/

theorem cmdItems_get_or (cmd : Nat) (key : Nat × Nat) (n : Int) : ∀ (l : Items) (i : Nat),
    (cmdItems cmd key n l).1[i]? = l[i]? ∨
      (cmdItems cmd key n l).1[i]? = (l[i]?).map fun it => (it.1, it.2.commanded cmd n)
  | [], _ => by simp [cmdItems]
  | (k, it) :: rest, i => by
    by_cases hk : k = key
    · cases i with
      | zero => right; cases it <;> simp [cmdItems, hk, Item.commanded]
      | succ j => left; cases it <;> simp [cmdItems, hk]
    · cases i with
      | zero => left; simp [cmdItems, hk]
      | succ j =>
        simp only [cmdItems, hk, if_false, List.getElem?_cons_succ]
        exact cmdItems_get_or cmd key n rest j

/-- Messages of an element. -/
def Item.msgs : Item → List Msg
  | .obj o => o.msgs
  | .dev _ => []

theorem msgsAt_eq (m : Mgr) (i : Nat) :
    msgsAt m i = match m.items[i]? with | some it => it.2.msgs | none => [] := by
  unfold msgsAt
  cases h : m.items[i]? with
  | none => rfl
  | some it =>
    obtain ⟨k, it⟩ := it
    cases it <;> rfl

theorem msgsAt_eval (m : Mgr) (neg : Nat → Bool) (i : Nat) :
    msgsAt (m.evaluate neg) i = msgsAt m i := by
  rw [msgsAt_eq, msgsAt_eq, evaluate_get]
  cases h : m.items[i]? with
  | none => rfl
  | some it =>
    obtain ⟨k, it⟩ := it
    cases it with
    | dev d => rfl
    | obj o =>
      simp only [Option.map_some, Item.after, Item.msgs, Obj.evaluate]
      split <;> rfl

theorem msgsAt_post_other (m : Mgr) (i text j : Nat) (h : j ≠ i) :
    msgsAt (m.post i text) j = msgsAt m j := by
  rw [msgsAt_eq, msgsAt_eq, post_get]
  cases hj : m.items[j]? with
  | none => rfl
  | some it => simp [h]

theorem msgsAt_post (m : Mgr) (i text : Nat) :
    msgsAt (m.post i text) i = msgsAt m i ∨
      (msgsAt (m.post i text) i = msgsAt m i ++ [⟨m.counter + 1, text⟩] ∧
        (msgsAt m i).length < maxMsgs) := by
  rw [msgsAt_eq, msgsAt_eq, post_get]
  cases hj : m.items[i]? with
  | none => left; rfl
  | some it =>
    obtain ⟨k, it⟩ := it
    cases it with
    | dev d => left; simp [Item.msgs, Item.posted]
    | obj o =>
      by_cases hl : o.msgs.length < maxMsgs
      · right; simp [Item.msgs, Item.posted, hl]
      · left; simp [Item.msgs, Item.posted, hl]

theorem msgsAt_cmd (m : Mgr) (c : Nat) (key : Nat × Nat) (n : Int) (i : Nat) :
    (msgsAt (m.setCmd c key n) i).Sublist (msgsAt m i) := by
  rw [msgsAt_eq, msgsAt_eq]
  have : (m.setCmd c key n).items = (cmdItems c key n m.items).1 := rfl
  rw [this]
  rcases cmdItems_get_or c key n m.items i with h | h
  · rw [h]
    exact List.Sublist.refl _
  · rw [h]
    cases hi : m.items[i]? with
    | none => exact List.Sublist.refl _
    | some it =>
      obtain ⟨k, it⟩ := it
      cases it with
      | dev d => exact List.Sublist.refl _
      | obj o =>
        simp only [Option.map_some, Item.commanded, Item.msgs, Obj.setCmd]
        split
        · exact List.eraseP_sublist
        · exact List.Sublist.refl _

/-- Bounded and uniquely numbered. -/
structure MsgInv (m : Mgr) : Prop where
  len  : ∀ i, (msgsAt m i).length ≤ 10
  nd   : ∀ i, ((msgsAt m i).map (·.n)).Nodup
  cross : ∀ i j x y, x ∈ msgsAt m i → y ∈ msgsAt m j → x.n = y.n → i = j
  le   : ∀ i x, x ∈ msgsAt m i → x.n ≤ m.counter

theorem counter_step (m : Mgr) (e : Ev) : m.counter ≤ (m.step e).counter := by
  cases e with
  | eval neg => exact Int.le_refl _
  | cmd c k n => exact Int.le_refl _
  | post i t => simp only [Mgr.step, Mgr.post]; omega

theorem counter_run (m : Mgr) (es : List Ev) : m.counter ≤ (m.run es).counter := by
  induction es generalizing m with
  | nil => exact Int.le_refl _
  | cons e es ih => exact Int.le_trans (counter_step m e) (ih (m.step e))

theorem msgInv_step (m : Mgr) (e : Ev) (h : MsgInv m) : MsgInv (m.step e) := by
  cases e with
  | eval neg =>
    have he : ∀ i, msgsAt (m.step (.eval neg)) i = msgsAt m i := msgsAt_eval m neg
    constructor
    · intro i; rw [he]; exact h.len i
    · intro i; rw [he]; exact h.nd i
    · intro i j x y; rw [he, he]; exact h.cross i j x y
    · intro i x; rw [he]; exact h.le i x
  | cmd c k n =>
    have he : ∀ i, (msgsAt (m.step (.cmd c k n)) i).Sublist (msgsAt m i) := msgsAt_cmd m c k n
    constructor
    · intro i; exact Nat.le_trans (he i).length_le (h.len i)
    · intro i; exact ((he i).map _).nodup (h.nd i)
    · intro i j x y hx hy; exact h.cross i j x y ((he i).subset hx) ((he j).subset hy)
    · intro i x hx; exact h.le i x ((he i).subset hx)
  | post a t =>
    have hmem : ∀ i x, x ∈ msgsAt (m.post a t) i → x ∈ msgsAt m i ∨
        (i = a ∧ x.n = m.counter + 1) := by
      intro i x hx
      by_cases hi : i = a
      · subst hi
        rcases msgsAt_post m i t with h1 | ⟨h1, _⟩
        · rw [h1] at hx; exact Or.inl hx
        · rw [h1, List.mem_append] at hx
          rcases hx with hx | hx
          · exact Or.inl hx
          · rw [List.mem_singleton] at hx
            exact Or.inr ⟨rfl, by rw [hx]⟩
      · rw [msgsAt_post_other m a t i hi] at hx; exact Or.inl hx
    constructor
    · intro i
      show (msgsAt (m.post a t) i).length ≤ 10
      by_cases hi : i = a
      · subst hi
        rcases msgsAt_post m i t with h1 | ⟨h1, h2⟩
        · rw [h1]; exact h.len i
        · rw [h1]; simp only [maxMsgs] at h2; simp; omega
      · rw [msgsAt_post_other m a t i hi]; exact h.len i
    · intro i
      show ((msgsAt (m.post a t) i).map (·.n)).Nodup
      by_cases hi : i = a
      · subst hi
        rcases msgsAt_post m i t with h1 | ⟨h1, h2⟩
        · rw [h1]; exact h.nd i
        · rw [h1, List.map_append, List.nodup_append]
          refine ⟨h.nd i, by simp, ?_⟩
          intro p hp q hq
          rw [List.mem_map] at hp
          obtain ⟨x, hx, rfl⟩ := hp
          have := h.le i x hx
          simp at hq
          omega
      · rw [msgsAt_post_other m a t i hi]; exact h.nd i
    · intro i j x y hx hy he
      rcases hmem i x hx with hx' | ⟨rfl, hx'⟩
      · rcases hmem j y hy with hy' | ⟨rfl, hy'⟩
        · exact h.cross i j x y hx' hy' he
        · have := h.le i x hx'; omega
      · rcases hmem j y hy with hy' | ⟨rfl, hy'⟩
        · have := h.le j y hy'; omega
        · rfl
    · intro i x hx
      have hc : (m.step (.post a t)).counter = m.counter + 1 := rfl
      rw [hc]
      rcases hmem i x hx with hx' | ⟨_, hx'⟩
      · have := h.le i x hx'; omega
      · omega

theorem msgInv_run (m : Mgr) (es : List Ev) (h : MsgInv m) : MsgInv (m.run es) := by
  induction es generalizing m with
  | nil => exact h
  | cons e es ih => exact ih (m.step e) (msgInv_step m e h)

theorem msgInv_init (m : Mgr) (h : ∀ i, msgsAt m i = []) : MsgInv m := by
  constructor <;> simp [h]

theorem eraseP_filter (n : Int) : ∀ l : List Msg, (l.map (·.n)).Nodup →
    l.eraseP (·.n == n) = l.filter (fun x => decide (x.n ≠ n))
  | [], _ => rfl
  | x :: l, h => by
    simp only [List.map_cons, List.nodup_cons] at h
    by_cases hx : x.n = n
    · have : l.filter (fun y => decide (y.n ≠ n)) = l := by
        rw [List.filter_eq_self]
        intro y hy
        simp only [decide_eq_true_eq]
        intro he
        exact h.1 (by rw [hx, ← he]; exact List.mem_map_of_mem hy)
      rw [List.eraseP_cons_of_pos (by simp [hx]), List.filter_cons_of_neg (by simp [hx]), this]
    · rw [List.eraseP_cons_of_neg (by simp [hx]), List.filter_cons_of_pos (by simp [hx]),
        eraseP_filter n l h.2]

end Ptusa.Alarm
