import Verif.CipEnd.Spec

/-!
# Lemmas: histories of a step
-/
namespace Ptusa.CipEnd
open CipDose (Tmr TSt)

theorem last_snoc {α : Type} (t0 : Nat) (pre : List (Ev α)) (e : Ev α) :
    last t0 (pre ++ [e]) = match e with | .cycle now _ => now | .again _ b => b := by
  induction pre generalizing t0 with
  | nil => cases e <;> rfl
  | cons x pre ih => cases x <;> exact ih _

/-- An invariant of the states and the histories which have led to them. -/
theorem run_ind {σ α : Type} {cycle : σ → Nat → α → σ × Out} {again : σ → Nat → Nat → σ} {t0 : Nat} (P : σ → List (Ev α) → Prop)
    (hc : ∀ s pre now i s', P s pre → last t0 pre ≤ now → cycle s now i = (s', .go) → P s' (pre ++ [.cycle now i]))
    (ha : ∀ s pre a b, P s pre → last t0 pre ≤ a → a ≤ b → P (again s a b) (pre ++ [.again a b]))
    {s s' : σ} {pre evs : List (Ev α)} (h : P s pre) (hm : Mono (last t0 pre) evs) (hr : run cycle again s evs = some s') :
    P s' (pre ++ evs) := by
  induction evs generalizing s pre with
  | nil =>
    simp only [run, Option.some.injEq] at hr
    rw [List.append_nil, ← hr]; exact h
  | cons e l ih =>
    rw [← List.singleton_append, ← List.append_assoc]
    cases e with
    | cycle now i =>
      simp only [run] at hr
      obtain ⟨h1, h2⟩ := hm
      rcases hx : cycle s now i with ⟨s1, o⟩
      rw [hx] at hr
      cases o with
      | go => exact ih (hc s pre now i s1 h h1 hx) (by rw [last_snoc]; exact h2) hr
      | done => exact absurd hr (by simp)
      | noReturn => exact absurd hr (by simp)
      | conc => exact absurd hr (by simp)
    | again a b =>
      simp only [run] at hr
      obtain ⟨h1, h2, h3⟩ := hm
      exact ih (ha s pre a b h h1 h2) (by rw [last_snoc]; exact h3) hr

theorem inputs_append {α : Type} (a b : List (Ev α)) : inputs (a ++ b) = inputs a ++ inputs b := by
  induction a with
  | nil => rfl
  | cons e a ih => cases e <;> simp [inputs, ih]

theorem recent_cycle {α : Type} (a : List (Ev α)) (now : Nat) (i : α) : recent (a ++ [.cycle now i]) = recent a ++ [(now, i)] := by
  induction a with
  | nil => simp [recent]
  | cons e a ih =>
    cases e with
    | cycle t j =>
      simp only [List.cons_append, recent, ih, List.any_append, List.any_cons, List.any_nil, Bool.or_false]
      split <;> simp
    | again t u => simpa [recent] using ih

theorem recent_again {α : Type} (a : List (Ev α)) (t u : Nat) : recent (a ++ [.again t u]) = [] := by
  induction a with
  | nil => rfl
  | cons e a ih =>
    cases e with
    | cycle v j => simp [recent, ih]
    | again v w => simpa [recent] using ih

theorem stopped_append {α : Type} (a b : List (Ev α)) : stopped (a ++ b) = stopped a + stopped b := by
  induction a with
  | nil => simp [stopped]
  | cons e a ih => cases e <;> simp [stopped, ih]; omega

theorem resumed_cycle {α : Type} (t : Nat) (a : List (Ev α)) (now : Nat) (i : α) : resumed t (a ++ [.cycle now i]) = resumed t a := by
  induction a generalizing t with
  | nil => rfl
  | cons e a ih => cases e <;> exact ih _

theorem resumed_again {α : Type} (t : Nat) (a : List (Ev α)) (u v : Nat) : resumed t (a ++ [.again u v]) = v := by
  induction a generalizing t with
  | nil => rfl
  | cons e a ih => cases e <;> exact ih _

/-! ## To the object -/

theorem to_inv {step : Int} {prog : Nat} {evs : List (Ev ToIn)} {f : Bool} {t0 : Nat} (hm : Mono t0 evs)
    (hr : run (toCycle step prog) toAgain false evs = some f) (hs : step ∈ extra) :
    f = (inputs evs).any fun x => x.2.cont == some true := by
  have hs' : decide (step = 8 ∨ step = 37 ∨ step = 57 ∨ step = 86) = true := by
    simp only [extra, List.mem_cons, List.not_mem_nil, or_false] at hs
    exact decide_eq_true hs
  have := run_ind (t0 := t0) (pre := []) (fun f pre => f = (inputs pre).any fun x => x.2.cont == some true) ?_ ?_ rfl hm hr
  · simpa using this
  · intro f pre now i f' h _ hc
    simp only [inputs_append, inputs, List.any_append, List.any_cons, List.any_nil, Bool.or_false, ← h]
    unfold toCycle at hc
    simp only [hs', Bool.true_and] at hc
    split at hc
    · next hw =>
      have := (Prod.mk.inj hc).1
      rw [← this, hw.2]; simp
    · have := (Prod.mk.inj hc).1
      rw [← this]
      cases f <;> simp
  · intro f pre a b h _ _
    simpa [inputs_append, inputs, toAgain] using h

/-! ## From the object -/

/-- A timer which runs since a time, or is stopped. -/
def Since (t : Tmr) (cd : Nat) (o : Option Nat) : Prop :=
  t.cd = cd ∧ match o with
    | none => t.st = .stop
    | some a => t.st = .work ∧ t.at_ = a ∧ t.work = 0

theorem since_start {t : Tmr} {cd : Nat} {o : Option Nat} (h : Since t cd o) (now : Nat) : Since (t.start now) cd (o.or (some now)) := by
  obtain ⟨h1, h2⟩ := h
  cases o with
  | none =>
    simp only at h2
    simp [Since, Tmr.start, h2, h1]
  | some a =>
    simp only at h2
    simp [Since, Tmr.start, h2.1, h1, h2.2]

theorem since_up {t : Tmr} {cd : Nat} {o : Option Nat} (h : Since t cd o) (now : Nat) :
    t.up now = true ↔ ∃ a, o = some a ∧ cd < (now - a) % 2 ^ 32 := by
  obtain ⟨h1, h2⟩ := h
  cases o with
  | none =>
    simp only at h2
    simp [Tmr.up, h2]
  | some a =>
    simp only at h2
    simp [Tmr.up, Tmr.time, h2.1, h1, h2.2]

theorem since_reset (t : Tmr) (cd : Nat) : Since { t.reset with cd := cd } cd none := ⟨rfl, rfl⟩

theorem first_snoc {α : Type} (p : α → Bool) (l : List (Nat × α)) (now : Nat) (i : α) :
    firstTime p (l ++ [(now, i)]) = (firstTime p l).or (if p i then some now else none) := by
  unfold firstTime
  rw [List.find?_append]
  cases hf : l.find? fun x => p x.2 with
  | none =>
    by_cases hp : p i = true
    · simp [hp]
    · simp [Bool.not_eq_true _ ▸ hp]
  | some x => simp

/-- What `From` knows about the history. -/
structure FromInv (ret conc : Nat) (s : From) (pre : List (Ev FromIn)) : Prop where
  ok : s.retOk = (inputs pre).any fun x => passed x.2 && x.2.fl
  ret : s.retOk = false → Since s.tRet (ret * 1000) (firstTime passed (recent pre))
  conc : Since s.tConc (conc * 1000 * 2) (firstTime (fun i => passed i && !i.fits) (recent pre))

theorem from_enter (ret conc : Nat) (s : From) : FromInv ret conc (From.init ret conc true s) [] :=
  ⟨by simp [From.init, inputs], fun _ => since_reset _ _, since_reset _ _⟩

theorem from_again {ret conc : Nat} {s : From} {pre : List (Ev FromIn)} (h : FromInv ret conc s pre) (a b : Nat) :
    FromInv ret conc (s.again ret conc a b) (pre ++ [.again a b]) := by
  refine ⟨by simpa [From.again, From.init, inputs_append, inputs] using h.ok, fun _ => ?_, ?_⟩
  · rw [recent_again]; exact since_reset _ _
  · rw [recent_again]; exact since_reset _ _

/-- A cycle: the result, and what is known behind it. -/
theorem from_cycle {ret conc : Nat} {s : From} {pre : List (Ev FromIn)} (h : FromInv ret conc s pre) (now : Nat) (i : FromIn) :
    ((s.cycle now i).2 = .go → FromInv ret conc (s.cycle now i).1 (pre ++ [.cycle now i])) ∧
    ((s.cycle now i).2 = .done ↔ i.vol ≤ i.q ∧ (i.fl = true ∨ s.retOk = true) ∧ i.fits = true) ∧
    ((s.cycle now i).2 = .noReturn ↔ i.vol ≤ i.q ∧ i.fl = false ∧ s.retOk = false ∧
      ∃ a, firstTime passed (recent pre ++ [(now, i)]) = some a ∧ ret * 1000 < (now - a) % 2 ^ 32) ∧
    ((s.cycle now i).2 = .conc ↔ i.vol ≤ i.q ∧ i.fits = false ∧
      ¬(i.fl = false ∧ s.retOk = false ∧ ∃ a, firstTime passed (recent pre ++ [(now, i)]) = some a ∧ ret * 1000 < (now - a) % 2 ^ 32) ∧
      ∃ a, firstTime (fun i => passed i && !i.fits) (recent pre ++ [(now, i)]) = some a ∧ conc * 1000 * 2 < (now - a) % 2 ^ 32) := by
  by_cases hp : i.vol ≤ i.q
  swap
  · have hp' : passed i = false := decide_eq_false hp
    have he : s.cycle now i = (s, .go) := by rw [From.cycle, if_neg hp]
    rw [he]
    refine ⟨fun _ => ⟨?_, fun hr => ?_, ?_⟩, by simp [hp], by simp [hp], by simp [hp]⟩
    · simpa [inputs_append, inputs, hp'] using h.ok
    · rw [recent_cycle, first_snoc, hp']
      simpa using h.ret hr
    · rw [recent_cycle, first_snoc, hp']
      simpa using h.conc
  have hp' : passed i = true := decide_eq_true hp
  -- the state behind the test of the return
  let s1 : From := if s.retOk then s else if i.fl then { s with retOk := true } else { s with tRet := s.tRet.start now }
  have h1ok : s1.retOk = (s.retOk || i.fl) := by
    simp only [s1]
    cases hr : s.retOk <;> cases hf : i.fl <;> simp [hr]
  have h1c : s1.tConc = s.tConc := by
    simp only [s1]
    cases hr : s.retOk <;> cases hf : i.fl <;> simp
  have h1t : s1.retOk = false → Since s1.tRet (ret * 1000) (firstTime passed (recent pre ++ [(now, i)])) := fun hr => by
    rw [h1ok, Bool.or_eq_false_iff] at hr
    have : s1.tRet = s.tRet.start now := by simp [s1, hr.1, hr.2]
    rw [this, first_snoc, hp', if_pos rfl]
    exact since_start (h.ret hr.1) now
  have hup : (s1.retOk = false ∧ s1.tRet.up now = true) ↔ (i.fl = false ∧ s.retOk = false ∧
      ∃ a, firstTime passed (recent pre ++ [(now, i)]) = some a ∧ ret * 1000 < (now - a) % 2 ^ 32) := by
    constructor
    · intro ⟨ha, hb⟩
      have hc := (since_up (h1t ha) now).1 hb
      rw [h1ok, Bool.or_eq_false_iff] at ha
      exact ⟨ha.2, ha.1, hc⟩
    · intro ⟨ha, hb, hc⟩
      have hd : s1.retOk = false := by rw [h1ok, ha, hb]; rfl
      exact ⟨hd, (since_up (h1t hd) now).2 hc⟩
  have hconc : Since (s1.tConc.start now) (conc * 1000 * 2)
      ((firstTime (fun i => passed i && !i.fits) (recent pre)).or (some now)) := by rw [h1c]; exact since_start h.conc now
  have hok : s1.retOk = (inputs (pre ++ [Ev.cycle now i])).any fun x => passed x.2 && x.2.fl := by
    rw [h1ok, inputs_append, List.any_append, ← h.ok]
    simp [inputs, hp']
  have he : s.cycle now i = if s1.retOk = false ∧ s1.tRet.up now = true then (s1, .noReturn)
      else if i.fits then (s1, if s1.retOk then .done else .go)
      else if (s1.tConc.start now).up now then ({ s1 with tConc := (s1.tConc.start now).reset }, .conc)
      else ({ s1 with tConc := s1.tConc.start now }, .go) := by
    rw [From.cycle, if_pos hp]
  rw [he, ← hup]
  by_cases hn : s1.retOk = false ∧ s1.tRet.up now = true
  · rw [if_pos hn]
    have hz := hup.1 hn
    refine ⟨fun h => absurd h (by simp), ?_, ?_, ?_⟩
    · simp [hz.1, hz.2.1]
    · simp [hp, hn]
    · simp [hn]
  rw [if_neg hn]
  by_cases hf : i.fits = true
  · rw [if_pos hf]
    refine ⟨fun hg => ⟨hok, fun hr => ?_, ?_⟩, ?_, ?_, ?_⟩
    · rw [recent_cycle]; exact h1t hr
    · rw [recent_cycle, first_snoc, hf, Bool.not_true, Bool.and_false]
      simp only [h1c]
      simpa using h.conc
    · rw [h1ok]
      cases i.fl <;> cases s.retOk <;> simp [hp, hf]
    · simp only [hn, and_false, iff_false]
      split <;> simp
    · simp only [hf, Bool.true_eq_false, false_and, and_false, iff_false]
      cases s1.retOk <;> simp
  have hf' : i.fits = false := by simpa using hf
  rw [if_neg hf]
  have hcu : (s1.tConc.start now).up now = true ↔
      ∃ a, firstTime (fun i => passed i && !i.fits) (recent pre ++ [(now, i)]) = some a ∧ conc * 1000 * 2 < (now - a) % 2 ^ 32 := by
    rw [since_up hconc, first_snoc, hp', hf']
    simp
  by_cases hu : (s1.tConc.start now).up now = true
  · rw [if_pos hu]
    refine ⟨fun h => absurd h (by simp), by simp [hf'], ?_, ?_⟩
    · simp only [hn, and_false, iff_false]; simp
    · have := hcu.1 hu
      simp only [hp, hf', hn, not_false_eq_true, true_and, true_iff]
      exact this
  · rw [if_neg hu]
    refine ⟨fun _ => ⟨hok, fun hr => ?_, ?_⟩, by simp [hf'], ?_, ?_⟩
    · rw [recent_cycle]; exact h1t hr
    · rw [recent_cycle, first_snoc, hp', hf']
      simpa using hconc
    · simp only [hn, and_false, iff_false]; simp
    · exact iff_of_false (by simp) fun h => hu (hcu.2 h.2.2.2)

theorem from_run {ret conc : Nat} {s s' : From} {evs : List (Ev FromIn)} {t0 : Nat} (hm : Mono t0 evs)
    (hr : run From.cycle (From.again ret conc) (From.init ret conc true s) evs = some s') : FromInv ret conc s' evs := by
  have := run_ind (t0 := t0) (pre := []) (FromInv ret conc) ?_ ?_ (from_enter ret conc s) hm hr
  · simpa using this
  · intro s pre now i s1 h _ hc
    have := (from_cycle h now i).1 (by rw [hc])
    rw [hc] at this
    exact this
  · intro s pre a b h _ _
    exact from_again h a b

/-! ## Emptying the object -/

theorem dry_snoc (l : List (Nat × EmptyIn)) (now : Nat) (i : EmptyIn) :
    dryFrom (l ++ [(now, i)]) = if i.fl then none else if l.any (fun x => x.2.fl) then (dryFrom l).or (some now) else none := by
  unfold dryFrom
  rw [List.reverse_append, List.reverse_singleton, List.singleton_append, List.any_append, List.takeWhile_cons]
  cases hf : i.fl with
  | true => simp [hf]
  | false =>
    simp only [hf, List.any_cons, List.any_nil, Bool.or_false, Bool.not_false, if_true]
    cases l.any fun x => x.2.fl with
    | false => simp
    | true =>
      simp only [if_true, Bool.false_eq_true, if_false]
      rw [List.getLast?_cons]
      cases (l.reverse.takeWhile fun x => !x.2.fl).getLast? <;> rfl

theorem covered_snoc (t : Nat) (l : List (Nat × EmptyIn)) (now : Nat) (i : EmptyIn) :
    coveredAt t (l ++ [(now, i)]) = if i.ls = some true then now else coveredAt t l := by
  unfold coveredAt
  rw [List.reverse_append, List.reverse_singleton, List.singleton_append, List.find?_cons]
  by_cases h : i.ls = some true
  · simp [h]
  · have : (i.ls == some true) = false := by simpa using h
    simp only [this, h, if_false]

/-- What `Emp` knows about the history, without an "object empty" device. -/
structure EmpInv (limit ret t0 : Nat) (s : Emp) (pre : List (Ev EmptyIn)) : Prop where
  st : s.tOp.st = .work
  cd : s.tOp.cd = limit * 1000
  at_ : s.tOp.at_ = s.tOp.work + t0 + stopped pre
  le : s.tOp.at_ ≤ last t0 pre
  fl : s.flowed = (recent pre).any fun x => x.2.fl
  ret : Since s.tRet (ret * 1000) (dryFrom (recent pre))
  ls : s.lsAt = coveredAt (resumed t0 pre) (recent pre)

theorem emp_enter (limit ret : Nat) (s : Emp) (t0 : Nat) : EmpInv limit ret t0 (Emp.enter limit ret s t0) [] :=
  ⟨rfl, rfl, by simp [Emp.enter, Emp.init, Tmr.start, Tmr.reset, stopped], by simp [Emp.enter, Emp.init, Tmr.start, Tmr.reset, last],
    rfl, since_reset _ _, rfl⟩

theorem emp_again {limit ret t0 : Nat} {s : Emp} {pre : List (Ev EmptyIn)} (h : EmpInv limit ret t0 s pre) {a b : Nat}
    (ha : last t0 pre ≤ a) (hb : a ≤ b) : EmpInv limit ret t0 (s.again limit ret a b) (pre ++ [.again a b]) := by
  refine ⟨rfl, rfl, ?_, ?_, ?_, ?_, ?_⟩
  · have h1 := h.at_
    have h2 := h.le
    simp only [Emp.again, Emp.init, Tmr.start, Tmr.pause, Tmr.time, h.st, if_true, stopped_append, stopped]
    omega
  · rw [last_snoc]; exact Nat.le_refl b
  · rw [recent_again]; rfl
  · rw [recent_again]; exact since_reset _ _
  · rw [recent_again, resumed_again]; rfl

theorem emp_cycle {limit ret t0 : Nat} {s : Emp} {pre : List (Ev EmptyIn)} (h : EmpInv limit ret t0 s pre) (step : Int)
    {now : Nat} (hn : last t0 pre ≤ now) {i : EmptyIn} (he : i.empty = none) :
    ((s.cycle step false limit ret now i).2 = .go → EmpInv limit ret t0 (s.cycle step false limit ret now i).1 (pre ++ [.cycle now i])) ∧
    ((s.cycle step false limit ret now i).2 = .done ∨ (s.cycle step false limit ret now i).2 = .go) ∧
    ((s.cycle step false limit ret now i).2 = .done ↔
      (i.ls = some false ∧ ret * 1000 < now - coveredAt (resumed t0 pre) (recent pre)) ∨
      (∃ a, dryFrom (recent pre ++ [(now, i)]) = some a ∧ ret * 1000 < (now - a) % 2 ^ 32) ∨
      (limit * 500 < now - t0 - stopped pre ∧
        (step = 6 ∨ ((recent pre ++ [(now, i)]).any fun x => x.2.fl) = false)) ∨
      limit * 1000 < (now - t0 - stopped pre) % 2 ^ 32) := by
  let s1 : Emp := if i.ls = some true then { s with lsAt := now } else s
  let s2 : Emp := if i.fl then { s1 with flowed := true, tRet := s1.tRet.reset }
    else if s1.flowed then { s1 with tRet := s1.tRet.start now } else s1
  have e1 : s1.tOp = s.tOp ∧ s1.tRet = s.tRet ∧ s1.flowed = s.flowed ∧ s1.lsAt = coveredAt (resumed t0 pre) (recent pre ++ [(now, i)]) := by
    rw [covered_snoc, ← h.ls]
    simp only [s1]
    split <;> exact ⟨rfl, rfl, rfl, rfl⟩
  have e2 : s2.tOp = s.tOp ∧ s2.flowed = ((recent pre ++ [(now, i)]).any fun x => x.2.fl) ∧ s2.lsAt = s1.lsAt ∧
      Since s2.tRet (ret * 1000) (dryFrom (recent pre ++ [(now, i)])) := by
    rw [dry_snoc, List.any_append, ← h.fl]
    simp only [s2, List.any_cons, List.any_nil, Bool.or_false, e1.2.2.1]
    cases i.fl with
    | true =>
      simp only [if_true]
      refine ⟨e1.1, by simp, trivial, ?_⟩
      rw [e1.2.1]
      exact ⟨h.ret.1, rfl⟩
    | false =>
      simp only [Bool.false_eq_true, if_false]
      cases hf : s.flowed with
      | true =>
        simp only [if_true]
        refine ⟨e1.1, by simp, trivial, ?_⟩
        rw [e1.2.1]
        exact since_start h.ret now
      | false =>
        simp only [Bool.false_eq_true, if_false]
        refine ⟨e1.1, by rw [e1.2.2.1, hf]; rfl, trivial, ?_⟩
        rw [e1.2.1]
        have := h.ret
        rw [h.fl] at hf
        rw [dryFrom, hf] at this
        exact this
  have et : s2.tOp.time now = now - t0 - stopped pre := by
    rw [e2.1, Tmr.time, if_pos h.st]
    have h1 := h.at_
    have h2 := h.le
    omega
  have eu : s2.tOp.up now = decide (limit * 1000 < (now - t0 - stopped pre) % 2 ^ 32) := by
    rw [Tmr.up, et, e2.1, h.st, h.cd]; simp
  have eq : s.cycle step false limit ret now i =
      if i.ls = some false ∧ now - s1.lsAt > ret * 1000 then (s1, .done)
      else if i.fl = false ∧ s2.flowed = true ∧ s2.tRet.up now = true then (s2, .done)
      else if limit * 500 < s2.tOp.time now ∧ (step = 6 ∨ s2.flowed = false) then (s2, .done)
      else if s2.tOp.up now then (s2, .done) else (s2, .go) := by
    unfold Emp.cycle
    simp only [he, Bool.false_eq_true, if_false]
    rfl
  have hl : (i.ls = some false ∧ now - s1.lsAt > ret * 1000) ↔
      (i.ls = some false ∧ ret * 1000 < now - coveredAt (resumed t0 pre) (recent pre)) := by
    rw [e1.2.2.2, covered_snoc]
    constructor
    · intro ⟨h1, h2⟩
      rw [h1] at h2
      exact ⟨h1, by simpa using h2⟩
    · intro ⟨h1, h2⟩
      rw [h1]
      exact ⟨rfl, by simpa using h2⟩
  have hd : (i.fl = false ∧ s2.flowed = true ∧ s2.tRet.up now = true) ↔
      ∃ a, dryFrom (recent pre ++ [(now, i)]) = some a ∧ ret * 1000 < (now - a) % 2 ^ 32 := by
    rw [since_up e2.2.2.2]
    constructor
    · exact fun h => h.2.2
    · intro ⟨a, h1, h2⟩
      refine ⟨?_, ?_, a, h1, h2⟩
      · cases hf : i.fl with
        | false => rfl
        | true => rw [dry_snoc, hf] at h1; simp at h1
      · rw [e2.2.1]
        cases hf : (recent pre ++ [(now, i)]).any fun x => x.2.fl with
        | true => rfl
        | false => rw [dryFrom, hf] at h1; simp at h1
  rw [eq, ← hl, ← hd, ← e2.2.1, ← et]
  have eu' : s2.tOp.up now = true ↔ limit * 1000 < s2.tOp.time now % 2 ^ 32 := by rw [eu, et]; simp
  rw [← eu']
  by_cases c1 : i.ls = some false ∧ now - s1.lsAt > ret * 1000
  · rw [if_pos c1]
    exact ⟨fun h => absurd h (by simp), .inl rfl, iff_of_true rfl (.inl c1)⟩
  rw [if_neg c1]
  by_cases c2 : i.fl = false ∧ s2.flowed = true ∧ s2.tRet.up now = true
  · rw [if_pos c2]
    exact ⟨fun h => absurd h (by simp), .inl rfl, iff_of_true rfl (.inr (.inl c2))⟩
  rw [if_neg c2]
  by_cases c3 : limit * 500 < s2.tOp.time now ∧ (step = 6 ∨ s2.flowed = false)
  · rw [if_pos c3]
    exact ⟨fun h => absurd h (by simp), .inl rfl, iff_of_true rfl (.inr (.inr (.inl c3)))⟩
  rw [if_neg c3]
  by_cases c4 : s2.tOp.up now = true
  · rw [if_pos c4]
    exact ⟨fun h => absurd h (by simp), .inl rfl, iff_of_true rfl (.inr (.inr (.inr c4)))⟩
  rw [if_neg c4]
  refine ⟨fun _ => ⟨?_, ?_, ?_, ?_, ?_, ?_, ?_⟩, .inr rfl, iff_of_false (by simp) ?_⟩
  · show s2.tOp.st = _
    rw [e2.1]; exact h.st
  · show s2.tOp.cd = _
    rw [e2.1]; exact h.cd
  · show s2.tOp.at_ = s2.tOp.work + _ + _
    rw [e2.1, stopped_append]; exact h.at_
  · show s2.tOp.at_ ≤ _
    rw [e2.1, last_snoc]; exact Nat.le_trans h.le hn
  · rw [recent_cycle]; exact e2.2.1
  · rw [recent_cycle]; exact e2.2.2.2
  · rw [recent_cycle, resumed_cycle]
    exact e2.2.2.1.trans e1.2.2.2
  · intro h
    rcases h with h | h | h | h
    · exact c1 h
    · exact c2 h
    · exact c3 h
    · exact c4 h

theorem emp_run {limit ret t0 : Nat} {step : Int} {s s' : Emp} {evs : List (Ev EmptyIn)} (hm : Mono t0 evs)
    (hd : ∀ x ∈ inputs evs, x.2.empty = none)
    (hr : run (fun s => s.cycle step false limit ret) (Emp.again limit ret) (Emp.enter limit ret s t0) evs = some s') :
    EmpInv limit ret t0 s' evs := by
  have := run_ind (t0 := t0) (pre := []) (fun s pre => (∀ x ∈ inputs pre, x.2.empty = none) → EmpInv limit ret t0 s pre) ?_ ?_
    (fun _ => emp_enter limit ret s t0) hm hr
  · exact this hd
  · intro s pre now i s1 h hn hc hx
    rw [inputs_append] at hx
    have hi : i.empty = none := hx (now, i) (List.mem_append_right _ (by simp [inputs]))
    have := (emp_cycle (h fun x hm => hx x (List.mem_append_left _ hm)) step hn hi).1 (by rw [hc])
    rw [hc] at this
    exact this
  · intro s pre a b h ha hb hx
    rw [inputs_append] at hx
    exact emp_again (h fun x hm => hx x (List.mem_append_left _ hm)) ha hb

/-! ## The small tank -/

/-- The level which matters: when filling, when emptying. -/
def sinceOf (t : Tmr) : Option Nat := if t.st = .work then some t.at_ else none

/-- The counted litres. -/
def CntInv (p : SmallIn → Bool) (s : Small) (pre : List (Ev SmallIn)) : Prop :=
  ∀ l, counted p false (pre ++ l) = s.q + counted p s.on l

theorem cnt_now {p : SmallIn → Bool} {s : Small} {pre : List (Ev SmallIn)} (h : CntInv p s pre) (now : Nat) (i : SmallIn) :
    counted p false (pre ++ [.cycle now i]) = (s.count i.litres).q := by
  rw [h, counted, counted, Small.count]
  split <;> simp

theorem cnt_again {p : SmallIn → Bool} {s : Small} {pre : List (Ev SmallIn)} (h : CntInv p s pre) (limit a b : Nat) :
    CntInv p (s.again limit a b) (pre ++ [.again a b]) := by
  intro l
  rw [List.append_assoc, h]
  rfl

theorem cnt_fill {s : Small} {pre : List (Ev SmallIn)} (h : CntInv (·.lm) s pre) (vol : Rat) (now : Nat) (i : SmallIn) :
    CntInv (·.lm) (s.fill vol now i).1 (pre ++ [.cycle now i]) := by
  intro l
  rw [List.append_assoc, h]
  simp only [List.singleton_append, counted, Small.fill, Small.count]
  cases hs : s.on <;> simp [hs, Rat.add_assoc]

theorem cnt_empty {s : Small} {pre : List (Ev SmallIn)} (h : CntInv (!·.ll) s pre) (vol : Rat) (now : Nat) (i : SmallIn) :
    CntInv (!·.ll) (s.empty vol now i).1 (pre ++ [.cycle now i]) := by
  intro l
  rw [List.append_assoc, h]
  simp only [List.singleton_append, counted, Small.empty, Small.count]
  cases hs : s.on <;> cases i.ll <;> simp [hs, Rat.add_assoc]

/-- The time since the tank has run out. -/
def TimeInv (limit : Nat) (s : Small) (pre : List (Ev SmallIn)) : Prop :=
  s.tOp.cd = limit * 1000 ∧ (s.tOp.st = if (recent pre).any (fun x => !x.2.ll) then .work else .pause) ∧
  ∀ now l, lasted (!·.ll) none now (pre ++ l) = s.tOp.work + lasted (!·.ll) (sinceOf s.tOp) now l

theorem time_enter (limit : Nat) (s : Small) (t0 : Nat) : TimeInv limit (s.enter limit t0) [] :=
  ⟨rfl, by simp [Small.enter, Tmr.pause, recent], fun now l => by simp [Small.enter, Tmr.pause, Tmr.start, Tmr.reset, Tmr.time, sinceOf]⟩

theorem time_again {limit : Nat} {s : Small} {pre : List (Ev SmallIn)} (h : TimeInv limit s pre) (a b : Nat) :
    TimeInv limit (s.again limit a b) (pre ++ [.again a b]) := by
  refine ⟨rfl, by simp [Small.again, Tmr.pause, recent_again], fun now l => ?_⟩
  rw [List.append_assoc, h.2.2]
  simp only [List.singleton_append, lasted, Small.again, Tmr.pause, Tmr.start, Tmr.time, sinceOf]
  by_cases hs : s.tOp.st = .work
  · simp [hs, Nat.add_assoc]
  · simp [hs]

theorem time_cycle {limit : Nat} {s : Small} {pre : List (Ev SmallIn)} (h : TimeInv limit s pre) (vol : Rat) (now : Nat) (i : SmallIn) :
    TimeInv limit (s.empty vol now i).1 (pre ++ [.cycle now i]) := by
  have hc : (s.count i.litres).tOp = s.tOp := by unfold Small.count; split <;> rfl
  have h2 := h.2.1
  refine ⟨?_, ?_, fun n l => ?_⟩
  · unfold Small.empty
    cases i.ll
    · have := h.1
      simp only [Bool.false_eq_true, if_false, hc, Tmr.start]
      cases s.tOp.st <;> exact this
    · simpa [hc] using h.1
  · rw [recent_cycle, List.any_append]
    unfold Small.empty
    cases hl : i.ll
    · simp only [Bool.false_eq_true, if_false, hc, Tmr.start]
      cases hs : s.tOp.st <;> simp [hs, hl]
    · simp only [hl, if_true, hc, List.any_cons, List.any_nil, Bool.not_true, Bool.or_false]
      exact h2
  · rw [List.append_assoc, h.2.2]
    simp only [List.singleton_append, lasted, Small.empty]
    cases i.ll
    · simp only [Bool.false_eq_true, if_false, hc, Tmr.start, sinceOf, Bool.not_false, if_true]
      cases hs : s.tOp.st with
      | stop => rw [hs] at h2; split at h2 <;> exact absurd h2 (by simp)
      | work => simp [hs]
      | pause => simp
    · simp [hc, sinceOf]

theorem time_up {limit : Nat} {s : Small} {pre : List (Ev SmallIn)} (h : TimeInv limit s pre) (now : Nat) :
    s.tOp.up now = true ↔ ((recent pre).any fun x => !x.2.ll) = true ∧ limit * 1000 < lasted (!·.ll) none now pre % 2 ^ 32 := by
  have h3 := h.2.2 now []
  have h2 := h.2.1
  rw [List.append_nil] at h3
  rw [h3, Tmr.up, h.1, Tmr.time, sinceOf]
  cases hr : (recent pre).any fun x => !x.2.ll with
  | true =>
    rw [hr, if_pos rfl] at h2
    simp [h2, lasted]
  | false =>
    rw [hr] at h2
    simp [h2]

theorem fill_run {vol : Rat} {limit t0 : Nat} {s s' : Small} {evs : List (Ev SmallIn)} (hm : Mono t0 evs)
    (hr : run (Small.fill vol) (Small.again limit) (s.enter limit t0) evs = some s') : CntInv (·.lm) s' evs := by
  have := run_ind (t0 := t0) (pre := []) (CntInv (·.lm)) ?_ ?_ (fun l => by simp [Small.enter]) hm hr
  · exact this
  · intro s pre now i s1 h _ hc
    have := cnt_fill h vol now i
    rw [hc] at this
    exact this
  · intro s pre a b h _ _
    exact cnt_again h limit a b

theorem empty_run {vol : Rat} {limit t0 : Nat} {s s' : Small} {evs : List (Ev SmallIn)} (hm : Mono t0 evs)
    (hr : run (Small.empty vol) (Small.again limit) (s.enter limit t0) evs = some s') :
    CntInv (!·.ll) s' evs ∧ TimeInv limit s' evs := by
  have := run_ind (t0 := t0) (pre := []) (fun s pre => CntInv (!·.ll) s pre ∧ TimeInv limit s pre) ?_ ?_
    ⟨fun l => by simp [Small.enter], time_enter limit s t0⟩ hm hr
  · exact this
  · intro s pre now i s1 h _ hc
    have h1 := cnt_empty h.1 vol now i
    have h2 := time_cycle h.2 vol now i
    rw [hc] at h1 h2
    exact ⟨h1, h2⟩
  · intro s pre a b h _ _
    exact ⟨cnt_again h.1 limit a b, time_again h.2 a b⟩

/-! ## Dosing the disinfectant, rinsing after the preparation of a solution -/

/-- The timer of a dosing. -/
def DoseInv (limit t0 : Nat) (t : Tmr) (pre : List (Ev Unit)) : Prop :=
  t.st = .work ∧ t.cd = limit * 1000 ∧ t.at_ = t.work + t0 + stopped pre ∧ t.at_ ≤ last t0 pre

theorem dose_run {limit t0 : Nat} {s s' : Tmr} {evs : List (Ev Unit)} (hm : Mono t0 evs)
    (hr : run doseCycle (doseAgain limit) (doseEnter limit s t0) evs = some s') : DoseInv limit t0 s' evs := by
  have := run_ind (t0 := t0) (pre := []) (DoseInv limit t0) ?_ ?_ ?_ hm hr
  · exact this
  · intro s pre now i s1 h hn hc
    have : s1 = s := (Prod.mk.inj hc).1.symm
    rw [this]
    refine ⟨h.1, h.2.1, ?_, ?_⟩
    · rw [stopped_append]; exact h.2.2.1
    · rw [last_snoc]; exact Nat.le_trans h.2.2.2 hn
  · intro s pre a b h ha hb
    refine ⟨rfl, rfl, ?_, ?_⟩
    · have h1 := h.2.2.1
      have h2 := h.2.2.2
      simp only [doseAgain, Tmr.start, Tmr.pause, Tmr.time, h.1, if_true, stopped_append, stopped]
      omega
    · rw [last_snoc]; exact Nat.le_refl b
  · exact ⟨rfl, rfl, by simp [doseEnter, Tmr.start, Tmr.reset, stopped], Nat.le_refl _⟩

/-- The timer of the rinse. -/
def RinseInv (conc : Nat) (t : Tmr) (pre : List (Ev Bool)) : Prop :=
  t.cd = conc * 1000 ∧ (t.st = .stop → t.work = 0) ∧
  ∀ now l, lowFor none 0 now (pre ++ l) = lowFor (sinceOf t) t.work now l

theorem rinse_run {conc t0 : Nat} {s s' : Tmr} {evs : List (Ev Bool)} (hm : Mono t0 evs)
    (hr : run rinseCycle (rinseAgain conc) (rinseEnter conc s) evs = some s') : RinseInv conc s' evs := by
  have := run_ind (t0 := t0) (pre := []) (RinseInv conc) ?_ ?_ ?_ hm hr
  · exact this
  · intro s pre now i s1 h hn hc
    have h1 : s1 = if i then s.start now else s.reset := by
      unfold rinseCycle at hc
      cases i <;> exact (Prod.mk.inj hc).1.symm
    rw [h1]
    cases i with
    | false =>
      refine ⟨h.1, fun _ => rfl, fun n l => ?_⟩
      rw [List.append_assoc, h.2.2]
      simp [lowFor, Tmr.reset, sinceOf]
    | true =>
      refine ⟨?_, ?_, fun n l => ?_⟩
      · have := h.1
        simp only [if_true, Tmr.start]
        cases s.st <;> exact this
      · simp only [if_true, Tmr.start]
        cases hs : s.st <;> simp [hs]
      · rw [List.append_assoc, h.2.2]
        have h2 := h.2.1
        simp only [List.singleton_append, lowFor, if_true, Tmr.start, sinceOf]
        cases hs : s.st with
        | stop => simp [h2 hs]
        | work => simp [hs]
        | pause => simp
  · intro s pre a b h ha hb
    refine ⟨rfl, fun h => absurd h (by simp [rinseAgain, Tmr.pause]), fun n l => ?_⟩
    rw [List.append_assoc, h.2.2]
    simp only [List.singleton_append, lowFor, rinseAgain, Tmr.pause, sinceOf, Tmr.time]
    by_cases hs : s.st = .work
    · simp [hs]
    · simp [hs]
  · exact ⟨rfl, fun _ => rfl, fun n l => rfl⟩

theorem rinse_cycle {conc : Nat} {t : Tmr} {pre : List (Ev Bool)} (h : RinseInv conc t pre) (now : Nat) (low : Bool) :
    (rinseCycle t now low).2 = .done ↔ low = true ∧ conc * 1000 < lowFor none 0 now (pre ++ [.cycle now low]) % 2 ^ 32 := by
  cases low with
  | false => simp [rinseCycle]
  | true =>
    rw [h.2.2]
    have h2 := h.2.1
    have h1 := h.1
    rcases t with ⟨st, at_, work, cd⟩
    simp only at h1 h2
    simp only [rinseCycle, lowFor, if_true, sinceOf, Tmr.start]
    cases st with
    | stop => simp [h2 rfl, Tmr.up, Tmr.time, h1]
    | work => simp [Tmr.up, Tmr.time, h1]
    | pause => simp [Tmr.up, Tmr.time, h1]

theorem dose_cycle {limit t0 : Nat} {t : Tmr} {pre : List (Ev Unit)} (h : DoseInv limit t0 t pre) {now : Nat} (hn : last t0 pre ≤ now) :
    (doseCycle t now ()).2 = .done ↔ limit * 1000 < (now - t0 - stopped pre) % 2 ^ 32 := by
  have h1 := h.2.2.1
  have h2 := h.2.2.2
  have : t.time now = now - t0 - stopped pre := by
    rw [Tmr.time, if_pos h.1]; omega
  simp [doseCycle, Tmr.up, h.1, this, h.2.1]

/-! ## The clock -/

theorem mono_ge {α : Type} {t0 : Nat} {evs : List (Ev α)} (h : Mono t0 evs) : ∀ x ∈ inputs evs, t0 ≤ x.1 := by
  induction evs generalizing t0 with
  | nil => simp [inputs]
  | cons e l ih =>
    cases e with
    | cycle now i =>
      intro x hx
      simp only [inputs, List.mem_cons] at hx
      rcases hx with rfl | hx
      · exact h.1
      · exact Nat.le_trans h.1 (ih h.2 x hx)
    | again a b =>
      intro x hx
      have := ih h.2.2 x hx
      have h1 := h.1
      have h2 := h.2.1
      omega

theorem recent_sub {α : Type} {evs : List (Ev α)} : ∀ x ∈ recent evs, x ∈ inputs evs := by
  induction evs with
  | nil => simp [recent]
  | cons e l ih =>
    cases e with
    | cycle now i =>
      intro x hx
      simp only [recent] at hx
      split at hx
      · exact List.mem_cons_of_mem _ (ih x hx)
      · rcases List.mem_cons.1 hx with rfl | hx
        · exact List.mem_cons_self
        · exact List.mem_cons_of_mem _ (ih x hx)
    | again a b => exact ih

theorem mono_last {α : Type} {t0 : Nat} {evs : List (Ev α)} (h : Mono t0 evs) : t0 ≤ last t0 evs := by
  induction evs generalizing t0 with
  | nil => exact Nat.le_refl _
  | cons e l ih =>
    cases e with
    | cycle now i => exact Nat.le_trans h.1 (ih h.2)
    | again a b =>
      have := ih h.2.2
      have h1 := h.1
      have h2 := h.2.1
      simp only [last]
      omega

theorem first_ge {α : Type} {p : α → Bool} {l : List (Nat × α)} {t0 a : Nat} (h : ∀ x ∈ l, t0 ≤ x.1) (hf : firstTime p l = some a) : t0 ≤ a := by
  unfold firstTime at hf
  rw [Option.map_eq_some_iff] at hf
  obtain ⟨x, h1, rfl⟩ := hf
  exact h x (List.mem_of_find?_eq_some h1)

theorem dry_ge {l : List (Nat × EmptyIn)} {t0 a : Nat} (h : ∀ x ∈ l, t0 ≤ x.1) (hf : dryFrom l = some a) : t0 ≤ a := by
  unfold dryFrom at hf
  split at hf
  · rw [Option.map_eq_some_iff] at hf
    obtain ⟨x, h1, rfl⟩ := hf
    have h2 := List.mem_of_getLast? h1
    exact h x (List.mem_reverse.1 ((List.takeWhile_sublist _).mem h2))
  · simp at hf

/-- The times of the inputs since the resumption and of this cycle. -/
theorem recent_ge {α : Type} {t0 now : Nat} {evs : List (Ev α)} (h : Mono t0 evs) (hn : last t0 evs ≤ now) (i : α) :
    ∀ x ∈ recent evs ++ [(now, i)], t0 ≤ x.1 := by
  intro x hx
  rcases List.mem_append.1 hx with hx | hx
  · exact mono_ge h x (recent_sub x hx)
  · rw [List.mem_singleton] at hx
    rw [hx]; exact Nat.le_trans (mono_last h) hn

/-- Within 49 days the time is not cut. -/
theorem uncut {c t0 now : Nat} {o : Option Nat} (hw : now < t0 + 2 ^ 32) (ho : ∀ a, o = some a → t0 ≤ a) :
    (∃ a, o = some a ∧ c < (now - a) % 2 ^ 32) ↔ ∃ a, o = some a ∧ c < now - a := by
  constructor
  · intro ⟨a, h1, h2⟩
    have := ho a h1
    rw [Nat.mod_eq_of_lt (by omega)] at h2
    exact ⟨a, h1, h2⟩
  · intro ⟨a, h1, h2⟩
    have := ho a h1
    refine ⟨a, h1, ?_⟩
    rw [Nat.mod_eq_of_lt (by omega)]
    exact h2

/-- The counted time is at most the time which has passed. -/
theorem lasted_le {p : SmallIn → Bool} {t0 now : Nat} {since : Option Nat} {evs : List (Ev SmallIn)} (h : Mono t0 evs)
    (hn : last t0 evs ≤ now) (hs : ∀ a, since = some a → a ≤ t0) : lasted p since now evs ≤ now - since.getD t0 := by
  induction evs generalizing t0 since with
  | nil => cases since <;> simp [lasted]
  | cons e l ih =>
    cases e with
    | cycle t i =>
      obtain ⟨h1, h2⟩ := h
      simp only [lasted]
      have := ih (since := since.or (if p i then some t else none)) h2 hn (by
        intro a ha
        cases since with
        | some b => simp at ha; subst ha; exact Nat.le_trans (hs b rfl) h1
        | none =>
          cases hp : p i
          · simp [hp] at ha
          · simp [hp] at ha; omega)
      refine Nat.le_trans this ?_
      cases since with
      | some b => simp
      | none => cases hp : p i <;> simp <;> omega
    | again a b =>
      obtain ⟨h1, h2, h3⟩ := h
      simp only [lasted]
      have h4 := ih (since := none) h3 hn (by simp)
      have h5 := mono_last h3
      simp only [last] at hn
      simp only [Option.getD_none] at h4
      cases since with
      | some c =>
        have := hs c rfl
        simp only [Option.getD_some]
        omega
      | none =>
        simp only [Option.getD_none]
        omega

/-- The time with a low concentration is at most the time which has passed. -/
theorem low_le {t0 now acc : Nat} {since : Option Nat} {evs : List (Ev Bool)} (h : Mono t0 evs)
    (hn : last t0 evs ≤ now) (hs : ∀ a, since = some a → a ≤ t0) : lowFor since acc now evs ≤ acc + (now - since.getD t0) := by
  induction evs generalizing t0 since acc with
  | nil => cases since <;> simp [lowFor]
  | cons e l ih =>
    cases e with
    | cycle t i =>
      obtain ⟨h1, h2⟩ := h
      have h5 := mono_last h2
      simp only [last] at hn
      cases i with
      | false =>
        simp only [lowFor]
        have := ih (acc := 0) (since := none) h2 hn (by simp)
        simp only [Option.getD_none] at this
        cases since with
        | some c =>
          have := hs c rfl
          simp only [Option.getD_some]
          omega
        | none =>
          simp only [Option.getD_none]
          omega
      | true =>
        simp only [lowFor]
        have := ih (acc := acc) (since := since.or (some t)) h2 hn (by
          intro a ha
          cases since with
          | some b => simp at ha; subst ha; exact Nat.le_trans (hs b rfl) h1
          | none => simp at ha; omega)
        refine Nat.le_trans this ?_
        cases since <;> simp <;> omega
    | again a b =>
      obtain ⟨h1, h2, h3⟩ := h
      simp only [lowFor]
      have h4 := ih (since := none) (acc := acc + match since with
        | some t => a - t
        | none => 0) h3 hn (by simp)
      have h5 := mono_last h3
      simp only [last] at hn
      simp only [Option.getD_none] at h4
      cases since with
      | some c =>
        have := hs c rfl
        simp only [Option.getD_some] at h4 ⊢
        omega
      | none =>
        simp only [Option.getD_none] at h4 ⊢
        omega

theorem mono_snoc {α : Type} {t0 now : Nat} {evs : List (Ev α)} (h : Mono t0 evs) (hn : last t0 evs ≤ now) (i : α) :
    Mono t0 (evs ++ [.cycle now i]) := by
  induction evs generalizing t0 with
  | nil => exact ⟨hn, trivial⟩
  | cons e l ih =>
    cases e with
    | cycle t j => exact ⟨h.1, ih h.2 hn⟩
    | again a b => exact ⟨h.1, h.2.1, ih h.2.2 hn⟩

end Ptusa.CipEnd
