import Verif.CarWash.Spec
import Mathlib.Data.List.FinRange

namespace Ptusa.CarWash

structure Sim (s : St) (l : Ledger) : Prop where
  busy : s.active = l.busy
  car : s.car = l.place
  sw : s.sw = l.on
  total : ∀ n, (s.count n).getD 0 = l.total n
  service : l.busy = true → s.service = true → l.washed = []
  idle : l.busy = false → l.washed = []
  washing : l.busy = true → s.service = false → ∃ n, l.washed = [n] ∧ s.obj = some n ∧ s.count n ≠ none

theorem finRange4 : List.finRange 4 = [0, 1, 2, 3] := by decide

theorem chosen_nil (l : Ledger) : l.chosen = [] ↔ (l.on 0 || l.on 1 || l.on 2 || l.on 3) = false := by
  unfold Ledger.chosen
  rw [finRange4]
  cases h0 : l.on 0 <;> cases h1 : l.on 1 <;> cases h2 : l.on 2 <;> cases h3 : l.on 3 <;> simp [List.filter, h0, h1, h2, h3]

theorem chosen_first {l : Ledger} (h : ∀ i, l.on i = true → i = 0) (hn : l.chosen ≠ []) : l.chosen = [l.place 0] := by
  unfold Ledger.chosen at hn ⊢
  rw [finRange4] at hn ⊢
  have h1 : l.on 1 = false := by
    cases c : l.on 1
    · rfl
    · exact absurd (h 1 c) (by decide)
  have h2 : l.on 2 = false := by
    cases c : l.on 2
    · rfl
    · exact absurd (h 2 c) (by decide)
  have h3 : l.on 3 = false := by
    cases c : l.on 3
    · rfl
    · exact absurd (h 3 c) (by decide)
  cases h0 : l.on 0
  · simp [List.filter, h0, h1, h2, h3] at hn
  · simp [List.filter, h0, h1, h2, h3]

theorem setCar_fields (s : St) (i : Fin 4) (n : Name) :
    (s.setCar i n).active = s.active ∧ (s.setCar i n).service = s.service ∧ (s.setCar i n).sw = s.sw ∧ (s.setCar i n).count = s.count ∧
    (s.setCar i n).car = upd s.car i n ∧ (i ≠ 0 → (s.setCar i n).obj = s.obj) := by
  unfold St.setCar
  by_cases c : i = 0
  · rw [if_pos c]; subst c; exact ⟨rfl, rfl, rfl, rfl, rfl, fun h => absurd rfl h⟩
  · rw [if_neg c]; exact ⟨rfl, rfl, rfl, rfl, rfl, fun _ => rfl⟩

theorem sim_setCar {s : St} {l : Ledger} (h : Sim s l) (i : Fin 4) (n : Name) (hi : i = 0 → l.busy = false) :
    Sim (s.setCar i n) { l with place := fun j => if j = i then n else l.place j } := by
  obtain ⟨e1, e2, e3, e4, e5, e6⟩ := setCar_fields s i n
  refine ⟨by rw [e1]; exact h.busy, by rw [e5, h.car]; rfl, by rw [e3]; exact h.sw, fun m => by rw [e4]; exact h.total m,
    fun hb hv => h.service hb (by rw [← e2]; exact hv), h.idle, fun hb hv => ?_⟩
  rw [e2] at hv
  obtain ⟨m, w1, w2, w3⟩ := h.washing hb hv
  have ne : i ≠ 0 := fun c => by
    have := hi c
    have hb' : l.busy = true := hb
    rw [this] at hb'
    exact absurd hb' (by decide)
  exact ⟨m, w1, by rw [e6 ne]; exact w2, by rw [e4]; exact w3⟩

theorem sim_counted {s : St} {l : Ledger} (h : Sim s l) (f : Nat → Nat) :
    Sim (if s.active && !s.service then s.counted f else s) { l with total := fun n => if n ∈ l.washed then f (l.total n) else l.total n } := by
  by_cases c : (s.active && !s.service) = true
  · rw [if_pos c]
    rw [Bool.and_eq_true, Bool.not_eq_true'] at c
    have hb : l.busy = true := by rw [← h.busy]; exact c.1
    obtain ⟨m, w1, w2, w3⟩ := h.washing hb c.2
    refine ⟨h.busy, h.car, h.sw, fun n => ?_, h.service, h.idle, fun _ _ => ⟨m, w1, w2, ?_⟩⟩
    · show (if s.obj = some n then (s.count n).map f else s.count n).getD 0 = if n ∈ l.washed then f (l.total n) else l.total n
      rw [w1, w2]
      by_cases e : n = m
      · subst e
        rw [if_pos rfl, if_pos (List.mem_singleton.2 rfl), ← h.total n]
        cases q : s.count n with
        | none => exact absurd q w3
        | some v => rfl
      · rw [if_neg (fun x => e (Option.some.inj x).symm), if_neg (fun x => e (List.mem_singleton.1 x))]
        exact h.total n
    · show (if s.obj = some m then (s.count m).map f else s.count m) ≠ none
      rw [if_pos w2]
      cases q : s.count m with
      | none => exact absurd q w3
      | some v => simp
  · rw [if_neg c]
    have w : l.washed = [] := by
      cases hb : l.busy
      · exact h.idle hb
      · refine h.service hb ?_
        have ha : s.active = true := by rw [h.busy]; exact hb
        rw [ha] at c
        simpa using c
    refine ⟨h.busy, h.car, h.sw, fun n => ?_, h.service, h.idle, h.washing⟩
    show _ = if n ∈ l.washed then f (l.total n) else l.total n
    rw [w, if_neg (by simp)]
    exact h.total n

theorem sim_step {s : St} {l : Ledger} (h : Sim s l) (e : Ev) (hp : Plain l e) : Sim (step s e) (l.note e) := by
  cases e with
  | panel i n =>
    show Sim (if i = 0 ∧ s.active then s else s.setCar i n) (if i = 0 ∧ l.busy then l else _)
    rw [h.busy]
    by_cases c : i = 0 ∧ l.busy = true
    · rw [if_pos c, if_pos c]; exact h
    · rw [if_neg c, if_neg c]
      exact sim_setCar h i n (fun hi => by
        cases q : l.busy
        · rfl
        · exact absurd ⟨hi, q⟩ c)
  | server i n => exact sim_setCar h i n hp
  | switch i v =>
    show Sim (if s.active then s else _) (if l.busy then l else _)
    rw [h.busy]
    by_cases c : l.busy = true
    · rw [if_pos c, if_pos c]; exact h
    · rw [if_neg c, if_neg c]
      refine ⟨rfl, h.car, ?_, h.total, h.service, h.idle, h.washing⟩
      show upd s.sw i v = _
      rw [h.sw]; rfl
  | start service =>
    cases service with
    | true =>
      show Sim (if s.active then s else { s with active := true, service := true, sw := fun _ => false }) (if l.busy then l else _)
      rw [h.busy]
      by_cases c : l.busy = true
      · rw [if_pos c, if_pos c]; exact h
      · rw [if_neg c, if_neg c]
        exact ⟨rfl, h.car, rfl, h.total, fun _ _ => rfl, fun x => (nomatch x), fun _ x => (nomatch x)⟩
    | false =>
      show Sim (if s.active then s else if s.sw 0 || s.sw 1 || s.sw 2 || s.sw 3 then { s.getStats with active := true, service := false } else s)
        (if l.busy = true ∨ l.chosen = [] then l else { l with busy := true, washed := l.chosen })
      rw [h.busy, h.sw]
      by_cases c : l.busy = true
      · rw [if_pos c, if_pos (Or.inl c)]; exact h
      · rw [if_neg c]
        by_cases q : (l.on 0 || l.on 1 || l.on 2 || l.on 3) = true
        · have ne : l.chosen ≠ [] := fun x => by
            rw [(chosen_nil l).1 x] at q
            exact absurd q (by decide)
          rw [if_pos q, if_neg (by rintro (x | x); exact c x; exact ne x)]
          have one := chosen_first hp ne
          have ec : s.car 0 = l.place 0 := by rw [h.car]
          refine ⟨rfl, h.car, h.sw, fun n => ?_, fun _ x => (nomatch x), fun x => (nomatch x), fun _ _ => ⟨l.place 0, one, ?_, ?_⟩⟩
          · show (if n = s.car 0 ∧ s.count n = none then some 0 else s.count n).getD 0 = l.total n
            rw [← h.total n]
            by_cases z : n = s.car 0 ∧ s.count n = none
            · rw [if_pos z, z.2]; rfl
            · rw [if_neg z]
          · show some (s.car 0) = _
            rw [ec]
          · show (if l.place 0 = s.car 0 ∧ s.count (l.place 0) = none then some 0 else s.count (l.place 0)) ≠ none
            by_cases z : s.count (l.place 0) = none
            · rw [if_pos ⟨ec.symm, z⟩]; simp
            · rw [if_neg (fun y => z y.2)]; exact z
        · have e : l.chosen = [] := (chosen_nil l).2 (by simpa using q)
          rw [if_neg q, if_pos (Or.inr e)]
          exact h
  | caustic => exact sim_counted h (· + 1)
  | acid => exact sim_counted h (fun _ => 0)
  | finish =>
    show Sim (if s.active then _ else s) (if l.busy then _ else l)
    rw [h.busy]
    by_cases c : l.busy = true
    · rw [if_pos c, if_pos c]
      exact ⟨rfl, rfl, rfl, h.total, fun x => (nomatch x), fun _ => rfl, fun x => (nomatch x)⟩
    · rw [if_neg c, if_neg c]; exact h
  | clear =>
    show Sim (if s.active then s else _) (if l.busy then l else _)
    rw [h.busy]
    by_cases c : l.busy = true
    · rw [if_pos c, if_pos c]; exact h
    · rw [if_neg c, if_neg c]
      exact ⟨rfl, rfl, h.sw, h.total, h.service, h.idle, fun x => absurd x c⟩

theorem sim_run {s : St} {l : Ledger} (h : Sim s l) (es : List Ev) (hp : AllPlain l es) : Sim (es.foldl step s) (es.foldl Ledger.note l) := by
  induction es generalizing s l with
  | nil => exact h
  | cons e es ih => exact ih (sim_step h e hp.1) hp.2

theorem sim_init : Sim {} {} :=
  ⟨rfl, rfl, rfl, fun _ => rfl, fun x => (nomatch x), fun _ => rfl, fun x => (nomatch x)⟩

end Ptusa.CarWash
