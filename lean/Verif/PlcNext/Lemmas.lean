import Verif.PlcNext.Spec

namespace Ptusa.PlcNext

open Spec

theorem run_append (s : St) (a b : List Ev) :
    s.run (a ++ b) = (((s.run a).1.run b).1, (s.run a).2 ++ ((s.run a).1.run b).2) := by
  induction a generalizing s with
  | nil => rfl
  | cons e es ih =>
    show (((s.step e).1.run (es ++ b)).1, (s.step e).2 ++ ((s.step e).1.run (es ++ b)).2) = _
    rw [ih]
    show _ = (_, (s.step e).2 ++ ((s.step e).1.run es).2 ++ _)
    rw [List.append_assoc]
    rfl

theorem run_cons (s : St) (e : Ev) (es : List Ev) :
    s.run (e :: es) = (((s.step e).1.run es).1, (s.step e).2 ++ ((s.step e).1.run es).2) := rfl

/-- The calls of the controller change only `running`. -/
theorem ctls (s : St) (l : List Ctl) : ∃ b, l.foldl St.ctl s = { s with running := b } := by
  induction l generalizing s with
  | nil => exact ⟨s.running, rfl⟩
  | cons c l ih =>
    obtain ⟨b, hb⟩ := ih (s.ctl c)
    refine ⟨b, ?_⟩
    rw [List.foldl_cons, hb]
    cases c <;> rfl

theorem ctls_stop (s : St) (l : List Ctl) (h : .start ∉ l) (hs : s.running = false) : l.foldl St.ctl s = s := by
  induction l generalizing s with
  | nil => rfl
  | cons c l ih =>
    cases c with
    | start => exact absurd List.mem_cons_self h
    | stop =>
      rw [List.foldl_cons]
      have : s.ctl .stop = s := by show { s with running := false } = s; rw [← hs]
      rw [this]
      exact ih s (fun e => h (List.mem_cons_of_mem _ e)) hs

theorem ctls_go (s : St) (l : List Ctl) (h : .stop ∉ l) (hs : s.running = true) : l.foldl St.ctl s = s := by
  induction l generalizing s with
  | nil => rfl
  | cons c l ih =>
    cases c with
    | stop => exact absurd List.mem_cons_self h
    | start =>
      rw [List.foldl_cons]
      have : s.ctl .start = s := by show { s with running := true } = s; rw [← hs]
      rw [this]
      exact ih s (fun e => h (List.mem_cons_of_mem _ e)) hs

theorem Spec.Loads.tail {e : Ev} {es : List Ev} (h : Loads (e :: es)) : Loads es := fun x hx => h x (List.mem_cons_of_mem _ hx)

theorem Spec.Never.tail {c : Ctl} {e : Ev} {es : List Ev} (h : Never c (e :: es)) : Never c es :=
  ⟨fun x => h.1 (List.mem_cons_of_mem _ x), fun x hx => h.2.1 x (List.mem_cons_of_mem _ hx), fun x hx => h.2.2 x (List.mem_cons_of_mem _ hx)⟩

/-- After the project was loaded it is not loaded again. -/
theorem loaded_step (s : St) (e : Ev) (h : s.initFlag = false) :
    (s.step e).1.initFlag = false ∧ (s.step e).1.whole = s.whole ∧ .load ∉ (s.step e).2 ∧ ∀ w, .cycle w ∈ (s.step e).2 → w = s.whole := by
  cases e with
  | ctl c => cases c <;> exact ⟨h, rfl, List.not_mem_nil, fun _ h => absurd h List.not_mem_nil⟩
  | call e =>
    show (s.call e).1.initFlag = false ∧ (s.call e).1.whole = s.whole ∧ .load ∉ (s.call e).2 ∧ ∀ w, .cycle w ∈ (s.call e).2 → w = s.whole
    unfold St.call
    by_cases h1 : s.inLoop = true
    · rw [if_pos h1]; exact ⟨h, rfl, List.not_mem_nil, fun _ h => absurd h List.not_mem_nil⟩
    · rw [if_neg h1, if_neg (by rw [h]; exact Bool.false_ne_true)]
      exact ⟨h, rfl, List.not_mem_nil, fun _ h => absurd h List.not_mem_nil⟩
  | turn t =>
    show (s.turn t).1.initFlag = false ∧ (s.turn t).1.whole = s.whole ∧ .load ∉ (s.turn t).2 ∧ ∀ w, .cycle w ∈ (s.turn t).2 → w = s.whole
    unfold St.turn
    by_cases h1 : s.inLoop = true
    · rw [if_pos h1]
      by_cases h2 : s.running = true
      · rw [if_pos h2]
        obtain ⟨b, hb⟩ := ctls (s.opcCmd t.opc) t.mid
        have ho : (s.opcCmd t.opc).initFlag = s.initFlag ∧ (s.opcCmd t.opc).whole = s.whole := by
          unfold St.opcCmd; split
          · exact ⟨rfl, rfl⟩
          · split <;> exact ⟨rfl, rfl⟩
          · split <;> exact ⟨rfl, rfl⟩
        refine ⟨?_, ?_, ?_, ?_⟩
        · show (t.mid.foldl St.ctl (s.opcCmd t.opc)).initFlag = false
          rw [hb]; exact ho.1.trans h
        · show (t.mid.foldl St.ctl (s.opcCmd t.opc)).whole = s.whole
          rw [hb]; exact ho.2
        · intro hm
          rcases List.mem_cons.mp hm with e | e
          · nomatch e
          · split at e
            · exact absurd (List.mem_singleton.mp e) (by decide)
            · exact absurd e List.not_mem_nil
        · intro w hm
          rcases List.mem_cons.mp hm with e | e
          · exact Act.cycle.inj e
          · split at e
            · nomatch (List.mem_singleton.mp e)
            · exact absurd e List.not_mem_nil
      · rw [if_neg h2]; exact ⟨h, rfl, List.not_mem_nil, fun _ h => absurd h List.not_mem_nil⟩
    · rw [if_neg h1]; exact ⟨h, rfl, List.not_mem_nil, fun _ h => absurd h List.not_mem_nil⟩

theorem loaded_run (s : St) (es : List Ev) (h : s.initFlag = false) :
    (s.run es).1.initFlag = false ∧ (s.run es).1.whole = s.whole ∧ .load ∉ (s.run es).2 ∧ ∀ w, .cycle w ∈ (s.run es).2 → w = s.whole := by
  induction es generalizing s with
  | nil => exact ⟨h, rfl, List.not_mem_nil, fun _ h => absurd h List.not_mem_nil⟩
  | cons e es ih =>
    obtain ⟨a1, a2, a3, a4⟩ := loaded_step s e h
    obtain ⟨b1, b2, b3, b4⟩ := ih (s.step e).1 a1
    rw [run_cons]
    refine ⟨b1, b2.trans a2, fun hm => ?_, fun w hm => ?_⟩
    · rcases List.mem_append.mp hm with e | e
      · exact a3 e
      · exact b3 e
    · rcases List.mem_append.mp hm with e | e
      · exact a4 w e
      · exact (b4 w e).trans a2

/-- Before the project was loaded and without an error the program is not in its loop. -/
structure Fresh (s : St) : Prop where
  init : s.initFlag = true
  err : s.errorFlag = false
  loop : s.inLoop = false

theorem fresh_init : Fresh {} := ⟨rfl, rfl, rfl⟩

theorem fresh_ctl {s : St} (h : Fresh s) (c : Ctl) : Fresh (s.ctl c) := by
  cases c <;> exact ⟨h.init, h.err, h.loop⟩

theorem fresh_turn {s : St} (h : Fresh s) (t : Turn) : s.turn t = (s, []) := by
  unfold St.turn; rw [if_neg (by rw [h.loop]; decide)]

/-- A call that succeeds. -/
theorem fresh_call {s : St} (h : Fresh s) (e : Call) (h1 : e.lua = true) (h2 : e.par = true → e.opcOk = true) :
    s.call e = ({ s with whole := true, opcPar := e.par, opc := s.opc || e.par, initFlag := false, running := true, inLoop := true },
      [.load, .ready]) := by
  unfold St.call
  rw [if_neg (by rw [h.loop]; decide), if_pos (by rw [h.init, h.err]; decide)]
  obtain ⟨b, hb⟩ := ctls s e.mid
  simp only [hb]
  rw [if_neg (by rw [h1]; decide), if_neg (by
    cases hp : e.par with
    | false => exact Bool.false_ne_true
    | true => rw [h2 hp]; decide)]

/-- A failed loading. -/
theorem fresh_fail {s : St} (h : Fresh s) (e : Call) (h1 : e.lua = false) :
    ∃ b, s.call e = ({ s with running := b, errorFlag := true, whole := false }, [.load]) ∧
      ((.start ∉ e.mid → s.running = false → b = false) ∧ (.stop ∉ e.mid → s.running = true → b = true)) := by
  obtain ⟨b, hb⟩ := ctls s e.mid
  refine ⟨b, ?_, fun hm hs => ?_, fun hm hs => ?_⟩
  · unfold St.call
    rw [if_neg (by rw [h.loop]; decide), if_pos (by rw [h.init, h.err]; decide)]
    simp only [hb]
    rw [if_pos (by rw [h1]; decide)]
  · have := ctls_stop s e.mid hm hs
    rw [hb] at this
    have := congrArg St.running this
    exact this.trans hs
  · have := ctls_go s e.mid hm hs
    rw [hb] at this
    have := congrArg St.running this
    exact this.trans hs

/-- The OPC UA server does not start. -/
theorem fresh_opc {s : St} (h : Fresh s) (e : Call) (h1 : e.lua = true) (h2 : e.par = true) (h3 : e.opcOk = false) :
    ∃ t, s.call e = (t, [.load]) ∧ Fresh t := by
  obtain ⟨b, hb⟩ := ctls s e.mid
  refine ⟨{ s with running := b, whole := true, opcPar := e.par }, ?_, h.init, h.err, h.loop⟩
  unfold St.call
  rw [if_neg (by rw [h.loop]; decide), if_pos (by rw [h.init, h.err]; decide)]
  simp only [hb]
  rw [if_neg (by rw [h1]; decide), if_pos (by rw [h2, h3]; decide)]

/-- After an error nothing is loaded any more. -/
theorem err_step (s : St) (e : Ev) (h : s.errorFlag = true) : (s.step e).1.errorFlag = true ∧ .load ∉ (s.step e).2 := by
  cases e with
  | ctl c => cases c <;> exact ⟨h, List.not_mem_nil⟩
  | call e =>
    show (s.call e).1.errorFlag = true ∧ .load ∉ (s.call e).2
    unfold St.call
    by_cases h1 : s.inLoop = true
    · rw [if_pos h1]; exact ⟨h, List.not_mem_nil⟩
    · rw [if_neg h1, if_neg (by rw [h]; cases s.initFlag <;> decide)]
      exact ⟨h, List.not_mem_nil⟩
  | turn t =>
    show (s.turn t).1.errorFlag = true ∧ .load ∉ (s.turn t).2
    unfold St.turn
    by_cases h1 : s.inLoop = true
    · rw [if_pos h1]
      by_cases h2 : s.running = true
      · rw [if_pos h2]
        obtain ⟨b, hb⟩ := ctls (s.opcCmd t.opc) t.mid
        have ho : (s.opcCmd t.opc).errorFlag = s.errorFlag := by
          unfold St.opcCmd; split
          · rfl
          · split <;> rfl
          · split <;> rfl
        refine ⟨?_, ?_⟩
        · show (t.mid.foldl St.ctl (s.opcCmd t.opc)).errorFlag = true
          rw [hb]; exact ho.trans h
        · intro hm
          rcases List.mem_cons.mp hm with e | e
          · nomatch e
          · split at e
            · exact absurd (List.mem_singleton.mp e) (by decide)
            · exact absurd e List.not_mem_nil
      · rw [if_neg h2]; exact ⟨h, List.not_mem_nil⟩
    · rw [if_neg h1]; exact ⟨h, List.not_mem_nil⟩

theorem err_run (s : St) (es : List Ev) (h : s.errorFlag = true) : (s.run es).1.errorFlag = true ∧ .load ∉ (s.run es).2 := by
  induction es generalizing s with
  | nil => exact ⟨h, List.not_mem_nil⟩
  | cons e es ih =>
    obtain ⟨a1, a2⟩ := err_step s e h
    obtain ⟨b1, b2⟩ := ih (s.step e).1 a1
    rw [run_cons]
    exact ⟨b1, fun hm => (List.mem_append.mp hm).elim a2 b2⟩

/-- Stopped, and nothing will be loaded: without `Start` there is no cycle. -/
theorem still_step (s : St) (e : Ev) (h : s.running = false) (hi : (s.initFlag && !s.errorFlag) = false) (hn : Never .start [e]) :
    (s.step e).1.running = false ∧ ((s.step e).1.initFlag && !(s.step e).1.errorFlag) = false ∧ (s.step e).2 = [] := by
  cases e with
  | ctl c =>
    cases c with
    | start => exact absurd List.mem_cons_self hn.1
    | stop => exact ⟨rfl, hi, rfl⟩
  | call e =>
    show (s.call e).1.running = false ∧ ((s.call e).1.initFlag && !(s.call e).1.errorFlag) = false ∧ (s.call e).2 = []
    unfold St.call
    by_cases h1 : s.inLoop = true
    · rw [if_pos h1]; exact ⟨h, hi, rfl⟩
    · rw [if_neg h1, if_neg (by rw [hi]; decide)]
      exact ⟨h, hi, rfl⟩
  | turn t =>
    show (s.turn t).1.running = false ∧ ((s.turn t).1.initFlag && !(s.turn t).1.errorFlag) = false ∧ (s.turn t).2 = []
    unfold St.turn
    by_cases h1 : s.inLoop = true
    · rw [if_pos h1, if_neg (by rw [h]; decide)]; exact ⟨h, hi, rfl⟩
    · rw [if_neg h1]; exact ⟨h, hi, rfl⟩

theorem still_run (s : St) (es : List Ev) (h : s.running = false) (hi : (s.initFlag && !s.errorFlag) = false) (hn : Never .start es) :
    (s.run es).1.running = false ∧ (s.run es).2 = [] := by
  induction es generalizing s with
  | nil => exact ⟨h, rfl⟩
  | cons e es ih =>
    have h1 : Never .start [e] := by
      refine ⟨fun x => ?_, fun x hx => ?_, fun x hx => ?_⟩
      · exact hn.1 (by rw [List.mem_singleton.mp x]; exact List.mem_cons_self)
      · exact hn.2.1 x (by rw [List.mem_singleton.mp hx]; exact List.mem_cons_self)
      · exact hn.2.2 x (by rw [List.mem_singleton.mp hx]; exact List.mem_cons_self)
    obtain ⟨a1, a2, a3⟩ := still_step s e h hi h1
    obtain ⟨b1, b2⟩ := ih (s.step e).1 a1 a2 hn.tail
    rw [run_cons, a3, b2]
    exact ⟨b1, rfl⟩

/-- A state that was ready once was loaded. -/
theorem ready_step (s : St) (e : Ev) (h : .ready ∈ (s.step e).2) : (s.step e).1.initFlag = false := by
  cases e with
  | ctl c => exact absurd h List.not_mem_nil
  | call e =>
    have h : .ready ∈ (s.call e).2 := h
    show (s.call e).1.initFlag = false
    unfold St.call at h ⊢
    by_cases h1 : s.inLoop = true
    · rw [if_pos h1] at h; exact absurd h List.not_mem_nil
    · rw [if_neg h1] at h ⊢
      by_cases h2 : (s.initFlag && !s.errorFlag) = true
      · rw [if_pos h2] at h ⊢
        simp only at h ⊢
        by_cases h3 : (!e.lua) = true
        · rw [if_pos h3] at h; exact absurd (List.mem_singleton.mp h) (by decide)
        · rw [if_neg h3] at h ⊢
          by_cases h4 : (e.par && !e.opcOk) = true
          · rw [if_pos h4] at h; exact absurd (List.mem_singleton.mp h) (by decide)
          · rw [if_neg h4]
      · rw [if_neg h2] at h; exact absurd h List.not_mem_nil
  | turn t =>
    have h : .ready ∈ (s.turn t).2 := h
    unfold St.turn at h
    by_cases h1 : s.inLoop = true
    · rw [if_pos h1] at h
      by_cases h2 : s.running = true
      · rw [if_pos h2] at h
        rcases List.mem_cons.mp h with e | e
        · nomatch e
        · split at e
          · exact absurd (List.mem_singleton.mp e) (by decide)
          · exact absurd e List.not_mem_nil
      · rw [if_neg h2] at h; exact absurd h List.not_mem_nil
    · rw [if_neg h1] at h; exact absurd h List.not_mem_nil

theorem ready_run (s : St) (es : List Ev) (h : .ready ∈ (s.run es).2) : (s.run es).1.initFlag = false := by
  induction es generalizing s with
  | nil => exact absurd h List.not_mem_nil
  | cons e es ih =>
    rw [run_cons] at h ⊢
    rcases List.mem_append.mp h with a | a
    · exact (loaded_run _ es (ready_step s e a)).1
    · exact ih _ a

/-- Turns of the loop while nobody stops it. -/
theorem turns_go (s : St) (ts : List Turn) (hl : s.inLoop = true) (hr : s.running = true) (hs : ∀ t ∈ ts, .stop ∉ t.mid) :
    (s.run (ts.map .turn)).1.inLoop = true ∧ (s.run (ts.map .turn)).1.running = true ∧
      (s.run (ts.map .turn)).2.filter (· == .cycle s.whole) = List.replicate ts.length (.cycle s.whole) := by
  induction ts generalizing s with
  | nil => exact ⟨hl, hr, rfl⟩
  | cons t ts ih =>
    have ho : (s.opcCmd t.opc).inLoop = s.inLoop ∧ (s.opcCmd t.opc).running = s.running ∧ (s.opcCmd t.opc).whole = s.whole := by
      unfold St.opcCmd; split
      · exact ⟨rfl, rfl, rfl⟩
      · split <;> exact ⟨rfl, rfl, rfl⟩
      · split <;> exact ⟨rfl, rfl, rfl⟩
    have e1 : s.turn t = (s.opcCmd t.opc, .cycle s.whole :: (if (s.opcCmd t.opc).opcPar && (s.opcCmd t.opc).opc then [.serve] else [])) := by
      unfold St.turn
      rw [if_pos hl, if_pos hr]
      simp only
      rw [ctls_go _ _ (hs t List.mem_cons_self) (ho.2.1.trans hr)]
    obtain ⟨a1, a2, a3⟩ := ih (s.opcCmd t.opc) (ho.1.trans hl) (ho.2.1.trans hr) fun x hx => hs x (List.mem_cons_of_mem _ hx)
    rw [ho.2.2] at a3
    rw [List.map_cons, run_cons]
    show ((s.turn t).1.run _).1.inLoop = true ∧ ((s.turn t).1.run _).1.running = true ∧ List.filter _ ((s.turn t).2 ++ ((s.turn t).1.run _).2) = _
    rw [e1]
    refine ⟨a1, a2, ?_⟩
    rw [List.filter_append]
    have e2 : List.filter (· == Act.cycle s.whole) (.cycle s.whole :: (if (s.opcCmd t.opc).opcPar && (s.opcCmd t.opc).opc then [.serve] else [])) =
        [.cycle s.whole] := by
      rw [List.filter_cons_of_pos (by exact beq_self_eq_true _)]
      split <;> rfl
    rw [e2, a3, List.length_cons, List.replicate_succ]
    rfl

end Ptusa.PlcNext
