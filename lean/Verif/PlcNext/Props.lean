import Verif.PlcNext.Lemmas

/-!
# C202: starting, stopping and loading on a PLCnext controller
-/
namespace Ptusa.PlcNext

open Spec

/-- **C202** (part). When the project can be loaded, it is loaded once, whatever the controller does, and each cycle of the control works
on the complete project. -/
theorem C202_once_partial (es : List Ev) (h : Loads es) :
    (({} : St).run es).2.count .load ≤ 1 ∧ ∀ w, .cycle w ∈ (({} : St).run es).2 → w = true := by
  have key : ∀ (es : List Ev) (s : St), Fresh s → Loads es →
      (s.run es).2.count .load ≤ 1 ∧ ∀ w, .cycle w ∈ (s.run es).2 → w = true := by
    intro es
    induction es with
    | nil => intro s _ _; exact ⟨Nat.zero_le _, fun _ h => absurd h List.not_mem_nil⟩
    | cons e es ih =>
      intro s hs hl
      rw [run_cons]
      cases e with
      | ctl c =>
        show List.count _ ([] ++ ((s.ctl c).run es).2) ≤ 1 ∧ ∀ w, _ ∈ [] ++ ((s.ctl c).run es).2 → _
        rw [List.nil_append]
        exact ih _ (fresh_ctl hs c) hl.tail
      | turn t =>
        show List.count _ ((s.turn t).2 ++ ((s.turn t).1.run es).2) ≤ 1 ∧ ∀ w, _ ∈ (s.turn t).2 ++ ((s.turn t).1.run es).2 → _
        rw [fresh_turn hs]
        exact ih _ hs hl.tail
      | call e =>
        obtain ⟨h1, h2⟩ := hl e List.mem_cons_self
        show List.count _ ((s.call e).2 ++ ((s.call e).1.run es).2) ≤ 1 ∧ ∀ w, _ ∈ (s.call e).2 ++ ((s.call e).1.run es).2 → _
        rw [fresh_call hs e h1 h2]
        simp only
        generalize ht : ({ s with whole := true, opcPar := e.par, opc := s.opc || e.par, initFlag := false, running := true, inLoop := true } : St) = t
        obtain ⟨-, -, a3, a4⟩ := loaded_run t es (by rw [← ht])
        have hw : t.whole = true := by rw [← ht]
        refine ⟨?_, fun w hm => ?_⟩
        · rw [List.count_append, List.count_eq_zero_of_not_mem a3]
          decide
        · rcases List.mem_append.mp hm with x | x
          · rcases List.mem_cons.mp x with y | y
            · nomatch y
            · nomatch (List.mem_singleton.mp y)
          · exact (a4 w x).trans hw
  exact key es {} fresh_init h

/-- Two starts with a stop in between. -/
example : (({} : St).run [.ctl .start, .call {}, .turn {}, .turn { mid := [.stop] }, .turn {}, .ctl .start, .call {}, .turn {}]).2 =
    [.load, .ready, .cycle true, .cycle true, .cycle true] := by decide

/-- **C202** (part). After `Stop`, when the project has been loaded, nothing is done until `Start` is called. -/
theorem C202_stop_partial (es es' : List Ev) (h : .ready ∈ (({} : St).run es).2) (hn : Never .start es') :
    (((({} : St).run es).1.ctl .stop).run es').2 = [] :=
  (still_run _ es' rfl (by show ((({} : St).run es).1.initFlag && _) = false; rw [ready_run _ es h]; rfl) hn).2

example : .ready ∈ (({} : St).run [.ctl .start, .call {}, .turn {}]).2 ∧ Never .start [.turn {}, .call {}, .turn {}] := by
  refine ⟨by decide, fun x => ?_, fun e hx => ?_, fun t hx => ?_⟩
  · rcases List.mem_cons.mp x with e | e
    · nomatch e
    · rcases List.mem_cons.mp e with e | e
      · nomatch e
      · nomatch (List.mem_singleton.mp e)
  · rcases List.mem_cons.mp hx with x | x
    · nomatch x
    · rcases List.mem_cons.mp x with x | x
      · injection x with x; rw [x]; exact List.not_mem_nil
      · nomatch (List.mem_singleton.mp x)
  · rcases List.mem_cons.mp hx with x | x
    · injection x with x; rw [x]; exact List.not_mem_nil
    · rcases List.mem_cons.mp x with x | x
      · nomatch x
      · have x := List.mem_singleton.mp x
        injection x with x; rw [x]; exact List.not_mem_nil

/-- **C202**. After `Start`, when the project has been loaded, the next call of the program controls: every turn of its loop until the next
`Stop` is one cycle with the complete project. -/
theorem C202_start (es : List Ev) (h : .ready ∈ (({} : St).run es).2) (hl : Loads es) (e : Call) (ts : List Turn)
    (hs : ∀ t ∈ ts, .stop ∉ t.mid) :
    ((((({} : St).run es).1.ctl .start).run (.call e :: ts.map .turn)).2.filter (· == .cycle true)).length = ts.length := by
  have hi := ready_run _ es h
  have hw : (({} : St).run es).1.whole = true := by
    have key : ∀ (es : List Ev) (s : St), Fresh s → Loads es → .ready ∈ (s.run es).2 → (s.run es).1.whole = true := by
      intro es
      induction es with
      | nil => intro s _ _ h; exact absurd h List.not_mem_nil
      | cons e es ih =>
        intro s hs hl hm
        rw [run_cons] at hm ⊢
        cases e with
        | ctl c =>
          have hm : .ready ∈ [] ++ ((s.ctl c).run es).2 := hm
          exact ih _ (fresh_ctl hs c) hl.tail hm
        | turn t =>
          have hm : .ready ∈ (s.turn t).2 ++ ((s.turn t).1.run es).2 := hm
          show ((s.turn t).1.run es).1.whole = true
          rw [fresh_turn hs] at hm ⊢
          exact ih _ hs hl.tail hm
        | call e =>
          obtain ⟨h1, h2⟩ := hl e List.mem_cons_self
          show ((s.call e).1.run es).1.whole = true
          rw [fresh_call hs e h1 h2]
          exact (loaded_run _ es rfl).2.1
    exact key es {} fresh_init hl h
  generalize (({} : St).run es).1 = s at hi hw
  have e1 : (s.ctl .start).call e = ({ s with running := true, inLoop := true }, []) := by
    unfold St.call
    by_cases h1 : (s.ctl .start).inLoop = true
    · rw [if_pos h1]
      have : s.inLoop = true := h1
      show (({ s with running := true } : St), _) = _
      rw [← this]
    · rw [if_neg h1, if_neg (by show ¬ (s.initFlag && _) = true; rw [hi]; exact Bool.false_ne_true)]
      rfl
  rw [run_cons]
  show (List.filter _ (((s.ctl .start).call e).2 ++ (((s.ctl .start).call e).1.run _).2)).length = _
  rw [e1, List.nil_append]
  have := (turns_go { s with running := true, inLoop := true } ts rfl rfl hs).2.2
  rw [hw] at this
  show (List.filter _ (({ s with running := true, inLoop := true } : St).run _).2).length = _
  rw [hw]
  rw [this, List.length_replicate]

example : (((({} : St).run [.call {}, .turn { mid := [.stop] }, .turn {}]).1.ctl .start).run (.call {} :: [{}, {}].map .turn)).2 =
    [.cycle true, .cycle true] := by decide

/-- **C202** (part). A project that could not be loaded is not loaded again, and when the controller never calls `Start`, nothing is
done at all after that. -/
theorem C202_failed_partial (e : Call) (h : e.lua = false) (es : List Ev) :
    ∃ as, (({} : St).run (.call e :: es)).2 = .load :: as ∧ .load ∉ as ∧ (Never .start (.call e :: es) → as = []) := by
  obtain ⟨b, hb, h1, -⟩ := fresh_fail fresh_init e h
  refine ⟨((({} : St).call e).1.run es).2, ?_, ?_, fun hn => ?_⟩
  · rw [run_cons]
    show (({} : St).call e).2 ++ ((({} : St).call e).1.run es).2 = _
    rw [hb]; rfl
  · rw [hb]; exact (err_run _ es rfl).2
  · rw [hb]
    exact (still_run _ es (h1 (hn.2.1 e List.mem_cons_self) rfl) rfl hn.tail).2

example : (({} : St).run [.call { lua := false }, .call {}, .turn {}]).2 = [.load] := by decide

/-- **C202 fails**: when `Start` was called before, which is how a controller begins, the call after a failed loading goes into the loop
and controls with an incomplete project, in every turn until the next `Stop`. -/
theorem C202_failed_violated (e e' : Call) (h : e.lua = false) (hm : .stop ∉ e.mid) (ts : List Turn) (hs : ∀ t ∈ ts, .stop ∉ t.mid) :
    ((({} : St).run (.ctl .start :: .call e :: .call e' :: ts.map .turn)).2.filter (· == .cycle false)).length = ts.length := by
  obtain ⟨b, hb, -, h2⟩ := fresh_fail (fresh_ctl fresh_init .start) e h
  have hb' := h2 hm rfl
  rw [run_cons, run_cons, run_cons]
  show (List.filter _ ([] ++ ((((({} : St).ctl .start).call e).2) ++
    ((((({} : St).ctl .start).call e).1.call e').2 ++ (((((({} : St).ctl .start).call e).1.call e').1).run _).2)))).length = _
  rw [hb, hb']
  have e1 : ({ (({} : St).ctl .start) with running := true, errorFlag := true, whole := false } : St).call e' =
      ({ (({} : St).ctl .start) with running := true, errorFlag := true, whole := false, inLoop := true }, []) := rfl
  rw [e1]
  have := (turns_go { (({} : St).ctl .start) with running := true, errorFlag := true, whole := false, inLoop := true } ts rfl rfl hs).2.2
  rw [List.nil_append, List.nil_append, List.filter_append]
  show ([] ++ List.filter (· == Act.cycle false) _).length = _
  rw [List.nil_append]
  exact (congrArg List.length this).trans List.length_replicate

example : (({} : St).run [.ctl .start, .call { lua := false }, .call {}, .turn {}]).2 = [.load, .cycle false] := by decide

/-- **C202 fails**: a `Stop` that comes before the first call of the program or while it loads is lost; the control begins. -/
theorem C202_stop_violated (e : Call) (h : e.lua = true) (hp : e.par = true → e.opcOk = true) (mid : List Ctl) (t : Turn) :
    .cycle true ∈ (({} : St).run [.ctl .stop, .call { e with mid := mid ++ [.stop] }, .turn t]).2 := by
  rw [run_cons, run_cons, run_cons]
  show _ ∈ [] ++ (((({} : St).ctl .stop).call { e with mid := mid ++ [.stop] }).2 ++
    ((((({} : St).ctl .stop).call { e with mid := mid ++ [.stop] }).1.turn t).2 ++ []))
  rw [fresh_call (fresh_ctl fresh_init .stop) { e with mid := mid ++ [.stop] } h hp]
  exact List.mem_append_right _ (List.mem_append_right _ (List.mem_append_left _ List.mem_cons_self))

example : .cycle true ∈ (({} : St).run [.ctl .stop, .call { mid := [.start] ++ [.stop] }, .turn {}]).2 :=
  C202_stop_violated {} rfl (fun _ => rfl) [.start] {}

/-- **C202 fails**: when the OPC UA server cannot be started, every call loads the whole project again over the one that is there. -/
theorem C202_again_violated (cs : List Call) (h : ∀ e ∈ cs, e.lua = true ∧ e.par = true ∧ e.opcOk = false) :
    (({} : St).run (cs.map .call)).2 = List.replicate cs.length .load := by
  have key : ∀ (cs : List Call) (s : St), Fresh s → (∀ e ∈ cs, e.lua = true ∧ e.par = true ∧ e.opcOk = false) →
      (s.run (cs.map .call)).2 = List.replicate cs.length .load := by
    intro cs
    induction cs with
    | nil => intro s _ _; rfl
    | cons e cs ih =>
      intro s hs h
      obtain ⟨h1, h2, h3⟩ := h e List.mem_cons_self
      obtain ⟨t, ht, hf⟩ := fresh_opc hs e h1 h2 h3
      rw [List.map_cons, run_cons]
      show (s.call e).2 ++ ((s.call e).1.run _).2 = _
      rw [ht, ih t hf fun x hx => h x (List.mem_cons_of_mem _ hx)]
      rfl
  exact key cs {} fresh_init h

example : (({} : St).run ([{ par := true, opcOk := false }, { par := true, opcOk := false }].map .call)).2 = [.load, .load] := by decide

/-- **C202** (part). While the program is not stopped, the OPC UA server that was switched on at the start answers in every cycle. -/
theorem C202_serve_partial (e : Call) (h : e.lua = true) (hp : e.par = true) (ho : e.opcOk = true) (ts : List Turn)
    (hs : ∀ t ∈ ts, .stop ∉ t.mid ∧ t.opc = none) :
    (({} : St).run (.call e :: ts.map .turn)).2 = [.load, .ready] ++ (ts.map fun _ => [.cycle true, .serve]).flatten := by
  rw [run_cons]
  show (({} : St).call e).2 ++ ((({} : St).call e).1.run _).2 = _
  rw [fresh_call fresh_init e h fun _ => ho, hp]
  congr 1
  simp only
  generalize hu : ({ ({} : St) with whole := true, opcPar := true, opc := ({} : St).opc || true, initFlag := false, running := true, inLoop := true } : St) = u
  induction ts with
  | nil => rfl
  | cons t ts ih =>
    have e1 : u.turn t = (u, [.cycle true, .serve]) := by
      obtain ⟨h1, h2⟩ := hs t List.mem_cons_self
      unfold St.turn
      rw [if_pos (by rw [← hu]), if_pos (by rw [← hu])]
      simp only
      rw [h2, show u.opcCmd none = u from rfl, ctls_go u t.mid h1 (by rw [← hu])]
      rw [← hu]; rfl
    rw [List.map_cons, run_cons]
    show (u.turn t).2 ++ ((u.turn t).1.run _).2 = _
    rw [e1, ih fun x hx => hs x (List.mem_cons_of_mem _ hx)]
    rfl

example : (({} : St).run (.call { par := true } :: [{}, {}].map .turn)).2 = [.load, .ready, .cycle true, .serve, .cycle true, .serve] := by decide

/-- **C202** (part). While the program is not stopped, and when the OPC UA server can be started whenever it is wanted, clients are answered
in exactly the cycles in which the last wish was that the server be on. -/
theorem C202_switch_partial (e : Call) (h : e.lua = true) (ho : e.par = true → e.opcOk = true) (ts : List Turn)
    (hs : ∀ t ∈ ts, .stop ∉ t.mid ∧ ∀ c, t.opc = some c → c.2 = true) :
    (({} : St).run (.call e :: ts.map .turn)).2 = [.load, .ready] ++ answers e.par ts := by
  rw [run_cons]
  show (({} : St).call e).2 ++ ((({} : St).call e).1.run _).2 = _
  rw [fresh_call fresh_init e h ho]
  congr 1
  show ((⟨true, false, false, true, true, e.par, false || e.par⟩ : St).run _).2 = _
  rw [Bool.false_or]
  generalize e.par = p
  induction ts generalizing p with
  | nil => rfl
  | cons t ts ih =>
    obtain ⟨h1, h2⟩ := hs t List.mem_cons_self
    have key : ∀ q : Bool, (⟨true, false, false, true, true, p, p⟩ : St).opcCmd t.opc = ⟨true, false, false, true, true, q, q⟩ →
        (⟨true, false, false, true, true, p, p⟩ : St).turn t =
          (⟨true, false, false, true, true, q, q⟩, .cycle true :: (if q then [.serve] else [])) := by
      intro q hq
      unfold St.turn
      rw [if_pos rfl, if_pos rfl]
      simp only
      rw [hq, ctls_go _ t.mid h1 rfl]
      cases q <;> rfl
    have step : ∀ q : Bool, (⟨true, false, false, true, true, p, p⟩ : St).opcCmd t.opc = ⟨true, false, false, true, true, q, q⟩ →
        ((⟨true, false, false, true, true, p, p⟩ : St).run ((t :: ts).map .turn)).2 =
          .cycle true :: (if q then [.serve] else []) ++ answers q ts := by
      intro q hq
      rw [List.map_cons, run_cons]
      show ((⟨true, false, false, true, true, p, p⟩ : St).turn t).2 ++ (((⟨true, false, false, true, true, p, p⟩ : St).turn t).1.run _).2 = _
      rw [key q hq, ih (fun x hx => hs x (List.mem_cons_of_mem _ hx)) q]
    cases ht : t.opc with
    | none =>
      rw [step p (by rw [ht]; rfl)]
      show _ = Act.cycle true :: (if (match t.opc with | none => p | some c => c.1) then [Act.serve] else []) ++ _
      simp only [ht]
    | some c =>
      obtain ⟨w, ok⟩ := c
      have hok : ok = true := h2 _ ht
      subst hok
      rw [step w (by rw [ht]; cases p <;> cases w <;> rfl)]
      show _ = Act.cycle true :: (if (match t.opc with | none => p | some c => c.1) then [Act.serve] else []) ++ _
      simp only [ht]

example : (({} : St).run (.call {} :: [{}, { opc := some (true, true) }, {}, { opc := some (false, true) }].map .turn)).2 =
    [.load, .ready, .cycle true, .cycle true, .serve, .cycle true, .serve, .cycle true] := by decide

/-- **C202 fails**: after a `Stop` and a `Start` the server is switched on by its setting, and never answers again until the setting is
changed. -/
theorem C202_serve_violated (e e' : Call) (h : e.lua = true) (hp : e.par = true) (ho : e.opcOk = true) (t0 : Turn) (ts : List Turn)
    (hs : ∀ t ∈ ts, .stop ∉ t.mid ∧ t.opc = none) :
    ((({} : St).run (.call e :: .ctl .stop :: .turn t0 :: .ctl .start :: .call e' :: ts.map .turn)).2 =
      [.load, .ready] ++ ts.map fun _ => .cycle true) ∧
    (({} : St).run (.call e :: .ctl .stop :: .turn t0 :: .ctl .start :: .call e' :: ts.map .turn)).1.opcPar = true := by
  have hc := fresh_call fresh_init e h fun _ => ho
  rw [hp] at hc
  generalize hu : (⟨true, false, false, true, true, true, false⟩ : St) = u
  have e0 : ({} : St).run (.call e :: .ctl .stop :: .turn t0 :: .ctl .start :: .call e' :: ts.map .turn) =
      ((u.run (ts.map .turn)).1, [.load, .ready] ++ (u.run (ts.map .turn)).2) := by
    rw [run_cons, show ({} : St).step (.call e) = ({} : St).call e from rfl, hc, run_cons, run_cons, run_cons, run_cons, ← hu]
    rfl
  rw [e0]
  have key : ∀ ts : List Turn, (∀ t ∈ ts, .stop ∉ t.mid ∧ t.opc = none) → u.run (ts.map .turn) = (u, ts.map fun _ => .cycle true) := by
    intro ts
    induction ts with
    | nil => intro _; rfl
    | cons t ts ih =>
      intro hs
      have e1 : u.turn t = (u, [.cycle true]) := by
        obtain ⟨h1, h2⟩ := hs t List.mem_cons_self
        unfold St.turn
        rw [if_pos (by rw [← hu]), if_pos (by rw [← hu])]
        simp only
        rw [h2, show u.opcCmd none = u from rfl, ctls_go u t.mid h1 (by rw [← hu])]
        rw [← hu]; rfl
      rw [List.map_cons, run_cons, show u.step (.turn t) = u.turn t from rfl, e1, ih fun x hx => hs x (List.mem_cons_of_mem _ hx)]
      rfl
  rw [key ts hs]
  exact ⟨rfl, by rw [← hu]⟩

example : (({} : St).run (.call { par := true } :: .ctl .stop :: .turn {} :: .ctl .start :: .call {} :: [{}].map .turn)).2 =
    [.load, .ready, .cycle true] := by decide

end Ptusa.PlcNext
