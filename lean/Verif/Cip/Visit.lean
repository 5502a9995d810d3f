import Verif.Cip.Order

/-!
# The steps a line goes through
-/
namespace Ptusa.Cip

variable {n : Nat}

/-! ## One change of the step -/

/-- The step and the part of the program fit. -/
structure At (x b : Int) : Prop where
  known : x ∈ knownSteps
  range : -1 ≤ b ∧ b ≤ 11
  zero : x = 0 → b = -1
  last : 81 ≤ x ∧ x ≤ 91 → b = 0
  remote : x = 300 → b = 10

def Move (p : Nat) (x b x' b' : Int) : Prop :=
  (∃ q, Fits p x q ∧ succ x q = some x' ∧ b' = b) ∨
    ∃ q o, Fits p x q ∧ succ x q = none ∧ b' = nextPrg b p ∧ x' = startStep b' p o

theorem choice_fits (x q : Int) (p : Nat) (o : Opt) : Fits p x (choice x q p o) := by
  constructor
  · rintro rfl; rfl
  · rintro rfl; rfl

theorem goTo_move (l : Line) (q : Int) (o : Opt) :
    Move l.prog l.curstep l.curprg (l.goTo q o).curstep (l.goTo q o).curprg := by
  simp only [Line.goTo, within]
  split
  next y hy => exact Or.inl ⟨_, choice_fits _ _ _ _, hy, rfl⟩
  next hy => exact Or.inr ⟨_, o, choice_fits _ _ _ _, hy, rfl, rfl⟩

theorem load_move (l : Line) (o : Opt) (h : l.curstep = 0) :
    Move l.prog l.curstep l.curprg (l.load o).curstep (l.load o).curprg :=
  Or.inr ⟨true, o, ⟨fun z => by omega, fun z => by omega⟩, by rw [h]; rfl, rfl, rfl⟩

theorem succ_last : ∀ x ∈ knownSteps, ∀ q : Bool, x ≠ 555 → ∀ y ∈ (succ x q).toList,
    (81 ≤ y ∧ y ≤ 91 → 81 ≤ x ∧ x ≤ 91) ∧ y ≠ 300 ∧ y ≠ x ∧ y ≠ 555 ∧ y ≠ 0 ∧ y ∈ knownSteps := by
  decide +kernel

theorem succ_none : ∀ x ∈ knownSteps, ∀ q : Bool, x ≠ 555 → succ x q = none →
    x ∈ ([0, 9, 15, 16, 40, 60, 67, 79, 91, 111, 121, 188, 300] : List Int) := by
  decide +kernel

theorem start_vals (b : Int) (p : Nat) (o : Opt) (hb : -1 ≤ b ∧ b ≤ 11) :
    (b = -1 → startStep b p o = 555) ∧ (b ≠ -1 → startStep b p o ≠ 555) ∧ startStep b p o ≠ 0 ∧
    (81 ≤ startStep b p o ∧ startStep b p o ≤ 91 → b = 0) ∧ (startStep b p o = 300 → b = 10) ∧
    startStep b p o ∉ ([9, 15, 16, 40, 60, 67, 79, 111, 121, 188] : List Int) := by
  obtain ⟨h1, h2⟩ := hb
  interval_cases b
  · simp [startStep]
  · have : startStep 0 p o = if o.noFinal then 91 else if p = 1 then 83 else 81 := rfl
    rw [this]
    by_cases ho : o.noFinal = true
    · simp [ho]
    · by_cases hp : p = 1
      · simp [ho, hp]
      · simp [ho, hp]
  all_goals simp [startStep]

theorem Move.spec {p : Nat} (hp : p < 4096) {x b x' b' : Int} (ha : At x b) (h5 : x ≠ 555) (h : Move p x b x' b') :
    x' ≠ x ∧ x' ≠ 0 ∧ (x' ≠ 555 → At x' b') ∧ (x' = 555 → Rest p x b [555]) ∧
      (x' ≠ 555 → ∀ u, Rest p x' b' u → Rest p x b (x' :: u)) := by
  rcases h with ⟨q, hf, hs, rfl⟩ | ⟨q, o, hf, hs, rfl, rfl⟩
  · obtain ⟨h1, h2, h3, h4, h6, h7⟩ := succ_last x ha.known q h5 x' (by rw [hs]; simp)
    refine ⟨h3, h6, fun _ => ⟨h7, ha.range, fun z => absurd z h6, fun z => ha.last (h1 z), fun z => absurd z h2⟩,
      fun z => absurd z h4, fun _ u hu => ?_⟩
    obtain ⟨t, v, rfl, ht, hv⟩ := hu
    exact ⟨x' :: t, v, rfl, Seg.cons hf hs ht, hv⟩
  · have hr := nextPrg_range p hp b ha.range
    obtain ⟨h1, h2, h3, h4, h6, h7⟩ := start_vals (nextPrg b p) p o hr
    have hn := succ_none x ha.known q h5 hs
    refine ⟨fun z => ?_, h3, fun _ => ⟨start_known _ _ _, hr, fun z => absurd z h3, h4, h6⟩, fun z => ?_, fun z u hu => ?_⟩
    · rw [z] at h3 h4 h6 h7
      simp only [List.mem_cons, List.not_mem_nil, or_false, not_or] at hn h7
      have h91 : x = 91 → False := fun y => by
        have e1 : b = 0 := ha.last (by omega)
        have e2 := h4 (by omega)
        rw [e1] at e2
        exact absurd e2 (by rw [show nextPrg 0 p = -1 from nextPrg_pos p 0 (by omega)]; decide)
      have h300 : x = 300 → False := fun y => by
        have e1 : b = 10 := ha.remote y
        have e2 := h6 y
        rw [e1] at e2
        have e3 : nextPrg 10 p = nextBit p 9 := nextPrg_pos p 10 (by omega)
        have := nextBit_range p 9
        omega
      rcases hn with y | y | y | y | y | y | y | y | y | y | y | y | y <;> simp_all
    · have hb : nextPrg b p = -1 := by
        by_contra y
        exact h2 y z
      exact ⟨[], [555], rfl, Seg.fin hf hs, by rw [hb]; exact After.fin⟩
    · obtain ⟨t, v, rfl, ht, hv⟩ := hu
      have hb : nextPrg b p ≠ -1 := fun y => z (h1 y)
      obtain ⟨k, hk⟩ : ∃ k : Nat, nextPrg b p = k := ⟨(nextPrg b p).toNat, by omega⟩
      refine ⟨[], _, rfl, Seg.fin hf hs, ?_⟩
      rw [hk] at ht hv ⊢
      exact After.part (by omega) ht hv

/-! ## Phases -/

/-- Before and during a wash with program `p`. -/
structure PhaseA (p : Nat) (l : Line) : Prop where
  wf : Wf l
  prog : l.prog = p
  pos : At l.curstep l.curprg
  going : l.curstep ≠ 555
  cmd : l.ncmd ≠ cmdReset

/-- At the end of a wash. -/
structure PhaseB (l : Line) : Prop where
  wf : Wf l
  fin : l.curstep = 555
  cmd : l.ncmd ≠ cmdReset

/-- After a wash. -/
structure PhaseC (l : Line) : Prop where
  wf : Wf l
  idle : l.curstep = 0
  prog : l.prog = 0
  state : l.state = 0 ∨ l.blocked = true

theorem block_ncmd (l : Line) : l.block.ncmd = l.ncmd ∨ l.block.ncmd = 0 := by
  rcases block_cases l with ⟨h, -⟩ | ⟨-, h⟩ | ⟨-, -, -, -, -, -, -, -, h, -⟩
  · rw [h]; exact Or.inl rfl
  · rw [h]; exact Or.inr rfl
  · exact Or.inr h

theorem PhaseA.block {p : Nat} {l : Line} (h : PhaseA p l) : PhaseA p l.block := by
  obtain ⟨k1, k2, k3, k4, k5, k6⟩ := block_keep l
  refine ⟨h.wf.block, k4.trans h.prog, by rw [k1, k2]; exact h.pos, by rw [k1]; exact h.going, ?_⟩
  rcases block_ncmd l with x | x <;> rw [x]
  · exact h.cmd
  · decide

theorem PhaseB.block {l : Line} (h : PhaseB l) : PhaseB l.block := by
  obtain ⟨k1, k2, k3, k4, k5, k6⟩ := block_keep l
  refine ⟨h.wf.block, k1.trans h.fin, ?_⟩
  rcases block_ncmd l with x | x <;> rw [x]
  · exact h.cmd
  · decide

theorem PhaseC.block {l : Line} (h : PhaseC l) : PhaseC l.block := by
  obtain ⟨k1, k2, k3, k4, k5, k6⟩ := block_keep l
  refine ⟨h.wf.block, k1.trans h.idle, k4.trans h.prog, ?_⟩
  rcases block_cases l with ⟨x, y, -⟩ | ⟨-, x⟩ | ⟨x, -⟩
  · rw [x]; exact h.state
  · rw [x]; simp [h.idle]
  · exact Or.inr x

/-- What a cycle does with the steps of a line before and during a wash. -/
theorem PhaseA.act {c : Cfg} {s s' : Sys n} {i : Fin n} {e : Env} {l : Line} {p : Nat} (hp : p < 4096) (h : PhaseA p l)
    (hb : l.blocked = false) (ha : Act c s i e l s') :
    (PhaseA p (s'.line i) ∧ (s'.line i).curstep = l.curstep ∧ (s'.line i).curprg = l.curprg) ∨
    (Move p l.curstep l.curprg (s'.line i).curstep (s'.line i).curprg ∧
      (PhaseA p (s'.line i) ∨ PhaseB (s'.line i))) := by
  have hw := (h.wf.act hb ha).1
  have hz : (0 : Nat) ≠ cmdReset := by decide
  have hc := h.cmd
  have hg := h.going
  have same : ∀ x : Line, Wf x → x.prog = l.prog → x.curstep = l.curstep → x.curprg = l.curprg → x.ncmd ≠ cmdReset →
      PhaseA p x ∧ x.curstep = l.curstep ∧ x.curprg = l.curprg := fun x a1 a2 a3 a4 a5 =>
    ⟨⟨a1, a2.trans h.prog, by rw [a3, a4]; exact h.pos, by rw [a3]; exact hg, a5⟩, a3, a4⟩
  have move : ∀ x : Line, Wf x → x.prog = l.prog → Move p l.curstep l.curprg x.curstep x.curprg → x.ncmd ≠ cmdReset →
      Move p l.curstep l.curprg x.curstep x.curprg ∧ (PhaseA p x ∨ PhaseB x) := fun x a1 a2 a3 a4 => by
    refine ⟨a3, ?_⟩
    by_cases h5 : x.curstep = 555
    · exact Or.inr ⟨a1, h5, a4⟩
    · exact Or.inl ⟨a1, a2.trans h.prog, (a3.spec hp h.pos hg).2.2.1 h5, h5, a4⟩
  cases ha
  case next h1 h2 h3 =>
    right
    refine move _ hw ?_ ?_ ?_
    · simp
    · simp only [put_self, initStep_curstep, initStep_curprg]
      have := goTo_move l 0 e.opt
      rw [h.prog] at this
      exact this
    · simp only [put_self]; exact hz
  case reset h1 h2 => exact absurd h1 hc
  case forget h1 h2 => exact absurd h1 hc
  case started outs l' ht h1 h2 h3 h4 h5 =>
    have h0 := h.wf.zero ht.state
    split at h5
    next hcar =>
      right
      refine move _ hw ?_ ?_ ?_
      · simp [h5]
      · simp only [put_self, initStep_curstep, initStep_curprg, h5]
        have := load_move l e.opt h0
        rw [h.prog] at this
        exact this
      · simp only [put_self]; exact hz
    next hcar =>
      left
      refine same _ hw ?_ ?_ ?_ ?_
      · simp [h5]
      · simp [h5]
      · simp [h5]
      · simp only [put_self]; exact hz
  case done v q r x l1 l' h1 h2 h3 h4 h5 h6 =>
    right
    have h7 : l'.core = (l1.goTo x e.opt).core := by
      rw [h6]
      split
      · simp
      · rfl
    have e1 : l'.prog = l.prog := (congrArg Core.prog h7).trans (by rw [h5]; simp [Line.core])
    have e2 : l'.ncmd = l.ncmd := (congrArg Core.ncmd h7).trans (by rw [h5]; simp [Line.core])
    have e3 : l'.curstep = (l1.goTo x e.opt).curstep := congrArg Core.curstep h7
    have e4 : l'.curprg = (l1.goTo x e.opt).curprg := congrArg Core.curprg h7
    refine move _ hw ?_ ?_ ?_
    · simpa using e1
    · simp only [put_self]
      rw [e3, e4]
      have := goTo_move l1 x e.opt
      have hpr : l1.prog = p := by rw [h5]; exact h.prog
      rw [hpr] at this
      rw [h5] at this ⊢
      exact this
    · simp only [put_self]; rw [e2]; exact hc
  case finish outs h1 h2 h3 h4 => exact absurd h3 hg
  all_goals
    left
    refine same _ hw ?_ ?_ ?_ ?_
    all_goals simp only [put_self]
    all_goals first | exact hz | exact hc | (simp; done) | simpa using hc

theorem PhaseB.act {c : Cfg} {s s' : Sys n} {i : Fin n} {e : Env} {l : Line} (h : PhaseB l)
    (hb : l.blocked = false) (ha : Act c s i e l s') : PhaseB (s'.line i) ∨ PhaseC (s'.line i) := by
  have hw := (h.wf.act hb ha).1
  have hz : (0 : Nat) ≠ cmdReset := by decide
  have hc := h.cmd
  have hf := h.fin
  have h0 : l.state ≠ 0 := fun z => by rw [h.wf.zero z] at hf; exact absurd hf (by decide)
  cases ha
  case next h1 h2 h3 => exact absurd hf h3
  case pause h1 h2 h3 => exact absurd hf h3
  case reset h1 h2 => exact absurd h1 hc
  case forget h1 h2 => exact absurd h1 hc
  case noSwitch ht _ => exact absurd ht.state h0
  case conflict ht _ => exact absurd ht.state h0
  case startWrong ht _ _ => exact absurd ht.state h0
  case startAcid ht _ _ _ => exact absurd ht.state h0
  case started ht _ _ _ _ _ => exact absurd ht.state h0
  case go h1 h2 h3 => exact absurd hf h3
  case done h1 h2 h3 h4 h5 h6 => exact absurd hf h3
  case fail h1 h2 h3 => exact absurd hf h3
  case finish outs h1 h2 h3 h4 => exact Or.inr ⟨hw, by simp, by simp, by simp⟩
  all_goals
    refine Or.inl ⟨hw, ?_, ?_⟩
    all_goals simp only [put_self]
    all_goals first | exact hz | exact hf | simpa using hf | simpa using hc

theorem PhaseC.act {c : Cfg} {s s' : Sys n} {i : Fin n} {e : Env} {l : Line} (h : PhaseC l)
    (hb : l.blocked = false) (ha : Act c s i e l s') : PhaseC (s'.line i) := by
  have hw := (h.wf.act hb ha).1
  have h0 : l.state = 0 := by
    rcases h.state with x | x
    · exact x
    · rw [hb] at x; cases x
  have hp : ∀ {X : Prop}, Try c s i l → X := fun ht => by have := ht.prog; rw [h.prog] at this; exact absurd this (by decide)
  cases ha
  case idle => exact ⟨hw, by simpa using h.idle, by simpa using h.prog, by simp [h0]⟩
  case forget h1 h2 => exact ⟨hw, by simpa using h.idle, by simp, by simp [h0]⟩
  case noSwitch ht _ => exact hp ht
  case conflict ht _ => exact hp ht
  case startWrong ht _ _ => exact hp ht
  case startAcid ht _ _ _ => exact hp ht
  case started ht _ _ _ _ _ => exact hp ht
  all_goals omega

/-! ## Histories -/

/-- Events that do not concern the steps of a line. -/
theorem step_cases {c : Cfg} {s s' : Sys n} {ev : Ev n} {i : Fin n} (hr : Without i [cmdReset] s ev) (hn : NoProgram i s ev)
    (hs : c.step s ev = some s') :
    (∃ e, ev = .cycle i e ∧ (((s.line i).block.blocked = true ∧ s'.line i = (s.line i).block) ∨
      ((s.line i).block.blocked = false ∧ Act c s i e (s.line i).block s'))) ∨
    ((s'.line i).state = (s.line i).state ∧ (s'.line i).curstep = (s.line i).curstep ∧
      (s'.line i).curprg = (s.line i).curprg ∧ (s'.line i).prog = (s.line i).prog ∧
      (s'.line i).blocked = (s.line i).blocked ∧
      ((s'.line i).ncmd = (s.line i).ncmd ∨ (s'.line i).ncmd ≠ cmdReset)) := by
  by_cases hi : i = ev.line
  · subst hi
    cases ev with
    | cmd i x =>
      simp only [Cfg.step, Option.some.injEq] at hs; subst hs; rw [Ev.line, put_self]
      exact Or.inr ⟨rfl, rfl, rfl, rfl, rfl, Or.inr (by simpa using hr rfl)⟩
    | cycle i e =>
      refine Or.inl ⟨e, rfl, ?_⟩
      rcases evaluate_act c s s' i e hs with ⟨hb, rfl⟩ | ⟨hb, ha⟩
      · exact Or.inl ⟨hb, by rw [Ev.line, put_self]⟩
      · exact Or.inr ⟨hb, ha⟩
    | select i r =>
      simp only [Cfg.step] at hs
      split at hs
      · injection hs with hs; subst hs; exact Or.inr ⟨rfl, rfl, rfl, rfl, rfl, Or.inl rfl⟩
      · split at hs
        · injection hs with hs; subst hs; rw [Ev.line, put_self]; exact Or.inr ⟨rfl, rfl, rfl, rfl, rfl, Or.inl rfl⟩
        · cases hs
    | program i p => exact absurd rfl hn
    | edit i r k v =>
      simp only [Cfg.step, Option.some.injEq] at hs; subst hs; rw [Ev.line, put_self]
      exact Or.inr ⟨rfl, rfl, rfl, rfl, rfl, Or.inl rfl⟩
  · rw [step_other hs hi]; exact Or.inr ⟨rfl, rfl, rfl, rfl, rfl, Or.inl rfl⟩

theorem wf_of {l l' : Line} (h : Wf l) (h1 : l'.state = l.state) (h2 : l'.curstep = l.curstep)
    (h3 : l'.blocked = l.blocked) : Wf l' :=
  ⟨by rw [h2]; exact h.known, by rw [h1, h2]; exact h.zero, by rw [h1, h3]; exact h.lock, by rw [h1, h2]; exact h.acid⟩

theorem PhaseA.step {c : Cfg} {s s' : Sys n} {e : Ev n} {i : Fin n} {p : Nat} (hp : p < 4096) (h : PhaseA p (s.line i))
    (hr : Without i [cmdReset] s e) (hn : NoProgram i s e) (hs : c.step s e = some s') :
    (PhaseA p (s'.line i) ∧ (s'.line i).curstep = (s.line i).curstep ∧ (s'.line i).curprg = (s.line i).curprg) ∨
    (Move p (s.line i).curstep (s.line i).curprg (s'.line i).curstep (s'.line i).curprg ∧
      (PhaseA p (s'.line i) ∨ PhaseB (s'.line i))) := by
  obtain ⟨k1, k2, -⟩ := block_keep (s.line i)
  rcases step_cases hr hn hs with ⟨e, rfl, ⟨hb, he⟩ | ⟨hb, ha⟩⟩ | ⟨h1, h2, h3, h4, h5, h6⟩
  · rw [he]; exact Or.inl ⟨h.block, k1, k2⟩
  · have := h.block.act hp hb ha
    rw [k1, k2] at this
    exact this
  · refine Or.inl ⟨⟨wf_of h.wf h1 h2 h5, h4.trans h.prog, by rw [h2, h3]; exact h.pos, by rw [h2]; exact h.going, ?_⟩, h2, h3⟩
    rcases h6 with h6 | h6
    · rw [h6]; exact h.cmd
    · exact h6

theorem PhaseB.step {c : Cfg} {s s' : Sys n} {e : Ev n} {i : Fin n} (h : PhaseB (s.line i))
    (hr : Without i [cmdReset] s e) (hn : NoProgram i s e) (hs : c.step s e = some s') :
    PhaseB (s'.line i) ∨ PhaseC (s'.line i) := by
  rcases step_cases hr hn hs with ⟨e, rfl, ⟨hb, he⟩ | ⟨hb, ha⟩⟩ | ⟨h1, h2, h3, h4, h5, h6⟩
  · rw [he]; exact Or.inl h.block
  · exact h.block.act hb ha
  · refine Or.inl ⟨wf_of h.wf h1 h2 h5, h2.trans h.fin, ?_⟩
    rcases h6 with h6 | h6
    · rw [h6]; exact h.cmd
    · exact h6

theorem PhaseC.step {c : Cfg} {s s' : Sys n} {e : Ev n} {i : Fin n} (h : PhaseC (s.line i))
    (hr : Without i [cmdReset] s e) (hn : NoProgram i s e) (hs : c.step s e = some s') : PhaseC (s'.line i) := by
  rcases step_cases hr hn hs with ⟨e, rfl, ⟨hb, he⟩ | ⟨hb, ha⟩⟩ | ⟨h1, h2, h3, h4, h5, h6⟩
  · rw [he]; exact h.block
  · exact h.block.act hb ha
  · exact ⟨wf_of h.wf h1 h2 h5, h2.trans h.idle, h4.trans h.prog, by rw [h1, h5]; exact h.state⟩

theorem visit_C (c : Cfg) (i : Fin n) : ∀ (fs : List (Ev n)) (s : Sys n), PhaseC (s.line i) →
    Along c (Without i [cmdReset]) s fs → Along c (NoProgram i) s fs →
    visited c i s fs = [] ∧ ∀ s', c.run s fs = some s' → (s'.line i).curstep = 0
  | [], s, h, _, _ => ⟨rfl, fun s' hs => by simp only [Cfg.run] at hs; injection hs with hs; subst hs; exact h.idle⟩
  | e :: fs, s, h, h1, h2 => by
    simp only [visited, Cfg.run]
    cases hs : c.step s e with
    | none => exact ⟨rfl, fun s' hs' => by cases hs'⟩
    | some t =>
      have ht := h.step h1.1 h2.1 hs
      obtain ⟨a1, a2⟩ := visit_C c i fs t ht (h1.2 t hs) (h2.2 t hs)
      simp only [ht.idle, h.idle, if_true, List.nil_append, Option.bind_some]
      exact ⟨a1, a2⟩

theorem visit_B (c : Cfg) (i : Fin n) : ∀ (fs : List (Ev n)) (s : Sys n), PhaseB (s.line i) →
    Along c (Without i [cmdReset]) s fs → Along c (NoProgram i) s fs →
    visited c i s fs <+: [0] ∧ ∀ s', c.run s fs = some s' → (s'.line i).curstep = 555 → visited c i s fs = []
  | [], s, h, _, _ => ⟨List.nil_prefix, fun _ _ _ => rfl⟩
  | e :: fs, s, h, h1, h2 => by
    simp only [visited, Cfg.run]
    cases hs : c.step s e with
    | none => exact ⟨List.nil_prefix, fun s' hs' => by cases hs'⟩
    | some t =>
      rcases h.step h1.1 h2.1 hs with ht | ht
      · obtain ⟨a1, a2⟩ := visit_B c i fs t ht (h1.2 t hs) (h2.2 t hs)
        simp only [ht.fin, h.fin, if_true, List.nil_append, Option.bind_some]
        exact ⟨a1, a2⟩
      · obtain ⟨a1, a2⟩ := visit_C c i fs t ht (h1.2 t hs) (h2.2 t hs)
        simp only [ht.idle, h.fin, a1, Option.bind_some]
        refine ⟨by simp, fun s' hs' h5 => ?_⟩
        rw [a2 s' hs'] at h5
        exact absurd h5 (by decide)

theorem visit_A (c : Cfg) (i : Fin n) (p : Nat) (hp : p < 4096) : ∀ (fs : List (Ev n)) (s : Sys n), PhaseA p (s.line i) →
    Along c (Without i [cmdReset]) s fs → Along c (NoProgram i) s fs →
    (∃ u, Rest p (s.line i).curstep (s.line i).curprg u ∧ visited c i s fs <+: u ++ [0]) ∧
    ∀ s', c.run s fs = some s' → (s'.line i).curstep = 555 →
      Rest p (s.line i).curstep (s.line i).curprg (visited c i s fs)
  | [], s, h, _, _ => by
    obtain ⟨u, hu⟩ := rest_exists p hp _ _ h.pos.known h.going h.pos.range
    refine ⟨⟨u, hu, List.nil_prefix⟩, fun s' hs h5 => ?_⟩
    simp only [Cfg.run] at hs
    injection hs with hs
    subst hs
    exact absurd h5 h.going
  | e :: fs, s, h, h1, h2 => by
    simp only [visited, Cfg.run]
    cases hs : c.step s e with
    | none =>
      obtain ⟨u, hu⟩ := rest_exists p hp _ _ h.pos.known h.going h.pos.range
      exact ⟨⟨u, hu, List.nil_prefix⟩, fun s' hs' => by cases hs'⟩
    | some t =>
      simp only [Option.bind_some]
      rcases h.step hp h1.1 h2.1 hs with ⟨ht, e1, e2⟩ | ⟨hm, ht⟩
      · obtain ⟨a1, a2⟩ := visit_A c i p hp fs t ht (h1.2 t hs) (h2.2 t hs)
        simp only [e1, if_true, List.nil_append]
        rw [e1, e2] at a1 a2
        exact ⟨a1, a2⟩
      · obtain ⟨m1, m2, m3, m4, m5⟩ := hm.spec hp h.pos h.going
        rw [if_neg m1]
        rcases ht with ht | ht
        · obtain ⟨⟨u, a1, a2⟩, a3⟩ := visit_A c i p hp fs t ht (h1.2 t hs) (h2.2 t hs)
          refine ⟨⟨_ :: u, m5 ht.going u a1, ?_⟩, fun s' hs' h5 => m5 ht.going _ (a3 s' hs' h5)⟩
          simpa using a2
        · obtain ⟨a1, a2⟩ := visit_B c i fs t ht (h1.2 t hs) (h2.2 t hs)
          have m4' := m4 ht.fin
          rw [ht.fin]
          refine ⟨⟨[555], m4', ?_⟩, fun s' hs' h5 => ?_⟩
          · simpa using a1
          · rw [a2 s' hs' h5]; exact m4'

/-! ## The beginning -/

/-- In step 0 no part of a program is chosen. -/
def Fresh (l : Line) : Prop := l.curstep = 0 → l.curprg = -1

theorem ite_ne {c : Prop} [Decidable c] {a b : Int} (ha : a ≠ 0) (hb : b ≠ 0) : (if c then a else b) ≠ 0 := by
  split
  · exact ha
  · exact hb

theorem start_ne_zero (b : Int) (p : Nat) (o : Opt) : startStep b p o ≠ 0 := by
  unfold startStep
  repeat' apply ite_ne
  all_goals decide

theorem goTo_ne_zero (l : Line) (q : Int) (o : Opt) (h : l.curstep ∈ knownSteps) (h5 : l.curstep ≠ 555) :
    (l.goTo q o).curstep ≠ 0 := by
  simp only [Line.goTo, within]
  split
  next y hy => exact (succ_last _ h _ h5 y (by rw [hy]; simp)).2.2.2.2.1
  next => exact start_ne_zero _ _ _

theorem Fresh.act {c : Cfg} {s s' : Sys n} {i : Fin n} {e : Env} {l : Line} (hw : Wf l) (h : Fresh l)
    (ha : Act c s i e l s') : Fresh (s'.line i) := by
  unfold Fresh at *
  cases ha
  case next h1 h2 h3 =>
    simp only [put_self, initStep_curstep]
    exact fun z => absurd z (goTo_ne_zero l 0 e.opt hw.known h3)
  case reset => simp
  case started outs l' ht h1 h2 h3 h4 h5 =>
    simp only [put_self, initStep_curstep, initStep_curprg]
    rw [h5]
    split
    · exact fun z => absurd z (start_ne_zero _ _ _)
    · exact h
  case done v q r x l1 l' h1 h2 h3 h4 h5 h6 =>
    have h7 : l'.core = (l1.goTo x e.opt).core := by
      rw [h6]
      split
      · simp
      · rfl
    simp only [put_self]
    rw [show l'.curstep = (l1.goTo x e.opt).curstep from congrArg Core.curstep h7]
    exact fun z => absurd z (goTo_ne_zero l1 x e.opt (by rw [h5]; exact h4) (by rw [h5]; exact h3))
  all_goals simp only [put_self]
  all_goals first | exact h | (simp; done) | simpa using h

theorem Fresh.step {c : Cfg} {s s' : Sys n} {e : Ev n} (h : ∀ i, Wf (s.line i) ∧ Fresh (s.line i))
    (hs : c.step s e = some s') : ∀ i, Wf (s'.line i) ∧ Fresh (s'.line i) := by
  intro j
  refine ⟨Wf.step (fun i => (h i).1) hs j, ?_⟩
  by_cases hj : j = e.line
  · subst hj
    have hl := (h e.line).2
    cases e with
    | cmd i x => simp only [Cfg.step, Option.some.injEq] at hs; subst hs; rw [Ev.line, put_self]; exact hl
    | cycle i e =>
      have hb' : Fresh (s.line i).block := by
        obtain ⟨k1, k2, -⟩ := block_keep (s.line i)
        unfold Fresh
        rw [k1, k2]
        exact hl
      rcases evaluate_act c s s' i e hs with ⟨-, rfl⟩ | ⟨hb, ha⟩
      · rw [Ev.line, put_self]; exact hb'
      · exact hb'.act (h i).1.block ha
    | select i r =>
      simp only [Cfg.step] at hs
      split at hs
      · injection hs with hs; subst hs; exact hl
      · split at hs
        · injection hs with hs; subst hs; rw [Ev.line, put_self]; exact hl
        · cases hs
    | program i p => simp only [Cfg.step, Option.some.injEq] at hs; subst hs; rw [Ev.line, put_self]; exact hl
    | edit i r k v => simp only [Cfg.step, Option.some.injEq] at hs; subst hs; rw [Ev.line, put_self]; exact hl
  · rw [step_other hs hj]; exact (h j).2

theorem fresh_run (c : Cfg) (vals : Fin n → Nat → Nat → Rat) (outs : Nat → Bool) (es : List (Ev n)) (s : Sys n)
    (hs : c.run (initial vals outs) es = some s) (i : Fin n) : Wf (s.line i) ∧ Fresh (s.line i) :=
  run_inv c (fun _ _ => True) (fun s => ∀ i, Wf (s.line i) ∧ Fresh (s.line i)) (fun _ _ _ _ hq ht => Fresh.step hq ht) es
    _ _ (Along.true c es _) (fun i => ⟨wf_initial vals outs i, fun _ => rfl⟩) hs i

end Ptusa.Cip
