import Verif.CipStats.Props

/-!
# C100: an acid wash is demanded after too many caustic washes
-/
namespace Ptusa.CipStats

open Ptusa.Tcp (Byte)
open Ptusa.Registry (Name cmp_eq)

theorem quiet_calm {e : Ev} (h : e.Quiet) : e.Calm := by cases e <;> first | trivial | exact h

/-- The row of `x` counts its washes. -/
structure Counts (x : Name) (a : Nat → Option Name) (c : Nat) (t : Tab) : Prop where
  at' : t.at' = a
  unknown : t.mem x = none → c = 0 ∧ ∀ i, a i ≠ some x
  known : ∀ r, t.mem x = some r → r.caustic = c

theorem on_at (t : Tab) (i : Nat) (g : Stat → Stat) : (t.on i g).at' = t.at' := by
  unfold Tab.on; split <;> rfl

theorem on_mem (t : Tab) (i : Nat) (g : Stat → Stat) (x : Name) :
    (t.on i g).mem x = if t.at' i = some x then (t.mem x).map g else t.mem x := by
  unfold Tab.on
  cases h : t.at' i with
  | none => simp
  | some n =>
    simp only [Option.some.injEq]
    by_cases hx : x = n
    · subst hx; simp
    · have : ¬ n = x := fun e => hx e.symm
      simp [hx, this]

theorem Counts.step {x : Name} {a : Nat → Option Name} {c : Nat} {t : Tab} (h : Counts x a c t) {e : Ev} (he : e.Quiet) :
    Counts x (chosen a e) (tally x a c e) (t.step e) := by
  obtain ⟨h1, h2, h3⟩ := h
  subst h1
  cases e with
  | select i n j =>
    refine ⟨rfl, ?_, ?_⟩
    · intro hm
      simp only [Tab.step] at hm
      split at hm
      · cases hm
      · next hne =>
        refine ⟨(h2 hm).1, fun k => ?_⟩
        by_cases hk : k = i
        · subst hk; simp only [chosen]; rw [upd_self]; exact fun e => hne (Option.some.inj e).symm
        · simp only [chosen]; rw [upd_ne _ _ hk]; exact (h2 hm).2 k
    · intro r hr
      simp only [Tab.step] at hr
      split at hr
      · simp only [Option.some.injEq] at hr
        subst hr
        cases hm : t.mem x with
        | none => simp [tally, Stat.fresh, (h2 hm).1]
        | some r => simpa [tally] using h3 r hm
      · exact h3 r hr
  | car i n => exact he.elim
  | caustic i =>
    refine ⟨on_at _ _ _, ?_, ?_⟩
    · intro hm
      simp only [Tab.step, on_mem] at hm
      have hm' : t.mem x = none := by
        split at hm
        · simpa using hm
        · exact hm
      refine ⟨?_, (h2 hm').2⟩
      simp only [tally, (h2 hm').2 i, ↓reduceIte, (h2 hm').1]
    · intro r hr
      simp only [Tab.step, on_mem] at hr
      simp only [tally]
      split at hr
      · next ha =>
        cases hm : t.mem x with
        | none => rw [hm] at hr; cases hr
        | some r' =>
          rw [hm] at hr
          simp only [Option.map_some, Option.some.injEq] at hr
          subst hr
          simp only [ha, ↓reduceIte]
          have := h3 r' hm
          omega
      · next ha => simp only [ha, ↓reduceIte]; exact h3 r hr
  | acid i d =>
    refine ⟨on_at _ _ _, ?_, ?_⟩
    · intro hm
      simp only [Tab.step, on_mem] at hm
      have hm' : t.mem x = none := by
        split at hm
        · simpa using hm
        · exact hm
      refine ⟨?_, (h2 hm').2⟩
      simp only [tally, (h2 hm').2 i, ↓reduceIte, (h2 hm').1]
    · intro r hr
      simp only [Tab.step, on_mem] at hr
      simp only [tally]
      split at hr
      · next ha =>
        cases hm : t.mem x with
        | none => rw [hm] at hr; cases hr
        | some r' =>
          rw [hm] at hr
          simp only [Option.map_some, Option.some.injEq] at hr
          subst hr
          simp [ha]
      · next ha => simp only [ha, ↓reduceIte]; exact h3 r hr
  | finish i p d reset =>
    refine ⟨by simp only [Tab.step, on_at, chosen], ?_, ?_⟩
    · intro hm
      simp only [Tab.step, on_mem] at hm
      have hm' : t.mem x = none := by
        split at hm
        · simpa using hm
        · exact hm
      refine ⟨(h2 hm').1, fun k => ?_⟩
      by_cases hk : k = i
      · subst hk; simp only [chosen]; rw [upd_self]; simp
      · simp only [chosen]; rw [upd_ne _ _ hk]; exact (h2 hm').2 k
    · intro r hr
      simp only [Tab.step, on_mem] at hr
      split at hr
      · cases hm : t.mem x with
        | none => rw [hm] at hr; cases hr
        | some r' =>
          rw [hm] at hr
          simp only [Option.map_some, Option.some.injEq] at hr
          subst hr
          exact h3 r' hm
      · exact h3 r hr
  | forget i =>
    refine ⟨rfl, ?_, h3⟩
    intro hm
    refine ⟨(h2 hm).1, fun k => ?_⟩
    by_cases hk : k = i
    · subst hk; simp only [chosen]; rw [upd_self]; simp
    · simp only [chosen]; rw [upd_ne _ _ hk]; exact (h2 hm).2 k
  | cycle =>
    simp only [Tab.step]
    split
    · exact ⟨rfl, h2, h3⟩
    · exact ⟨rfl, h2, h3⟩
  | locked => exact ⟨rfl, h2, h3⟩
  | reload w m => exact he.elim
  | restart m js => exact he.elim
  | crash k m js => exact he.elim

theorem Counts.run {x : Name} (h : List Ev) (hq : ∀ e ∈ h, e.Quiet) {a : Nat → Option Name} {c : Nat} {t : Tab}
    (ht : Counts x a c t) : Counts x (h.foldl chosen a) (washes x a c h) (t.run h) := by
  induction h generalizing a c t with
  | nil => exact ht
  | cons e h ih =>
    exact ih (fun y hy => hq y (List.mem_cons_of_mem _ hy)) (ht.step (hq e (List.mem_cons_self ..)))

theorem Counts.init (x : Name) : Counts x (fun _ => none) 0 Tab.init :=
  ⟨rfl, fun _ => ⟨rfl, fun _ => by simp⟩, fun r hr => by cases hr⟩

/-- Until a restart the counter of an object is the number of its circulations of caustic since the last one of acid,
whatever is washed on other lines. -/
theorem C100_count_partial (js : Nat → Junk) (h : List Ev) (hf : ∀ e ∈ h, e.Fit) (hq : ∀ e ∈ h, e.Quiet)
    (hl : h.length ≤ 500000000) :
    ∃ s, (Sys.init js).run false h = some s ∧
      ∀ x r, look s.base x = some r → r.caustic = washes x (fun _ => none) 0 h := by
  obtain ⟨s, e, hm⟩ := C99_table_partial js h hf (fun e he => quiet_calm (hq e he)) hl
  refine ⟨s, e, ?_⟩
  intro x r hr
  rw [hm] at hr
  exact ((Counts.init x).run h hq).known r hr

/-- Two washes of a tank on the second line, with an acid wash of another one on the first. -/
def twoWashes : List Ev :=
  oneWash ++ [.select 0 [0x42] zeros, .acid 0 [0x44], .select 1 tank zeros, .caustic 1]

theorem twoWashes_fit : ∀ e ∈ twoWashes, e.Fit := by
  intro e he
  rcases List.mem_append.1 he with he | he
  · exact oneWash_fit e he
  · simp only [List.mem_cons, List.not_mem_nil, or_false] at he
    rcases he with rfl | rfl | rfl | rfl
    · constructor <;> decide
    · constructor <;> decide
    · exact tank_fits
    · trivial

theorem twoWashes_quiet : ∀ e ∈ twoWashes, e.Quiet := by
  intro e he
  simp only [twoWashes, oneWash, List.cons_append, List.nil_append, List.mem_cons, List.not_mem_nil, or_false] at he
  rcases he with rfl | rfl | rfl | rfl | rfl | rfl | rfl <;> trivial

example (js : Nat → Junk) : ∃ s, (Sys.init js).run false twoWashes = some s ∧
    ∃ r, look s.base tank = some r ∧ r.caustic = 2 := by
  obtain ⟨s, e, h⟩ := C100_count_partial js twoWashes twoWashes_fit twoWashes_quiet (by simp [twoWashes, oneWash])
  obtain ⟨s', e', h'⟩ := C99_table_partial js twoWashes twoWashes_fit (fun e he => quiet_calm (twoWashes_quiet e he))
    (by simp [twoWashes, oneWash])
  rw [e, Option.some.injEq] at e'
  subst e'
  have hr : look s.base tank = some ⟨[0x42, 0x43], [0x41], unknown, 2⟩ := by rw [h']; rfl
  exact ⟨s, e, _, hr, h _ _ hr⟩

/-- A wash with caustic and without acid is refused exactly when the object had more circulations of caustic since its
last one of acid than are allowed. -/
theorem C100_demand_partial (js : Nat → Junk) (h : List Ev) (hf : ∀ e ∈ h, e.Fit) (hq : ∀ e ∈ h, e.Quiet)
    (hl : h.length ≤ 500000000) (i : Nat) (x : Name) (hx : chosenAll h i = some x) (max : Int) (prog : Nat) :
    ∃ s, (Sys.init js).run false h = some s ∧
      (s.acidDue i max prog = true ↔
        0 < max ∧ max < washes x (fun _ => none) 0 h ∧ prog.testBit 4 = false ∧ prog.testBit 5 = true) := by
  obtain ⟨s, e, i1, r1⟩ := run_inv (init_inv js) h hf (by omega)
  have hr := r1 _ (init_rel js) fun e he => quiet_calm (hq e he)
  have hc := (Counts.init x).run h hq
  refine ⟨s, e, ?_⟩
  have hat : s.at' i = some x := by rw [hr.at', hc.at']; exact hx
  have hsome := i1.ptr i x hat
  obtain ⟨o, ho⟩ := Option.isSome_iff_exists.1 hsome
  obtain ⟨r, hv⟩ := (i1.good.shape _ (find_mem ho)).view
  have hlook : look s.base x = some r := by simp [look, ho, hv]
  have hcount : r.caustic = washes x (fun _ => none) 0 h := hc.known r (by rw [← hr.mem]; exact hlook)
  have hvo : r.caustic = o.caustic := by
    simp only [Obj.view, Option.bind_eq_bind, Option.bind_eq_some_iff, Option.some.injEq] at hv
    obtain ⟨_, _, _, _, _, _, rfl⟩ := hv
    rfl
  simp only [Sys.acidDue, hat, ho, Option.getD_some, Bool.and_eq_true, decide_eq_true_eq, Bool.not_eq_true', ← hvo, hcount]
  constructor
  · rintro ⟨⟨⟨a, b⟩, c⟩, d⟩; exact ⟨a, b, c, d⟩
  · rintro ⟨a, b, c, d⟩; exact ⟨⟨⟨a, b⟩, c⟩, d⟩

example (js : Nat → Junk) : ∃ s, (Sys.init js).run false twoWashes = some s ∧ s.acidDue 1 1 0x20 = true ∧
    s.acidDue 1 2 0x20 = false ∧ s.acidDue 1 1 0x30 = false := by
  obtain ⟨s, e, h1⟩ := C100_demand_partial js twoWashes twoWashes_fit twoWashes_quiet (by simp [twoWashes, oneWash]) 1 tank rfl
    1 0x20
  obtain ⟨s2, e2, h2⟩ := C100_demand_partial js twoWashes twoWashes_fit twoWashes_quiet (by simp [twoWashes, oneWash]) 1 tank rfl
    2 0x20
  obtain ⟨s3, e3, h3⟩ := C100_demand_partial js twoWashes twoWashes_fit twoWashes_quiet (by simp [twoWashes, oneWash]) 1 tank rfl
    1 0x30
  rw [e, Option.some.injEq] at e2 e3
  subst e2
  subst e3
  have hw : washes tank (fun _ => none) 0 twoWashes = 2 := by decide
  refine ⟨s, e, h1.2 (by rw [hw]; decide), ?_, ?_⟩
  · rw [Bool.eq_false_iff]; intro hh; have := h2.1 hh; rw [hw] at this; omega
  · rw [Bool.eq_false_iff]; intro hh; have := h3.1 hh; revert this; simp [Nat.testBit]

/-- Washes that the operator ends are counted, but not written: any number of them, with cycles of the first line between
them, is forgotten at a restart. -/
theorem C100_reset_violated (js js' : Nat → Junk) (m : Mem) (j : Junk) (x p d : Name) (hx : Fits 96 x) (hp : Fits 72 p)
    (hd : Fits 72 d) (k : Nat) (hk : k ≤ 100000000) :
    ∃ s s', (Sys.init js).run false
        (List.replicate (k + 1) [.select 0 x j, .caustic 0, .finish 0 p d true, .cycle]).flatten = some s ∧
      (look s.base x).map (·.caustic) = some (k + 1 : Int) ∧
      (Sys.init js).run false
        ((List.replicate (k + 1) [.select 0 x j, .caustic 0, .finish 0 p d true, .cycle]).flatten ++ [.restart m js']) = some s' ∧
      look s'.base x = none := by
  let one : List Ev := [.select 0 x j, .caustic 0, .finish 0 p d true, .cycle]
  have hmem : ∀ n, ∀ e ∈ (List.replicate n one).flatten, e ∈ one := by
    intro n e he
    rw [List.mem_flatten] at he
    obtain ⟨l, hl, he⟩ := he
    rw [List.eq_of_mem_replicate hl] at he
    exact he
  have hfit : ∀ e ∈ one, e.Fit := by
    intro e he
    simp only [one, List.mem_cons, List.not_mem_nil, or_false] at he
    rcases he with rfl | rfl | rfl | rfl
    · exact hx
    · trivial
    · exact ⟨hp, hd⟩
    · trivial
  have hq : ∀ e ∈ one, e.Quiet := by
    intro e he
    simp only [one, List.mem_cons, List.not_mem_nil, or_false] at he
    rcases he with rfl | rfl | rfl | rfl <;> trivial
  have hlen : ((List.replicate (k + 1) one).flatten).length = 4 * (k + 1) := by
    simp [one]; omega
  -- the table
  have htab : ∀ n, ∀ t : Tab, t.dirty = false → (∀ y, t.disk y = none) →
      (t.run (List.replicate n one).flatten).dirty = false ∧ (∀ y, (t.run (List.replicate n one).flatten).disk y = none) ∧
      (0 < n → (t.run (List.replicate n one).flatten).mem x
        = some { (t.mem x).getD Stat.fresh with caustic := ((t.mem x).getD Stat.fresh).caustic + n, prog := p, wash := d }) := by
    intro n
    induction n with
    | zero => intro t h1 h2; exact ⟨h1, h2, by simp⟩
    | succ n ih =>
      intro t h1 h2
      rw [List.replicate_succ, List.flatten_cons, tab_run_append]
      have hm1 : (t.run one).mem x
          = some { (t.mem x).getD Stat.fresh with caustic := ((t.mem x).getD Stat.fresh).caustic + 1, prog := p, wash := d } := by
        simp [one, Tab.run, Tab.step, Tab.on, upd_self, h1]
      obtain ⟨a, b, c⟩ := ih (t.run one) (by simp [one, Tab.run, Tab.step, Tab.on, upd_self, h1])
        (by intro y; simp [one, Tab.run, Tab.step, Tab.on, upd_self, h1, h2])
      refine ⟨a, b, fun _ => ?_⟩
      cases n with
      | zero => simpa [Tab.run] using hm1
      | succ n =>
        rw [c (by omega), hm1]
        simp; omega
  obtain ⟨a, b, c⟩ := htab (k + 1) Tab.init rfl (fun _ => rfl)
  obtain ⟨s, e, hs⟩ := C99_table_partial js (List.replicate (k + 1) one).flatten
    (fun e he => hfit e (hmem _ e he)) (fun e he => quiet_calm (hq e (hmem _ e he))) (by omega)
  obtain ⟨s', e', hs'⟩ := C99_table_partial js ((List.replicate (k + 1) one).flatten ++ [.restart m js'])
    (by
      intro e he
      rcases List.mem_append.1 he with he | he
      · exact hfit e (hmem _ e he)
      · simp only [List.mem_singleton] at he; subst he; trivial)
    (by
      intro e he
      rcases List.mem_append.1 he with he | he
      · exact quiet_calm (hq e (hmem _ e he))
      · simp only [List.mem_singleton] at he; subst he; trivial)
    (by rw [List.length_append, hlen]; simp; omega)
  refine ⟨s, s', e, ?_, e', ?_⟩
  · rw [hs, c (by omega)]
    simp [Tab.init, Stat.fresh]
  · rw [hs', tab_run_append]
    exact b x

/-- The command to read the statistics again during the first wash of an object: the rest of its wash, with any number of
circulations of caustic, is written nowhere, although the wash comes to its end and the file is written. -/
theorem C100_reload_violated (js js' : Nat → Junk) (m m' : Mem) (j : Junk) (x p d : Name) (hx : Fits 96 x) (hp : Fits 72 p)
    (hd : Fits 72 d) (k : Nat) (hk : k ≤ 400000000) :
    ∃ s', (Sys.init js).run false
        ([.select 0 x j, .reload (fun i => if i = 0 then some x else none) m] ++ List.replicate k (.caustic 0) ++
          [.finish 0 p d false, .cycle, .restart m' js']) = some s' ∧ look s'.base x = none := by
  obtain ⟨s', e', hs'⟩ := C99_table_partial js
    ([.select 0 x j, .reload (fun i => if i = 0 then some x else none) m] ++ List.replicate k (.caustic 0) ++
          [.finish 0 p d false, .cycle, .restart m' js'])
    (by
      intro e he
      rcases List.mem_append.1 he with he | he
      · rcases List.mem_append.1 he with he | he
        · simp only [List.mem_cons, List.not_mem_nil, or_false] at he
          rcases he with rfl | rfl
          · exact hx
          · intro i n hn
            simp only at hn
            split at hn
            · cases hn; exact hx
            · cases hn
        · rw [List.eq_of_mem_replicate he]; trivial
      · simp only [List.mem_cons, List.not_mem_nil, or_false] at he
        rcases he with rfl | rfl | rfl
        · exact ⟨hp, hd⟩
        · trivial
        · trivial)
    (by
      intro e he
      rcases List.mem_append.1 he with he | he
      · rcases List.mem_append.1 he with he | he
        · simp only [List.mem_cons, List.not_mem_nil, or_false] at he
          rcases he with rfl | rfl <;> trivial
        · rw [List.eq_of_mem_replicate he]; trivial
      · simp only [List.mem_cons, List.not_mem_nil, or_false] at he
        rcases he with rfl | rfl | rfl <;> trivial)
    (by simp; omega)
  refine ⟨s', e', ?_⟩
  rw [hs', tab_run_append, tab_run_append]
  have h0 : (Tab.init.run [.select 0 x j, .reload (fun i => if i = 0 then some x else none) m]).at' 0 = none ∧
      (Tab.init.run [.select 0 x j, .reload (fun i => if i = 0 then some x else none) m]).mem x = none := by
    simp [Tab.run, Tab.step, Tab.init]
  have hk : ∀ (n : Nat) (t : Tab), t.at' 0 = none → t.run (List.replicate n (.caustic 0)) = t := by
    intro n
    induction n with
    | zero => intro t _; rfl
    | succ n ih =>
      intro t ht
      have : t.step (.caustic 0) = t := by simp [Tab.step, Tab.on, ht]
      simp only [List.replicate_succ, Tab.run, List.foldl_cons, this]
      exact ih t ht
  rw [hk _ _ h0.1]
  generalize Tab.init.run [.select 0 x j, .reload (fun i => if i = 0 then some x else none) m] = t at h0
  simp [Tab.run, Tab.step, Tab.on, h0.1, h0.2]

example (js : Nat → Junk) (m : Mem) : ∃ s', (Sys.init js).run false
    ([.select 0 tank zeros, .reload (fun i => if i = 0 then some tank else none) m] ++ List.replicate 2 (.caustic 0) ++
      [.finish 0 [0x41] [0x42] false, .cycle, .restart m js]) = some s' ∧ look s'.base tank = none :=
  C100_reload_violated js js m m zeros tank _ _ tank_fits (by constructor <;> decide) (by constructor <;> decide) 2 (by omega)

example (js : Nat → Junk) (m : Mem) : ∃ s s', (Sys.init js).run false
        (List.replicate (4 + 1) [.select 0 tank zeros, .caustic 0, .finish 0 [0x41] [0x42] true, .cycle]).flatten = some s ∧
      (look s.base tank).map (·.caustic) = some ((4 : Nat) + 1 : Int) ∧
      (Sys.init js).run false ((List.replicate (4 + 1)
        [.select 0 tank zeros, .caustic 0, .finish 0 [0x41] [0x42] true, .cycle]).flatten ++ [.restart m js]) = some s' ∧
      look s'.base tank = none :=
  C100_reset_violated js js m zeros tank _ _ tank_fits (by constructor <;> decide) (by constructor <;> decide) 4 (by omega)

end Ptusa.CipStats
