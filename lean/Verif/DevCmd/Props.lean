import Mathlib.Data.List.Induction
import Verif.DevCmd.Lemmas

/-!
# C201: a command of the server sets the property that it names
-/
namespace Ptusa.DevCmd

open Spec

/-- **C201** (part). A name that the device publishes, with a value that makes sense, sets the variable of that name and no other; the
answer is 0. -/
theorem C201_named_partial (emu : Bool) (pars : List Name) (hp : ParNames pars) (c : Cls) (s : St) (n : Name) (f : Field) (v w : Fl)
    (h : Means emu pars c n f) (hs : Sense c f v w) :
    ∃ s', step emu pars c s ⟨n, v⟩ = some (0, s') ∧ s' f = w ∧ ∀ x, x ≠ f → s' x = s x := by
  refine ⟨_, step_means hp s h hs, if_pos rfl, fun x hx => if_neg hx⟩

/-- The day's total of the second tariff is set by its name. -/
example : ∃ s', step false [] .counterF (fun _ => 7) ⟨"DAY_T2".toList, 40⟩ = some (0, s') ∧ s' .day2 = 40 ∧
    ∀ x, x ≠ .day2 → s' x = 7 :=
  C201_named_partial false [] (fun _ h => absurd h List.not_mem_nil) .counterF (fun _ => 7) _ .day2 40 40
    (.inl ⟨"DAY_T2", by decide, rfl⟩) rfl

/-- **C201** (part). After any history of commands that make sense every variable has the value of the last command that named it, or its
first value. -/
theorem C201_last_partial (emu : Bool) (pars : List Name) (hp : ParNames pars) (c : Cls) (s : St) (ks : List Cmd)
    (h : ∀ k ∈ ks, ∃ f w, Means emu pars c k.name f ∧ Sense c f k.v w) :
    ∃ s', run emu pars c s ks = some s' ∧ Holds emu pars c s ks s' := by
  induction ks using List.reverseRecOn with
  | nil => exact ⟨s, rfl, .nil⟩
  | append_singleton ks k ih =>
    obtain ⟨t, ht, hh⟩ := ih fun x hx => h x (List.mem_append_left _ hx)
    obtain ⟨f, w, hm, hs⟩ := h k (List.mem_append_right _ List.mem_cons_self)
    refine ⟨fun x => if x = f then w else t x, ?_, .snoc k f w hh hm hs (if_pos rfl) fun x hx => if_neg hx⟩
    rw [run_append, ht, Option.bind_some]
    show (step emu pars c t k).bind _ = _
    rw [step_means hp t hm hs]
    rfl

/-- **C201** (part). The same, for one variable: when the last command that means it carries the value `w` and no later command means it. -/
theorem C201_value_partial (emu : Bool) (pars : List Name) (hp : ParNames pars) (c : Cls) (s : St) (ks ls : List Cmd) (k : Cmd) (f : Field)
    (w : Fl) (h1 : ∀ x ∈ ks, ∃ f w, Means emu pars c x.name f ∧ Sense c f x.v w) (hk : Means emu pars c k.name f) (hv : Sense c f k.v w)
    (h2 : ∀ x ∈ ls, ∃ g w, g ≠ f ∧ Means emu pars c x.name g ∧ Sense c g x.v w) :
    ∃ s', run emu pars c s (ks ++ k :: ls) = some s' ∧ s' f = w := by
  obtain ⟨t, ht, -⟩ := C201_last_partial emu pars hp c s ks h1
  rw [run_append, ht, Option.bind_some]
  show ∃ s', (step emu pars c t k).bind _ = some s' ∧ _
  rw [step_means hp t hk hv]
  show ∃ s', run emu pars c (fun x => if x = f then w else t x) ls = some s' ∧ _
  have hf : (fun x => if x = f then w else t x) f = w := if_pos rfl
  generalize (fun x => if x = f then w else t x) = u at hf
  clear ht
  induction ls generalizing u with
  | nil => exact ⟨u, rfl, hf⟩
  | cons l ls ih =>
    obtain ⟨g, w', hg, hm, hs⟩ := h2 l List.mem_cons_self
    obtain ⟨s', e1, e2⟩ := ih (fun x hx => h2 x (List.mem_cons_of_mem _ hx)) (fun x => if x = g then w' else u x)
      ((if_neg (Ne.symm hg)).trans hf)
    refine ⟨s', ?_, e2⟩
    show (step emu pars c u l).bind _ = _
    rw [step_means hp u hm hs]
    exact e1

/-- Two states are sent and a parameter: the second state remains. -/
example : ∃ s', run false ["P_DT".toList] .plain (fun _ => 0) ([⟨"ST".toList, 1⟩] ++ ⟨"ST".toList, 2⟩ :: [⟨"P_DT".toList, 100⟩]) = some s' ∧
    s' .state = 2 := by
  refine C201_value_partial false ["P_DT".toList] (fun n hn => ?_) .plain (fun _ => 0) _ _ ⟨"ST".toList, 2⟩ .state 2 (fun x hx => ?_)
    (.inl ⟨"ST", by decide, rfl⟩) ⟨⟨2, rfl, by decide, by decide⟩, rfl⟩ (fun x hx => ?_)
  · rw [List.mem_singleton.mp hn]; exact ⟨"DT".toList, by decide⟩
  · rw [List.mem_singleton.mp hx]
    exact ⟨.state, 1, .inl ⟨"ST", by decide, rfl⟩, ⟨1, rfl, by decide, by decide⟩, rfl⟩
  · rw [List.mem_singleton.mp hx]
    exact ⟨.par "P_DT".toList, 100, by decide, .inr ⟨List.mem_cons_self, rfl⟩, rfl⟩

/-- **C201** (part). A name that begins with none of the letters S, V, M, P, A, D, F, T, E, B, R is refused by every class that passes the
result on, with the answer 1, and nothing is changed by any class. -/
theorem C201_refused_partial (emu : Bool) (pars : List Name) (c : Cls) (s : St) (n : Name) (v : Fl)
    (h : ∀ d ∈ "SVMPADFTEBR".toList, n.head? ≠ some d) :
    ∃ r, step emu pars c s ⟨n, v⟩ = some (r, s) ∧ (c ≠ .camera → c ≠ .valveIol → c ≠ .analogValve → r = 1) := by
  obtain ⟨d, hc, hd⟩ : ∃ d, ch n 0 = some d ∧ ∀ x ∈ "SVMPADFTEBR".toList, d ≠ x := by
    cases n with
    | nil => exact ⟨'\x00', rfl, by decide⟩
    | cons a n => exact ⟨a, rfl, fun x hx e => h x hx (by rw [e]; rfl)⟩
  have hn : ∀ m : List Char, (∃ x ∈ "SVMPADFTEBR".toList, m.head? = some x) → n ≠ m := by
    rintro m ⟨x, hx, e⟩ e'; rw [e'] at h; exact h x hx e
  have ne : ∀ x ∈ "SVMPADFTEBR".toList, (some d : Option Char) ≠ some x := fun x hx e => hd x hx (Option.some.inj e)
  have h0 : device pars n v = some (1, none) := by
    unfold device; rw [hc]
    split
    · exact absurd ‹_› (ne 'S' (by decide))
    · exact absurd ‹_› (ne 'V' (by decide))
    · exact absurd ‹_› (ne 'M' (by decide))
    · exact absurd ‹_› (ne 'P' (by decide))
    · rfl
  have hb : baseCounter pars n v = some (1, none) := by
    unfold baseCounter; rw [hc]
    split
    · exact absurd ‹_› (ne 'A' (by decide))
    · exact absurd ‹_› (ne 'D' (by decide))
    · rw [if_neg (hn "PREV_DAY_T1".toList ⟨'P', by decide, by decide⟩), if_neg (hn "PREV_DAY_T2".toList ⟨'P', by decide, by decide⟩), h0]
  have hv : valve emu pars n v = some (1, none) := by
    unfold valve; rw [hc, if_neg fun e => ne 'F' (by decide) e.2, h0]
  have ha : analog pars n v = some (1, none) := by
    unfold analog
    rw [if_neg (hn "M_EXP".toList ⟨'M', by decide, by decide⟩), if_neg (hn "S_DEV".toList ⟨'S', by decide, by decide⟩), hc,
      if_neg (ne 'E' (by decide)), h0]
  have fin : ∀ r, cmd emu pars c n v = some (r, none) → step emu pars c s ⟨n, v⟩ = some (r, s) := by
    intro r e; unfold step; rw [show cmd emu pars c n v = _ from e]; rfl
  cases c
  case plain => exact ⟨1, fin 1 h0, fun _ _ _ => rfl⟩
  case vcounter =>
    refine ⟨1, fin 1 ?_, fun _ _ _ => rfl⟩
    unfold cmd; simp only [hc]
    split
    · exact absurd ‹_› (ne 'A' (by decide))
    · exact absurd ‹_› (ne 'F' (by decide))
    · exact h0
  case camera =>
    refine ⟨0, fin 0 ?_, fun e => absurd rfl e⟩
    unfold cmd; simp only
    rw [if_neg (hn "RESULT".toList ⟨'R', by decide, by decide⟩), if_neg (hn "READY".toList ⟨'R', by decide, by decide⟩), h0]; rfl
  case counter => exact ⟨1, fin 1 hb, fun _ _ _ => rfl⟩
  case counterF =>
    refine ⟨1, fin 1 ?_, fun _ _ _ => rfl⟩
    unfold cmd; simp only [hc]
    split
    · exact absurd ‹_› (ne 'F' (by decide))
    · exact hb
  case counterIol =>
    refine ⟨1, fin 1 ?_, fun _ _ _ => rfl⟩
    unfold cmd; simp only [hc]
    split
    · exact absurd ‹_› (ne 'F' (by decide))
    · exact absurd ‹_› (ne 'T' (by decide))
    · exact hb
  case analog => exact ⟨1, fin 1 ha, fun _ _ _ => rfl⟩
  case valve => exact ⟨1, fin 1 hv, fun _ _ _ => rfl⟩
  case valveIol =>
    refine ⟨0, fin 0 ?_, fun _ e => absurd rfl e⟩
    unfold cmd; simp only [hc]
    split
    · exact absurd ‹_› (ne 'B' (by decide))
    · rw [hv]; rfl
  case analogValve =>
    refine ⟨0, fin 0 ?_, fun _ _ e => absurd rfl e⟩
    unfold cmd; simp only [hc]
    split
    · exact absurd ‹_› (ne 'B' (by decide))
    · rw [ha]; rfl
  case altivar =>
    refine ⟨1, fin 1 ?_, fun _ _ _ => rfl⟩
    unfold cmd; simp only
    rw [if_neg fun e => hn "R".toList ⟨'R', by decide, by decide⟩ e.2, if_neg fun e => hn "FRQ".toList ⟨'F', by decide, by decide⟩ e.2,
      if_neg fun e => hn "RPM".toList ⟨'R', by decide, by decide⟩ e.2, if_neg fun e => hn "EST".toList ⟨'E', by decide, by decide⟩ e.2,
      if_neg fun e => hn "AMP".toList ⟨'A', by decide, by decide⟩ e.2, h0]

example : ∃ r, step true [] .altivar (fun _ => 5) ⟨"X".toList, 1⟩ = some (r, fun _ => 5) ∧
    ((Cls.altivar ≠ .camera) → Cls.altivar ≠ .valveIol → Cls.altivar ≠ .analogValve → r = 1) :=
  C201_refused_partial true [] .altivar (fun _ => 5) _ 1 (by decide)

/-- **C201 fails**: only the first letter is looked at.  Every name that begins with S switches the state, every name that begins with M
the manual mode, and every name that begins with A sets the total of a counter. -/
theorem C201_prefix_violated (emu : Bool) (pars : List Name) (tail : Name) (s : St) :
    (∃ s', step emu pars .plain s ⟨'S' :: tail, 1⟩ = some (0, s') ∧ s' .state = 1) ∧
    (∃ s', step emu pars .plain s ⟨'M' :: tail, 1⟩ = some (0, s') ∧ s' .manual = 1) ∧
    (∀ v, ∃ s', step emu pars .counter s ⟨'A' :: tail, v⟩ = some (0, s') ∧ s' .abs = v) :=
  ⟨⟨fun x => if x = .state then 1 else s x, rfl, if_pos rfl⟩, ⟨fun x => if x = .manual then 1 else s x, rfl, if_pos rfl⟩,
    fun v => ⟨fun x => if x = .abs then v else s x, rfl, if_pos rfl⟩⟩

/-- The property MAX_FRQ that a frequency converter publishes: sending it the value 1 puts the motor into manual mode. -/
theorem C201_published_violated (emu : Bool) (pars : List Name) (s : St) (h : s .manual = 0) :
    ∃ s', step emu pars .altivar s ⟨"MAX_FRQ".toList, 1⟩ = some (0, s') ∧ s' .manual ≠ s .manual := by
  refine ⟨fun x => if x = .manual then 1 else s x, ?_, ?_⟩
  · cases emu <;> rfl
  · show (if Field.manual = Field.manual then (1 : Fl) else _) ≠ _
    rw [if_pos rfl, h]; decide +kernel

example : ∃ s', step true [] .altivar (fun _ => 0) ⟨"MAX_FRQ".toList, 1⟩ = some (0, s') ∧ s' .manual ≠ 0 :=
  C201_published_violated true [] _ rfl

/-- In an emulator each name with F that is not `FB_ON_ST` sets the other feedback of a valve. -/
theorem C201_feedback_violated (pars : List Name) (tail : Name) (h : 'F' :: tail ≠ "FB_ON_ST".toList) (s : St) :
    ∃ s', step true pars .valve s ⟨'F' :: tail, 1⟩ = some (0, s') ∧ s' .fbOff = 1 := by
  refine ⟨fun x => if x = .fbOff then 1 else s x, ?_, if_pos rfl⟩
  have : valve true pars ('F' :: tail) 1 = sets .fbOff 1 := by
    unfold valve; rw [if_pos ⟨rfl, rfl⟩, if_neg h]
    rfl
  unfold step
  rw [show cmd true pars .valve (Cmd.mk ('F' :: tail) 1).name (Cmd.mk ('F' :: tail) 1).v = _ from this]
  rfl

example : ∃ s', step true [] .valve (fun _ => 0) ⟨"FB".toList, 1⟩ = some (0, s') ∧ s' .fbOff = 1 :=
  C201_feedback_violated [] "B".toList (by decide) _

/-- **C201 fails**: a camera and the valves with IO-Link answer 0 to a name that nobody knows. -/
theorem C201_ack_violated (emu : Bool) (pars : List Name) (c : Cls) (hc : c = .camera ∨ c = .valveIol ∨ c = .analogValve) (s : St) (v : Fl) :
    step emu pars c s ⟨"X".toList, v⟩ = some (0, s) := by
  rcases hc with rfl | rfl | rfl <;> cases emu <;> rfl

/-- The same name is refused by the valves that are not on IO-Link. -/
example : (step false [] .valve (fun _ => 0) ⟨"X".toList, 1⟩).map (·.1) = some 1 := by decide +kernel

/-- **C201 fails**: a name with D that is shorter than five characters makes a counter read behind its end. -/
theorem C201_short_violated (emu : Bool) (pars : List Name) (c : Cls) (hc : c = .counter ∨ c = .counterF ∨ c = .counterIol) (tail : Name)
    (h : tail.length < 4) (s : St) (v : Fl) : step emu pars c s ⟨'D' :: tail, v⟩ = none := by
  have hn : ch ('D' :: tail) 5 = none := by
    unfold ch
    rw [if_neg (by rw [List.length_cons]; omega), if_neg (by rw [List.length_cons]; omega)]
  have hb : baseCounter pars ('D' :: tail) v = none := by
    unfold baseCounter
    show (ch ('D' :: tail) 5).bind _ = none
    rw [hn]; rfl
  have fin : cmd emu pars c ('D' :: tail) v = none → step emu pars c s ⟨'D' :: tail, v⟩ = none := by
    intro e; unfold step; rw [show cmd emu pars c _ _ = _ from e]; rfl
  apply fin
  rcases hc with rfl | rfl | rfl <;> exact hb

example : step false [] .counter (fun _ => 0) ⟨"DAY".toList, 1⟩ = none :=
  C201_short_violated false [] .counter (.inl rfl) "AY".toList (by decide) _ 1

/-- **C201 fails**: a flow above 327.67 for the counter with IO-Link does not fit into the variable. -/
theorem C201_range_violated (emu : Bool) (pars : List Name) (s : St) (k : Int) (h : 32768 ≤ k) (v : Fl) (hv : v * 100 = .num k) :
    step emu pars .counterIol s ⟨"F".toList, v⟩ = none := by
  have : int16 (v * 100) = none := by
    rw [hv]; unfold int16 whole
    simp only [Rat.num_intCast, Rat.den_intCast, Nat.cast_one, Int.tdiv_one]
    exact if_neg fun e => by omega
  unfold step
  show (setsIf .flow (int16 (v * 100))).map _ = none
  rw [this]; rfl

example : step false [] .counterIol (fun _ => 0) ⟨"F".toList, 400⟩ = none :=
  C201_range_violated false [] _ 40000 (by decide) 400 (by decide +kernel)

/-- **C201** (part). The name of a parameter that the device does not have is refused by every class that passes the result on, and nothing
is changed by any class. -/
theorem C201_no_parameter_partial (emu : Bool) (pars : List Name) (c : Cls) (s : St) (r : Name) (v : Fl)
    (h : 'P' :: '_' :: r ∉ pars) :
    ∃ a, step emu pars c s ⟨'P' :: '_' :: r, v⟩ = some (a, s) ∧ (c ≠ .camera → c ≠ .valveIol → c ≠ .analogValve → a = 1) := by
  have hc : ch ('P' :: '_' :: r) 0 = some 'P' := rfl
  have hn : ∀ m : List Char, m.take 2 ≠ ['P', '_'] → 'P' :: '_' :: r ≠ m := by
    intro m hm e; rw [← e] at hm; exact hm rfl
  have h0 : device pars ('P' :: '_' :: r) v = some (1, none) := by
    unfold device; rw [hc]; exact if_neg h
  have hb : baseCounter pars ('P' :: '_' :: r) v = some (1, none) := by
    unfold baseCounter; rw [hc]
    rw [if_neg (hn "PREV_DAY_T1".toList (by decide)), if_neg (hn "PREV_DAY_T2".toList (by decide)), h0]; rfl
  have hv : valve emu pars ('P' :: '_' :: r) v = some (1, none) := by
    unfold valve; rw [hc, if_neg fun e => absurd e.2 (by decide), h0]
  have ha : analog pars ('P' :: '_' :: r) v = some (1, none) := by
    unfold analog
    rw [if_neg (hn "M_EXP".toList (by decide)), if_neg (hn "S_DEV".toList (by decide)), hc, if_neg (by decide), h0]
  have fin : ∀ a, cmd emu pars c ('P' :: '_' :: r) v = some (a, none) → step emu pars c s ⟨'P' :: '_' :: r, v⟩ = some (a, s) := by
    intro a e; unfold step; rw [show cmd emu pars c ('P' :: '_' :: r) v = _ from e]; rfl
  cases c
  case plain => exact ⟨1, fin 1 h0, fun _ _ _ => rfl⟩
  case vcounter => exact ⟨1, fin 1 h0, fun _ _ _ => rfl⟩
  case camera =>
    refine ⟨0, fin 0 ?_, fun e => absurd rfl e⟩
    unfold cmd; simp only
    rw [if_neg (hn "RESULT".toList (by decide)), if_neg (hn "READY".toList (by decide)), h0]; rfl
  case counter => exact ⟨1, fin 1 hb, fun _ _ _ => rfl⟩
  case counterF => exact ⟨1, fin 1 hb, fun _ _ _ => rfl⟩
  case counterIol => exact ⟨1, fin 1 hb, fun _ _ _ => rfl⟩
  case analog => exact ⟨1, fin 1 ha, fun _ _ _ => rfl⟩
  case valve => exact ⟨1, fin 1 hv, fun _ _ _ => rfl⟩
  case valveIol =>
    refine ⟨0, fin 0 ?_, fun _ e => absurd rfl e⟩
    show always0 (valve emu pars ('P' :: '_' :: r) v) = _
    rw [hv]; rfl
  case analogValve =>
    refine ⟨0, fin 0 ?_, fun _ _ e => absurd rfl e⟩
    show always0 (analog pars ('P' :: '_' :: r) v) = _
    rw [ha]; rfl
  case altivar =>
    refine ⟨1, fin 1 ?_, fun _ _ _ => rfl⟩
    unfold cmd; simp only
    rw [if_neg fun e => hn "R".toList (by decide) e.2, if_neg fun e => hn "FRQ".toList (by decide) e.2,
      if_neg fun e => hn "RPM".toList (by decide) e.2, if_neg fun e => hn "EST".toList (by decide) e.2,
      if_neg fun e => hn "AMP".toList (by decide) e.2, h0]

example : (step false ["P_DT".toList] .valve (fun _ => 0) ⟨"P_ERR".toList, 1⟩).map (·.1) = some 1 := by decide +kernel

end Ptusa.DevCmd
