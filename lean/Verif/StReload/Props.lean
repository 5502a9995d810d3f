import Verif.StReload.Lemmas

/-!
# C218: reading the statistics again
-/
namespace Ptusa.StReload

open Ptusa.CipStats
open Ptusa.Registry (Name)

variable (js : Nat → Junk) (h : List Ev) (hf : ∀ e ∈ h, e.Fit) (hc : ∀ e ∈ h, e.Calm)
  (lines : List Line) (hn : ∀ l ∈ lines, Fits 96 l.number ∧ Fits 96 l.recipe) (k : Nat) (m : Mem)

include hf hc hn

/-- **C218** (part). When all lines are of one kind, a line that washes an object shows, after the command, what the file has of
that object, if it has any; and then the wash is recorded for it. -/
theorem C218_reload_partial (hl : h.length < 499999990) (hk : k < lines.length) (same : ∀ a ∈ lines, ∀ b ∈ lines, a.car = b.car)
    (i : Nat) (l : Line) (hi : lines[i]? = some l) (hw : l.Washes) (st : Stat)
    (hd : (Tab.init.run h).disk l.object = some st) :
    (∃ s, (Sys.init js).run false (h ++ [reload lines k m]) = some s ∧ shown s i = some st) ∧
    ∀ p d, Fits 72 p → Fits 72 d →
      ∃ s, (Sys.init js).run false (h ++ [reload lines k m, .caustic i, .finish i p d false]) = some s ∧
        look s.base l.object = some { st with caustic := st.caustic + 1, prog := p, wash := d } := by
  have hme : lines[k]? = some lines[k] := List.getElem?_eq_getElem hk
  have ht : target lines k i = some l.object := by
    rw [target_of hme hi hw, same _ (List.getElem_mem hk) l (List.mem_of_getElem? hi)]
    rfl
  have ha : ((Tab.init.run h).step (reload lines k m)).at' i = some l.object := by
    show ((target lines k i).bind fun n => if ((Tab.init.run h).disk n).isSome then some n else none) = _
    rw [ht]
    show (if ((Tab.init.run h).disk l.object).isSome then some l.object else none) = _
    rw [hd]
    rfl
  have hm : ((Tab.init.run h).step (reload lines k m)).mem l.object = some st := hd
  constructor
  · obtain ⟨s, e, e1, e2⟩ := after_reload js h [] hf hc (by simp) (by simp) (by simp; omega) hn k m
    refine ⟨s, e, ?_⟩
    unfold shown
    rw [e2]
    show (match ((Tab.init.run h).step (reload lines k m)).at' i with
      | some n => look s.base n
      | none => _) = _
    rw [ha]
    show look s.base l.object = _
    rw [e1]
    exact hm
  · intro p d hp hd'
    obtain ⟨s, e, e1, -⟩ := after_reload js h [.caustic i, .finish i p d false] hf hc
      (by
        intro e he
        simp only [List.mem_cons, List.not_mem_nil, or_false] at he
        rcases he with rfl | rfl
        · trivial
        · exact ⟨hp, hd'⟩)
      (by
        intro e he
        simp only [List.mem_cons, List.not_mem_nil, or_false] at he
        rcases he with rfl | rfl <;> trivial)
      (by simp; omega) hn k m
    refine ⟨s, e, ?_⟩
    rw [e1]
    generalize (Tab.init.run h).step (reload lines k m) = t at ha hm
    show (Tab.step (Tab.step t (.caustic i)) (.finish i p d false)).mem l.object = _
    simp [Tab.step, Tab.on, ha, hm]

/-- **C218** does not hold: a line whose recipe is chosen but which does not wash yet has nothing after the command, nor has one whose
object the file does not know, and whatever they wash then is not recorded: the statistics stay those of the file. -/
theorem C218_lost_violated (hl : h.length < 499999990) (i : Nat) (l : Line) (hi : lines[i]? = some l)
    (hw : ¬l.Washes ∨ ((Tab.init.run h).disk l.number = none ∧ (Tab.init.run h).disk l.recipe = none)) (p d : Name) (hp : Fits 72 p) (hd : Fits 72 d) :
    ∃ s, (Sys.init js).run false (h ++ [reload lines k m, .caustic i, .acid i d, .finish i p d false, .cycle]) = some s ∧
      ∀ n, look s.base n = (Tab.init.run h).disk n := by
  obtain ⟨s, e, e1, -⟩ := after_reload js h [.caustic i, .acid i d, .finish i p d false, .cycle] hf hc
    (by
      intro e he
      simp only [List.mem_cons, List.not_mem_nil, or_false] at he
      rcases he with rfl | rfl | rfl | rfl
      · trivial
      · exact hd
      · exact ⟨hp, hd⟩
      · trivial)
    (by
      intro e he
      simp only [List.mem_cons, List.not_mem_nil, or_false] at he
      rcases he with rfl | rfl | rfl | rfl <;> trivial)
    (by simp; omega) hn k m
  refine ⟨s, e, fun n => ?_⟩
  rw [e1]
  have ha : ((Tab.init.run h).step (reload lines k m)).at' i = none := by
    show ((target lines k i).bind fun n => if ((Tab.init.run h).disk n).isSome then some n else none) = _
    by_cases w : l.Washes
    · rcases hw with hw | hw
      · exact absurd w hw
      · cases hme : lines[k]? with
        | none =>
          have : target lines k i = none := by unfold target; rw [hme]
          rw [this]; rfl
        | some me =>
          rw [target_of hme hi w]
          cases me.car
          · show (if ((Tab.init.run h).disk l.recipe).isSome then some l.recipe else none) = _
            rw [hw.2]; rfl
          · show (if ((Tab.init.run h).disk l.number).isSome then some l.number else none) = _
            rw [hw.1]; rfl
    · rw [target_none hi w]; rfl
  have hm : ((Tab.init.run h).step (reload lines k m)).mem n = (Tab.init.run h).disk n := rfl
  rw [← hm]
  generalize (Tab.init.run h).step (reload lines k m) = t at ha
  show (Tab.step (Tab.step (Tab.step (Tab.step t (.caustic i)) (.acid i d)) (.finish i p d false)) .cycle).mem n = _
  simp [Tab.step, Tab.on, ha]

/-- **C218** does not hold at a station where cars and tanks are washed: when a line for tanks gets the command, a line that washes a car
shows the statistics of what its recipe is named after, whatever the car. -/
theorem C218_kinds_violated (hl : h.length < 499999990) (me : Line) (hk : lines[k]? = some me) (hme : me.car = false)
    (i : Nat) (l : Line) (hi : lines[i]? = some l) (hw : l.Washes) (st : Stat) (hd : (Tab.init.run h).disk l.recipe = some st) :
    ∃ s, (Sys.init js).run false (h ++ [reload lines k m]) = some s ∧ shown s i = some st := by
  have ha : ((Tab.init.run h).step (reload lines k m)).at' i = some l.recipe := by
    show ((target lines k i).bind fun n => if ((Tab.init.run h).disk n).isSome then some n else none) = _
    rw [target_of hk hi hw, hme]
    show (if ((Tab.init.run h).disk l.recipe).isSome then some l.recipe else none) = _
    rw [hd]; rfl
  obtain ⟨s, e, e1, e2⟩ := after_reload js h [] hf hc (by simp) (by simp) (by simp; omega) hn k m
  refine ⟨s, e, ?_⟩
  unfold shown
  rw [e2]
  show (match ((Tab.init.run h).step (reload lines k m)).at' i with
    | some n => look s.base n
    | none => _) = _
  rw [ha]
  show look s.base l.recipe = _
  rw [e1]
  exact hd

omit hf hc hn

/-- Memory that holds zeros. -/
def blank : Junk := ⟨fun _ => 0, fun _ => 0, fun _ => 0, fun _ => 0, 0⟩

/-- A tank was washed twice with caustic, the last wash is over; its recipe is chosen again. -/
def twice : List Ev :=
  [.select 0 [84] blank, .caustic 0, .finish 0 [65] [66] false, .select 0 [84] blank, .caustic 0, .finish 0 [65] [66] false, .cycle,
   .select 0 [84] blank]

/-- A line that waits for the start of a wash with caustic. -/
def waiting : Line := ⟨false, false, 160, [84], []⟩

/-- A line that washes with caustic. -/
def washing : Line := ⟨false, true, 160, [84], []⟩

theorem twice_fit : ∀ e ∈ twice, e.Fit := by
  intro e he
  simp only [twice, List.mem_cons, List.not_mem_nil, or_false] at he
  rcases he with rfl | rfl | rfl | rfl | rfl | rfl | rfl | rfl <;> first | trivial | (constructor <;> decide) | (constructor <;> constructor <;> decide)

theorem twice_calm : ∀ e ∈ twice, e.Calm := by
  intro e he
  simp only [twice, List.mem_cons, List.not_mem_nil, or_false] at he
  rcases he with rfl | rfl | rfl | rfl | rfl | rfl | rfl | rfl <;> trivial

example (m : Mem) : ∃ s, (Sys.init fun _ => blank).run false (twice ++ [reload [washing] 0 m]) = some s ∧
    shown s 0 = some ⟨[66], [65], unknown, 2⟩ :=
  (C218_reload_partial (fun _ => blank) twice twice_fit twice_calm [washing]
    (by intro l hl; simp only [List.mem_singleton] at hl; subst hl; constructor <;> constructor <;> decide) 0 m (by decide) (by decide)
    (by intro a ha b hb; simp only [List.mem_singleton] at ha hb; rw [ha, hb]) 0 washing rfl
    ⟨rfl, by unfold Own; decide⟩ ⟨[66], [65], unknown, 2⟩ rfl).1

example (m : Mem) : ∃ s, (Sys.init fun _ => blank).run false
    (twice ++ [reload [waiting] 0 m, .caustic 0, .acid 0 [67], .finish 0 [65] [67] false, .cycle]) = some s ∧
      ∀ n, look s.base n = (Tab.init.run twice).disk n :=
  C218_lost_violated (fun _ => blank) twice twice_fit twice_calm [waiting]
    (by intro l hl; simp only [List.mem_singleton] at hl; subst hl; constructor <;> constructor <;> decide) 0 m (by decide) 0 waiting rfl
    (Or.inl fun w => absurd w.1 (by decide)) [65] [67] (by constructor <;> decide) (by constructor <;> decide)

/-- A line that washes the car `C` with the recipe `T`. -/
def truck : Line := ⟨true, true, 160, [84], [67]⟩

example (m : Mem) : ∃ s, (Sys.init fun _ => blank).run false (twice ++ [reload [waiting, truck] 0 m]) = some s ∧
    shown s 1 = some ⟨[66], [65], unknown, 2⟩ ∧ truck.object = [67] ∧ (Tab.init.run twice).disk [67] = none := by
  obtain ⟨s, e1, e2⟩ := C218_kinds_violated (fun _ => blank) twice twice_fit twice_calm [waiting, truck]
    (by
      intro l hl
      simp only [List.mem_cons, List.not_mem_nil, or_false] at hl
      rcases hl with rfl | rfl <;> constructor <;> constructor <;> decide) 0 m (by decide) waiting rfl rfl 1 truck rfl
    ⟨rfl, by unfold Own; decide⟩ ⟨[66], [65], unknown, 2⟩ rfl
  exact ⟨s, e1, e2, rfl, rfl⟩

/-- **C218** does not hold: with more caustic washes than are allowed without acid the start is refused; after the statistics were read
again it is not. -/
theorem C218_acid_violated :
    ((Sys.init fun _ => blank).run false twice).map (fun s => s.acidDue 0 1 160) = some true ∧
    ((Sys.init fun _ => blank).run false (twice ++ [reload [waiting] 0 ⟨0, fun _ => blank⟩])).map (fun s => s.acidDue 0 1 160) = some false := by
  constructor <;> decide +kernel

end Ptusa.StReload
