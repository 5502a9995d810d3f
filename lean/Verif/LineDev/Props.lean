import Verif.LineDev.Lemmas

/-!
# C220: each washing line has its own devices
-/
namespace Ptusa.LineDev
open SaveDev

/-- **C220** (part). A line of a number below 100000 gets the devices that the plan names, in the old form if its first and its twelfth valve are
named so, else in the new one; the old form has no sensor of pressure. -/
theorem C220_named_partial (find : Find) (n : Nat) (hn : n < 100000) :
    ∃ l, initline find n = some l ∧ (OldForm find n → ∀ r, l.own r = if r = .pressure then none else find (planned true n r)) ∧
      (¬OldForm find n → ∀ r, l.own r = find (planned false n r)) := by
  have fa : fits (dev n "V" (n * 100)) = true := by rw [dev_a]; exact planned_fits hn _ _
  have fb : fits (dev n "V" (n * 100 + 11)) = true := by rw [dev_b]; exact planned_fits hn _ _
  have all : ∀ old : Bool, owns.all (fun r => ((if old then oldName n else newName n) r).all fits) = true := by
    intro old
    rw [List.all_eq_true]
    intro r _
    cases old
    · show (newName n r).all fits = true
      rw [newName_eq]
      exact planned_fits hn _ _
    · show (oldName n r).all fits = true
      rw [oldName_eq]
      by_cases c : r = .pressure
      · rw [if_pos c]; rfl
      · rw [if_neg c]; exact planned_fits hn _ _
  have form := form_iff find n
  have e : initline find n = search find n ((find (dev n "V" (n * 100))).isSome && (find (dev n "V" (n * 100 + 11))).isSome) :=
    if_pos (by rw [fa, fb]; rfl)
  rw [e]
  revert form
  generalize ((find (dev n "V" (n * 100))).isSome && (find (dev n "V" (n * 100 + 11))).isSome) = old
  intro form
  unfold search
  rw [if_pos (all old)]
  refine ⟨_, rfl, fun o r => ?_, fun o r => ?_⟩
  · rw [form.2 o]
    show (oldName n r).bind find = _
    rw [oldName_eq]
    by_cases c : r = .pressure
    · rw [if_pos c, if_pos c]; rfl
    · rw [if_neg c, if_neg c]; rfl
  · have : old = false := by
      cases old
      · rfl
      · exact absurd (form.1 rfl) o
    rw [this]
    show (newName n r).bind find = _
    rw [newName_eq]; rfl

/-- Line 1 in the old form, line 2 in the new one. -/
def station : Find := fun t =>
  if t = "LINE1V100".toList then some 0 else if t = "LINE1V111".toList then some 1 else if t = "LINE1FQT101".toList then some 2
  else if t = "LINE2FQT1".toList then some 3 else if t = "V101".toList then some 4 else none

example : ((initline station 1).map fun l => (l.own .cnt, l.own (.V 11), l.own .pressure)) = some (some 2, some 1, none) ∧
    ((initline station 2).map fun l => (l.own .cnt, l.NS)) = some (some 3, some 4) := by decide +kernel

/-- **C220** (part). No device belongs to two lines, or to two places of a line, whichever forms the lines use. -/
theorem C220_own_partial (find : Find) (hd : Distinct find) (n m : Nat) (hn : n < 100000) (hm : m < 100000) (l k : Line)
    (hl : initline find n = some l) (hk : initline find m = some k) (r q : Own) (d : Nat) (h1 : l.own r = some d) (h2 : k.own q = some d) :
    n = m ∧ r = q := by
  have shape : ∀ (n : Nat), n < 100000 → ∀ l, initline find n = some l → ∀ r, l.own r = some d →
      ∃ old : Bool, (old = true ↔ OldForm find n) ∧ find (planned old n r) = some d ∧ (old = true → r ≠ .pressure) := by
    intro n hn l hl r h
    obtain ⟨l', e, e1, e2⟩ := C220_named_partial find n hn
    rw [hl] at e
    cases e
    by_cases o : OldForm find n
    · have := e1 o r
      by_cases c : r = .pressure
      · rw [if_pos c, h] at this; exact absurd this (by simp)
      · rw [if_neg c, h] at this
        exact ⟨true, by simp [o], this.symm, fun _ => c⟩
    · have := e2 o r
      rw [h] at this
      exact ⟨false, by simp [o], this.symm, fun x => absurd x (by decide)⟩
  obtain ⟨o1, i1, f1, p1⟩ := shape n hn l hl r h1
  obtain ⟨o2, i2, f2, p2⟩ := shape m hm k hk q h2
  have e := hd _ _ d f1 f2
  obtain ⟨e1, e2, e3⟩ := dev_inj (place_letters r) (place_letters q) e
  subst e1
  have ho : o1 = o2 := by
    cases o1 <;> cases o2 <;> simp_all
  subst ho
  refine ⟨rfl, ?_⟩
  have e4 : (if o1 then (place r).2.1 else (place r).2.2) = if o1 then (place q).2.1 else (place q).2.2 := by
    cases o1
    · exact e3
    · have : 100 * n + (place r).2.1 = 100 * n + (place q).2.1 := e3
      show (place r).2.1 = (place q).2.1
      omega
  rw [← back_place o1 r, ← back_place o1 q, e2, e4]

example : Distinct station := by
  have name : ∀ a d, station a = some d →
      a = (["LINE1V100".toList, "LINE1V111".toList, "LINE1FQT101".toList, "LINE2FQT1".toList, "V101".toList].getD d []) := by
    intro a d h
    unfold station at h
    by_cases c1 : a = "LINE1V100".toList
    · rw [if_pos c1] at h; cases h; exact c1
    rw [if_neg c1] at h
    by_cases c2 : a = "LINE1V111".toList
    · rw [if_pos c2] at h; cases h; exact c2
    rw [if_neg c2] at h
    by_cases c3 : a = "LINE1FQT101".toList
    · rw [if_pos c3] at h; cases h; exact c3
    rw [if_neg c3] at h
    by_cases c4 : a = "LINE2FQT1".toList
    · rw [if_pos c4] at h; cases h; exact c4
    rw [if_neg c4] at h
    by_cases c5 : a = "V101".toList
    · rw [if_pos c5] at h; cases h; exact c5
    rw [if_neg c5] at h
    exact absurd h (by simp)
  intro a b d h1 h2
  rw [name a d h1, name b d h2]

/-- **C220** does not hold: in a station with the old form, a line without its twelfth valve has no device of its own, although the others
are there: it goes by names of the new form, which nothing has. -/
theorem C220_twelfth_valve_violated (find : Find) (n : Nat) (hn : n < 100000) (h11 : find (planned true n (.V 11)) = none)
    (hnew : ∀ r, find (planned false n r) = none) : ∃ l, initline find n = some l ∧ ∀ r, l.own r = none := by
  obtain ⟨l, e, -, e2⟩ := C220_named_partial find n hn
  exact ⟨l, e, fun r => by rw [e2 (fun o => o.2 h11) r, hnew r]⟩

example : ((initline (fun t => if t = "LINE1V100".toList then some 0 else if t = "LINE1FQT101".toList then some 2 else none) 1).map
    fun l => (l.own (.V 0), l.own .cnt)) = some (none, none) := by decide +kernel

/-- **C220** does not hold: names of lines from number one million on do not fit into their array. -/
theorem C220_number_violated (find : Find) (n : Nat) (hn : 1000000 ≤ n) : initline find n = none := by
  have a := natText_len (n := n) (k := 6) (by omega)
  have b := natText_len (n := n * 100) (k := 8) (by omega)
  have l : (dev n "V" (n * 100)).length = 4 + (natText n).length + 1 + (natText (n * 100)).length := by
    unfold dev
    simp only [List.length_append]
    rfl
  have f : fits (dev n "V" (n * 100)) = false := by
    unfold fits
    rw [decide_eq_false_iff_not, l]
    omega
  unfold initline
  simp only [f, Bool.false_and]
  rfl

example : (dev 1000000 "V" 100000000).length = 21 := by decide +kernel

/-- **C220**. The tanks and pumps of the station are the same for all lines of one form. -/
theorem C220_common (find : Find) (n m : Nat) (l k : Line) (hl : initline find n = some l) (hk : initline find m = some k) :
    l.tank = k.tank ∧ ((OldForm find n ↔ OldForm find m) → l.NS = k.NS ∧ l.NK = k.NK) ∧
    (find "M1".toList ≠ none → l.NS = k.NS) ∧ (find "M2".toList ≠ none → l.NK = k.NK) := by
  obtain ⟨o1, i1, w1⟩ := initline_some hl
  obtain ⟨t1, s1, k1⟩ := search_some w1
  obtain ⟨o2, i2, w2⟩ := initline_some hk
  obtain ⟨t2, s2, k2⟩ := search_some w2
  have pm : ∀ (o : Bool) (a b : Txt), find a ≠ none → pump find o a b = find a := by
    intro o a b h
    unfold pump
    cases o
    · show (if find a = none then find b else find a) = _
      rw [if_neg h]
    · rfl
  refine ⟨by rw [t1, t2], fun e => ?_, fun h => ?_, fun h => ?_⟩
  · have : o1 = o2 := by
      rw [Bool.eq_iff_iff, i1, i2, e]
    rw [s1, s2, k1, k2, this]
    exact ⟨rfl, rfl⟩
  · rw [s1, s2, pm _ _ _ h, pm _ _ _ h]
  · rw [k1, k2, pm _ _ _ h, pm _ _ _ h]

example : (initline station 2).map (fun l => l.NK) = some none ∧ (initline station 1).map (fun l => l.NS) = some none := by decide +kernel

/-- **C220**. Each line looks at the sensors of the tanks, and turns on the motors of the station; only a line of the new form takes the valves instead,
where a motor is missing. -/
theorem C220_station (find : Find) (n : Nat) (l : Line) (hl : initline find n = some l) :
    (∀ p ∈ sensors, l.tank p.1 = find p.2.toList) ∧
    (l.NS = find "M1".toList ∨ ¬OldForm find n ∧ find "M1".toList = none ∧ l.NS = find "V101".toList) ∧
    (l.NK = find "M2".toList ∨ ¬OldForm find n ∧ find "M2".toList = none ∧ l.NK = find "V102".toList) ∧
    (¬OldForm find n → find "M1".toList = none → l.NS = find "V101".toList) ∧
    (¬OldForm find n → find "M2".toList = none → l.NK = find "V102".toList) := by
  obtain ⟨o, i, w⟩ := initline_some hl
  obtain ⟨t, s, k⟩ := search_some w
  have pm : ∀ a b : Txt, (pump find o a b = find a ∨ ¬OldForm find n ∧ find a = none ∧ pump find o a b = find b) ∧
      (¬OldForm find n → find a = none → pump find o a b = find b) := by
    intro a b
    unfold pump
    cases o
    · have no : ¬OldForm find n := fun x => absurd (i.2 x) (by decide)
      by_cases c : find a = none
      · have e : (if find a = none then find b else find a) = find b := if_pos c
        exact ⟨Or.inr ⟨no, c, e⟩, fun _ _ => e⟩
      · exact ⟨Or.inl (if_neg c), fun _ x => absurd x c⟩
    · exact ⟨Or.inl rfl, fun x => absurd (i.1 rfl) x⟩
  refine ⟨?_, ?_, ?_, ?_, ?_⟩
  · intro p hp
    rw [t]
    simp only [sensors, List.mem_cons, List.not_mem_nil, or_false] at hp
    rcases hp with h | h | h | h | h | h | h | h | h <;> rw [h] <;> rfl
  · rw [s]; exact (pm _ _).1
  · rw [k]; exact (pm _ _).1
  · rw [s]; exact (pm _ _).2
  · rw [k]; exact (pm _ _).2

example : (initline (fun t => if t = "LS4".toList then some 7 else none) 3).map (fun l => (l.tank .LSH, l.tank .LSL)) = some (some 7, none) := by
  decide +kernel

end Ptusa.LineDev
