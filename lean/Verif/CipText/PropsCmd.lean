import Verif.CipText.Props

/-!
# C179 and C180: the commands of the server to a washing line
-/
namespace Ptusa.CipText
open SaveDev LuaText ObjText

theorem upd_one (p : String) (v : Lv) (k : String) (q : Rat) : upd p v (one k q) = if k = p then (some k.toList, v) else one k q :=
  upd_key p v k _

theorem upd_txt (p : String) (v : Lv) (k : String) (q : Txt) : upd p v (txt k q) = if k = p then (some k.toList, v) else txt k q :=
  upd_key p v k _

theorem upd_lst (p : String) (v : Lv) (k : String) (q : List Lv) : upd p v (lst k q) = if k = p then (some k.toList, v) else lst k q :=
  upd_key p v k _

theorem field_app (a b : List (Option Txt × Lv)) (k : String) : field (a ++ b) k = (field b k).or (field a k) := by
  unfold field
  rw [List.filter_append, List.getLast?_append]
  cases (b.filter fun p => p.1 == some k.toList).getLast? <;> simp

theorem field_nil (k : String) : field [] k = none := rfl

theorem field_cons (k' : String) (v : Lv) (fs : List (Option Txt × Lv)) (k : String) :
    field ((some k'.toList, v) :: fs) k = (field fs k).or (if k' = k then some v else none) := by
  have := field_app [(some k'.toList, v)] fs k
  rw [List.singleton_append] at this
  rw [this]
  congr 1
  unfold field
  by_cases h : k' = k
  · simp [h]
  · have : ¬ k'.toList = k.toList := fun e => h (String.toList_inj.1 e)
    simp [h, this]

theorem field_one (k' : String) (q : Rat) (fs : List (Option Txt × Lv)) (k : String) :
    field (one k' q :: fs) k = (field fs k).or (if k' = k then some (.num q) else none) := field_cons k' _ fs k

theorem field_txt (k' : String) (q : Txt) (fs : List (Option Txt × Lv)) (k : String) :
    field (txt k' q :: fs) k = (field fs k).or (if k' = k then some (.str q) else none) := field_cons k' _ fs k

theorem field_lst (k' : String) (q : List Lv) (fs : List (Option Txt × Lv)) (k : String) :
    field (lst k' q :: fs) k = (field fs k).or (if k' = k then some (.table (q.map fun v => (none, v))) else none) :=
  field_cons k' _ fs k

theorem listAt_of {s : Stn} {l : Line} {k : String} {vs : List Lv} (h : field (want s l) k = some (.table (vs.map fun v => (none, v)))) :
    listAt s l k = some vs := by
  unfold listAt
  rw [h]
  have : items (vs.map fun v => ((none : Option Txt), v)) = vs := by
    clear h
    unfold items
    induction vs with
    | nil => rfl
    | cons v vs ih => simpa using ih
  simp [this]

theorem onlyAt_upd {s s' : Stn} {l l' : Line} (k : String) (v : Lv) (h : want s' l' = (want s l).map (upd k v)) :
    OnlyAt [k] s l s' l' := by
  intro k' hk
  rw [h, field_upd_ne _ _ _ _ (by simpa using hk)]

theorem put_of {s s' : Stn} {l l' : Line} (k : String) (i : Nat) (x : Lv) (vs : List Lv) (h0 : 0 < i) (h1 : i ≤ vs.length)
    (hv : field (want s l) k = some (.table (vs.map fun v => (none, v))))
    (h : want s' l' = (want s l).map (upd k (.table ((vs.set (i - 1) x).map fun v => (none, v))))) : Put k i x s l s' l' := by
  refine ⟨onlyAt_upd k _ h, vs, listAt_of hv, h0, h1, listAt_of ?_⟩
  rw [h, field_upd_eq _ _ _ (by simp [hv])]

/-- The value under a key. -/
macro "value" : tactic => `(tactic| (simp [want, field_app, field_one, field_txt, field_lst, field_nil, *] <;>
  (repeat' split) <;> simp [field_one, field_txt, field_lst, field_nil]))

/-- Two tables which differ in one field. -/
macro "differ" : tactic => `(tactic| (unfold want <;> (repeat' split) <;>
  simp_all [upd_one, upd_txt, upd_lst, List.map_set, whole] <;> simp [lst, one, txt]))

/-! ## C179 -/

/-- A float parameter: saved, of the run, of the station (which line 1 shows). -/
theorem C179_floats_partial (fl : Fv → Fv) (s : Stn) (l : Line) (i : Nat) (x : Fv) (h0 : 0 < i) :
    (i ≤ l.parF.length → ∃ l', set fl s l "S_PAR_F" i x = some (0, s, l') ∧ Put "S_PAR_F" i (seen (fl x)) s l s l') ∧
    (i ≤ l.rtF.length → i < 61 ∨ 82 < i ∨ l.state = 0 ∨ l.loaded < 0 →
      ∃ l', set fl s l "RT_PAR_F" i x = some (0, s, l') ∧ Put "RT_PAR_F" i (seen (fl x)) s l s l') ∧
    (i ≤ s.main.length → ∃ s', set fl s l "PAR_MAIN" i x = some (0, s', l) ∧
      ∀ m : Line, m.number = 1 → Put "PAR_MAIN" i (seen (fl x)) s m s' m) := by
  refine ⟨fun h1 => ⟨_, rfl, put_of _ i _ (l.parF.map seen) h0 (by simpa using h1) ?_ ?_⟩, fun h1 h2 => ?_, fun h1 => ?_⟩
  · value
  · unfold saved
    rw [if_pos ⟨h0, h1⟩]
    differ
  · refine ⟨{ l with rtF := l.rtF.set (i - 1) (fl x) }, ?_, put_of _ i _ (l.rtF.map seen) h0 (by simpa using h1) ?_ ?_⟩
    · simp only [set, String.reduceEq, if_false, if_true, Line.setRtF, h0, h1, and_self, pidFirst, pidLast]
      rw [if_neg (by omega)]
      rfl
    · value
    · differ
  · refine ⟨{ s with
        main := s.main.set (i - 1) (fl x)
        causticLoaded := if i = 36 then -1 else s.causticLoaded
        acidLoaded := if i = 37 then -1 else s.acidLoaded }, ?_,
      fun m hm => put_of _ i _ (s.main.map seen) h0 (by simpa using h1) ?_ ?_⟩
    · simp only [set, String.reduceEq, if_false, if_true, saved]
      by_cases c1 : i = 36 <;> by_cases c2 : i = 37 <;> simp_all
    · value
    · differ

example : ∃ l', set id stn0 line0 "S_PAR_F" 2 (.num 4) = some (0, stn0, l') ∧ Put "S_PAR_F" 2 (seen (.num 4)) stn0 line0 stn0 l' :=
  (C179_floats_partial id stn0 line0 2 (.num 4) (by decide)).1 (by decide)

theorem toUint_of (q : Rat) (n : Nat) (hn : n < 4294967296) (h1 : (n : Rat) ≤ q) (h2 : q < n + 1) : toUint q = some n := by
  have h3 : q < 4294967296 := by
    have : ((n : Rat) + 1) ≤ 4294967296 := by exact_mod_cast hn
    linarith
  have h0 : (0 : Rat) ≤ n := by positivity
  unfold toUint
  rw [if_pos ⟨by linarith, h3⟩]
  congr 1
  exact (Nat.floor_eq_iff (by linarith)).2 ⟨h1, h2⟩

/-- An integral parameter: the value without its fraction. -/
theorem C179_uints_partial (fl : Fv → Fv) (s : Stn) (l : Line) (i : Nat) (q : Rat) (n : Nat) (hn : n < 4294967296)
    (hq : (n : Rat) ≤ q ∧ q < n + 1) (h0 : 0 < i) :
    (i ≤ l.parU.length → ∃ l', set fl s l "S_PAR_UI" i (.num q) = some (0, s, l') ∧ Put "S_PAR_UI" i (.num n) s l s l') ∧
    (i ≤ l.rtU.length → ∃ l', set fl s l "RT_PAR_UI" i (.num q) = some (0, s, l') ∧ Put "RT_PAR_UI" i (.num n) s l s l') := by
  have e := toUint_of q n hn hq.1 hq.2
  refine ⟨fun h1 => ⟨{ l with parU := l.parU.set (i - 1) n }, ?_, put_of _ i _ (whole l.parU) h0 (by simpa [whole] using h1) ?_ ?_⟩,
    fun h1 => ⟨{ l with rtU := l.rtU.set (i - 1) n }, ?_, put_of _ i _ (whole l.rtU) h0 (by simpa [whole] using h1) ?_ ?_⟩⟩
  · simp [set, toU, e, saved, h0, h1]
  · value
  · clear e hq
    differ
  · simp [set, toU, e, h0, h1]
  · value
  · clear e hq
    differ

example : ∃ l', set id stn0 line0 "S_PAR_UI" 1 (.num (15 / 2)) = some (0, stn0, l') ∧ Put "S_PAR_UI" 1 (.num 7) stn0 line0 stn0 l' := by
  simpa using (C179_uints_partial id stn0 line0 1 (15 / 2) 7 (by decide) (by norm_num) (by decide)).1 (by decide)

/-- A value of the recipe which is edited, of the line and of the media of the station. -/
theorem C179_recipes_partial (fl : Fv → Fv) (s : Stn) (l : Line) (i : Nat) (x : Fv) (h0 : 0 < i) :
    (l.cur < l.recs.length → i ≤ (l.recs.getD l.cur []).length →
      ∃ l', set fl s l "REC_PAR" i x = some (0, s, l') ∧ Put "REC_PAR" i (seenRec (fl x)) s l s l') ∧
    (i ≤ s.caustic.par.length → ∃ s', set fl s l "CAUSTIC_PAR" i x = some (0, s', l) ∧
      ∀ m : Line, m.number = 1 → Put "CAUSTIC_PAR" i (seenRec (fl x)) s m s' m) ∧
    (i ≤ s.acid.par.length → ∃ s', set fl s l "ACID_PAR" i x = some (0, s', l) ∧
      ∀ m : Line, m.number = 1 → Put "ACID_PAR" i (seenRec (fl x)) s m s' m) := by
  refine ⟨fun hc h1 => ⟨{ l with recs := l.recs.set l.cur ((l.recs.getD l.cur []).set (i - 1) (fl x)) }, ?_,
      put_of _ i _ ((l.recs.getD l.cur []).map seenRec) h0 (by simpa using h1) ?_ ?_⟩,
    fun h1 => ⟨{ s with caustic := { s.caustic with par := s.caustic.par.set (i - 1) (fl x) } }, ?_,
      fun m hm => put_of _ i _ (s.caustic.par.map seenRec) h0 (by simpa using h1) ?_ ?_⟩,
    fun h1 => ⟨{ s with acid := { s.acid with par := s.acid.par.set (i - 1) (fl x) } }, ?_,
      fun m hm => put_of _ i _ (s.acid.par.map seenRec) h0 (by simpa using h1) ?_ ?_⟩⟩
  · simp only [set, String.reduceEq, if_false, if_true, setEdited, Line.recipe, h0, h1, and_self]
    rfl
  · value
  · have : (l.recs.set l.cur ((l.recs.getD l.cur []).set (i - 1) (fl x))).getD l.cur [] =
        (l.recs.getD l.cur []).set (i - 1) (fl x) := by
      simp [List.getD_eq_getElem?_getD, List.getElem?_set, hc]
    unfold want
    simp only [this]
    (repeat' split) <;> simp_all [upd_one, upd_txt, upd_lst, List.map_set] <;> simp [lst]
  · simp only [set, String.reduceEq, if_false, if_true, setEdited, h0, h1, and_self]
    rfl
  · value
  · differ
  · simp only [set, String.reduceEq, if_false, if_true, setEdited, h0, h1, and_self]
    rfl
  · value
  · differ

example : ∃ l', set id stn0 line0 "REC_PAR" 70 (.num 4) = some (0, stn0, l') ∧ Put "REC_PAR" 70 (seenRec (.num 4)) stn0 line0 stn0 l' :=
  (C179_recipes_partial id stn0 line0 70 (.num 4) (by decide)).1 (by decide) (by decide)

/-- A parameter of a regulator while an object is washed after a recipe: it is also stored in this recipe, so that the next
washing begins with it. -/
theorem C179_regulators_partial (fl : Fv → Fv) (s : Stn) (l : Line) (i r : Nat) (x : Fv) (h1 : 61 ≤ i) (h2 : i ≤ 82)
    (hi : i ≤ l.rtF.length) (hs : l.state ≠ 0) (hr : l.loaded = r) (hrl : r < l.recs.length) (hlen : 69 ≤ (l.recs.getD r []).length) :
    ∃ l', set fl s l "RT_PAR_F" i x = some (0, s, l') ∧ OnlyAt ["RT_PAR_F", "REC_PAR"] s l s l' ∧
      (∃ a, listAt s l "RT_PAR_F" = some a ∧ listAt s l' "RT_PAR_F" = some (a.set (i - 1) (seen (fl x)))) ∧
      ∀ r' k, (l'.recs.getD r' [])[k]? = if r' = r ∧ k = i - 14 then some (fl x) else (l.recs.getD r' [])[k]? := by
  have hg : l.recs[r]? = some (l.recs.getD r []) := by
    simp [List.getD_eq_getElem?_getD, List.getElem?_eq_getElem hrl]
  have e : set fl s l "RT_PAR_F" i x = some (0, s, { l with
      rtF := l.rtF.set (i - 1) (fl x), recs := l.recs.set r ((l.recs.getD r []).set (i - 14) (fl x)) }) := by
    have h0 : 0 < i := by omega
    have hk : i - 61 + 47 = i - 14 := by omega
    have hb : i - 14 < (l.recs.getD r []).length := by omega
    simp only [set, String.reduceEq, if_false, if_true, Line.setRtF, h0, hi, and_self, pidFirst, pidLast, recFirst, hr,
      Int.toNat_natCast, setRec, hg, hk, hb]
    rw [if_pos ⟨h1, h2, hs, by omega⟩]
    rfl
  refine ⟨_, e, ?_, ⟨l.rtF.map seen, listAt_of ?_, listAt_of ?_⟩, ?_⟩
  · intro k hk
    have hne : k ≠ "RT_PAR_F" ∧ k ≠ "REC_PAR" := by simpa using hk
    have hw : want s { l with rtF := l.rtF.set (i - 1) (fl x), recs := l.recs.set r ((l.recs.getD r []).set (i - 14) (fl x)) } =
        ((want s l).map (upd "RT_PAR_F" (.table (((l.rtF.map seen).set (i - 1) (seen (fl x))).map fun v => (none, v))))).map
          (upd "REC_PAR" (.table ((((l.recs.set r ((l.recs.getD r []).set (i - 14) (fl x))).getD l.cur []).map seenRec).map
            fun v => (none, v)))) := by
      generalize l.recs.set r ((l.recs.getD r []).set (i - 14) (fl x)) = recs
      clear e hg hlen hrl hr hk
      unfold want
      (repeat' split) <;> simp_all [upd_one, upd_txt, upd_lst, upd_key, List.map_set] <;> simp [lst, upd]
    rw [hw, field_upd_ne _ _ _ _ hne.2, field_upd_ne _ _ _ _ hne.1]
  · clear e
    value
  · clear e
    simp [want, field_app, field_one, field_txt, field_lst, field_nil]
    (repeat' split) <;> simp [field_one, field_txt, field_lst, field_nil, List.map_set]
  · intro r' k
    by_cases hrr : r' = r
    · subst hrr
      by_cases hk : k = i - 14
      · subst hk
        simp [List.getD_eq_getElem?_getD, List.getElem?_set, hrl]
        have : i - 14 < (l.recs.getD r' []).length := by omega
        simpa [List.getD_eq_getElem?_getD, List.getElem?_eq_getElem hrl] using this
      · simp [List.getD_eq_getElem?_getD, List.getElem?_set, hrl, hk, Ne.symm hk]
    · simp [List.getD_eq_getElem?_getD, List.getElem?_set, hrr, Ne.symm hrr]

example : ∃ l', set id stn0 line1 "RT_PAR_F" 61 (.num 4) = some (0, stn0, l') ∧ OnlyAt ["RT_PAR_F", "REC_PAR"] stn0 line1 stn0 l' ∧
    (l'.recs.getD 1 [])[47]? = some (.num 4) := by
  obtain ⟨l', a, b, _, d⟩ := C179_regulators_partial id stn0 line1 61 1 (.num 4) (by decide) (by decide) (by decide) (by decide) rfl
    (by decide) (by decide)
  exact ⟨l', a, b, by rw [d]; rfl⟩

/-- The command of the line. -/
theorem C179_command_partial (fl : Fv → Fv) (s : Stn) (l : Line) (i n : Nat) (hn : n < 2147483648) :
    ∃ l', set fl s l "CMD" i (.num n) = some (0, s, l') ∧ OnlyAt ["CMD"] s l s l' ∧ field (want s l') "CMD" = some (.num n) := by
  have e := toUint_of n n (by omega) le_rfl (by linarith)
  refine ⟨{ l with cmd := n }, ?_, onlyAt_upd "CMD" (.num n) ?_, ?_⟩
  · simp [set, toU, e, hn]
  · clear e
    differ
  · clear e
    value

example : ∃ l', set id stn0 line0 "CMD" 1 (.num 12) = some (0, stn0, l') ∧ OnlyAt ["CMD"] stn0 line0 stn0 l' ∧
    field (want stn0 l') "CMD" = some (.num 12) := by
  simpa using C179_command_partial id stn0 line0 1 12 (by decide)

/-- A larger command, which a `u_int` can hold, is shown as a negative number. -/
theorem C179_command_violated (fl : Fv → Fv) (s : Stn) (l : Line) (i n : Nat) (h1 : 2147483648 ≤ n) (h2 : n < 4294967296) :
    ∃ l', set fl s l "CMD" i (.num n) = some (0, s, l') ∧ field (want s l') "CMD" = some (.num ((n : Int) - 4294967296 : Int)) := by
  have e := toUint_of n n h2 le_rfl (by linarith)
  refine ⟨{ l with cmd := (n : Int) - 4294967296 }, ?_, ?_⟩
  · simp [set, toU, e, Nat.not_lt.2 h1]
  · clear e
    value

example : ∃ l', set id stn0 line0 "CMD" 1 (.num 4294967295) = some (0, stn0, l') ∧ field (want stn0 l') "CMD" = some (.num (-1)) := by
  simpa using C179_command_violated id stn0 line0 1 4294967295 (by decide) (by decide)

/-- The number of a car as a text; that of the first car selects the statistics which are shown. -/
theorem C179_cars_partial (s : Stn) (l : Line) (k : Nat) (c : Txt) (hc : c.length < 15) (hb : bytes c < 45) (h1 : 1 ≤ k) (h4 : k ≤ 4) :
    ∃ l', setText s l k c = some (0, s, l') ∧ field (want s l') (carKey k) = some (.str c) ∧
      (2 ≤ k → OnlyAt [carKey k] s l s l') ∧
      (k = 1 → OnlyAt ["NCAR", "NCAR1", "OBJSTATS_LASTWASH", "OBJSTATS_LASTPROGRAM", "OBJSTATS_CAUSTICCOUNT",
          "OBJSTATS_LASTACIDWASH"] s l s l' ∧ field (want s l') "NCAR" = some (.str c) ∧
        field (want s l') "OBJSTATS_LASTWASH" = some (.str (s.known c).lastWash) ∧
        field (want s l') "OBJSTATS_LASTPROGRAM" = some (.str (s.known c).lastProgram) ∧
        field (want s l') "OBJSTATS_CAUSTICCOUNT" = some (.num (s.known c).caustic) ∧
        field (want s l') "OBJSTATS_LASTACIDWASH" = some (.str (s.known c).lastAcid)) := by
  refine ⟨l.setCar s k c, ?_, ?_⟩
  · unfold setText
    rw [if_pos hc, if_pos (.inl ⟨h1, h4⟩), if_pos hb]
  have hk : k = 1 ∨ k = 2 ∨ k = 3 ∨ k = 4 := by omega
  clear hc hb
  rcases hk with rfl | rfl | rfl | rfl
  · refine ⟨?_, by omega, fun _ => ⟨?_, ?_, ?_, ?_, ?_, ?_⟩⟩
    · simp only [carKey, Line.setCar]
      value
    · intro k hk
      simp only [List.mem_cons, List.not_mem_nil, or_false, not_or] at hk
      obtain ⟨a, b, c, d, e, f⟩ := hk
      simp only [want, Line.setCar, field_app, field_one, field_txt, field_lst, field_nil, if_neg (Ne.symm a), if_neg (Ne.symm b),
        if_neg (Ne.symm c), if_neg (Ne.symm d), if_neg (Ne.symm e), if_neg (Ne.symm f)]
    all_goals
      simp only [Line.setCar]
      value
  all_goals
    refine ⟨?_, fun _ => onlyAt_upd _ (.str c) ?_, by omega⟩
    · simp only [carKey, Line.setCar]
      value
    · simp only [carKey, Line.setCar]
      differ

example : ∃ l', setText stn0 line1 1 "AB12".toList = some (0, stn0, l') ∧ field (want stn0 l') "NCAR1" = some (.str "AB12".toList) ∧
    field (want stn0 l') "OBJSTATS_CAUSTICCOUNT" = some (.num 5) := by
  obtain ⟨l', a, b, _, d⟩ := C179_cars_partial stn0 line1 1 "AB12".toList (by decide +kernel) (by decide +kernel) (by decide) (by decide)
  refine ⟨l', a, b, (d rfl).2.2.2.2.1.trans ?_⟩
  have e : (stn0.known "AB12".toList).caustic = 5 := by decide +kernel
  rw [e]
  rfl

/-- The number of a car as a number. -/
theorem C179_numbers_partial (fl : Fv → Fv) (s : Stn) (l : Line) (k : Nat) (z : Int) (h1 : -2147483648 ≤ z) (h2 : z ≤ 2147483647)
    (hk : k ≤ 4) : set fl s l "NCAR" k (.num z) = setText s l k (decimal z) := by
  have hlow : (-2147483649 : Rat) < z := by
    have : (-2147483649 : Int) < z := by omega
    exact_mod_cast this
  have hhi : (z : Rat) < 2147483648 := by
    have : z < (2147483648 : Int) := by omega
    exact_mod_cast this
  have ht : truncate (z : Rat) = z := by
    unfold truncate
    split
    · have : (-(z : Rat)) = ((-z : Int) : Rat) := by push_cast; ring
      rw [this, Int.floor_intCast]
      omega
    · exact Int.floor_intCast z
  have e : toI (.num z) = some z := by simp [toI, hlow, hhi, ht]
  have hlen : ∀ n : Nat, n ≤ 2147483648 → (natText n).length ≤ 10 := by
    intro n hn
    have key : ∀ k n : Nat, n < 10 ^ (k + 1) → (natText n).length ≤ k + 1 := by
      intro k
      induction k with
      | zero =>
        intro n h
        rw [natText, if_pos (by simpa using h)]
        simp
      | succ k ih =>
        intro n h
        rw [natText]
        split
        · simp
        · have := ih (n / 10) (by rw [Nat.div_lt_iff_lt_mul (by decide)]; simpa [Nat.pow_succ] using h)
          simp only [List.length_append, List.length_singleton]
          omega
    exact key 9 n (by omega)
  have hd : ∀ c ∈ intText z, Char.utf8Size c = 1 := by
    intro c hc
    have hdig : ∀ n : Nat, ∀ c ∈ natText n, Char.utf8Size c = 1 := by
      intro n c hc
      have := natText_digits n c hc
      simp only [Char.isDigit, Bool.and_eq_true, decide_eq_true_eq] at this
      have hv : c.val ≤ 127 := UInt32.le_trans this.2 (by decide : (57 : UInt32) ≤ 127)
      exact if_pos hv
    unfold intText at hc
    split at hc
    · rcases List.mem_cons.1 hc with rfl | hc
      · decide
      · exact hdig _ _ hc
    · exact hdig _ _ hc
  have hl : (intText z).length ≤ 11 := by
    unfold intText
    split
    · simp only [List.length_cons]
      have := hlen z.natAbs (by omega)
      omega
    · have := hlen z.natAbs (by omega)
      omega
  have hb : bytes (intText z) ≤ 11 := by
    have : ∀ t : Txt, (∀ c ∈ t, Char.utf8Size c = 1) → bytes t = t.length := by
      intro t ht
      induction t with
      | nil => rfl
      | cons c t ih =>
        have := ih fun d hd => ht d (by simp [hd])
        simp only [bytes, List.map_cons, List.sum_cons, List.length_cons] at this ⊢
        rw [this, ht c (by simp)]
        omega
    rw [this _ hd]
    exact hl
  rw [decimal_eq]
  unfold setText
  rw [if_pos (by omega), if_pos (by omega), if_pos (by omega)]
  simp [set, e, hk]

example : set id stn0 line0 "NCAR" 2 (.num (-5 : Int)) = setText stn0 line0 2 (decimal (-5)) :=
  C179_numbers_partial id stn0 line0 2 (-5) (by decide) (by decide) (by decide)

/-- A switch: while nothing is washed it is set, during a washing nothing changes. -/
theorem C179_switches_partial (fl : Fv → Fv) (s : Stn) (l : Line) (k : Nat) (z : Int) (h1 : -2147483648 ≤ z) (h2 : z ≤ 2147483647)
    (hk1 : 1 ≤ k) (hk4 : k ≤ 4) : ∃ l', set fl s l "SWITCH" k (.num z) = some (0, s, l') ∧
      (l.state = 0 → OnlyAt [switchKey k] s l s l' ∧ field (want s l') (switchKey k) = some (.num z)) ∧
      (l.state ≠ 0 → OnlyAt [] s l s l') := by
  have hlow : (-2147483649 : Rat) < z := by
    have : (-2147483649 : Int) < z := by omega
    exact_mod_cast this
  have hhi : (z : Rat) < 2147483648 := by
    have : z < (2147483648 : Int) := by omega
    exact_mod_cast this
  have ht : truncate (z : Rat) = z := by
    unfold truncate
    split
    · have : (-(z : Rat)) = ((-z : Int) : Rat) := by push_cast; ring
      rw [this, Int.floor_intCast]
      omega
    · exact Int.floor_intCast z
  have e : toI (.num z) = some z := by simp [toI, hlow, hhi, ht]
  refine ⟨l.setSwitch k z, by simp [set, e], fun h0 => ?_, fun h0 => ?_⟩
  · have hk : k = 1 ∨ k = 2 ∨ k = 3 ∨ k = 4 := by omega
    clear hlow hhi ht e h1 h2 hk1 hk4
    rcases hk with rfl | rfl | rfl | rfl
    all_goals
      refine ⟨onlyAt_upd _ (.num z) ?_, ?_⟩
      · simp only [switchKey, Line.setSwitch, if_neg (not_not.2 h0)]
        clear h0
        differ
      · simp only [switchKey, Line.setSwitch, if_neg (not_not.2 h0)]
        clear h0
        value
  · simp only [Line.setSwitch, if_pos h0]
    exact fun _ _ => rfl

example : ∃ l', set id stn0 line0 "SWITCH" 3 (.num (1 : Int)) = some (0, stn0, l') ∧
    field (want stn0 l') "SWITCH3" = some (.num (1 : Int)) := by
  obtain ⟨l', a, b, _⟩ := C179_switches_partial id stn0 line0 3 1 (by decide) (by decide) (by decide) (by decide)
  exact ⟨l', a, (b rfl).2⟩

/-- A number out of range changes nothing that the server reads, of any line. -/
theorem C179_range (fl : Fv → Fv) (s : Stn) (l : Line) (i : Nat) (x : Fv) :
    (i = 0 ∨ l.parF.length < i → set fl s l "S_PAR_F" i x = some (0, s, l)) ∧
    (i = 0 ∨ s.main.length < i → ∃ s', set fl s l "PAR_MAIN" i x = some (0, s', l) ∧ ∀ m : Line, OnlyAt [] s m s' m) ∧
    (l.rtF.length ≤ 82 → i = 0 ∨ 82 < i → ∃ l', set fl s l "RT_PAR_F" i x = some (0, s, l') ∧ OnlyAt [] s l s l') := by
  refine ⟨fun h => ?_, fun h => ?_, fun hl h => ?_⟩
  · simp only [set, if_true, saved]
    rw [if_neg (by omega)]
  · refine ⟨{ s with
        causticLoaded := if i = 36 then -1 else s.causticLoaded
        acidLoaded := if i = 37 then -1 else s.acidLoaded }, ?_, fun m k _ => rfl⟩
    simp only [set, String.reduceEq, if_false, if_true, saved]
    by_cases c1 : i = 36 <;> by_cases c2 : i = 37 <;> simp_all <;> omega
  · refine ⟨{ l with stubF := fl x }, ?_, fun k _ => rfl⟩
    have hA : ¬(0 < i ∧ i ≤ l.rtF.length) := by omega
    have hB : ∀ p : Prop, ¬(61 ≤ i ∧ i ≤ 82 ∧ p) := fun p h => by omega
    simp only [set, String.reduceEq, if_false, if_true, Line.setRtF, pidFirst, pidLast, hA, hB]
    rfl

example : set id stn0 line0 "S_PAR_F" 3 (.num 4) = some (0, stn0, line0) :=
  (C179_range id stn0 line0 3 (.num 4)).1 (.inr (by decide))

/-- A command of another name is refused. -/
theorem C179_unknown (fl : Fv → Fv) (s : Stn) (l : Line) (p : String) (i : Nat) (x : Fv) (h : p ∉ commands) :
    set fl s l p i x = some (1, s, l) := by
  simp only [commands, List.mem_cons, List.not_mem_nil, or_false, not_or] at h
  obtain ⟨a, b, c, d, e, f, g, h, j, k, m, n⟩ := h
  simp [set, a, b, c, d, e, f, g, h, j, k, m, n]

example : set id stn0 line0 "ST" 1 (.num 4) = some (1, stn0, line0) := C179_unknown id stn0 line0 "ST" 1 (.num 4) (by decide)

/-- A negative value for an unsigned parameter or for the command of the line is undefined behaviour, and so is infinity. -/
theorem C179_negative_violated (fl : Fv → Fv) (s : Stn) (l : Line) (p : String) (hp : p ∈ ["S_PAR_UI", "RT_PAR_UI", "CMD"]) (i : Nat)
    (x : Fv) (hx : (∃ q, q ≤ -1 ∧ x = .num q) ∨ ∃ neg, x = .inf neg) : set fl s l p i x = none := by
  have e : toU x = none := by
    rcases hx with ⟨q, hq, rfl⟩ | ⟨neg, rfl⟩
    · simp only [toU, toUint]
      rw [if_neg (by intro h; linarith [h.1])]
    · rfl
  simp only [List.mem_cons, List.not_mem_nil, or_false] at hp
  rcases hp with rfl | rfl | rfl <;> simp [set, e]

example : set id stn0 line0 "CMD" 1 (.num (-1)) = none :=
  C179_negative_violated id stn0 line0 "CMD" (by decide) 1 _ (.inl ⟨-1, le_rfl, rfl⟩)

/-- Twelve characters of four bytes each are few enough for the number of a car but leave no zero behind the text. -/
theorem C179_bytes_violated (s : Stn) (l : Line) (k : Nat) (hk : k ≤ 4) (c : Txt) (h1 : 12 ≤ c.length) (h2 : c.length < 15)
    (h3 : ∀ x ∈ c, Char.utf8Size x = 4) : setText s l k c = none := by
  have hb : bytes c = 4 * c.length := by
    clear h1 h2
    induction c with
    | nil => rfl
    | cons x c ih =>
      have := ih fun y hy => h3 y (by simp [hy])
      simp only [bytes, List.map_cons, List.sum_cons, List.length_cons] at this ⊢
      rw [this, h3 x (by simp)]
      omega
  unfold setText
  rw [if_pos h2, if_pos (by omega), if_neg (by omega)]

example : setText stn0 line0 1 (List.replicate 12 '😀') = none :=
  C179_bytes_violated stn0 line0 1 (by decide) _ (by decide) (by decide) (by decide +kernel)

/-! ## C180 -/

theorem create_all_self (l : List Bool) (p : Ptr × Bool) (h : ∀ b ∈ l, b = true) (hp : p.1 = .own) :
    (l.foldl create p).1 = .own := by
  induction l generalizing p with
  | nil => exact hp
  | cons b l ih =>
    have hb := h b (by simp)
    subst hb
    exact ih _ (fun x hx => h x (by simp [hx])) (by simp [create, hp])

theorem create_other (l : List Bool) (p : Ptr × Bool) (h : false ∈ l ∨ p.1 = .main) : (l.foldl create p).1 = .main := by
  induction l generalizing p with
  | nil =>
    rcases h with h | h
    · simp at h
    · exact h
  | cons b l ih =>
    apply ih
    cases b
    · right
      rfl
    · rcases h with h | h
      · left
        simpa using h
      · right
        simp [create, h]

/-- If all lines of the station have self-cleaning, its parameters are apart from those of the station: a command for one of
them changes it and nothing else. -/
theorem C180_apart_partial (fl : Fv → Fv) (s : Stn) (lines : List Bool) (hne : lines ≠ []) (h : ∀ b ∈ lines, b = true)
    (hs : s.sc = (createAll lines).1) (he : s.scEnabled = (createAll lines).2) (l : Line) (i : Nat) (x : Fv) (h0 : 0 < i)
    (h1 : i ≤ s.own.length) : ∃ s', set fl s l "PAR_SELFCLEAN" i x = some (0, s', l) ∧
      ∀ m : Line, m.number = 1 → Put "PAR_SELFCLEAN" i (seen (fl x)) s m s' m := by
  have e1 : (createAll lines).1 = .own := by
    cases lines with
    | nil => exact absurd rfl hne
    | cons b lines =>
      have hb := h b (by simp)
      subst hb
      exact create_all_self lines _ (fun x hx => h x (by simp [hx])) rfl
  have e2 : (createAll lines).2 = true := by
    have key : ∀ (l : List Bool) (p : Ptr × Bool), p.2 = true → (l.foldl create p).2 = true := by
      intro l
      induction l with
      | nil => exact fun _ hp => hp
      | cons b l ih =>
        intro p hp
        exact ih _ (by cases b <;> simp [create, hp])
    cases lines with
    | nil => exact absurd rfl hne
    | cons b lines =>
      have hb := h b (by simp)
      subst hb
      exact key lines _ rfl
  rw [e1] at hs
  rw [e2] at he
  refine ⟨{ s with own := s.own.set (i - 1) (fl x) }, ?_,
    fun m hm => put_of _ i _ (s.own.map seen) h0 (by simpa using h1) ?_ ?_⟩
  · simp [set, hs, saved, h0, h1]
  · clear h e1 e2
    value
  · clear h e1 e2
    differ

example : ∃ s', set id stn0 line0 "PAR_SELFCLEAN" 1 (.num 4) = some (0, s', line0) ∧
    Put "PAR_SELFCLEAN" 1 (seen (.num 4)) stn0 line0 s' line0 := by
  obtain ⟨s', a, b⟩ := C180_apart_partial id stn0 [true, true] (by decide) (by decide) rfl rfl line0 1 (.num 4) (by decide) (by decide)
  exact ⟨s', a, b line0 rfl⟩

/-- If a line of the station has no self-cleaning, the order of creation does not matter: a command for a parameter of
self-cleaning overwrites the parameter of the station with the same number, and the server is never shown the parameters of
self-cleaning. -/
theorem C180_shared_violated (fl : Fv → Fv) (s : Stn) (lines : List Bool) (h : false ∈ lines) (hs : s.sc = (createAll lines).1)
    (l : Line) (i : Nat) (x : Fv) (h0 : 0 < i) (h1 : i ≤ s.main.length) :
    (∃ s', set fl s l "PAR_SELFCLEAN" i x = some (0, s', l) ∧ s'.main[i - 1]? = some (fl x)) ∧
    ∀ m : Line, field (want s m) "PAR_SELFCLEAN" = none := by
  have e : (createAll lines).1 = .main := create_other lines _ (.inl h)
  rw [e] at hs
  refine ⟨⟨{ s with main := s.main.set (i - 1) (fl x) }, by simp [set, hs, saved, h0, h1], ?_⟩, fun m => ?_⟩
  · simp [List.getElem?_set, Nat.sub_one_lt_of_le h0 h1]
  · clear e
    simp [want, field_app, field_one, field_txt, field_lst, field_nil, hs]
    (repeat' split) <;> simp [field_one, field_txt, field_lst, field_nil]

example : ∃ s', set id { stn0 with sc := .main } line0 "PAR_SELFCLEAN" 2 (.num 4) = some (0, s', line0) ∧ s'.main[1]? = some (.num 4) :=
  (C180_shared_violated id { stn0 with sc := .main } [true, false] (by decide) rfl line0 2 (.num 4) (by decide) (by decide)).1

end Ptusa.CipText
