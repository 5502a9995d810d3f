import Verif.CipText.Lemmas

/-!
# C178, C179, C180: washing lines and the server

* C178: the server reads from the description of a washing line what the line and its station are.
* C179: a command of the server reaches exactly the value which it names.
* C180: the parameters of self-cleaning are apart from the parameters of the station.
-/
namespace Ptusa.CipText
open SaveDev LuaText ObjText

/-- A station and two of its lines, for the examples: the first line rests, the second one washes after recipe 1. -/
def stn0 : Stn where
  main := [.num 1, .num (5 / 2)]
  own := [.num 7]
  sc := .own
  scEnabled := true
  caustic := ⟨"0##NaOH".toList, 0, "NaOH".toList, "strong".toList, [.num 2, .num (1 / 3)]⟩
  acid := ⟨"0##HNO3".toList, 1, "HNO3".toList, "weak".toList, [.num 3]⟩
  causticLoaded := 0
  acidLoaded := 1
  known := fun c => if c = "AB12".toList then ⟨"monday".toList, "full".toList, 5, "sunday".toList⟩ else ⟨[], [], 0, []⟩

def line0 : Line where
  name := "LINE1".toList
  number := 1
  cmd := 0
  state := 0
  step := 0
  loadedName := "Milk".toList
  editName := "Cream".toList
  lastNmr := 2
  lastName := "Milk".toList
  program := "full".toList
  programs := "1##full".toList
  recipes := "0##Milk||1##Cream".toList
  car1 := "AB12".toList
  car2 := []
  car3 := []
  car4 := []
  switch1 := 1
  switch2 := 0
  switch3 := 0
  switch4 := 0
  idle := 3723000
  parF := [.num (1 / 2), .num 8]
  parU := [3, 4]
  rtF := List.replicate 82 (.num 0)
  rtU := [9]
  stubF := .num 0
  stubU := 0
  recs := [List.replicate 70 (.num 1), List.replicate 70 (.num 2)]
  cur := 0
  loaded := -1
  stats := ⟨"monday".toList, "full".toList, 5, "sunday".toList⟩

def line1 : Line := { line0 with name := "LINE2".toList, number := 2, state := 2, step := 5, loaded := 1 }

theorem stn0_readable : stn0.Readable := by
  refine ⟨?_, ?_, ⟨by decide +kernel, by decide +kernel, by decide +kernel, ?_⟩, ⟨by decide +kernel, by decide +kernel, by decide +kernel, ?_⟩⟩ <;>
    · intro x hx
      simp only [stn0, List.mem_cons, List.not_mem_nil, or_false] at hx
      (repeat rcases hx with rfl | hx) <;> (try subst hx) <;> first | exact trivial | (intro h; revert h; decide +kernel)

theorem line_readable (l : Line) (hl : l = line0 ∨ l = line1) : l.Readable := by
  rcases hl with rfl | rfl
  all_goals
    refine ⟨by decide +kernel, by decide +kernel, ?_, ?_, ?_⟩
    · intro x hx
      simp only [line1, line0, List.mem_cons, List.not_mem_nil, or_false] at hx
      rcases hx with rfl | rfl <;> simp [Printable]
    · intro x hx
      rw [List.eq_of_mem_replicate hx]
      simp [Printable]
    · intro r hr x hx
      simp only [line1, line0, List.mem_cons, List.not_mem_nil, or_false] at hr
      rcases hr with rfl | rfl <;> rw [List.eq_of_mem_replicate hx] <;> exact trivial

/-! ## C178 -/

/-- The table of a line is read exactly as it is; nothing else in the table `t` of the server changes. -/
theorem C178_read_partial (s : Stn) (l : Line) (hs : l.number = 1 → s.Readable) (hl : l.Readable) :
    ∃ t, save s l = some t ∧ ∀ env, runText t env = some (Function.update env l.name (some (.table (want s l)))) :=
  save_reads hs hl

example : ∃ t, save stn0 line0 = some t ∧
    ∀ env, runText t env = some (Function.update env "LINE1".toList (some (.table (want stn0 line0)))) :=
  C178_read_partial stn0 line0 (fun _ => stn0_readable) (line_readable _ (.inl rfl))

/-- Every field is found under its key. -/
theorem C178_keys_partial (s : Stn) (l : Line) (h : s.sc = .own ∨ s.scEnabled = false) (k : String) (v : Lv)
    (hm : (some k.toList, v) ∈ want s l) : field (want s l) k = some v := by
  refine field_of_nodup ?_ hm
  unfold want
  by_cases hn : l.number = 1
  · rcases h with h | h
    · cases he : s.scEnabled
      · simp only [if_pos hn, h, he, Bool.false_eq_true, false_and, if_false, List.map_append, List.map_cons, List.map_nil]
        simp only [one, txt, lst]
        decide +kernel
      · simp only [if_pos hn, h, he, and_self, if_true, List.map_append, List.map_cons, List.map_nil]
        simp only [one, txt, lst]
        decide +kernel
    · simp only [if_pos hn, h, Bool.false_eq_true, false_and, if_false, List.map_append, List.map_cons, List.map_nil]
      simp only [one, txt, lst]
      decide +kernel
  · simp only [if_neg hn, List.map_append, List.map_cons, List.map_nil]
    simp only [one, txt, lst]
    decide +kernel

example : field (want stn0 line0) "IDLE_TIME" = some (.str (clock 3723)) ∧ field (want stn0 line1) "OPER" = some (.num 5) :=
  ⟨C178_keys_partial stn0 line0 (.inl rfl) _ _ (by simp [want, txt, line0]),
    C178_keys_partial stn0 line1 (.inl rfl) _ _ (by simp [want, one, line0, line1])⟩

/-- A value of a recipe is shown within half a hundredth. -/
theorem C178_near (q : Rat) : ∃ v, seenRec (.num q) = .num v ∧ |v - q| ≤ 1 / 200 := by
  refine ⟨hundredths q, rfl, ?_⟩
  have := ratVal_near 2 q
  rw [← hundredths_eq] at this
  norm_num at this ⊢
  exact this

example : ∃ v, seenRec (.num (1 / 3)) = .num v ∧ |v - 1 / 3| ≤ 1 / 200 := C178_near (1 / 3)

/-- An apostrophe in the number of a car, which the server and the panel may send, makes the description unreadable. -/
theorem C178_apostrophe_violated (s : Stn) (l : Line) (hs : l.number = 1 → s.Readable) (hl : l.Readable) (k : Nat) (h1 : 1 ≤ k)
    (h4 : k ≤ 4) (w u : Txt) (hw : Clean w) (hu : '\'' ∉ u) (hlen : (w ++ '\'' :: u).length < 15)
    (hb : bytes (w ++ '\'' :: u) < 45) : ∃ l', setText s l k (w ++ '\'' :: u) = some (0, s, l') ∧
      ∀ t, save s l' = some t → ∀ env, runText t env = none := by
  refine ⟨l.setCar s k (w ++ '\'' :: u), ?_, fun t ht env => ?_⟩
  · unfold setText
    rw [if_pos hlen, if_pos (.inl ⟨h1, h4⟩), if_pos hb]
  obtain ⟨key, pre, post, e, hk, hp⟩ := car_rows s l k h1 h4 (w ++ '\'' :: u)
  unfold save at ht
  cases hr : rowsText (allRows s (l.setCar s k (w ++ '\'' :: u))) with
  | none => rw [hr] at ht; cases ht
  | some r =>
    have hn : (l.setCar s k (w ++ '\'' :: u)).name = l.name := by
      unfold Line.setCar
      split <;> rfl
    have hc := save_chunk s _ r hr
    unfold save at hc
    rw [hc] at ht
    injection ht with ht
    rw [← ht, hn]
    rw [e] at hr
    refine chunk_bad l.name _ pre post (.str key (w ++ '\'' :: u)) r hl.name
      (fun q hq => all_ok hs hl q (hp q hq)) ?_ hr env
    intro y hy
    injection hy with hy
    subst hy
    exact bad_row key w u hk hw hu

example : ∃ l', setText stn0 line0 3 "O'Neil".toList = some (0, stn0, l') ∧
    ∀ t, save stn0 l' = some t → ∀ env, runText t env = none :=
  C178_apostrophe_violated stn0 line0 (fun _ => stn0_readable) (line_readable _ (.inl rfl)) 3 (by decide) (by decide) "O".toList
    "Neil".toList (by decide +kernel) (by decide +kernel) (by decide +kernel) (by decide +kernel)

/-- What the forged number of a car is read as: three fields. -/
theorem forged_row : Flds (oneText "NCAR2".toList ('\'' :: "',OPER=0,A='".toList ++ ['\'']))
    [txt "NCAR2" [], one "OPER" 0, txt "A" []] := by
  refine ⟨[.name "NCAR2".toList, .sym '=', .str [], .sym ',', .name "OPER".toList, .sym '=', .num 0, .sym ',', .name ['A'], .sym '=',
    .str [], .sym ','], by decide +kernel, fun ts gs h => ?_⟩
  have := PF_key "NCAR2".toList (PV_str []) (PF_key "OPER".toList (PV_num 0) (PF_key ['A'] (PV_str []) h))
  simpa [txt, one] using this

/-- The number of a car can forge other fields: after `',OPER=0,A='` the server reads that no operation is performed, whatever
the line does. -/
theorem C178_forged_violated (s : Stn) (l : Line) (hs : l.number = 1 → s.Readable) (hl : l.Readable) :
    ∃ l', setText s l 2 "',OPER=0,A='".toList = some (0, s, l') ∧ l'.step = l.step ∧
      ∃ t, save s l' = some t ∧ ∀ env, ∃ fs, runText t env = some (Function.update env l.name (some (.table fs))) ∧
        field fs "OPER" = some (.num 0) := by
  refine ⟨l.setCar s 2 "',OPER=0,A='".toList, ?_, rfl, ?_⟩
  · unfold setText
    rw [if_pos (by decide +kernel), if_pos (by omega), if_pos (by decide +kernel)]
  have hall := all_ok hs hl
  have hpre : ∀ r ∈ l.rows.take 12, r.Ok := fun r hr => hall r (by
    have := List.mem_of_mem_take hr
    simp [allRows, this])
  have hpost : ∀ r ∈ (allRows s l).drop 13, r.Ok := fun r hr => hall r (List.mem_of_mem_drop hr)
  obtain ⟨ta, ea, fa⟩ := rows_flds _ hpre
  obtain ⟨tb, eb, fb⟩ := rows_flds _ hpost
  have esplit : allRows s (l.setCar s 2 "',OPER=0,A='".toList) =
      l.rows.take 12 ++ .str "NCAR2" "',OPER=0,A='".toList :: (allRows s l).drop 13 := rfl
  have app : ∀ (a b : List Row) (x y : Txt), rowsText a = some x → rowsText b = some y → rowsText (a ++ b) = some (x ++ y) := by
    intro a b
    induction a with
    | nil =>
      intro x y hx hy
      injection hx with hx
      subst hx
      simpa using hy
    | cons r a ih =>
      intro x y hx hy
      simp only [rowsText] at hx
      split at hx
      · rename_i p q ep eq
        injection hx with hx
        rw [List.cons_append, rowsText, ep, ih q y eq hy]
        simp [← hx]
      · cases hx
  have er : rowsText (allRows s (l.setCar s 2 "',OPER=0,A='".toList)) =
      some (ta ++ (oneText "NCAR2".toList ('\'' :: "',OPER=0,A='".toList ++ ['\'']) ++ tb)) := by
    rw [esplit]
    refine app _ _ _ _ ea ?_
    rw [rowsText, eb]
    rfl
  refine ⟨_, save_chunk s _ _ er, fun env => ?_⟩
  have b : Blank "\t".toList := by decide +kernel
  have hlast : Last ((if (l.setCar s 2 "',OPER=0,A='".toList).number = 1 then tableText "ACID_PAR".toList s.acid.par ++ ['\n'] else []) ++
      "\t".toList) (lastFld s l) := by
    have en : (l.setCar s 2 "',OPER=0,A='".toList).number = l.number := rfl
    rw [en]
    unfold lastFld
    by_cases h : l.number = 1
    · simp only [if_pos h]
      exact last_then (last_table2 (by decide +kernel) (hs h).acid.par) b
    · simp only [if_neg h]
      exact last_blank _ b
  have hfl := flds_append fa (flds_append forged_row fb)
  refine ⟨_, chunk_run hl.name hfl hlast env, ?_⟩
  have eq : ∀ A B : List (Option Txt × Lv), (A ++ ([txt "NCAR2" [], one "OPER" 0, txt "A" []] ++ B) ++ lastFld s l) =
      (A ++ [txt "NCAR2" []]) ++ (some "OPER".toList, .num 0) :: (txt "A" [] :: (B ++ lastFld s l)) := by
    intro A B
    simp [one]
  rw [eq]
  apply field_later
  intro e he
  have keys : ∀ e ∈ ((allRows s l).drop 13).map Row.fld ++ lastFld s l, e.1 ≠ some "OPER".toList := by
    intro e he
    have hm : e.1 ∈ (((allRows s l).drop 13).map Row.fld ++ lastFld s l).map (·.1) := List.mem_map_of_mem he
    intro hh
    rw [hh] at hm
    revert hm
    unfold allRows lastFld Stn.rows
    by_cases hn : l.number = 1
    · simp only [if_pos hn]
      cases s.scEnabled <;> cases s.sc <;>
        simp [Line.rows, Line.rows2, Stn.rows2, Row.fld, one, txt, lst]
    · simp only [if_neg hn]
      simp [Line.rows, Line.rows2, Row.fld, one, txt, lst]
  rcases List.mem_cons.1 he with rfl | he
  · decide +kernel
  · exact keys e he

example : ∃ l', setText stn0 line1 2 "',OPER=0,A='".toList = some (0, stn0, l') ∧ l'.step = 5 := by
  obtain ⟨l', a, b, _⟩ := C178_forged_violated stn0 line1 (fun _ => stn0_readable) (line_readable _ (.inr rfl))
  exact ⟨l', a, b⟩

end Ptusa.CipText
