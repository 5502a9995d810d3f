import Verif.ObjText.Lemmas2

/-!
# C123, C124, C125: the texts of the technological objects

* C123: the server reads from the text of the objects what they are: commands, recipes, operations, times, steps, parameters.
* C124: the server reads from the backup of the parameters the objects, the kinds and the values of all parameters.
* C125: a backup which is sent back restores the parameters.
-/
namespace Ptusa.ObjText
open SaveDev LuaText

/-! ## C123 -/

/-- Every object's table is read exactly as it is, whatever the server knew before; nothing else in its table `t` changes. -/
theorem C123_states_partial (l : List Obj) (hn : (l.map (·.name)).Nodup) (h : ∀ o ∈ l, Readable o) :
    ∃ t, saveObjs l = some t ∧ ∀ env, ∃ env', runText t env = some env' ∧
      (∀ o ∈ l, env' o.name = some (.table (want o))) ∧ ∀ x, x ∉ l.map (·.name) → env' x = env x := by
  obtain ⟨t, e, hs⟩ := saveObjs_stmts l h
  exact ⟨t, e, fun env => ⟨after env l, runText_stmts hs env, fun o ho => after_last env l hn o ho,
    fun x hx => after_other env l x hx⟩⟩

/-- Every field is found under its key. -/
theorem C123_keys_partial (o : Obj) (h : Named o) (k : String) (v : Lv) (hm : (some k.toList, v) ∈ want o) :
    field (want o) k = some v :=
  field_of_nodup (want_nodup o h) hm

/-- A parameter is shown within half a hundredth, an integral one exactly. -/
theorem C123_near (q : Rat) : ∃ v, seen (.num q) = .num v ∧ |v - q| ≤ 1 / 200 ∧ (q.den = 1 → v = q) := by
  unfold seen
  by_cases h : q.den = 1
  · exact ⟨q, by simp [h], by norm_num, fun _ => rfl⟩
  · refine ⟨hundredths q, by simp [h], ?_, fun e => absurd e h⟩
    have := ratVal_near 2 q
    rw [← hundredths_eq] at this
    norm_num at this ⊢
    exact this

/-- An apostrophe in the name of a recipe makes the states of all objects unreadable, of those before it too. -/
theorem C123_apostrophe_violated (l1 l2 : List Obj) (o : Obj) (w u : Txt) (h1 : ∀ x ∈ l1, Readable x) (ho : luaName o.name = true)
    (hr : o.recName = w ++ '\'' :: u) (hw : Clean w) (hu : '\'' ∉ u) (t : Txt) (ht : saveObjs (l1 ++ o :: l2) = some t) (env : Env) :
    runText t env = none := by
  refine unreadable_of h1 ho (fun r => ?_) env t ht
  have e1 := scan_str [] w hw
  have e2 : scan (.str '\'' ([] ++ w)) ['\''] = some (.idle, [.str ([] ++ w)]) := by simp [scan, step]
  have e3 := scan_quote_none .idle u (fun c hc e => hu (e ▸ hc)) (.inl rfl)
  have : o.recName ++ "',\n".toList ++ r = w ++ (['\''] ++ (u ++ "',\n".toList ++ r)) := by
    rw [hr]
    simp
  rw [this]
  exact scan_app_none e1 (scan_app_none e2 (scan_none_app r e3))

/-- So does a line feed. -/
theorem C123_newline_violated (l1 l2 : List Obj) (o : Obj) (w u : Txt) (h1 : ∀ x ∈ l1, Readable x) (ho : luaName o.name = true)
    (hr : o.recName = w ++ '\n' :: u) (hw : Clean w) (t : Txt) (ht : saveObjs (l1 ++ o :: l2) = some t) (env : Env) :
    runText t env = none := by
  refine unreadable_of h1 ho (fun r => ?_) env t ht
  have : o.recName ++ "',\n".toList ++ r = w ++ '\n' :: (u ++ ("',\n".toList ++ r)) := by
    rw [hr]
    simp
  rw [this]
  exact scan_str_newline [] w hw _

theorem floatsText_none (l : List Fv) (x : Fv) (hx : x ∈ l) (h : floatText x = none) : floatsText l = none := by
  induction l with
  | nil => simp at hx
  | cons y l ih =>
    unfold floatsText
    cases hy : floatText y with
    | none => rfl
    | some t =>
      rcases List.mem_cons.1 hx with e | e
      · rw [← e, h] at hy
        cases hy
      · simp [ih e]

/-- An infinite parameter, and an integral one beyond the range of `int`, is undefined behaviour. -/
theorem C123_range_violated (l1 l2 : List Obj) (o : Obj) (x : Fv) (hm : x ∈ o.parF ∨ x ∈ o.rtF)
    (hx : (∃ neg, x = .inf neg) ∨ ∃ z : Int, (z < -2147483648 ∨ 2147483647 < z) ∧ x = .num z) :
    saveObjs (l1 ++ o :: l2) = none ∧ backup (l1 ++ o :: l2) = none := by
  have hf : floatText x = none := by
    rcases hx with ⟨neg, rfl⟩ | ⟨z, hz, rfl⟩
    · rfl
    · have h0 : (z : Rat) ≠ 0 := by
        intro e
        have : z = 0 := by exact_mod_cast e
        omega
      have hd : (z : Rat).den = 1 := Rat.den_intCast z
      have hnum : (z : Rat).num = z := Rat.num_intCast z
      simp only [floatText, h0, if_false, hd, if_true, hnum]
      rw [if_neg (by omega)]
  have h1 : o.save = none ∧ o.backup = none := by
    unfold Obj.save Obj.backup
    rcases hm with hm | hm
    · rw [floatsText_none _ x hm hf]
      exact ⟨rfl, rfl⟩
    · rw [floatsText_none _ x hm hf]
      constructor <;> (split <;> simp_all)
  induction l1 with
  | nil => simp [saveObjs, backup, h1]
  | cons y l1 ih =>
    simp only [List.cons_append, saveObjs, backup, ih.1, ih.2]
    constructor <;> (split <;> simp_all)

/-- An object without operations. -/
def plain (name : String) (parF : List Fv) : Obj :=
  { name := name.toList, cmd := 0, recNmr := 0, recName := [], words := [], ops := [], idle := 0, parF := parF, parU := [7],
    rtF := [], rtU := [] }

/-- A negative not-a-number among the parameters makes the text unreadable. -/
theorem C123_nan_violated : ∃ t, saveObjs [plain "TANK1" [.num 5], plain "TANK2" [.nan true]] = some t ∧
    (runText t fun _ => none).isNone = true := by
  refine ⟨_, rfl, ?_⟩
  decide +kernel

/-- An object with one operation, which has a step in two states without a name; only the first one is active. -/
def mute : Obj :=
  { plain "TANK1" [] with ops := [{ state := 1, unavailable := 0, time := 0, runStep := 0, stepTime := 0, states := fun s =>
    if s = 4 then ⟨1, 1, []⟩ else if s = 5 then ⟨1, 0, []⟩ else ⟨0, 0, []⟩ }] }

/-- States without a name share their key: the active step of the first one is not seen. -/
theorem C123_unnamed_violated : Readable mute ∧ field (want mute) "_STEPS1" = some (.table [(none, .num 0)]) ∧
    (some "_STEPS1".toList, .table [(none, .num 1)]) ∈ want mute := by
  refine ⟨⟨⟨by decide +kernel, by simp [plain, mute], by simp [plain, mute]⟩, by simp [plain, mute, Clean]⟩, ?_, ?_⟩
  · have h : (match field (want mute) "_STEPS1" with | some (.table [(none, .num q)]) => decide (q = 0) | _ => false) = true := by
      decide +kernel
    generalize field (want mute) "_STEPS1" = f at h
    split at h
    · rw [of_decide_eq_true h]
    · cases h
  · refine List.mem_append_left _ (List.mem_append_right _ (List.mem_flatMap.2 ⟨4, by decide, List.mem_map.2
      ⟨(_, 1), List.mem_filter.2 ⟨List.mem_cons_self, by decide⟩, ?_⟩⟩))
    simp only [many]
    rw [show (stateName 4).toList ++ "_STEPS".toList ++ natText 1 = "_STEPS1".toList by decide +kernel]
    rfl

/-! ## C124 -/

/-- The backup is read as it was saved: for every object, in order, its name, the kind of its parameters and all their values. -/
theorem C124_backup_partial (l : List Obj) (h : ∀ o ∈ l, Savable o) :
    ∃ t, backup l = some t ∧ readCalls t = some (l.flatMap wantCalls) := by
  obtain ⟨t, e, hc⟩ := backup_calls l h
  exact ⟨t, e, readCalls_of hc⟩

/-- A negative not-a-number makes the whole backup unreadable. -/
theorem C124_nan_violated : ∃ t, backup [plain "TANK1" [.num 5], plain "TANK2" [.nan true]] = some t ∧
    (readCalls t).isNone = true := by
  refine ⟨_, rfl, ?_⟩
  decide +kernel

/-! ## C125 -/

/-- What a restoration does, exactly: the objects of the backup get their values one place too early; the others stay. -/
theorem C125_effect_partial (fl : Rat → Fv) (bs objs : List Obj) (hb : (bs.map (·.name)).Nodup) (hs : ∀ b ∈ bs, Savable b)
    (hf : ∀ b ∈ bs, Fits b) (hn : (objs.map (·.name)).Nodup) (hc : Covers bs objs) :
    ∃ t, backup bs = some t ∧ restore fl true objs t =
      some (true, objs.map fun o => match bs.find? (fun b => b.name == o.name) with
        | some b => shifted fl b o
        | none => o) := by
  obtain ⟨t, e, h⟩ := C124_backup_partial bs hs
  exact ⟨t, e, by rw [restore, h]; exact callAll_all fl bs hb hf objs hn hc⟩

/-- A backup which is sent back at once spoils the parameters: where two neighbours differ, the first one gets the value of the
second one. This holds for every controller with such parameters. -/
theorem C125_shift_violated (fl : Rat → Fv) (objs : List Obj) (hn : (objs.map (·.name)).Nodup) (hs : ∀ b ∈ objs, Savable b)
    (hf : ∀ b ∈ objs, Fits b) (o : Obj) (ho : o ∈ objs) (k : Nat) (a b : Nat) (hab : a ≠ b) (h1 : o.parU[k]? = some a)
    (h2 : o.parU[k + 1]? = some b) :
    ∃ t objs', backup objs = some t ∧ restore fl true objs t = some (true, objs') ∧
      ∃ o' ∈ objs', o'.name = o.name ∧ o'.parU[k]? = some b ∧ o'.parU ≠ o.parU := by
  obtain ⟨t, e, h⟩ := C125_effect_partial fl objs objs hn hs hf hn (fun b hb => ⟨b, hb, ⟨rfl, rfl, rfl, rfl, rfl⟩⟩)
  refine ⟨t, _, e, h, shifted fl o o, ?_, rfl, ?_, ?_⟩
  · refine List.mem_map.2 ⟨o, ho, ?_⟩
    have : objs.find? (fun b => b.name == o.name) = some o := by
      cases hfd : objs.find? (fun b => b.name == o.name) with
      | none =>
        rw [List.find?_eq_none] at hfd
        exact absurd (by simp) (hfd o ho)
      | some p =>
        have hp := List.mem_of_find?_eq_some hfd
        have hpn := List.find?_some hfd
        have := List.inj_on_of_nodup_map hn hp ho (by simpa using hpn)
        rw [this]
    rw [this]
  · simp [shifted, shiftU, List.getElem?_mapIdx, h1, h2]
  · intro he
    have : (shifted fl o o).parU[k]? = some b := by simp [shifted, shiftU, List.getElem?_mapIdx, h1, h2]
    rw [he, h1] at this
    exact hab (Option.some.inj this)

/-- The last parameter of each kind is never restored. -/
theorem C125_last_violated (fl : Rat → Fv) (b o : Obj) (hs : SameShape b o) (k : Nat) :
    (k + 1 = o.parF.length → (shifted fl b o).parF[k]? = o.parF[k]?) ∧
    (k + 1 = o.rtF.length → (shifted fl b o).rtF[k]? = o.rtF[k]?) ∧
    (k + 1 = o.parU.length → (shifted fl b o).parU[k]? = o.parU[k]?) ∧
    (k + 1 = o.rtU.length → (shifted fl b o).rtU[k]? = o.rtU[k]?) := by
  refine ⟨fun h => ?_, fun h => ?_, fun h => ?_, fun h => ?_⟩
  · have : b.parF[k + 1]? = none := List.getElem?_eq_none (by rw [hs.parF]; omega)
    simp [shifted, shiftF, List.getElem?_mapIdx, this]
  · have : b.rtF[k + 1]? = none := List.getElem?_eq_none (by rw [hs.rtF]; omega)
    simp [shifted, shiftF, List.getElem?_mapIdx, this]
  · have : b.parU[k + 1]? = none := List.getElem?_eq_none (by rw [hs.parU]; omega)
    simp [shifted, shiftU, List.getElem?_mapIdx, this]
  · have : b.rtU[k + 1]? = none := List.getElem?_eq_none (by rw [hs.rtU]; omega)
    simp [shifted, shiftU, List.getElem?_mapIdx, this]

/-- Without a project which makes `set_param` callable from Lua nothing is restored: whatever the text is, no parameter changes,
and a backup with at least one number is answered with an error. -/
theorem C125_unbound_violated (fl : Rat → Fv) (objs : List Obj) (s : Txt) :
    (∃ a, restore fl false objs s = some (a, objs)) ∧
    ∀ bs : List Obj, (∀ b ∈ bs, Savable b) → (∃ b ∈ bs, b.parU ≠ []) → backup bs = some s →
      restore fl false objs s = some (false, objs) := by
  refine ⟨?_, fun bs hs hb he => ?_⟩
  · unfold restore
    split
    · exact ⟨false, rfl⟩
    · exact callAll_unbound fl objs _
  · obtain ⟨t, e, h⟩ := C124_backup_partial bs hs
    rw [e] at he
    injection he with he
    subst he
    rw [restore, h]
    refine callAll_unbound_num fl objs _ ?_
    obtain ⟨b, hbm, hne⟩ := hb
    refine ⟨_, List.mem_flatMap.2 ⟨b, hbm, List.mem_map.2 ⟨("par_uint", 3, b.parU.map fun n : Nat => Lv.num n), by simp, rfl⟩⟩, ?_⟩
    refine callParams_unbound_num fl objs b.name "par_uint" 3 _ ?_
    cases hp : b.parU with
    | nil => exact absurd hp hne
    | cons n l => simp [notNum]

/-! ## Concrete cases -/

/-- An object with two operations. -/
def tank : Obj :=
  { name := "TANK1".toList, cmd := 0, recNmr := 2, recName := "Milk".toList, words := [2], idle := 61500,
    ops := [{ state := 0, unavailable := 1, time := 0, runStep := 0, stepTime := 0, states := fun _ => ⟨0, 0, []⟩ },
            { state := 1, unavailable := 0, time := 61500, runStep := 2, stepTime := 5000,
              states := fun s => if s = 1 then ⟨3, 2, [3]⟩ else ⟨0, 0, []⟩ }],
    parF := [.num (1 / 3), .num (-5), .nan false], parU := [10, 20, 30], rtF := [.num (5 / 2)], rtU := [] }

example : Readable tank := by
  refine ⟨⟨by decide +kernel, ?_, ?_⟩, by decide +kernel⟩
  · intro x hx
    simp only [tank, List.mem_cons, List.not_mem_nil, or_false] at hx
    rcases hx with rfl | rfl | rfl
    · intro h
      exact absurd h (by decide +kernel)
    · exact fun _ => by decide +kernel
    · rfl
  · intro x hx
    simp only [tank, List.mem_cons, List.not_mem_nil, or_false] at hx
    subst hx
    exact fun h => absurd h (by decide +kernel)

example : Named tank ∧ Fits tank := by
  refine ⟨?_, by decide +kernel, by decide +kernel⟩
  intro p hp s hs
  simp only [tank, List.mem_cons, List.not_mem_nil, or_false] at hp
  rcases hp with rfl | rfl
  · rfl
  · have : s ≠ 1 := by
      rintro rfl
      exact absurd hs (by decide)
    simp [this]

example : seen (.num (1 / 3)) = .num (33 / 100) := by
  have : hundredths (1 / 3) = 33 / 100 := by
    have h : roundEven (|(1 / 3 : Rat)| * 10 ^ 2) = 33 := by decide +kernel
    unfold hundredths
    rw [h]
    norm_num
  rw [seen, if_neg (by decide +kernel), this]

example : (some "STEPS2".toList, Lv.table [(none, .num 0), (none, .num 1), (none, .num 1)]) ∈ want tank := by
  refine List.mem_append_left _ (List.mem_append_left _ (List.mem_append_right _ (List.mem_map.2
    ⟨(_, 2), List.mem_filter.2 ⟨List.mem_cons_of_mem _ List.mem_cons_self, by decide⟩, ?_⟩)))
  simp only [many]
  rw [show "STEPS".toList ++ natText 2 = "STEPS2".toList by decide +kernel]
  rfl

example : shiftU [10, 20, 30] [1, 2, 3] = [20, 30, 3] := by decide

end Ptusa.ObjText
