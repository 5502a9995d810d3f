import Verif.ObjText.Lemmas

/-!
# Lemmas about the backup and the restoration
-/
namespace Ptusa.ObjText
open SaveDev LuaText

/-- The text is a sequence of calls. -/
def Calls (t : Txt) (cs : List (Txt × List (Option Txt × Lv))) : Prop := ∃ toks, scan .idle t = some (.idle, toks) ∧
  ∀ n r, toks.length + r.length < n → ∃ m, r.length < m ∧ calls n (toks ++ r) = (calls m r).map fun l => cs ++ l

theorem calls_nil : Calls [] [] := ⟨[], rfl, fun n r h => ⟨n, by simpa using h, by simp⟩⟩

theorem calls_append {a b : Txt} {f g : List (Txt × List (Option Txt × Lv))} (ha : Calls a f) (hb : Calls b g) :
    Calls (a ++ b) (f ++ g) := by
  obtain ⟨ta, sa, ea⟩ := ha
  obtain ⟨tb, sb, eb⟩ := hb
  refine ⟨ta ++ tb, scan_app sa sb, fun n r h => ?_⟩
  obtain ⟨m, hm, e⟩ := ea n (tb ++ r) (by simpa [List.length_append, Nat.add_assoc] using h)
  obtain ⟨k, hk, e2⟩ := eb m r (by simpa using hm)
  refine ⟨k, hk, ?_⟩
  rw [List.append_assoc, e, e2, Option.map_map]
  congr 1
  funext l
  simp

theorem readCalls_of {t : Txt} {cs : List (Txt × List (Option Txt × Lv))} (h : Calls t cs) : readCalls t = some cs := by
  obtain ⟨toks, hs, he⟩ := h
  obtain ⟨m, hm, e⟩ := he (toks.length + 1) [] (by simp)
  rw [List.append_nil] at e
  simp only [readCalls, lex_of_scan hs, e]
  cases m with
  | zero => simp at hm
  | succ m => simp [calls]

theorem word_clean {w : Txt} (h : ∀ c ∈ w, isWord c = true) : Clean w := by
  intro c hc
  have := h c hc
  refine ⟨?_, ?_, ?_⟩ <;> (intro e; subst e; exact absurd this (by decide))

theorem call_calls {x : Txt} (hx : luaName x = true) (par : String) (hp : Clean par.toList) (id : Nat) {ts : List Txt} {vs : List Lv}
    (h : List.Forall₂ Item ts vs) : Calls (callText x par id ts) [("params".toList,
      [(some "object".toList, .str x), (some "param_name".toList, .str par.toList), one "par_id" id, many "values".toList vs])] := by
  obtain ⟨c, r, e, hd, hw⟩ := name_parts (luaName_isName hx)
  have hcl : Clean x := word_clean hw
  have b1 : Blank ['\n', '\t'] := by decide +kernel
  have kv : luaName "values".toList = true := by decide +kernel
  have b2 : Blank [' '] := by decide +kernel
  obtain ⟨tv, sv, pv⟩ := last_table kv b1 (flds_append (flds_append (flds_blank _ b1) (flds_items h)) (flds_blank _ b1)) b2
  have s1 : scan .idle "params{ object = ".toList =
      some (.idle, [.name "params".toList, .sym '{', .name "object".toList, .sym '=']) := by decide +kernel
  have s2 := scan_quoted x hcl
  have s3 : scan .idle ", param_name = ".toList = some (.idle, [.sym ',', .name "param_name".toList, .sym '=']) := by
    decide +kernel
  have s4 := scan_quoted par.toList hp
  have s5 : scan .idle ", par_id = ".toList = some (.idle, [.sym ',', .name "par_id".toList, .sym '=']) := by decide +kernel
  have s6 := scan_app (scan_nat id) (scan_end (wordTok_nat id) ends_comma)
  have s7 : scan .idle ['\n'] = some (.idle, []) := by decide +kernel
  have all := scan_app s1 (scan_app s2 (scan_app s3 (scan_app s4 (scan_app s5 (scan_app s6 (scan_app s7 (scan_app sv s7)))))))
  have ef : ([] ++ vs.map (fun v => ((none : Option Txt), v)) ++ []) = vs.map (fun v => ((none : Option Txt), v)) := by simp
  rw [ef] at pv
  have hpf := PF_key "object".toList (PV_str x) (PF_key "param_name".toList (PV_str par.toList)
    (PF_key "par_id".toList (PV_num id) pv))
  refine ⟨[.name "params".toList, .sym '{', .name "object".toList, .sym '=', .str x, .sym ',', .name "param_name".toList, .sym '=',
    .str par.toList, .sym ',', .name "par_id".toList, .sym '=', .num id, .sym ','] ++ tv, ?_, ?_⟩
  · have ht : callText x par id ts = "params{ object = ".toList ++ ('\'' :: x ++ ['\''] ++ (", param_name = ".toList ++
        ('\'' :: par.toList ++ ['\''] ++ (", par_id = ".toList ++ (natText id ++ [','] ++ (['\n'] ++ ("values".toList ++ '=' ::
          ['\n', '\t'] ++ '{' :: (['\n', '\t'] ++ itemsText ts ++ ['\n', '\t']) ++ '}' :: [' '] ++ ['}'] ++ ['\n']))))))) := by
      unfold callText
      simp only [List.append_assoc, List.cons_append, List.nil_append]
    rw [ht, all]
    simp only [List.cons_append, List.nil_append, List.append_nil]
  · intro n r hn
    cases n with
    | zero => simp at hn
    | succ n =>
      refine ⟨n, by simp at hn; omega, ?_⟩
      have key := hpf ((Tok.name "object".toList :: Tok.sym '=' :: [Tok.str x] ++ Tok.sym ',' ::
        (Tok.name "param_name".toList :: Tok.sym '=' :: [Tok.str par.toList] ++ Tok.sym ',' ::
          (Tok.name "par_id".toList :: Tok.sym '=' :: [Tok.num id] ++ Tok.sym ',' :: tv))) ++ r).length r (by simp)
      simp only [List.cons_append, List.nil_append] at key ⊢
      simp only [calls, key]
      rfl

theorem backup_calls_one {o : Obj} (h : Savable o) : ∃ t, o.backup = some t ∧ Calls t (wantCalls o) := by
  obtain ⟨pf, e1, h1⟩ := items_floats o.parF h.parF
  obtain ⟨rf, e2, h2⟩ := items_floats o.rtF h.rtF
  have h3 := forall2_map o.parU natText (fun n => .num n) fun n _ => item_nat n
  have h4 := forall2_map o.rtU natText (fun n => .num n) fun n _ => item_nat n
  have c1 := call_calls h.name "par_float" (by decide +kernel) 1 h1
  have c2 := call_calls h.name "rt_par_float" (by decide +kernel) 2 h2
  have c3 := call_calls h.name "par_uint" (by decide +kernel) 3 h3
  have c4 := call_calls h.name "rt_par_uint" (by decide +kernel) 4 h4
  exact ⟨_, by simp only [Obj.backup, e1, e2], calls_append (calls_append (calls_append c1 c2) c3) c4⟩

theorem backup_calls (l : List Obj) (h : ∀ o ∈ l, Savable o) : ∃ t, backup l = some t ∧ Calls t (l.flatMap wantCalls) := by
  induction l with
  | nil => exact ⟨[], rfl, calls_nil⟩
  | cons o l ih =>
    obtain ⟨a, e1, h1⟩ := backup_calls_one (h o (by simp))
    obtain ⟨b, e2, h2⟩ := ih (fun x hx => h x (by simp [hx]))
    exact ⟨a ++ b, by simp [backup, e1, e2], by rw [List.flatMap_cons]; exact calls_append h1 h2⟩

/-! ## The loop of the restoration -/

/-- Values written from number `i` on, each at its number less one. -/
def writeAll {α : Type} (f : Rat → α) (l : List α) : Nat → List Lv → List α
  | _, [] => l
  | i, v :: vs => match v with
    | .num q => writeAll f ((put l ((i : Int) - 1) (f q)).getD l) (i + 1) vs
    | _ => writeAll f l (i + 1) vs

/-- What the loop leaves in the stub. -/
def stubAll {α : Type} (f : Rat → α) (len : Nat) (st : α) : Nat → List Lv → α
  | _, [] => st
  | i, v :: vs => match v with
    | .num q => stubAll f len (if 0 < (i : Int) - 1 ∧ (i : Int) - 1 ≤ len then st else f q) (i + 1) vs
    | _ => stubAll f len st (i + 1) vs

theorem put_len {α : Type} (l : List α) (i : Int) (v : α) : ((put l i v).getD l).length = l.length := by
  unfold put
  split <;> simp

theorem setParam_one (fl : Rat → Fv) (o : Obj) (i : Int) (q : Rat) :
    o.setParam fl 1 i q = some { o with parF := (put o.parF i (fl q)).getD o.parF } := by
  simp [Obj.setParam]

theorem setParam_two (fl : Rat → Fv) (o : Obj) (i : Int) (q : Rat) :
    o.setParam fl 2 i q = some { o with rtF := (put o.rtF i (fl q)).getD o.rtF,
                                        stubF := if 0 < i ∧ i ≤ o.rtF.length then o.stubF else fl q } := by
  simp only [Obj.setParam]
  rw [if_neg (by decide), if_pos trivial]
  unfold put
  by_cases h : 0 < i ∧ i ≤ o.rtF.length
  · simp [h]
  · simp [h]

theorem setAll_one (fl : Rat → Fv) (o : Obj) (i : Nat) (vs : List Lv) :
    setAll fl o 1 i vs = some { o with parF := writeAll fl o.parF i vs } := by
  induction vs generalizing o i with
  | nil => rfl
  | cons v vs ih =>
    cases v with
    | num q => simp only [setAll, writeAll, setParam_one, ih]
    | str s => simp only [setAll, writeAll, ih]
    | bool s => simp only [setAll, writeAll, ih]
    | glob s => simp only [setAll, writeAll, ih]
    | table s => simp only [setAll, writeAll, ih]

theorem setAll_two (fl : Rat → Fv) (o : Obj) (i : Nat) (vs : List Lv) :
    setAll fl o 2 i vs = some { o with rtF := writeAll fl o.rtF i vs, stubF := stubAll fl o.rtF.length o.stubF i vs } := by
  induction vs generalizing o i with
  | nil => rfl
  | cons v vs ih =>
    cases v with
    | num q => simp only [setAll, writeAll, stubAll, setParam_two, ih, put_len]
    | str s => simp only [setAll, writeAll, stubAll, ih]
    | bool s => simp only [setAll, writeAll, stubAll, ih]
    | glob s => simp only [setAll, writeAll, stubAll, ih]
    | table s => simp only [setAll, writeAll, stubAll, ih]

theorem toUint_nat (n : Nat) (h : n < 4294967296) : toUint (n : Rat) = some n := by
  have h1 : (n : Rat) < 4294967296 := by exact_mod_cast h
  have h2 : (-1 : Rat) < n := lt_of_lt_of_le (by norm_num) (Nat.cast_nonneg n)
  simp [toUint, h1, h2]

/-- The integers among the values. -/
def asNat (q : Rat) : Nat := ⌊q⌋₊

theorem setParam_three (fl : Rat → Fv) (o : Obj) (i : Int) (n : Nat) (h : n < 4294967296) :
    o.setParam fl 3 i (n : Rat) = some { o with parU := (put o.parU i (asNat n)).getD o.parU } := by
  simp only [Obj.setParam]
  rw [if_neg (by decide), if_neg (by decide), if_pos trivial, toUint_nat n h]
  simp [asNat]

theorem setParam_four (fl : Rat → Fv) (o : Obj) (i : Int) (n : Nat) (h : n < 4294967296) :
    o.setParam fl 4 i (n : Rat) = some { o with rtU := (put o.rtU i (asNat n)).getD o.rtU,
                                                stubU := if 0 < i ∧ i ≤ o.rtU.length then o.stubU else asNat n } := by
  simp only [Obj.setParam]
  rw [if_neg (by decide), if_neg (by decide), if_neg (by decide), if_pos trivial, toUint_nat n h]
  unfold put
  by_cases hr : 0 < i ∧ i ≤ o.rtU.length
  · simp [hr, asNat]
  · simp [hr, asNat]

theorem setAll_three (fl : Rat → Fv) (o : Obj) (i : Nat) (ns : List Nat) (h : ∀ n ∈ ns, n < 4294967296) :
    setAll fl o 3 i (ns.map fun n : Nat => Lv.num n) =
      some { o with parU := writeAll asNat o.parU i (ns.map fun n : Nat => Lv.num n) } := by
  induction ns generalizing o i with
  | nil => rfl
  | cons n ns ih =>
    simp only [List.map_cons, setAll, writeAll, setParam_three fl o _ n (h n (by simp)), ih _ _ (fun m hm => h m (by simp [hm]))]

theorem setAll_four (fl : Rat → Fv) (o : Obj) (i : Nat) (ns : List Nat) (h : ∀ n ∈ ns, n < 4294967296) :
    setAll fl o 4 i (ns.map fun n : Nat => Lv.num n) =
      some { o with rtU := writeAll asNat o.rtU i (ns.map fun n : Nat => Lv.num n),
                    stubU := stubAll asNat o.rtU.length o.stubU i (ns.map fun n : Nat => Lv.num n) } := by
  induction ns generalizing o i with
  | nil => rfl
  | cons n ns ih =>
    simp only [List.map_cons, setAll, writeAll, stubAll, setParam_four fl o _ n (h n (by simp)),
      ih _ _ (fun m hm => h m (by simp [hm])), put_len]

theorem writeAll_get {α : Type} (f : Rat → α) (l : List α) (i : Nat) (hi : 0 < i) (vs : List Lv) (k : Nat) :
    (writeAll f l i vs)[k]? = match (if i ≤ k + 2 then vs[k + 2 - i]? else none) with
      | some (.num q) => (l[k]?).map fun _ => f q
      | _ => l[k]? := by
  induction vs generalizing l i with
  | nil => simp [writeAll]
  | cons v vs ih =>
    have shift : ∀ l' : List α, (writeAll f l' (i + 1) vs)[k]? =
        match (if i + 1 ≤ k + 2 then vs[k + 2 - (i + 1)]? else none) with
        | some (.num q) => (l'[k]?).map fun _ => f q
        | _ => l'[k]? := fun l' => ih l' (i + 1) (by omega)
    by_cases h : i ≤ k + 1
    · have e1 : (if i ≤ k + 2 then (v :: vs)[k + 2 - i]? else none) = vs[k + 2 - (i + 1)]? := by
        rw [if_pos (by omega), show k + 2 - i = (k + 2 - (i + 1)) + 1 by omega, List.getElem?_cons_succ]
      have e2 : (if i + 1 ≤ k + 2 then vs[k + 2 - (i + 1)]? else none) = vs[k + 2 - (i + 1)]? := if_pos (by omega)
      rw [e1]
      cases v with
      | num q =>
        rw [writeAll, shift, e2]
        have hk : ((put l ((i : Int) - 1) (f q)).getD l)[k]? = l[k]? := by
          unfold put
          split
          · simp only [Option.getD_some]
            rw [List.getElem?_set_ne]
            omega
          · rfl
        rw [hk]
      | str s => rw [writeAll, shift, e2]; intros; simp_all
      | bool s => rw [writeAll, shift, e2]; intros; simp_all
      | glob s => rw [writeAll, shift, e2]; intros; simp_all
      | table s => rw [writeAll, shift, e2]; intros; simp_all
    · have e2 : (if i + 1 ≤ k + 2 then vs[k + 2 - (i + 1)]? else none) = none := if_neg (by omega)
      by_cases h2 : i = k + 2
      · subst h2
        have e1 : (if k + 2 ≤ k + 2 then (v :: vs)[k + 2 - (k + 2)]? else none) = some v := by simp
        rw [e1]
        cases v with
        | num q =>
          rw [writeAll, shift, e2]
          simp only
          unfold put
          by_cases hl : k < l.length
          · rw [if_pos (by omega)]
            have : (((k + 2 : Nat) : Int) - 1).toNat - 1 = k := by omega
            rw [this, Option.getD_some, List.getElem?_set_self hl, List.getElem?_eq_getElem hl]
            rfl
          · rw [if_neg (by omega)]
            simp [hl]
        | str s => rw [writeAll, shift, e2]; intros; simp_all
        | bool s => rw [writeAll, shift, e2]; intros; simp_all
        | glob s => rw [writeAll, shift, e2]; intros; simp_all
        | table s => rw [writeAll, shift, e2]; intros; simp_all
      · have e1 : (if i ≤ k + 2 then (v :: vs)[k + 2 - i]? else none) = none := if_neg (by omega)
        rw [e1]
        cases v with
        | num q =>
          rw [writeAll, shift, e2]
          have hk : ((put l ((i : Int) - 1) (f q)).getD l)[k]? = l[k]? := by
            unfold put
            split
            · simp only [Option.getD_some]
              rw [List.getElem?_set_ne]
              omega
            · rfl
          simp [hk]
        | str s => rw [writeAll, shift, e2]; intros; simp_all
        | bool s => rw [writeAll, shift, e2]; intros; simp_all
        | glob s => rw [writeAll, shift, e2]; intros; simp_all
        | table s => rw [writeAll, shift, e2]; intros; simp_all

theorem stubAll_in {α : Type} (f : Rat → α) (len : Nat) (st : α) (i : Nat) (hi : 2 ≤ i) (vs : List Lv) (h : i + vs.length ≤ len + 2) :
    stubAll f len st i vs = st := by
  induction vs generalizing i with
  | nil => rfl
  | cons v vs ih =>
    have hn := ih (i + 1) (by omega) (by simp only [List.length_cons] at h; omega)
    cases v with
    | num q =>
      simp only [List.length_cons] at h
      rw [stubAll, if_pos (by omega)]
      exact hn
    | str s => exact hn
    | bool s => exact hn
    | glob s => exact hn
    | table s => exact hn

theorem stubAll_one {α : Type} (f : Rat → α) (len : Nat) (st : α) (vs : List Lv) (h : vs.length ≤ len + 1) :
    stubAll f len st 1 vs = match vs.head? with
      | some (.num q) => f q
      | _ => st := by
  cases vs with
  | nil => rfl
  | cons v vs =>
    simp only [List.length_cons] at h
    have hn : ∀ s, stubAll f len s 2 vs = s := fun s => stubAll_in f len s 2 (le_refl _) vs (by omega)
    cases v with
    | num q =>
      rw [stubAll, if_neg (by omega)]
      exact hn _
    | str s => exact hn _
    | bool s => exact hn _
    | glob s => exact hn _
    | table s => exact hn _

theorem writeAll_F (fl : Rat → Fv) (saved l : List Fv) : writeAll fl l 1 (saved.map seen) = shiftF fl saved l := by
  apply List.ext_getElem?
  intro k
  rw [writeAll_get fl l 1 (by omega), if_pos (by omega), shiftF, List.getElem?_mapIdx, List.getElem?_map]
  have : k + 2 - 1 = k + 1 := by omega
  rw [this]
  cases h : Option.map seen saved[k + 1]? with
  | none => simp
  | some v => cases v <;> simp

theorem writeAll_U (saved l : List Nat) : writeAll asNat l 1 (saved.map fun n : Nat => Lv.num n) = shiftU saved l := by
  apply List.ext_getElem?
  intro k
  rw [writeAll_get asNat l 1 (by omega), if_pos (by omega), shiftU, List.getElem?_mapIdx, List.getElem?_map]
  have : k + 2 - 1 = k + 1 := by omega
  rw [this]
  cases h : saved[k + 1]? with
  | none => simp
  | some v => simp [asNat]

/-! ## One call -/

theorem wantCall_fields (x : Txt) (par : String) (id : Nat) (vs : List Lv) :
    let fs := [(some "object".toList, Lv.str x), (some "param_name".toList, Lv.str par.toList), one "par_id" id,
      many "values".toList vs]
    field fs "object" = some (.str x) ∧ field fs "par_id" = some (.num id) ∧
      field fs "values" = some (.table (vs.map fun v => (none, v))) := by
  intro fs
  have hn : (fs.map (·.1)).Nodup := by
    show ([some "object".toList, some "param_name".toList, some "par_id".toList, some "values".toList] : List (Option Txt)).Nodup
    decide +kernel
  exact ⟨field_of_nodup hn (by simp [fs]), field_of_nodup hn (by simp [fs, one]), field_of_nodup hn (by simp [fs, many])⟩

theorem items_many (vs : List Lv) : items (vs.map fun v => ((none : Option Txt), v)) = vs := by
  induction vs with
  | nil => rfl
  | cons v vs ih =>
    simp only [items] at ih ⊢
    simp [List.filter_cons, ih]

theorem setAll_nothing (fl : Rat → Fv) (o : Obj) (id : Rat) (i : Nat) (vs : List Lv) (h : vs.all notNum = true) :
    setAll fl o id i vs = some o := by
  induction vs generalizing i with
  | nil => rfl
  | cons v vs ih =>
    simp only [List.all_cons, Bool.and_eq_true] at h
    cases v with
    | num q => simp [notNum] at h
    | str s => simp [setAll, ih _ h.2]
    | bool s => simp [setAll, ih _ h.2]
    | glob s => simp [setAll, ih _ h.2]
    | table s => simp [setAll, ih _ h.2]

/-- The object of a name is replaced. -/
def change (x : Txt) (F : Obj → Obj) (objs : List Obj) : List Obj := objs.map fun o => if o.name = x then F o else o

theorem find_set (objs : List Obj) (hn : (objs.map (·.name)).Nodup) (o : Obj) (ho : o ∈ objs) (F : Obj → Obj) :
    ∃ i, objs.findIdx? (fun p => p.name == o.name) = some i ∧ objs[i]? = some o ∧ objs.set i (F o) = change o.name F objs := by
  induction objs with
  | nil => simp at ho
  | cons p objs ih =>
    simp only [List.map_cons, List.nodup_cons] at hn
    rcases List.mem_cons.1 ho with h | h
    · subst h
      refine ⟨0, by simp [List.findIdx?_cons], by simp, ?_⟩
      have : change o.name F objs = objs := by
        unfold change
        conv_rhs => rw [← List.map_id objs]
        apply List.map_congr_left
        intro q hq
        rw [if_neg]
        · rfl
        · intro e
          exact hn.1 (List.mem_map.2 ⟨q, hq, e⟩)
      simp only [List.set_cons_zero]
      rw [show change o.name F (o :: objs) = F o :: change o.name F objs by simp [change], this]
    · obtain ⟨i, h1, h2, h3⟩ := ih hn.2 h
      have hne : p.name ≠ o.name := by
        intro e
        exact hn.1 (List.mem_map.2 ⟨o, h, e.symm⟩)
      refine ⟨i + 1, by simp [List.findIdx?_cons, hne, h1], by simpa using h2, ?_⟩
      simp only [List.set_cons_succ, h3]
      simp [change, hne]

theorem callParams_eq (fl : Rat → Fv) (objs : List Obj) (hn : (objs.map (·.name)).Nodup) (o : Obj) (ho : o ∈ objs) (par : String)
    (id : Nat) (vs : List Lv) (F : Obj → Obj) (hF : setAll fl o id 1 vs = some (F o)) :
    callParams fl true objs [(some "object".toList, Lv.str o.name), (some "param_name".toList, Lv.str par.toList),
      one "par_id" id, many "values".toList vs] = some (true, change o.name F objs) := by
  obtain ⟨f1, f2, f3⟩ := wantCall_fields o.name par id vs
  unfold callParams
  rw [f1, f2, f3]
  simp only [items_many]
  obtain ⟨i, h1, h2, h3⟩ := find_set objs hn o ho F
  by_cases h : vs.all notNum = true
  · rw [if_pos h]
    have := setAll_nothing fl o id 1 vs h
    rw [hF] at this
    injection this with this
    have he : objs.set i o = objs := by
      apply List.ext_getElem?
      intro k
      by_cases hk : k = i
      · subst hk
        rw [List.getElem?_set_self', h2]
        rfl
      · rw [List.getElem?_set_ne (by omega)]
    rw [← h3, this, he]
  · rw [if_neg h, h1]
    simp only [if_true, h2, hF, h3]

theorem change_names (x : Txt) (F : Obj → Obj) (hF : ∀ o, (F o).name = o.name) (objs : List Obj) :
    (change x F objs).map (·.name) = objs.map (·.name) := by
  unfold change
  rw [List.map_map]
  apply List.map_congr_left
  intro o _
  simp only [Function.comp]
  split
  · exact hF o
  · rfl

theorem change_change (x : Txt) (F G : Obj → Obj) (hF : ∀ o, (F o).name = o.name) (objs : List Obj) :
    change x G (change x F objs) = change x (fun o => G (F o)) objs := by
  unfold change
  rw [List.map_map]
  apply List.map_congr_left
  intro o _
  simp only [Function.comp]
  by_cases h : o.name = x
  · simp [h, hF]
  · simp [h]

theorem change_mem (x : Txt) (F : Obj → Obj) (objs : List Obj) (o : Obj) (ho : o ∈ objs) (hx : o.name = x) :
    F o ∈ change x F objs := List.mem_map.2 ⟨o, ho, by simp [hx]⟩

/-- The four calls of a saved object, one after another. -/
theorem callAll_one (fl : Rat → Fv) (objs : List Obj) (hn : (objs.map (·.name)).Nodup) (b o : Obj) (ho : o ∈ objs)
    (hs : SameShape b o) (hf : Fits b) (rest : List (Txt × List (Option Txt × Lv))) :
    callAll fl true objs (wantCalls b ++ rest) = callAll fl true (change b.name (shifted fl b) objs) rest := by
  let F1 : Obj → Obj := fun o => { o with parF := writeAll fl o.parF 1 (b.parF.map seen) }
  let F2 : Obj → Obj := fun o => { o with rtF := writeAll fl o.rtF 1 (b.rtF.map seen),
                                          stubF := stubAll fl o.rtF.length o.stubF 1 (b.rtF.map seen) }
  let F3 : Obj → Obj := fun o => { o with parU := writeAll asNat o.parU 1 (b.parU.map fun n : Nat => Lv.num n) }
  let F4 : Obj → Obj := fun o => { o with rtU := writeAll asNat o.rtU 1 (b.rtU.map fun n : Nat => Lv.num n),
                                          stubU := stubAll asNat o.rtU.length o.stubU 1 (b.rtU.map fun n : Nat => Lv.num n) }
  have n1 : ∀ o, (F1 o).name = o.name := fun _ => rfl
  have n2 : ∀ o, (F2 o).name = o.name := fun _ => rfl
  have n3 : ∀ o, (F3 o).name = o.name := fun _ => rfl
  have hb := hs.name
  have c1 := callParams_eq fl objs hn o ho "par_float" 1 (b.parF.map seen) F1 (by exact_mod_cast setAll_one fl o 1 _)
  have m1 := change_mem o.name F1 objs o ho rfl
  have hn1 : ((change o.name F1 objs).map (·.name)).Nodup := by rw [change_names _ _ n1]; exact hn
  have c2 := callParams_eq fl (change o.name F1 objs) hn1 (F1 o) m1 "rt_par_float" 2 (b.rtF.map seen) F2
    (by exact_mod_cast setAll_two fl (F1 o) 1 _)
  have m2 := change_mem o.name F2 _ (F1 o) m1 rfl
  have hn2 : ((change o.name F2 (change o.name F1 objs)).map (·.name)).Nodup := by rw [change_names _ _ n2]; exact hn1
  have c3 := callParams_eq fl _ hn2 (F2 (F1 o)) m2 "par_uint" 3 (b.parU.map fun n : Nat => Lv.num n) F3
    (by exact_mod_cast setAll_three fl (F2 (F1 o)) 1 _ hf.1)
  have m3 := change_mem o.name F3 _ (F2 (F1 o)) m2 rfl
  have hn3 : ((change o.name F3 (change o.name F2 (change o.name F1 objs))).map (·.name)).Nodup := by
    rw [change_names _ _ n3]; exact hn2
  have c4 := callParams_eq fl _ hn3 (F3 (F2 (F1 o))) m3 "rt_par_uint" 4 (b.rtU.map fun n : Nat => Lv.num n) F4
    (by exact_mod_cast setAll_four fl (F3 (F2 (F1 o))) 1 _ hf.2)
  have r1 : (F1 o).name = o.name := rfl
  have r2 : (F2 (F1 o)).name = o.name := rfl
  have r3 : (F3 (F2 (F1 o))).name = o.name := rfl
  rw [r1] at c2
  rw [r2] at c3
  rw [r3] at c4
  have hfin : change o.name F4 (change o.name F3 (change o.name F2 (change o.name F1 objs))) =
      change o.name (shifted fl b) objs := by
    rw [change_change _ _ _ n3, change_change _ _ _ n2, change_change _ _ _ n1]
    unfold change
    apply List.map_congr_left
    intro p hp
    by_cases h : p.name = o.name
    · have hpo : p = o := by
        have := List.inj_on_of_nodup_map hn
        exact this hp ho h
      subst hpo
      simp only [if_true, shifted, F1, F2, F3, F4, writeAll_F, writeAll_U]
      have s1 := stubAll_one fl p.rtF.length p.stubF (b.rtF.map seen) (by simp [hs.rtF])
      have s2 := stubAll_one asNat p.rtU.length p.stubU (b.rtU.map fun n : Nat => Lv.num n) (by simp [hs.rtU])
      rw [s1, s2]
      simp only [List.head?_map]
      congr 1
      cases b.rtU.head? <;> simp [asNat]
    · simp [h]
  have hw : wantCalls b ++ rest =
      ("params".toList, [(some "object".toList, Lv.str o.name), (some "param_name".toList, Lv.str "par_float".toList),
        one "par_id" (1 : Nat), many "values".toList (b.parF.map seen)]) ::
      ("params".toList, [(some "object".toList, Lv.str o.name), (some "param_name".toList, Lv.str "rt_par_float".toList),
        one "par_id" (2 : Nat), many "values".toList (b.rtF.map seen)]) ::
      ("params".toList, [(some "object".toList, Lv.str o.name), (some "param_name".toList, Lv.str "par_uint".toList),
        one "par_id" (3 : Nat), many "values".toList (b.parU.map fun n : Nat => Lv.num n)]) ::
      ("params".toList, [(some "object".toList, Lv.str o.name), (some "param_name".toList, Lv.str "rt_par_uint".toList),
        one "par_id" (4 : Nat), many "values".toList (b.rtU.map fun n : Nat => Lv.num n)]) :: rest := by
    simp only [wantCalls, hb, List.map_cons, List.map_nil, List.cons_append, List.nil_append]
  rw [hw]
  simp only [callAll, if_true, c1, c2, c3, c4, hfin, hb]

theorem shifted_name (fl : Rat → Fv) (b o : Obj) : (shifted fl b o).name = o.name := rfl

theorem shiftF_len (fl : Rat → Fv) (a l : List Fv) : (shiftF fl a l).length = l.length := by simp [shiftF]

theorem shiftU_len (a l : List Nat) : (shiftU a l).length = l.length := by simp [shiftU]

theorem callAll_all (fl : Rat → Fv) (bs : List Obj) (hb : (bs.map (·.name)).Nodup) (hf : ∀ b ∈ bs, Fits b) (objs : List Obj)
    (hn : (objs.map (·.name)).Nodup) (hc : Covers bs objs) :
    callAll fl true objs (bs.flatMap wantCalls) =
      some (true, objs.map fun o => match bs.find? (fun b => b.name == o.name) with
        | some b => shifted fl b o
        | none => o) := by
  induction bs generalizing objs with
  | nil => simp [callAll]
  | cons b bs ih =>
    obtain ⟨o, ho, hs⟩ := hc b (by simp)
    simp only [List.map_cons, List.nodup_cons] at hb
    rw [List.flatMap_cons, callAll_one fl objs hn b o ho hs (hf b (by simp))]
    have hn' : ((change b.name (shifted fl b) objs).map (·.name)).Nodup := by
      rw [change_names _ _ (shifted_name fl b)]
      exact hn
    have hc' : Covers bs (change b.name (shifted fl b) objs) := by
      intro c hcm
      obtain ⟨p, hp, hps⟩ := hc c (by simp [hcm])
      have hne : p.name ≠ b.name := by
        intro e
        exact hb.1 (List.mem_map.2 ⟨c, hcm, hps.name.trans e⟩)
      exact ⟨p, List.mem_map.2 ⟨p, hp, by simp [hne]⟩, hps⟩
    rw [ih hb.2 (fun c hcm => hf c (by simp [hcm])) _ hn' hc']
    congr 2
    unfold change
    rw [List.map_map]
    apply List.map_congr_left
    intro p _
    simp only [Function.comp]
    by_cases h : p.name = b.name
    · have h1 : bs.find? (fun c => c.name == b.name) = none := by
        rw [List.find?_eq_none]
        intro c hcm e
        exact hb.1 (List.mem_map.2 ⟨c, hcm, by simpa using e⟩)
      simp [h, shifted_name, h1]
    · have : ¬ b.name = p.name := fun e => h e.symm
      simp [h, this]

theorem callParams_unbound (fl : Rat → Fv) (objs : List Obj) (fs : List (Option Txt × Lv)) :
    ∃ a, callParams fl false objs fs = some (a, objs) := by
  unfold callParams
  split
  · split
    · exact ⟨true, rfl⟩
    · split
      · exact ⟨false, rfl⟩
      · exact ⟨false, by simp⟩
  · exact ⟨false, rfl⟩

theorem callAll_unbound (fl : Rat → Fv) (objs : List Obj) (cs : List (Txt × List (Option Txt × Lv))) :
    ∃ a, callAll fl false objs cs = some (a, objs) := by
  induction cs with
  | nil => exact ⟨true, rfl⟩
  | cons c cs ih =>
    obtain ⟨f, fs⟩ := c
    simp only [callAll]
    split
    · obtain ⟨a, e⟩ := callParams_unbound fl objs fs
      rw [e]
      cases a
      · exact ⟨false, rfl⟩
      · exact ih
    · exact ⟨false, rfl⟩

theorem callParams_unbound_num (fl : Rat → Fv) (objs : List Obj) (x : Txt) (par : String) (id : Nat) (vs : List Lv)
    (h : vs.all notNum = false) :
    callParams fl false objs [(some "object".toList, Lv.str x), (some "param_name".toList, Lv.str par.toList),
      one "par_id" id, many "values".toList vs] = some (false, objs) := by
  obtain ⟨f1, f2, f3⟩ := wantCall_fields x par id vs
  unfold callParams
  rw [f1, f2, f3]
  simp only [items_many]
  rw [if_neg (by simp [h])]
  split
  · rfl
  · simp

theorem callAll_unbound_num (fl : Rat → Fv) (objs : List Obj) (cs : List (Txt × List (Option Txt × Lv)))
    (h : ∃ c ∈ cs, callParams fl false objs c.2 = some (false, objs)) : callAll fl false objs cs = some (false, objs) := by
  induction cs with
  | nil => simp at h
  | cons c cs ih =>
    obtain ⟨f, fs⟩ := c
    simp only [callAll]
    split
    · obtain ⟨a, e⟩ := callParams_unbound fl objs fs
      cases a
      · rw [e]
      · rw [e]
        obtain ⟨d, hd, hd2⟩ := h
        rcases List.mem_cons.1 hd with rfl | hd
        · rw [e] at hd2
          simp at hd2
        · exact ih ⟨d, hd, hd2⟩
    · rfl

end Ptusa.ObjText
