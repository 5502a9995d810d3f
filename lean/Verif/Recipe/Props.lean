import Verif.Recipe.Lemmas

/-!
# Properties of recipes: C28 – C31, C46
-/
namespace Ptusa.Recipe

/-! ### C28: the storage is a table -/

/-- Storing a list of values. -/
def setAll : List (Int × Int × Fl) → Storage → Option Storage
  | [], s => some s
  | e :: es, s => (setRecPar s e.1 e.2.1 e.2.2).bind (setAll es)

/-- **C28** For every size, every history of stores with any `int` indexes and values, the storage never leaves
its bounds and shows the table of the specification: each read of any pair of 32-bit indexes gives the last value
stored there, 0 outside, and `changed` tells whether a value really changed. -/
theorem C28_recipe_table (s : Storage) (t : Table) (h : WF s) (hs : Shows s t)
    (es : List (Int × Int × Fl)) :
    ∃ s', setAll es s = some s' ∧ WF s' ∧
      Shows s' (es.foldl (Table.set s.count s.pcount) t) := by
  induction es generalizing s t with
  | nil => exact ⟨s, rfl, h, hs⟩
  | cons e es ih =>
    obtain ⟨s1, h1, h2, h3, h4, h5⟩ := set_step s t h hs e
    obtain ⟨s2, e1, e2, e3⟩ := ih s1 _ h2 h5
    refine ⟨s2, by simp [setAll, h1, e1], e2, ?_⟩
    rw [h3, h4] at e3
    exact e3

/-- **C28** A new storage is well formed and shows the table of zeros, not changed. -/
theorem C28_recipe_table_new (count pcount : Nat) (hc : count < 2 ^ 31) (hp : pcount < 2 ^ 31) :
    WF (Storage.new count pcount) ∧ Shows (Storage.new count pcount) ⟨fun _ _ => 0, false⟩ := by
  refine ⟨⟨by simp [Storage.new], ?_, hc, hp⟩, rfl, ?_⟩
  · intro r hr
    simp only [Storage.new, List.mem_replicate] at hr
    rw [hr.2]; simp [Storage.new]
  · intro r p
    simp only [ite_self]
    unfold getRecPar
    split
    · rename_i h
      have htn : ∀ x : BitVec 32, x.toInt > 0 → (x.toNat : Int) = x.toInt := by
        intro x hx
        rw [BitVec.toInt_eq_toNat_cond] at hx ⊢
        split at hx <;> rename_i hlt
        · rw [if_pos hlt]
        · have := x.isLt; omega
      have e1 := htn r h.2.2.1
      have e2 := htn p h.2.2.2
      have h1 : r.toNat - 1 < count := by
        have : r.toInt ≤ (count : Int) := h.1
        omega
      have h2 : p.toNat - 1 < pcount := by
        have : p.toInt ≤ (pcount : Int) := h.2.1
        omega
      simp [Storage.read, Storage.new, h1, h2]
    · rfl

/-- Two parameters stored, one out of range. -/
example : (setAll [(1, 2, 5), (3, 1, 7), (2, 1, 0)] (Storage.new 2 2)).map
    (fun s => (getRecPar s 1 2, getRecPar s 2 1, getRecPar s 3 1, s.changed)) =
    some (some 5, some 0, some 0, true) := by decide +kernel

/-- Storing the value already there changes nothing. -/
example : (setAll [(1, 2, 0)] (Storage.new 2 2)).map Storage.changed = some false := by decide +kernel

/-! ### C29: loading is all or nothing -/

/-- **C29** (part: every mapping fits by the test of the code) Every mapped parameter is copied from the recipe –
by the last mapping that covers it –, the other parameters are untouched, what is saved is what is in memory, and
the name and number of the recipe are recorded. -/
theorem C29_load_partial (s : Storage) (maps : List Map) (recNo : Nat) (o : Obj) (r : Rec)
    (hr : 1 ≤ recNo) (hr2 : recNo ≤ s.count) (hrec : s.recipes[recNo - 1]? = some r)
    (hv : ∀ m ∈ maps, m.Valid) (hf : ∀ m ∈ maps, m.Fits s o) :
    (loadParams s maps recNo o).par.length = o.par.length ∧
    (∀ k j, 1 ≤ k → Source maps k j → (loadParams s maps recNo o).par[k - 1]? =
      some ((getRecPar s (BitVec.ofNat 32 recNo) (BitVec.ofNat 32 j)).getD 0)) ∧
    (∀ k, 1 ≤ k → (∀ j, ¬ Source maps k j) →
      (loadParams s maps recNo o).par[k - 1]? = o.par[k - 1]?) ∧
    (loadParams s maps recNo o).saved = (loadParams s maps recNo o).par ∧
    (loadParams s maps recNo o).recNo = recNo ∧ (loadParams s maps recNo o).recName = r.name := by
  have h := copyMaps_spec s recNo maps o hv hf
  have hn : ¬ (recNo > s.count ∨ recNo = 0) := by omega
  unfold loadParams
  rw [if_neg hn]
  simp only [h.1, if_true, hrec, Option.map_some, Option.getD_some, and_true]
  exact ⟨h.2.1, fun k j hk hj => (h.2.2 k hk).1 j hj, fun k hk hj => (h.2.2 k hk).2 hj⟩

/-- **C29** (part) A value copied is the value of the recipe: the source of a fitting mapping is inside the
recipe. -/
theorem C29_load_source_partial (s : Storage) (h : WF s) (maps : List Map) (recNo : Nat) (o : Obj) (r : Rec)
    (hr : 1 ≤ recNo) (hr2 : recNo ≤ s.count) (hrec : s.recipes[recNo - 1]? = some r)
    (hv : ∀ m ∈ maps, m.Valid) (hf : ∀ m ∈ maps, m.Fits s o) (k j : Nat) (hs : Source maps k j) :
    ∃ v, r.params[j - 1]? = some v ∧
      getRecPar s (BitVec.ofNat 32 recNo) (BitVec.ofNat 32 j) = some v := by
  obtain ⟨n, m, hn, h1, h2, h3, _⟩ := hs
  have hm := List.mem_of_getElem? hn
  have hv' := hv m hm
  have hf' := hf m hm
  unfold Map.Valid at hv'
  unfold Map.Fits at hf'
  have hsm := h.small
  have hj1 : 1 ≤ j := by omega
  have hj2 : j ≤ s.pcount := by omega
  have hlen := h.plen r (List.mem_of_getElem? hrec)
  have hjl : j - 1 < r.params.length := by omega
  refine ⟨r.params[j - 1], List.getElem?_eq_getElem hjl, ?_⟩
  have ti : ∀ x : Nat, x < 2 ^ 31 → (BitVec.ofNat 32 x).toInt = x ∧ (BitVec.ofNat 32 x).toNat = x := by
    intro x hx
    have e : (BitVec.ofNat 32 x).toNat = x := by simp; omega
    refine ⟨?_, e⟩
    rw [BitVec.toInt_eq_toNat_cond, e, if_pos (by omega)]
  obtain ⟨a1, a2⟩ := ti recNo (by omega)
  obtain ⟨b1, b2⟩ := ti j (by omega)
  unfold getRecPar
  rw [a1, b1, a2, b2, if_pos (by omega)]
  simp [Storage.read, hrec, List.getElem?_eq_getElem hjl]

/-- **C29** (part) A recipe number that does not exist, or a first mapping that does not fit, leaves the object
exactly as it was. -/
theorem C29_refused_partial (s : Storage) (m : Map) (maps : List Map) (recNo : Nat) (o : Obj)
    (h : recNo = 0 ∨ s.count < recNo ∨ ¬ m.Fits s o) : loadParams s (m :: maps) recNo o = o := by
  unfold loadParams
  by_cases hn : recNo > s.count ∨ recNo = 0
  · rw [if_pos hn]
  · rw [if_neg hn]
    have hf : ¬ m.Fits s o := by
      rcases h with h | h | h
      · omega
      · omega
      · exact h
    unfold Map.Fits at hf
    have hc : copyMaps s recNo (m :: maps) o = (false, o) := if_pos (by omega)
    simp [hc]

/-- Two mappings loaded. -/
example : loadParams ⟨1, 3, [⟨"milk", [1, 2, 3]⟩], 0, false⟩ [⟨1, 2, 2⟩, ⟨3, 1, 1⟩] 1 ⟨[9, 9, 9, 9], [], "", 0⟩ =
    ⟨[3, 1, 2, 9], [3, 1, 2, 9], "milk", 1⟩ := by decide +kernel

example : Source [⟨1, 2, 2⟩, ⟨3, 1, 1⟩] 2 1 :=
  ⟨0, ⟨1, 2, 2⟩, rfl, by decide, by decide, rfl, fun n' m' hn hm => by
    match n', hn with
    | 1, _ => simp only [List.getElem?_cons_succ, List.getElem?_cons_zero, Option.some.injEq] at hm
              subst hm; decide
    | n + 2, _ => simp at hm⟩

/-- **C29 is false of the code**: when the second mapping does not fit, the first has been copied already: the
parameters in memory are mixed, nothing is saved and no recipe is recorded. -/
theorem C29_load_violated : ∃ (s : Storage) (maps : List Map) (o : Obj), WF s ∧ (∀ m ∈ maps, m.Valid) ∧
    (loadParams s maps 1 o).par ≠ o.par ∧ (loadParams s maps 1 o).saved = o.saved ∧
    (loadParams s maps 1 o).recNo = o.recNo := by
  refine ⟨⟨1, 2, [⟨"milk", [1, 2]⟩], 0, false⟩, [⟨1, 1, 1⟩, ⟨2, 2, 5⟩],
    ⟨[9, 9, 9], [9, 9, 9], "", 0⟩, ⟨rfl, by simp, by decide⟩, ?_, ?_⟩
  · intro m hm
    simp only [List.mem_cons, List.not_mem_nil, or_false] at hm
    rcases hm with rfl | rfl <;> exact ⟨by decide, by decide, by decide⟩
  · decide +kernel

/-- **C29**: a mapping that reaches the last parameter of the object is refused although it lies inside (the bound
is one too small). -/
theorem C29_last_parameter_violated : ∃ (s : Storage) (m : Map) (o : Obj), WF s ∧ m.Valid ∧ m.Inside s o ∧
    loadParams s [m] 1 o = o ∧ o.recNo = 0 := by
  refine ⟨⟨1, 2, [⟨"milk", [1, 2]⟩], 0, false⟩, ⟨1, 1, 2⟩, ⟨[9, 9], [9, 9], "", 0⟩, ⟨rfl, by simp, by decide⟩,
    ⟨by decide, by decide, by decide⟩, ⟨by decide, by decide⟩, ?_⟩
  decide +kernel

/-! ### C30: save and reload -/

theorem deserialize_serialize (pr : Fl → Fl) (s d : Storage) (h : WF s) (hp : Printable s)
    (hpr : Prints pr) :
    ∃ rs', deserialize (serialize pr s) d = some { d with recipes := rs' } ∧
      rs'.length = d.recipes.length ∧
      ∀ k, rs'[k]? = if k < s.count ∧ k < d.recipes.length
        then s.recipes[k]?.map (restored d.pcount pr) else d.recipes[k]? := by
  have hnum : ∀ r ∈ s.recipes, ∀ v ∈ r.params, ∃ q, pr v = .num q := by
    intro r hr v hv
    obtain ⟨q, hq⟩ := hp.nums r hr v hv
    obtain ⟨q', hq', _⟩ := hpr q
    exact ⟨q', by rw [hq, hq']⟩
  obtain ⟨rs', e1, e2, e3⟩ := readRecs_spec pr d.pcount s.pcount hp.pcount s.recipes hp.names h.plen hnum 0
    d.recipes
  have hfl : ∀ n : Nat, asCount (some (Fl.num n)) = n := by
    intro n
    simp only [asCount]
    have : ((n : Rat)).floor = n := by
      have := Rat.floor_intCast (n : Int)
      simpa using this
    rw [this]; rfl
  refine ⟨rs', ?_, e2, ?_⟩
  · unfold deserialize serialize
    simp only [List.cons_append, List.nil_append, readNum_num, readNum_sp, hfl]
    rw [h.len] at e1
    rw [e1]
    rfl
  · intro k
    rw [e3 k, h.len]
    by_cases hk : k < s.count ∧ k < d.recipes.length
    · rw [if_pos hk, if_pos (by omega)]; simp
    · rw [if_neg hk, if_neg (by omega)]

/-- **C30** (part: the file was written completely, names of one line, at least one parameter, no NaN) Reading the
file back into a storage of the same size restores every recipe: the name exactly, each parameter up to the six
digits printed; nothing else changes. -/
theorem C30_round_trip_partial (pr : Fl → Fl) (s d : Storage) (h : WF s) (hd : WF d) (hp : Printable s)
    (hpr : Prints pr) (hc : d.count = s.count) (hpc : d.pcount = s.pcount) :
    ∃ d', deserialize (serialize pr s) d = some d' ∧ d'.active = d.active ∧ d'.count = d.count ∧
      ∀ (k : Nat) (r : Rec), s.recipes[k]? = some r →
        ∃ r', d'.recipes[k]? = some r' ∧ r'.name = r.name ∧ r'.params.length = r.params.length ∧
          ∀ (j : Nat) (q : Rat), r.params[j]? = some (.num q) →
            ∃ q', r'.params[j]? = some (.num q') ∧ |q - q'| ≤ |q| / 200000 ∧
              ∀ n : Int, q = n → |(n : Rat)| < 1000000 → q' = q := by
  obtain ⟨rs', e1, e2, e3⟩ := deserialize_serialize pr s d h hp hpr
  refine ⟨_, e1, rfl, rfl, ?_⟩
  intro k r hr
  have hk := (List.getElem?_eq_some_iff.mp hr).1
  rw [h.len] at hk
  have hplen := h.plen r (List.mem_of_getElem? hr)
  have e3k := e3 k
  rw [if_pos ⟨hk, by rw [hd.len, hc]; exact hk⟩, hr, Option.map_some] at e3k
  have hps : (restored d.pcount pr r).params = r.params.map pr := by
    unfold restored
    simp only
    rw [hpc, hplen, Nat.sub_self, List.replicate_zero, List.append_nil, List.take_of_length_le]
    simp [hplen]
  refine ⟨restored d.pcount pr r, e3k, rfl, by rw [hps]; simp, ?_⟩
  intro j q hj
  obtain ⟨q', hq', hrd⟩ := hpr q
  refine ⟨q', by rw [hps]; simp [hj, hq'], rounded6_error q q' hrd, ?_⟩
  rintro n rfl hn
  exact rounded6_int n hn q' hrd

/-- **C30** (part) A file of another size: recipes of both are restored (the parameters they have in common), the
later recipes of the storage keep name and parameters. -/
theorem C30_other_size_partial (pr : Fl → Fl) (s d : Storage) (h : WF s) (hd : WF d) (hp : Printable s)
    (hpr : Prints pr) :
    ∃ d', deserialize (serialize pr s) d = some d' ∧ d'.recipes.length = d.count ∧
      (∀ (k : Nat) (r : Rec), k < d.count → s.recipes[k]? = some r →
        ∃ r', d'.recipes[k]? = some r' ∧ r'.name = r.name ∧ r'.params.length = d.pcount ∧
          ∀ (j : Nat) (v : Fl), j < d.pcount → r.params[j]? = some v → r'.params[j]? = some (pr v)) ∧
      (∀ k, s.count ≤ k → d'.recipes[k]? = d.recipes[k]?) := by
  obtain ⟨rs', e1, e2, e3⟩ := deserialize_serialize pr s d h hp hpr
  refine ⟨_, e1, by simpa [hd.len] using e2, ?_, ?_⟩
  · intro k r hkd hr
    have hk := (List.getElem?_eq_some_iff.mp hr).1
    rw [h.len] at hk
    have e3k := e3 k
    rw [if_pos ⟨hk, by rw [hd.len]; exact hkd⟩, hr, Option.map_some] at e3k
    refine ⟨_, e3k, rfl, ?_, ?_⟩
    · simp [restored]; omega
    · intro j v hj hv
      have hjl := (List.getElem?_eq_some_iff.mp hv).1
      unfold restored
      simp only
      rw [List.getElem?_append_left (by simp; omega), List.getElem?_take, if_pos hj]
      simp [hv]
  · intro k hk
    have := e3 k
    rw [if_neg (by omega)] at this
    exact this

/-- A storage with two recipes meets the hypotheses. -/
example : Printable ⟨2, 2, [⟨"milk", [1, 2]⟩, ⟨"cream 10%", [3, 4]⟩], 0, false⟩ := by
  refine ⟨by decide, ?_, ?_⟩
  · intro r hr
    simp only [List.mem_cons, List.not_mem_nil, or_false] at hr
    rcases hr with rfl | rfl <;> decide
  · intro r hr v hv
    simp only [List.mem_cons, List.not_mem_nil, or_false] at hr
    rcases hr with rfl | rfl <;> simp only [List.mem_cons, List.not_mem_nil, or_false] at hv <;>
      rcases hv with rfl | rfl <;> exact ⟨_, rfl⟩

example : deserialize (serialize id ⟨2, 2, [⟨"milk", [1, 2]⟩, ⟨"cream 10%", [3, 4]⟩], 0, false⟩)
    (Storage.new 2 2) = some ⟨2, 2, [⟨"milk", [1, 2]⟩, ⟨"cream 10%", [3, 4]⟩], 0, false⟩ := by decide +kernel

/-- **C30 is false of the code**: a whole number of seven digits does not survive, whatever the printing that keeps
six digits does. -/
theorem C30_seven_digits_violated (pr : Fl → Fl) (hpr : Prints pr) :
    ∃ q : Rat, pr (.num 1234567) = .num q ∧ q ≠ 1234567 := by
  obtain ⟨q, h1, h2⟩ := hpr 1234567
  refine ⟨q, h1, ?_⟩
  rintro rfl
  rcases h2 with ⟨h, _⟩ | ⟨u, hu, h3, h4, m, h5, _⟩
  · norm_num at h
  · rw [abs_of_pos (by norm_num)] at h3 h4
    -- the unit of the sixth digit is ten
    have hu10 : u = 10 := by
      obtain ⟨n, hn | hn⟩ := hu
      · rcases n with _ | _ | n
        · rw [hn] at h4; norm_num at h4
        · rw [hn]; norm_num
        · exfalso
          have : (10 : Rat) ^ 2 ≤ 10 ^ (n + 2) := pow_le_pow_right₀ (by norm_num) (by omega)
          rw [hn] at h3
          norm_num at this
          linarith
      · exfalso
        have h1 : (1 : Rat) ≤ 10 ^ n := one_le_pow₀ (by norm_num)
        have : u ≤ 1 := by
          by_contra hc
          have := mul_lt_mul_of_pos_right (lt_of_not_ge hc) (lt_of_lt_of_le one_pos h1)
          rw [hn] at this
          linarith
        linarith
    rw [hu10] at h5
    have : (1234567 : Int) = m * 10 := by exact_mod_cast h5
    omega

/-- **C30**: a parameter that is not a number spoils the rest of the file: indeterminate values are stored in the
parameters that follow. -/
theorem C30_nan_violated : ∃ s : Storage, WF s ∧ deserialize (serialize id s) s = none := by
  refine ⟨⟨1, 2, [⟨"milk", [.nan, 2]⟩], 0, false⟩, ⟨rfl, by simp, by decide⟩, ?_⟩
  decide +kernel

/-- **C30**: the parameters the file does not have are set to zero instead of keeping their values. -/
theorem C30_more_parameters_violated : ∃ s d d' : Storage, WF s ∧ WF d ∧ Printable s ∧
    deserialize (serialize id s) d = some d' ∧ s.pcount = 1 ∧ d.read 0 1 = some 7 ∧ d'.read 0 1 = some 0 := by
  refine ⟨⟨1, 1, [⟨"milk", [1]⟩], 0, false⟩, ⟨1, 2, [⟨"none", [0, 7]⟩], 0, false⟩,
    ⟨1, 2, [⟨"milk", [1, 0]⟩], 0, false⟩, ⟨rfl, by simp, by decide⟩, ⟨rfl, by simp, by decide⟩,
    ⟨by decide, ?_, ?_⟩, ?_⟩
  · simp
  · intro r hr v hv
    simp only [List.mem_cons, List.not_mem_nil, or_false] at hr
    subst hr
    simp only [List.mem_cons, List.not_mem_nil, or_false] at hv
    subst hv
    exact ⟨_, rfl⟩
  · decide +kernel

/-- **C30**: without parameters the names are cut. -/
theorem C30_no_parameters_violated : ∃ s d' : Storage, WF s ∧
    deserialize (serialize id s) (Storage.new 2 0) = some d' ∧ s.recipes.map Rec.name = ["milk", "cream"] ∧
    d'.recipes.map Rec.name ≠ ["milk", "cream"] := by
  refine ⟨⟨2, 0, [⟨"milk", []⟩, ⟨"cream", []⟩], 0, false⟩, _, ⟨rfl, by simp, by decide⟩, rfl, rfl, ?_⟩
  decide +kernel

/-- **C30**: the file is emptied before the content is written: if the power fails in between, neither the old nor
the new recipes can be read back. -/
theorem C30_crash_violated : ∃ old new : Storage, ∃ f ∈ onDisk (serialize id old) (serialize id new),
    WF old ∧ WF new ∧ deserialize f (Storage.new 1 1) = some (Storage.new 1 1) ∧
    old.recipes.map Rec.name = ["milk"] ∧ new.recipes.map Rec.name = ["cream"] ∧
    (Storage.new 1 1).recipes.map Rec.name = ["none"] := by
  refine ⟨⟨1, 1, [⟨"milk", [1]⟩], 0, false⟩, ⟨1, 1, [⟨"cream", [1]⟩], 0, false⟩, [], ?_,
    ⟨rfl, by simp, by decide⟩, ⟨rfl, by simp, by decide⟩, rfl, rfl, rfl, rfl⟩
  simp [onDisk]

/-! ### C31: the published list -/

/-- One list, one adapter; an unchanged list is current. -/
def ListInv (m : Mgr) : Prop :=
  ∃ a, m.ads = [a] ∧ a.separate = false ∧ a.enabled.length = m.st.recipes.length ∧
    (a.listChanged = true ∨ a.list = entries 0 m.st.recipes a.enabled)

theorem entries_names (i : Nat) (rs rs' : List Rec) (bs : List Bool)
    (h : rs.map Rec.name = rs'.map Rec.name) : entries i rs bs = entries i rs' bs := by
  induction rs generalizing i rs' bs with
  | nil =>
    cases rs' with
    | nil => rfl
    | cons r rs' => simp at h
  | cons r rs ih =>
    cases rs' with
    | nil => simp at h
    | cons r' rs' =>
      simp only [List.map_cons, List.cons.injEq] at h
      cases bs with
      | nil => rfl
      | cons b bs => simp only [entries, h.1, ih (i + 1) rs' bs h.2]

theorem modify_names (l : List Rec) (i : Nat) (f : Rec → Rec) (h : ∀ r, (f r).name = r.name) :
    (l.modify i f).map Rec.name = l.map Rec.name := by
  induction l generalizing i with
  | nil => cases i <;> rfl
  | cons a l ih =>
    cases i with
    | zero => simp [h]
    | succ i => simp [ih]

theorem listInv_step (m m' : Mgr) (h : ListInv m) (e : Ev) (he : e.noReload)
    (hs : stepEv m e = some m') : ListInv m' := by
  obtain ⟨a, ha, h1, h2, h3⟩ := h
  cases e with
  | cmd c =>
    simp only [stepEv, setCmd, ha, List.getElem?_cons_zero] at hs
    cases c with
    | act b =>
      simp only at hs
      split at hs
      · simp only [Option.some.injEq] at hs
        subst hs
        exact ⟨_, rfl, h1, by simp [h2], .inl rfl⟩
      · simp at hs
    | name n =>
      simp only at hs
      split at hs
      · simp only [Option.some.injEq] at hs
        subst hs
        exact ⟨_, rfl, h1, by simp [h2], .inl rfl⟩
      · simp at hs
    | nmr n =>
      simp only [Option.some.injEq] at hs
      subst hs
      refine ⟨a, rfl, h1, ?_, ?_⟩ <;> (unfold setActive; dsimp only; split)
      · exact h2
      · exact h2
      · exact h3
      · exact h3
    | par i v =>
      simp only at hs
      split at hs
      · cases hr : m.st.read (activeIdx m.st) (i - 1).toNat with
        | none =>
          rw [hr] at hs
          simp at hs
        | some old =>
          simp only [hr, Option.map_some, Option.some.injEq] at hs
          split at hs
          · subst hs; exact ⟨a, ha, h1, h2, h3⟩
          · subst hs
            refine ⟨a, rfl, h1, by simp [Storage.write, h2], ?_⟩
            rcases h3 with h3 | h3
            · exact .inl h3
            · refine .inr ?_
              rw [h3]
              apply entries_names
              simp only [Storage.write]
              rw [modify_names]
              intro r; rfl
      · simp only [Option.some.injEq] at hs
        subst hs; exact ⟨a, ha, h1, h2, h3⟩
    | reload f => exact absurd he (by simp [Ev.noReload])
  | eval due =>
    simp only [stepEv, Option.some.injEq] at hs
    subst hs
    unfold evaluate ListInv
    rw [ha]
    simp only [evalAds]
    by_cases hc : a.changed = true ∧ due = true
    · rw [if_pos hc]
      exact ⟨_, rfl, h1, h2, h3⟩
    · rw [if_neg hc]
      by_cases hl : a.listChanged = true
      · rw [if_pos hl]
        refine ⟨_, rfl, ?_⟩
        rw [refresh_single m.st { a with listChanged := false } h1]
        exact ⟨h1, h2, .inr rfl⟩
      · rw [if_neg hl]
        exact ⟨_, rfl, h1, h2, h3⟩

theorem listInv_run (es : List Ev) (m m' : Mgr) (h : ListInv m) (he : ∀ e ∈ es, e.noReload)
    (hs : runEv es m = some m') : ListInv m' := by
  induction es generalizing m with
  | nil =>
    simp only [runEv, Option.some.injEq] at hs
    subst hs; exact h
  | cons e es ih =>
    simp only [runEv] at hs
    cases h1 : stepEv m e with
    | none => simp [h1] at hs
    | some m1 =>
      rw [h1] at hs
      exact ih m1 (listInv_step m m1 h e (he e (List.mem_cons_self ..)) h1)
        (fun x hx => he x (List.mem_cons_of_mem _ hx)) hs

/-- The state after the project has been loaded. -/
def Mgr.new (s : Storage) : Mgr := ⟨s, [Adapter.new s]⟩

/-- **C31** (part: one list, one adapter of the storage, the file is not reloaded) After any history of commands and
evaluations, an evaluation that does not write the adapter's file leaves the published list with exactly the enabled
recipes, in order, each once. -/
theorem C31_list_partial (s : Storage) (hw : WF s) (es : List Ev) (he : ∀ e ∈ es, e.noReload)
    (m : Mgr) (hm : runEv es (Mgr.new s) = some m) (due : Bool)
    (hsave : due = true → ∀ a ∈ m.ads, a.changed = false) :
    ∃ a, (evaluate due m).ads = [a] ∧ Current m.st a.enabled a.list := by
  have h0 : ListInv (Mgr.new s) := by
    unfold Mgr.new Adapter.new
    rw [refresh_single _ _ rfl]
    exact ⟨_, rfl, rfl, by simp [hw.len], .inr rfl⟩
  obtain ⟨a, ha, h1, _, h3⟩ := listInv_run es _ m h0 he hm
  unfold evaluate
  rw [ha]
  simp only [evalAds]
  have hc : ¬ (a.changed = true ∧ due = true) := by
    rintro ⟨hc1, hc2⟩
    have := hsave hc2 a (by rw [ha]; simp)
    rw [hc1] at this
    simp at this
  rw [if_neg hc]
  by_cases hl : a.listChanged = true
  · rw [if_pos hl, refresh_single m.st { a with listChanged := false } h1]
    exact ⟨_, rfl, entries_current _ _⟩
  · rw [if_neg hl]
    refine ⟨a, rfl, ?_⟩
    rcases h3 with h3 | h3
    · exact absurd h3 hl
    · rw [h3]; exact entries_current _ _

/-- **C31** (part) The evaluation that writes the file leaves the list as it was; since the save clears the mark, the
next evaluation publishes. -/
theorem C31_second_evaluation_partial (s : Storage) (hw : WF s) (es : List Ev) (he : ∀ e ∈ es, e.noReload)
    (m : Mgr) (hm : runEv es (Mgr.new s) = some m) (d1 d2 : Bool) (hd : d1 = true) :
    ∃ a, (evaluate d2 (evaluate d1 m)).ads = [a] ∧ Current m.st a.enabled a.list := by
  have hm2 : runEv (es ++ [.eval d1]) (Mgr.new s) = some (evaluate d1 m) := by
    have happ : ∀ (l : List Ev) (x : Mgr), runEv (l ++ [.eval d1]) x
        = (runEv l x).map (evaluate d1) := by
      intro l
      induction l with
      | nil => intro x; rfl
      | cons e l ih =>
        intro x
        simp only [List.cons_append, runEv]
        cases stepEv x e with
        | none => rfl
        | some y => simp only [Option.bind_some]; exact ih y
    rw [happ, hm]; rfl
  refine C31_list_partial s hw (es ++ [.eval d1]) ?_ (evaluate d1 m) hm2 d2 ?_
  · intro e hx
    rcases List.mem_append.mp hx with h | h
    · exact he e h
    · simp only [List.mem_singleton] at h
      subst h; trivial
  · intro _ a ha
    subst hd
    have hone : ∃ a0, m.ads = [a0] := by
      have h0 : ListInv (Mgr.new s) := by
        unfold Mgr.new Adapter.new
        rw [refresh_single _ _ rfl]
        exact ⟨_, rfl, rfl, by simp [hw.len], .inr rfl⟩
      obtain ⟨a0, h, _⟩ := listInv_run es _ m h0 he hm
      exact ⟨a0, h⟩
    obtain ⟨a0, h0⟩ := hone
    unfold evaluate at ha
    rw [h0] at ha
    simp only [evalAds] at ha
    by_cases hc : a0.changed = true
    · simp only [hc, true_and, if_true, List.mem_singleton] at ha
      rw [ha]
    · have hf : a0.changed = false := by simpa using hc
      rw [if_neg (by simp [hf]), List.mem_singleton] at ha
      rw [ha]
      split
      · unfold refresh
        have hk : ∀ (l : List (Nat × String)) (b : Adapter), (l.foldl publish b).changed = b.changed := by
          intro l
          induction l with
          | nil => intro b; rfl
          | cons x l ih =>
            intro b
            rw [List.foldl_cons, ih]
            unfold publish
            split <;> rfl
        rw [hk]
        exact hf
      · exact hf

/-- Disabling the first recipe and renaming the second. -/
example : (runEv [.cmd (.act false), .cmd (.nmr 2), .cmd (.name "cream"), .eval false]
    (Mgr.new (Storage.new 3 1))).map (fun m => m.ads.map Adapter.list) =
    some [[(2, "cream"), (3, "none")]] := by decide +kernel

/-- **C31** (part: lists of ten, filled for the first time) There is a list for each ten recipes, and list number `k`
contains exactly the recipes number `10 k + 1` to `10 k + 10`, in order, each once. -/
theorem C31_lists_of_ten_partial (s : Storage) (hw : WF s) :
    let a := setSeparate s true (Adapter.new s)
    a.lists.length = (s.count + 9) / 10 ∧
    ∀ (k : Nat) (l : List (Nat × String)), a.lists[k]? = some l →
      (∀ (n : Nat) (nm : String), (n, nm) ∈ l ↔ (10 * k + 1 ≤ n ∧ n ≤ 10 * k + 10) ∧
        ∃ r, s.recipes[n - 1]? = some r ∧ r.name = nm) ∧
      l.Pairwise fun x y => x.1 < y.1 := by
  intro a
  have ha : a = (entries 0 s.recipes (List.replicate s.count true)).foldl publish
      { enabled := List.replicate s.count true, separate := true,
        lists := List.replicate (s.count / 10 + if s.count % 10 > 0 then 1 else 0) [] } := by
    simp only [a]
    unfold setSeparate Adapter.new
    have h1 : ∀ x : Adapter, x.separate = false →
        refresh s { refresh s x with separate := true } = refresh s { x with separate := true } := by
      intro x hx
      rw [refresh_single s x hx]
      rfl
    exact h1 _ rfl
  rw [ha]
  have hl := fun k => publish_lists (entries 0 s.recipes (List.replicate s.count true))
      { enabled := List.replicate s.count true, separate := true,
        lists := List.replicate (s.count / 10 + if s.count % 10 > 0 then 1 else 0) [] } rfl k
  refine ⟨?_, fun k l hk => ?_⟩
  · rw [(hl 0).2, List.length_replicate]
    split <;> omega
  · rw [(hl k).1] at hk
    obtain ⟨l0, e1, e2⟩ := Option.map_eq_some_iff.mp hk
    have e3 : l0 = [] := by
      have := List.mem_of_getElem? e1
      exact (List.mem_replicate.mp this).2
    subst e3
    rw [List.nil_append] at e2
    subst e2
    have hs := entries_spec 0 s.recipes (List.replicate s.count true)
    refine ⟨fun n nm => ?_, hs.2.filter _⟩
    rw [List.mem_filter, hs.1, decide_eq_true_iff]
    constructor
    · rintro ⟨⟨i, r, e4, e5, e6, -⟩, e8⟩
      have : n - 1 = i := by omega
      rw [this] at e8 ⊢
      exact ⟨by omega, r, e5, e6⟩
    · rintro ⟨hn, r, e5, e6⟩
      refine ⟨⟨n - 1, r, by omega, e5, e6, ?_⟩, by omega⟩
      have : n - 1 < s.count := by
        rw [← hw.len]
        exact (List.getElem?_eq_some_iff.mp e5).1
      rw [List.getElem?_replicate, if_pos this]

/-- Twelve recipes make two lists; the tenth is the last of the first list. -/
example : ((setSeparate (Storage.new 12 1) true (Adapter.new (Storage.new 12 1))).lists.map fun l => l.map Prod.fst) =
    [[1, 2, 3, 4, 5, 6, 7, 8, 9, 10], [11, 12]] := by decide +kernel

/-- **C31 is false of the code** for lists of ten: the lists are not emptied before they are filled again, so every
entry is doubled (the loop clears copies). -/
theorem C31_separate_violated : ∃ m, runEv [.cmd (.act true), .eval false]
    { st := Storage.new 2 1, ads := [setSeparate (Storage.new 2 1) true (Adapter.new (Storage.new 2 1))] }
      = some m ∧ m.ads.map Adapter.lists = [[[(1, "none"), (2, "none"), (1, "none"), (2, "none")]]] :=
  ⟨_, rfl, by decide +kernel⟩

/-- **C31**: the evaluation following a change publishes nothing when it writes the adapter's file. -/
theorem C31_evaluation_violated : ∃ m, runEv [.cmd (.act false), .eval true] (Mgr.new (Storage.new 2 1)) = some m ∧
    m.ads.map (fun a => (a.enabled, a.list)) = [([false, true], [(1, "none"), (2, "none")])] :=
  ⟨_, rfl, by decide +kernel⟩

/-- **C31**: two adapters share a storage; a name changed through one is never published in the list of the
other. -/
theorem C31_two_adapters_violated : ∃ m, (setCmd 0 (.name "milk")
      { st := Storage.new 1 1, ads := [Adapter.new (Storage.new 1 1), Adapter.new (Storage.new 1 1)] }).map
      (evaluate false) = some m ∧
    m.ads.map Adapter.list = [[(1, "milk")], [(1, "none")]] ∧
    m.ads.map Adapter.listChanged = [false, false] :=
  ⟨_, rfl, by decide +kernel⟩

/-- **C31**: reloading the file by command changes names that are not published. -/
theorem C31_reload_violated : ∃ m, runEv [.cmd (.reload (serialize id ⟨1, 1, [⟨"milk", [1]⟩], 0, false⟩)),
      .eval false] (Mgr.new (Storage.new 1 1)) = some m ∧
    m.st.recipes.map Rec.name = ["milk"] ∧ m.ads.map Adapter.list = [[(1, "none")]] :=
  ⟨_, rfl, by decide +kernel⟩

/-! ### C46: a command cannot crash the controller -/

/-- **C46** (part: the number of the list is 1 or more, both numbers fit into an `int`, the value starts like a
number) A recipe command reaches the list it names, or is ignored when there is no such list. -/
theorem C46_command_partial (n : Nat) (c : CmdText) (h1 : 0 < digits c.mgr) (h2 : digits c.mgr ≤ 2147483647)
    (h3 : digits c.idx ≤ 2147483647) (h4 : ∀ v, c.value = some v → stofOk v = true) :
    parseCmd n c = if digits c.mgr ≤ n then .passed (digits c.mgr - 1) else .ignored := by
  obtain ⟨mg, ix, val⟩ := c
  dsimp only at h1 h2 h3 h4 ⊢
  have e1 : ¬ (stoiOk mg = false ∨ stoiOk ix = false) := by simp [stoiOk, h2, h3]
  have key : parseCmd n ⟨mg, ix, val⟩ = if (digits mg : Int) - 1 < n then
      (if digits mg = 0 then Outcome.undefined else .passed (digits mg - 1)) else .ignored := by
    unfold parseCmd
    cases val with
    | none => simp [e1]
    | some v => simp [e1, h4 v rfl]
  rw [key]
  by_cases hn : digits mg ≤ n
  · rw [if_pos (by omega), if_neg (by omega), if_pos hn]
  · rw [if_neg (by omega), if_neg hn]

/-- Command 12 of list 2. -/
example : parseCmd 3 ⟨[2], [1, 2], some [some 5, none, some 1]⟩ = .passed 1 := by decide

/-- **C46 is false of the code**: the number 0 reaches outside the array of lists, whatever their number. -/
theorem C46_zero_violated (n : Nat) : parseCmd n ⟨[0], [1], none⟩ = .undefined := by
  have h : ((digits [0] : Nat) : Int) - 1 < n := by
    have : digits [0] = 0 := by decide
    rw [this]; omega
  have e1 : ¬ (stoiOk [0] = false ∨ stoiOk [1] = false) := by decide
  unfold parseCmd
  rw [if_neg e1, if_neg (by simp), if_pos h]
  rfl

/-- **C46**: a number too large for an `int`, or a value of points alone, ends the program by an uncaught
exception. -/
theorem C46_exception_violated : ∀ n,
    parseCmd n ⟨[9, 9, 9, 9, 9, 9, 9, 9, 9, 9], [1], none⟩ = .exception ∧
    parseCmd n ⟨[1], [1], some [none]⟩ = .exception := by
  intro n
  constructor
  · unfold parseCmd
    rw [if_pos (by decide)]
  · unfold parseCmd
    rw [if_neg (by decide), if_pos (by decide)]

end Ptusa.Recipe
