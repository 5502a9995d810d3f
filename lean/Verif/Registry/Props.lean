import Verif.Registry.Lemmas

/-!
# Properties of the manager of devices (C80, C81, C82)
-/
namespace Ptusa.Registry

/-- Two valves and a motor, listed as the documentation of projects asks: "V1", "V2", "M1". -/
def sample : List Reg :=
  [{ type := 0, sub := 1, name := [0x56, 0x31] }, { type := 0, sub := 5, name := [0x56, 0x32] },
    { type := 2, sub := 2, name := [0x4D, 0x31] }]

/-- C80: in a description that lists the devices of every type together and by ascending name, with kinds the program
has a class for, every device is found by its type and name: the look-up gives the place of its registration, where a
device with that name and type stands.  Missing: descriptions listed otherwise (see below). -/
theorem C80_found_partial (b : Bool) (rs : List Reg) (m : Mgr) (hm : (fresh b).addAll rs = some m) (ho : Ordered rs)
    (hs : ∀ r ∈ rs, Supported r) (i : Nat) (r : Reg) (hr : rs[i]? = some r) :
    m.getDevice r.type r.name = some (.at i) ∧
      ∃ d, m.devs[i]? = some d ∧ d.name = r.name ∧ d.type = r.type ∧ make r.type r.sub r.article = some d.cls := by
  obtain ⟨hk, _⟩ := known b rs m hm
  refine ⟨by simp only [Mgr.getDevice, find_complete hk ho hs hr], ?_⟩
  obtain ⟨d, hd, hb⟩ := built hk hr
  have := build_supported (hs r (List.mem_of_getElem? hr)) hb
  exact ⟨d, hd, this.1, this.2.2.1, this.2.2.2.1⟩

/-- C80: and a name that no device of the type has gives the stub. -/
theorem C80_absent_partial (b : Bool) (rs : List Reg) (m : Mgr) (hm : (fresh b).addAll rs = some m) (ho : Ordered rs)
    (hs : ∀ r ∈ rs, Supported r) (t : Int) (ht : 0 ≤ t) (name : Name)
    (h : ∀ r ∈ rs, r.type = t → r.name ≠ name) : m.getDevice t name = some .stub := by
  obtain ⟨hk, _⟩ := known b rs m hm
  simp only [Mgr.getDevice, find_absent hk ho hs h]
  split
  · rfl
  · rw [if_neg (by omega)]

/-- C80: the look-up by the name alone finds every device when no two devices have the same name. -/
theorem C80_by_name_partial (b : Bool) (rs : List Reg) (m : Mgr) (hm : (fresh b).addAll rs = some m) (ho : Ordered rs)
    (hu : Unique rs) (hs : ∀ r ∈ rs, Supported r) (i : Nat) (r : Reg) (hr : rs[i]? = some r) :
    m.getByName r.name = some (.at i) := by
  obtain ⟨hk, _⟩ := known b rs m hm
  obtain ⟨c, hc⟩ := hs r (List.mem_of_getElem? hr)
  have ht := make_type hc
  have : m.findFrom r.name typeCnt.toNat 0 = some (some i) := by
    refine findFrom_found r.name i r.type (find_complete hk ho hs hr) ?_ _ _ (by omega) ?_
    · intro t htr
      refine find_absent hk ho hs ?_
      intro x hx hxt hxn
      obtain ⟨j, hj⟩ := List.mem_iff_getElem?.1 hx
      have := hu j i x r hj hr hxn
      subst this
      rw [hj] at hr
      cases hr
      omega
    · have : typeCnt.toNat = 26 := rfl
      unfold typeCnt at ht
      omega
  simp only [Mgr.getByName, this]

/-- C80: whatever the order of a description, a look-up that gives a device gives one with exactly the asked name. -/
theorem C80_name (b : Bool) (rs : List Reg) (m : Mgr) (hm : (fresh b).addAll rs = some m) (t : Int) (name : Name)
    (i : Nat) (h : m.getDevice t name = some (.at i) ∨ m.getByName name = some (.at i)) :
    ∃ d, m.devs[i]? = some d ∧ d.name = name := by
  obtain ⟨hk, _⟩ := known b rs m hm
  rcases h with h | h
  · unfold Mgr.getDevice at h
    split at h
    · cases h
    · rename_i j hf
      cases h
      exact (find_sound hk hf).2.1
    · split at h
      · cases h
      · split at h <;> cases h
  · unfold Mgr.getByName at h
    split at h
    · cases h
    · rename_i j hf
      cases h
      exact findFrom_sound hk name _ _ _ hf
    · split at h
      · cases h
      · split at h <;> cases h

/-- C80: no look-up by a type that exists reads outside of the list of devices, whatever was registered; nor does the
look-up by a name that is not longer than the text of the log. -/
theorem C80_safe_partial (b : Bool) (rs : List Reg) (m : Mgr) (hm : (fresh b).addAll rs = some m) (name : Name) :
    (∀ t, 0 ≤ t → m.getDevice t name ≠ none) ∧ (name.length + 21 ≤ logSize → m.getByName name ≠ none) := by
  obtain ⟨hk, _⟩ := known b rs m hm
  constructor
  · intro t ht
    unfold Mgr.getDevice
    split
    · rename_i hf; exact absurd hf (find_safe hk _ _)
    · simp
    · split
      · simp
      · rw [if_neg (by omega)]; simp
  · intro hl
    unfold Mgr.getByName
    split
    · rename_i hf; exact absurd hf (findFrom_safe hk _ _ _)
    · simp
    · simp [hl]

example : ∃ m, (fresh false).addAll sample = some m ∧ Ordered sample ∧ Unique sample ∧
    (∀ r ∈ sample, Supported r) ∧ m.getDevice 0 [0x56, 0x32] = some (.at 1) ∧
    m.getByName [0x4D, 0x31] = some (.at 2) ∧ m.getDevice 2 [0x56, 0x31] = some .stub := by
  refine ⟨_, rfl, ?_, ?_, ?_, by decide +kernel, by decide +kernel, by decide +kernel⟩
  · intro i j a b hij ha hb hab
    have hj : j < 3 := (List.getElem?_eq_some_iff.1 hb).1
    have : (i = 0 ∧ j = 1) ∨ (i = 0 ∧ j = 2) ∨ (i = 1 ∧ j = 2) := by omega
    rcases this with ⟨rfl, rfl⟩ | ⟨rfl, rfl⟩ | ⟨rfl, rfl⟩
    · cases ha; cases hb
      exact ⟨by decide, by intro k c h1 h2; omega⟩
    · cases ha; cases hb; simp at hab
    · cases ha; cases hb; simp at hab
  · intro i j a b ha hb hab
    match i, j with
    | 0, 0 => rfl
    | 1, 1 => rfl
    | 2, 2 => rfl
    | 0, 1 => cases ha; cases hb; simp at hab
    | 0, 2 => cases ha; cases hb; simp at hab
    | 1, 0 => cases ha; cases hb; simp at hab
    | 1, 2 => cases ha; cases hb; simp at hab
    | 2, 0 => cases ha; cases hb; simp at hab
    | 2, 1 => cases ha; cases hb; simp at hab
    | i + 3, _ => simp [sample] at ha
    | _, j + 3 => simp [sample] at hb
  · intro r hr
    simp only [sample, List.mem_cons, List.not_mem_nil, or_false] at hr
    rcases hr with rfl | rfl | rfl
    · exact ⟨.valveDO1, rfl⟩
    · exact ⟨.valveDO1DI2, rfl⟩
    · exact ⟨.motor, rfl⟩

/-- C80: after the devices were cleared, whatever was registered before, the manager is as after the start of the program,
so that everything said here holds for the description that is loaded next. -/
theorem C80_cleared (b : Bool) (rs rs' : List Reg) (m : Mgr) (hm : (fresh b).addAll rs = some m) :
    m.clear = fresh b ∧ m.clear.addAll rs' = (fresh b).addAll rs' := by
  have key : ∀ (rs : List Reg) (m0 m : Mgr), m0.addAll rs = some m → (∀ t, ¬ (0 ≤ t ∧ t < typeCnt) → m0.start t = -1 ∧
      m0.stop t = -1 ∧ m0.met t = false) → (∀ t, ¬ (0 ≤ t ∧ t < typeCnt) → m.start t = -1 ∧ m.stop t = -1 ∧
      m.met t = false) := by
    intro rs
    induction rs with
    | nil => intro m0 m h h0; simp only [Mgr.addAll, Option.some.injEq] at h; subst h; exact h0
    | cons r rs ih =>
      intro m0 m h h0
      simp only [Mgr.addAll] at h
      obtain ⟨m1, h1, h2⟩ := Option.bind_eq_some_iff.1 h
      refine ih m1 m h2 fun t ht => ?_
      simp only [Mgr.add, Option.map_eq_some_iff] at h1
      obtain ⟨d, -, rfl⟩ := h1
      split
      next hr =>
        have : t ≠ r.type := fun z => ht (by rw [z]; exact hr)
        simpa [this] using h0 t ht
      next => exact h0 t ht
  have h := key rs _ m hm fun t _ => ⟨rfl, rfl, rfl⟩
  have hsil := (known b rs m hm).2
  have e : m.clear = fresh b := by
    unfold Mgr.clear fresh
    rw [hsil]
    congr 1
    all_goals
      funext t
      by_cases ht : 0 ≤ t ∧ t < typeCnt
      · simp [ht]
      · have := h t ht
        simp [ht, this]
  exact ⟨e, by rw [e]⟩

example : ∃ m, (fresh false).addAll [{ type := 0, sub := 1, name := [0x56, 0x31] }] = some m ∧ m.start 0 = 0 ∧
    m.clear.start 0 = -1 := ⟨_, rfl, by decide, by decide⟩

/-- C80 fails for a description that is not sorted: of two devices of one type registered in descending order of their
names, whatever the names, the second one is never found; the program works with the stub instead. -/
theorem C80_order_violated (b : Bool) (r1 r2 : Reg) (hs1 : Supported r1) (hs2 : Supported r2) (ht : r1.type = r2.type)
    (hl1 : r1.name.length < maxName) (hl2 : r2.name.length < maxName) (hlt : r2.name < r1.name) :
    ∃ m, (fresh b).addAll [r1, r2] = some m ∧ m.getDevice r2.type r2.name = some .stub := by
  obtain ⟨c1, hc1⟩ := hs1
  obtain ⟨c2, hc2⟩ := hs2
  have t1 := make_type hc1
  have t2 := make_type hc2
  have e : ∃ m, (fresh b).addAll [r1, r2] = some m := by
    simp [Mgr.addAll, Mgr.add, build, hc1, hc2, hl1, hl2]
  obtain ⟨m, hm⟩ := e
  refine ⟨m, hm, ?_⟩
  obtain ⟨hk, _⟩ := known b _ m hm
  obtain ⟨d1, hd1, hb1⟩ := built hk (i := 0) (r := r1) rfl
  have hn1 := (build_supported ⟨c1, hc1⟩ hb1).1
  have hf : m.find r2.type r2.name = some none := by
    unfold Mgr.find
    rw [if_pos t2]
    rcases hk.range _ t2.1 t2.2 with ⟨_, hs, _⟩ | ⟨_, i, j, hi, hj, hij, hjl, hfi, hfj, hall⟩
    · rw [if_pos hs]
    · have h0 := hall 0 r1 rfl ht
      have h1 := hall 1 r2 rfl rfl
      have hi0 : i = 0 := by omega
      have hj1 : j = 1 := by simp at hjl; omega
      subst hi0; subst hj1
      rw [if_neg (by omega), hi, hj]
      rw [search]
      have : ((0 : Nat) + (1 : Nat) : Int) / 2 = 0 := by decide
      simp only [this]
      have hc : cmp r2.name d1.name = .lt := cmp_lt.2 (hn1 ▸ hlt)
      simp only [Int.toNat_zero, hd1, hc]
      rw [search]
      simp
  simp only [Mgr.getDevice, hf]
  split
  · rfl
  · rw [if_neg (by omega)]

example : ∃ m, (fresh false).addAll [{ type := 0, sub := 1, name := [0x56, 0x32] },
    { type := 0, sub := 1, name := [0x56, 0x31] }] = some m ∧ m.getDevice 0 [0x56, 0x31] = some .stub ∧
    m.getDevice 0 [0x56, 0x32] = some (.at 0) := ⟨_, rfl, by decide +kernel, by decide +kernel⟩

/-- C80 fails when devices of one type are not listed together: a device of another type between two of them, with a
name between theirs, is handed out as a device of the type. -/
theorem C80_mixed_violated (b : Bool) (r1 r2 r3 : Reg) (hs1 : Supported r1) (hs2 : Supported r2) (hs3 : Supported r3)
    (ht : r1.type = r3.type) (ht2 : r2.type ≠ r1.type) (hl1 : r1.name.length < maxName)
    (hl2 : r2.name.length < maxName) (hl3 : r3.name.length < maxName) :
    ∃ m, (fresh b).addAll [r1, r2, r3] = some m ∧ m.getDevice r1.type r2.name = some (.at 1) ∧
      ∃ d, m.devs[1]? = some d ∧ d.type ≠ r1.type := by
  obtain ⟨c1, hc1⟩ := hs1
  obtain ⟨c2, hc2⟩ := hs2
  obtain ⟨c3, hc3⟩ := hs3
  have t1 := make_type hc1
  have e : ∃ m, (fresh b).addAll [r1, r2, r3] = some m := by
    simp [Mgr.addAll, Mgr.add, build, hc1, hc2, hc3, hl1, hl2, hl3]
  obtain ⟨m, hm⟩ := e
  refine ⟨m, hm, ?_⟩
  obtain ⟨hk, _⟩ := known b _ m hm
  obtain ⟨d2, hd2, hb2⟩ := built hk (i := 1) (r := r2) rfl
  have hn2 := build_supported ⟨c2, hc2⟩ hb2
  refine ⟨?_, d2, hd2, by rw [hn2.2.2.1]; exact ht2⟩
  have hf : m.find r1.type r2.name = some (some 1) := by
    unfold Mgr.find
    rw [if_pos t1]
    rcases hk.range _ t1.1 t1.2 with ⟨_, hs, _, hno⟩ | ⟨_, i, j, hi, hj, hij, hjl, hfi, hfj, hall⟩
    · exact absurd rfl (hno r1 (by simp))
    · have h0 := hall 0 r1 rfl rfl
      have h1 := hall 2 r3 rfl ht.symm
      have hi0 : i = 0 := by omega
      have hj1 : j = 2 := by simp at hjl; omega
      subst hi0; subst hj1
      rw [if_neg (by omega), hi, hj]
      rw [search]
      have : ((0 : Nat) + (2 : Nat) : Int) / 2 = 1 := by decide
      simp only [this]
      have hc : cmp r2.name d2.name = .eq := cmp_eq.2 hn2.1.symm
      simp only [show (1 : Int).toNat = 1 from rfl, hd2, hc]
      simp
  simp only [Mgr.getDevice, hf]

/-- C80 fails next to a device of an unknown kind: its place is taken by a placeholder named "STUB", which turns the
search away from devices before it: of two valves, one behind the other, the first is lost. -/
theorem C80_unknown_violated : ∃ m, (fresh false).addAll
    [{ type := 0, sub := 1, name := [0x56, 0x31] }, { type := 0, sub := 99, name := [0x56, 0x32] },
      { type := 0, sub := 1, name := [0x56, 0x33] }, { type := 0, sub := 1, name := [0x56, 0x34] }] = some m ∧
    m.getDevice 0 [0x56, 0x31] = some .stub ∧ m.getDevice 0 [0x56, 0x33] = some (.at 2) :=
  ⟨_, rfl, by decide +kernel, by decide +kernel⟩

/-- C80 fails for long names: a name of twenty or more characters is copied past the end of its place. -/
theorem C80_long_violated (m : Mgr) (r : Reg) (hs : Supported r) (hl : maxName ≤ r.name.length) : m.add r = none := by
  obtain ⟨c, hc⟩ := hs
  simp only [Mgr.add, build, hc]
  rw [if_neg (by omega)]
  rfl

example : Supported { type := 0, sub := 1, name := List.replicate 20 0x56 } ∧
    maxName ≤ (List.replicate 20 (0x56 : Ptusa.Tcp.Byte)).length := ⟨⟨.valveDO1, rfl⟩, by decide⟩

/-- C80 fails for names that are not known and too long for the text of the log: the look-up by name writes past its
end. -/
theorem C80_log_violated (rs : List Reg) (m : Mgr) (hm : (fresh false).addAll rs = some m) (name : Name)
    (hl : logSize < name.length + 21) : m.getByName name = none := by
  obtain ⟨hk, hsil⟩ := known false rs m hm
  unfold Mgr.getByName
  split
  · rfl
  · rename_i i hf
    exfalso
    obtain ⟨d, hd, hdn⟩ := findFrom_sound hk name i _ _ hf
    obtain ⟨r, hr, hb⟩ := registered hk hd
    have : d.name.length < maxName := by
      unfold build at hb
      split at hb
      · cases hb; exact (by decide : stubName.length < maxName)
      · split at hb
        · cases hb; assumption
        · cases hb
    rw [hdn] at this
    have e1 : maxName = 20 := rfl
    have e2 : logSize = 10240 := rfl
    omega
  · rw [hsil]
    simp only [Bool.false_eq_true, ↓reduceIte]
    rw [if_neg (by omega)]

example : ∃ m, (fresh false).addAll sample = some m ∧ logSize < (List.replicate 10220 (0x56 : Ptusa.Tcp.Byte)).length + 21 :=
  ⟨_, rfl, by rw [List.length_replicate]; decide⟩

/-- C80 fails for negative types: unless the log is off, asking for a device of a negative type reads the table of the
names of types before its beginning. -/
theorem C80_type_violated (rs : List Reg) (m : Mgr) (hm : (fresh false).addAll rs = some m) (t : Int) (ht : t < 0)
    (name : Name) : m.getDevice t name = none := by
  obtain ⟨_, hsil⟩ := known false rs m hm
  have : m.find t name = some none := by
    unfold Mgr.find
    rw [if_neg (by omega)]
  simp only [Mgr.getDevice, this, hsil]
  simp [ht]

/-! ## C81 -/

/-- C81: devices are numbered from zero in the order of their registration; a number behind the last gives the stub. -/
theorem C81_number (b : Bool) (rs : List Reg) (m : Mgr) (hm : (fresh b).addAll rs = some m) :
    m.devs.length = rs.length ∧ ∀ n, m.getByNumber n = if n < rs.length then .at n else .stub := by
  obtain ⟨hk, _⟩ := known b rs m hm
  refine ⟨hk.len, fun n => ?_⟩
  rw [← hk.len]
  rfl

/-- C81: a device of a known kind knows its number, name and type. -/
theorem C81_knows (b : Bool) (rs : List Reg) (m : Mgr) (hm : (fresh b).addAll rs = some m) (i : Nat) (r : Reg)
    (hr : rs[i]? = some r) (hs : Supported r) :
    ∃ d, m.devs[i]? = some d ∧ d.serial = i ∧ d.name = r.name ∧ d.type = r.type := by
  obtain ⟨hk, _⟩ := known b rs m hm
  obtain ⟨d, hd, hb⟩ := built hk hr
  have h := build_supported hs hb
  refine ⟨d, hd, ?_, h.1, h.2.2.1⟩
  have : d.cls ≠ .stub := by
    intro hx
    have h4 := h.2.2.2.1
    rw [hx] at h4
    unfold make at h4
    split at h4
    all_goals (try split at h4)
    all_goals (try split at h4)
    all_goals (try split at h4)
    all_goals cases h4
  simp [Dev.serial, this, h.2.1]

/-- C81 fails for devices of an unknown kind: each of them tells the number 0, which belongs to the first device. -/
theorem C81_serial_violated (b : Bool) (rs : List Reg) (m : Mgr) (hm : (fresh b).addAll rs = some m) (i : Nat) (r : Reg)
    (hr : rs[i]? = some r) (hs : ¬ Supported r) : ∃ d, m.devs[i]? = some d ∧ d.serial = 0 ∧ d.type = -1 := by
  obtain ⟨hk, _⟩ := known b rs m hm
  obtain ⟨d, hd, hb⟩ := built hk hr
  refine ⟨d, hd, ?_⟩
  have : make r.type r.sub r.article = none := by
    cases h : make r.type r.sub r.article with
    | none => rfl
    | some c => exact absurd ⟨c, h⟩ hs
  simp only [build, this, Option.some.injEq] at hb
  subst hb
  exact ⟨rfl, rfl⟩

example : ∃ m, (fresh false).addAll (sample ++ [{ type := 7, sub := 3, name := [0x46] }]) = some m ∧
    ¬ Supported { type := 7, sub := 3, name := [0x46] } ∧ (m.devs[3]?.map Dev.serial) = some 0 :=
  ⟨_, rfl, by rintro ⟨c, hc⟩; simp [make] at hc, by decide +kernel⟩

/-- C81: a device of a known kind tells the subtype it was registered with, except where the subtype was left out (-1),
and for the plain signals, sensors and scales listed here.  Missing: those. -/
theorem C81_subtype_partial (b : Bool) (rs : List Reg) (m : Mgr) (hm : (fresh b).addAll rs = some m) (i : Nat) (r : Reg)
    (hr : rs[i]? = some r) (hs : Supported r) (h1 : r.sub ≠ -1)
    (hx : (r.type, r.sub) ∉ [((5 : Int), (1 : Int)), (10, 1), (11, 1), (12, 1), (13, 1), (14, 1), (15, 1), (16, 1),
      (17, 1), (18, 1), (23, 1), (24, 1)]) :
    ∃ d, m.devs[i]? = some d ∧ d.sub = r.sub := by
  obtain ⟨hk, _⟩ := known b rs m hm
  obtain ⟨d, hd, hb⟩ := built hk hr
  have h := build_supported hs hb
  refine ⟨d, hd, ?_⟩
  rw [h.2.2.2.2.1]
  have h4 := h.2.2.2.1
  clear h hb hd
  generalize r.type = t at *
  generalize r.sub = s at *
  generalize d.cls = c at *
  unfold make at h4
  split at h4
  all_goals (try split at h4)
  all_goals (try split at h4)
  all_goals (try split at h4)
  all_goals (try cases h4)
  all_goals (try rfl)
  all_goals (first | exact absurd rfl h1 | exact absurd (by decide) hx)

example : ((0 : Int), (5 : Int)) ∉ [((5 : Int), (1 : Int)), (10, 1), (11, 1), (12, 1), (13, 1), (14, 1), (15, 1),
    (16, 1), (17, 1), (18, 1), (23, 1), (24, 1)] := by decide

/-- C81 fails for sensors of pressure difference and for temperature switches: registered as devices with inputs, they
tell the subtype of virtual ones; flow switches, signals, sirens, lamps, buttons, pressure sensors and scales tell that
they have none. -/
theorem C81_subtype_violated (n : Nat) (name : Name) (hl : name.length < maxName) :
    (∀ t ∈ [(23 : Int), 24], ∃ d, build { type := t, sub := 1, name := name } n = some d ∧ d.sub = 2) ∧
    (∀ t ∈ [(5 : Int), 10, 11, 12, 13, 14, 15, 16, 17, 18],
      ∃ d, build { type := t, sub := 1, name := name } n = some d ∧ d.sub = -1) := by
  constructor
  · intro t ht
    simp only [List.mem_cons, List.not_mem_nil, or_false] at ht
    rcases ht with rfl | rfl <;> simp [build, make, hl, subOf]
  · intro t ht
    simp only [List.mem_cons, List.not_mem_nil, or_false] at ht
    rcases ht with rfl | rfl | rfl | rfl | rfl | rfl | rfl | rfl | rfl | rfl <;> simp [build, make, hl, subOf]

/-! ## C82 -/

/-- C82: in an ordered description of known kinds, a function of the program that gives a device by its name gives the
registered one, as an object that has the functions of its kind: all valves, motors, and all devices of the kinds
without an own interface; levels and signal columns that are not virtual; plain scales.  Missing: the rest, below. -/
theorem C82_registered_partial (b : Bool) (rs : List Reg) (m : Mgr) (hm : (fresh b).addAll rs = some m)
    (ho : Ordered rs) (hs : ∀ r ∈ rs, Supported r) (a : Acc) (i : Nat) (r : Reg) (hr : rs[i]? = some r)
    (ht : r.type = a.type)
    (h : a ≠ .CAM ∧ (a = .LT → r.sub ≠ 6) ∧ (a = .HLA → r.sub ≠ 2) ∧ (a = .WT → r.sub = -1 ∨ r.sub = 1)) :
    m.access a r.name = some (.at i) ∧ Has (m.cls (.at i)) a := by
  obtain ⟨hk, _⟩ := known b rs m hm
  obtain ⟨d, hd, hb⟩ := built hk hr
  have hd' := build_supported (hs r (List.mem_of_getElem? hr)) hb
  have hg : m.getDevice a.type r.name = some (.at i) := by
    rw [← ht]
    simp only [Mgr.getDevice, find_complete hk ho hs hr]
  have hcls : m.cls (.at i) = d.cls := by simp [Mgr.cls, hd]
  simp only [Mgr.access, hg, hcls]
  have key : within d.cls a.target = true ∧ Has d.cls a := by
    have h4 := hd'.2.2.2.1
    rw [ht] at h4
    generalize d.cls = c at *
    generalize r.sub = s at *
    obtain ⟨h1, h2, h3, h5⟩ := h
    cases a <;> (try exact ⟨rfl, trivial⟩) <;> (try exact absurd rfl h1) <;> simp only [Acc.type, make] at h4
    all_goals (split at h4)
    all_goals (try split at h4)
    all_goals (try split at h4)
    all_goals (try cases h4)
    all_goals (try exact ⟨rfl, by simp [Has]⟩)
    all_goals (first | exact absurd rfl (h2 rfl) | exact absurd rfl (h3 rfl) | (exfalso; have := h5 rfl; omega))
  rw [if_pos key.1]
  exact ⟨rfl, key.2⟩

example : ∃ m, (fresh false).addAll sample = some m ∧ m.access .M [0x4D, 0x31] = some (.at 2) ∧
    m.access .V [0x56, 0x32] = some (.at 1) := ⟨_, rfl, by decide +kernel, by decide +kernel⟩

/-- C82: an unknown name gives the stub, and it has the functions the program expects, for valves and for all kinds
without an own interface.  Missing: motors, levels, scales, signal columns and cameras, below. -/
theorem C82_unknown_partial (b : Bool) (rs : List Reg) (m : Mgr) (hm : (fresh b).addAll rs = some m) (ho : Ordered rs)
    (hs : ∀ r ∈ rs, Supported r) (a : Acc) (name : Name) (h : ∀ r ∈ rs, r.type = a.type → r.name ≠ name)
    (ha : a ∉ [Acc.M, .LT, .WT, .HLA, .CAM]) : m.access a name = some .stub := by
  have hg := C80_absent_partial b rs m hm ho hs a.type (by cases a <;> decide) name h
  simp only [Mgr.access, hg]
  rw [if_pos]
  change within .stub a.target = true
  revert ha
  cases a <;> decide

/-- C82 fails for unknown names of motors, levels, scales, signal columns and cameras, although the documentation
promises the stub: the stub is converted to a class it is not, or at a wrong place inside of it. -/
theorem C82_unknown_violated (b : Bool) (rs : List Reg) (m : Mgr) (hm : (fresh b).addAll rs = some m) (ho : Ordered rs)
    (hs : ∀ r ∈ rs, Supported r) (a : Acc) (name : Name) (h : ∀ r ∈ rs, r.type = a.type → r.name ≠ name)
    (ha : a ∈ [Acc.M, .LT, .WT, .HLA, .CAM]) : m.access a name = none := by
  have hg := C80_absent_partial b rs m hm ho hs a.type (by cases a <;> decide) name h
  simp only [Mgr.access, hg]
  rw [if_neg]
  change ¬ within .stub a.target = true
  revert ha
  cases a <;> decide

example : ∃ m, (fresh false).addAll sample = some m ∧ m.access .M [0x4D, 0x32] = none ∧
    m.access .V [0x4D, 0x32] = some .stub := ⟨_, rfl, by decide +kernel, by decide +kernel⟩

/-- C82 fails for every camera: a device is never part of the interface of cameras it is converted to, so the function
`CAM` never gives a pointer that can be used, whatever was registered. -/
theorem C82_camera_violated (m : Mgr) (name : Name) : m.access .CAM name = none := by
  unfold Mgr.access
  split
  · rfl
  · simp [Acc.target, within]

/-- C82 fails for scales with an own interface and for virtual ones, for virtual levels and virtual signal columns: the
registered device is converted to a class it is not. -/
theorem C82_kind_violated (b : Bool) (a : Acc) (s : Int)
    (h : (a, s) ∈ [(Acc.WT, (2 : Int)), (.WT, 3), (.WT, 4), (.WT, 5), (.LT, 6), (.HLA, 2)]) (name : Name)
    (hl : name.length < maxName) :
    Supported { type := a.type, sub := s, name := name } ∧
    ∃ m, (fresh b).addAll [{ type := a.type, sub := s, name := name }] = some m ∧ m.access a name = none := by
  have hsup : Supported { type := a.type, sub := s, name := name } ∧
      ∀ c, make a.type s .other = some c → within c a.target = false := by
    simp only [List.mem_cons, Prod.mk.injEq, List.not_mem_nil, or_false] at h
    rcases h with h | h | h | h | h | h <;> obtain ⟨rfl, rfl⟩ := h <;>
      simp [Supported, make, Acc.type, within, Acc.target]
  refine ⟨hsup.1, ?_⟩
  obtain ⟨c, hc⟩ := hsup.1
  have e : ∃ m, (fresh b).addAll [{ type := a.type, sub := s, name := name }] = some m := by
    simp [Mgr.addAll, Mgr.add, build, hc, hl]
  obtain ⟨m, hm⟩ := e
  refine ⟨m, hm, ?_⟩
  obtain ⟨hk, _⟩ := known b _ m hm
  obtain ⟨d, hd, hb⟩ := built hk (i := 0) (r := { type := a.type, sub := s, name := name }) rfl
  have hd' := build_supported hsup.1 hb
  have ho : Ordered [{ type := a.type, sub := s, name := name }] := by
    intro i j x y hij hx hy
    have := (List.getElem?_eq_some_iff.1 hy).1
    simp at this
    omega
  have hg : m.getDevice a.type name = some (.at 0) := by
    have := (C80_found_partial b _ m hm ho (by intro r hr; rw [List.mem_singleton.1 hr]; exact hsup.1) 0 _ rfl).1
    exact this
  simp only [Mgr.access, hg, Mgr.cls, hd, Option.map_some, Option.getD_some]
  rw [hsup.2 d.cls hd'.2.2.2.1]
  rfl

example : (([0x57, 0x54, 0x31] : Name)).length < maxName := by decide

/-- C82: in an ordered description of known kinds, the function for counters gives every registered counter, whatever its
kind, as an object of its class, and the stub for every other name that fits into the log. -/
theorem C82_counter (b : Bool) (rs : List Reg) (m : Mgr) (hm : (fresh b).addAll rs = some m) (ho : Ordered rs)
    (hs : ∀ r ∈ rs, Supported r) (name : Name) :
    (∀ i r, rs[i]? = some r → r.type = 7 → r.name = name → m.fqt name = some (.at i)) ∧
    ((∀ r ∈ rs, r.type = 7 → r.name ≠ name) → name.length + 18 ≤ logSize → m.fqt name = some .stub) := by
  obtain ⟨hk, _⟩ := known b rs m hm
  constructor
  · rintro i r hr ht rfl
    obtain ⟨d, hd, hb⟩ := built hk hr
    have hd' := build_supported (hs r (List.mem_of_getElem? hr)) hb
    have hf := find_complete hk ho hs hr
    rw [ht] at hf
    simp only [Mgr.fqt, hf, hd]
    have h4 := hd'.2.2.2.1
    have h5 := hd'.2.2.2.2.1
    rw [ht] at h4
    rw [h5]
    generalize d.cls = c at *
    simp only [make] at h4
    split at h4
    all_goals (try cases h4)
    all_goals rfl
  · intro h hl
    have hf := find_absent hk ho hs h
    simp only [Mgr.fqt, hf]
    rw [if_pos hl]

example : ∃ m, (fresh false).addAll [{ type := 7, sub := 2, name := [0x46] }] = some m ∧
    m.fqt [0x46] = some (.at 0) ∧ m.fqt [0x47] = some .stub := ⟨_, rfl, by decide +kernel, by decide +kernel⟩

end Ptusa.Registry
