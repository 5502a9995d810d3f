import Verif.SaveDev.Lemmas

/-!
# C112: the server reads the states of the devices from the text
-/
namespace Ptusa.SaveDev

/-- C112 (part): for every list of devices with proper names, numbers as values and a sound kind, Lua reads from the text one
table per device, in the same order, under the name of the device, with exactly the fields of the device: integers exactly,
other numbers up to half of the last printed place, integral values exactly. Missing, because it is false: cameras, the
emulated concentration sensor, and values which are not numbers. -/
theorem C112_reads_partial (ds : List Dev) (h : ∀ d ∈ ds, d.Good ∧ d.kind.sound = true) :
    ∃ txt tables, saveAll ds = some txt ∧ readAll txt = some tables ∧ List.Forall₂ Dev.found ds tables := by
  obtain ⟨a, ts, h1, h2, h3, h4⟩ := devs_read ds h
  obtain ⟨txt, h5, h6⟩ := readAll_ok ds a ts h3 h4 h1
  exact ⟨txt, ts, h5, h6, h2⟩

/-- A valve with both feedbacks, a temperature with two parameters and a fuse. -/
def sample : List Dev :=
  [⟨"LINE1V1", true, some 1, none, .valve (some 1) (some 0), [("P_ON_TIME", .num 5000), ("P_FB", .num 1)]⟩,
   ⟨"TE1", false, some (-101), some (.num (-1/8)), .analog false (.num (41/2)) (.num 2), [("P_C0", .num (3/16)), ("P_ERR", .num (-1000))]⟩,
   ⟨"F1", true, some 1, some (.num 7), .breaker 0 0 [2, 4, 6, 10] [.num (21/10), .num 0, .num 1, .num (1/2)] [1, 1, 0, 1] [0, 0, 0, 0], []⟩]

theorem sample_good : ∀ d ∈ sample, d.Good ∧ d.kind.sound = true := by
  have h1 : ∀ d ∈ sample, isName d.name.toList = true ∧ (∀ p ∈ d.pars, isName p.1.toList = true) ∧ d.kind.sound = true := by
    decide +kernel
  intro d hd
  refine ⟨⟨(h1 d hd).1, (h1 d hd).2.1, ?_⟩, (h1 d hd).2.2⟩
  simp only [sample, List.mem_cons, List.not_mem_nil, or_false] at hd
  rcases hd with rfl | rfl | rfl <;>
    simp [Dev.want, Kind.want, fbWant, flag, Want.finite]

example : ∃ txt tables, saveAll sample = some txt ∧ readAll txt = some tables ∧ List.Forall₂ Dev.found sample tables :=
  C112_reads_partial sample sample_good

/-- C112: a text in full: the temperature above, and its value -0.125 with two places (ties to even). -/
example : (Dev.mk "TE1" false (some (-101)) (some (.num (-1/8))) (.analog false (.num (41/2)) (.num 2))
    [("P_C0", .num (3/16)), ("P_ERR", .num (-1000))]).save "\t".toList =
    some "\tTE1={M=0, ST=-101, V=-0.12, E=0, M_EXP=20.5, S_DEV=2.0, P_C0=0.19, P_ERR=-1000},\n".toList := by
  decide +kernel

/-- C112 (part): when the keys of a device differ, a lookup under a key finds the value. -/
theorem C112_lookup_partial (ds : List Dev) (h : ∀ d ∈ ds, d.Good ∧ d.kind.sound = true)
    (hk : ∀ d ∈ ds, (d.want.map (·.1)).Nodup) : ∃ txt tables, saveAll ds = some txt ∧ readAll txt = some tables ∧
    List.Forall₂ (fun d t => t.1 = d.name.toList ∧ ∀ p ∈ d.want, ∃ v, lookup t.2 p.1 = some v ∧ p.2.found v) ds tables := by
  obtain ⟨txt, ts, h1, h2, h3⟩ := C112_reads_partial ds h
  refine ⟨txt, ts, h1, h2, ?_⟩
  clear h1 h2 h
  induction h3 with
  | nil => exact .nil
  | @cons d t ds ts hd tl ih =>
    refine .cons ⟨hd.1, fun p hp => lookup_found d.want t.2 hd.2 (hk d (by simp)) p hp⟩ (ih fun x hx => hk x (by simp [hx]))

example : ∀ d ∈ sample.take 2, (d.want.map (·.1)).Nodup := by decide +kernel

/-- C112 (violated): an electronic fuse prints its mode twice; Lua keeps the second one, a member which is always zero: the
server sees every fuse in the automatic mode. -/
theorem C112_fuse_violated (d : Dev) (err : Int) (n : List Int) (l : List Fv) (s ec : List Int)
    (hk : d.kind = .breaker err 0 n l s ec) (hp : d.pars = []) (hg : d.Good) : ∃ txt t, saveAll [d] = some txt ∧
    readAll txt = some [(d.name.toList, t)] ∧ (lookup t "M").map (fun v => v matches .num 0) = some true := by
  obtain ⟨txt, ts, h1, h2, h3⟩ := C112_reads_partial [d] (by simp [hg, hk, Kind.sound])
  cases h3 with
  | @cons _ t _ _ hd tl =>
    cases tl
    obtain ⟨nm, t⟩ := t
    obtain ⟨e1, e2⟩ := hd
    simp only at e1 e2
    subst e1
    refine ⟨txt, t, h1, h2, ?_⟩
    have : ∃ pre, d.want = pre ++ [("M", Want.int 0)] ++ [("NOMINAL_CURRENT_CH", .list (n.map .int)),
        ("LOAD_CURRENT_CH", .list (l.map (.real 1))), ("ST_CH", .list (s.map .int)), ("ERR_CH", .list (ec.map .int))] :=
      ⟨[("M", flag d.manual)] ++ (d.state.map fun z => ("ST", Want.int z)).toList ++
        (d.value.map fun x => ("V", Want.short x)).toList ++ [("ERR", .int err)], by simp [Dev.want, hk, hp, Kind.want]⟩
    obtain ⟨pre, hpre⟩ := this
    rw [hpre, List.append_assoc] at e2
    have h5 : lookup t "M" = some (.num 0) := by
      obtain ⟨ta, tb, f1, f2, rfl⟩ := forall₂_split _ _ _ e2
      simp only [List.cons_append, List.nil_append, List.forall₂_cons_left_iff, List.forall₂_nil_left_iff] at f2
      obtain ⟨⟨k0, v0⟩, _, ⟨g0, g0'⟩, ⟨⟨k1, v1⟩, _, ⟨g1, _⟩, ⟨⟨k2, v2⟩, _, ⟨g2, _⟩, ⟨⟨k3, v3⟩, _, ⟨g3, _⟩,
        ⟨⟨k4, v4⟩, _, ⟨g4, _⟩, rfl, rfl⟩, rfl⟩, rfl⟩, rfl⟩, rfl⟩ := f2
      simp only [Want.found] at g0'
      simp only at g0 g1 g2 g3 g4
      subst g0 g0' g1 g2 g3 g4
      simp [lookup, List.filter_append, List.filter_cons]
    rw [h5]
    rfl

example : ∃ d ∈ sample, d.manual = true ∧ d.kind = .breaker 0 0 [2, 4, 6, 10] [.num (21/10), .num 0, .num 1, .num (1/2)] [1, 1, 0, 1] [0, 0, 0, 0] :=
  ⟨sample[2], List.getElem_mem _, rfl, rfl⟩

/-- Fields of a device before the additional ones. -/
theorem front_read (d : Dev) (hv : ∀ x, d.value = some x → ∃ q, x = .num q) : ∃ (l : List (String × Txt)) (vs : List Val),
    fld "M" (boolText d.manual) ++ stText d.state ++ valueText d.value = l.flatMap (fun p => fld p.1 p.2) ∧
    List.Forall₂ (fun p v => ReadsVal p.2 v) l vs ∧ ∀ p ∈ l, isName p.1.toList = true := by
  have hf : ∀ p ∈ [("M", flag d.manual)] ++ (d.state.map fun z => ("ST", Want.int z)).toList ++
      (d.value.map fun x => ("V", Want.short x)).toList, p.2.finite = true ∧ p.2.flat = true ∧ isName p.1.toList = true := by
    intro p hp
    simp only [List.mem_append, List.mem_singleton, Option.mem_toList, Option.mem_def, Option.map_eq_some_iff] at hp
    rcases hp with (hp | ⟨z, _, hp⟩) | ⟨x, hx, hp⟩
    · subst hp; exact ⟨by simp [flag, Want.finite], rfl, (by decide +kernel : isName "M".toList = true)⟩
    · subst hp; exact ⟨by simp [Want.finite], rfl, (by decide +kernel : isName "ST".toList = true)⟩
    · subst hp
      obtain ⟨q, rfl⟩ := hv x hx
      exact ⟨by simp [Want.finite], rfl, (by decide +kernel : isName "V".toList = true)⟩
  obtain ⟨vs, h1, _⟩ := fields_read _ (fun p hp => (hf p hp).1) (fun p hp => (hf p hp).2.1)
  refine ⟨_, vs, ?_, h1, ?_⟩
  · cases hs : d.state <;> cases hv : d.value <;>
      simp [stText, valueText, flag, boolText_int, Want.text, fldI, fldF]
  · intro p hp
    obtain ⟨q, hq, rfl⟩ := List.mem_map.1 hp
    exact (hf q hq).2.2

theorem save_eq (d : Dev) (ex : Txt) (hx : d.kind.ex = some ex) : ∃ z, d.save "\t".toList =
    some ('\t' :: d.name.toList ++ '=' :: '{' :: z) ∧ ∀ r, ∃ r', z ++ r =
      (fld "M" (boolText d.manual) ++ stText d.state ++ valueText d.value ++ ex ++ parsText d.pars).take
        ((fld "M" (boolText d.manual) ++ stText d.state ++ valueText d.value ++ ex ++ parsText d.pars).length - 2) ++ r' := by
  refine ⟨(fld "M" (boolText d.manual) ++ stText d.state ++ valueText d.value ++ ex ++ parsText d.pars).take
        ((fld "M" (boolText d.manual) ++ stText d.state ++ valueText d.value ++ ex ++ parsText d.pars).length - 2) ++
        "},\n".toList, ?_, fun r => ⟨"},\n".toList ++ r, by simp⟩⟩
  unfold Dev.save
  rw [hx]
  simp only
  have e : "\t".toList ++ d.name.toList ++ "={".toList ++ fld "M" (boolText d.manual) ++ stText d.state ++
      valueText d.value ++ ex ++ parsText d.pars = ('\t' :: d.name.toList ++ ['=', '{']) ++
      (fld "M" (boolText d.manual) ++ stText d.state ++ valueText d.value ++ ex ++ parsText d.pars) := by simp
  rw [e]
  generalize hw : fld "M" (boolText d.manual) ++ stText d.state ++ valueText d.value ++ ex ++ parsText d.pars = w
  have hl : 2 ≤ w.length := by
    rw [← hw]
    simp [fld]
  rw [if_pos (by simp; omega)]
  congr 1
  rw [List.take_append, List.take_of_length_le (by simp; omega)]
  have : (('\t' :: d.name.toList ++ ['=', '{']) ++ w).length - 2 - ('\t' :: d.name.toList ++ ['=', '{']).length = w.length - 2 := by
    simp
    omega
  rw [this]
  simp

theorem percent_bad (r : Txt) (n : Nat) : readFields n ("RESULT=%".toList ++ r) = none := by
  cases n with
  | zero => rfl
  | succ n =>
    have e : "RESULT=%".toList ++ r = "RESULT".toList ++ '=' :: ('%' :: r) := by simp
    rw [e]
    simp only [readFields, readName_ok "RESULT".toList '=' _ (by decide +kernel) (by decide)]
    have : readVal ('%' :: r) = none := by
      simp [readVal, readItem, readPos, readName, isName, isWord]
    rw [this]

/-- C112 (violated): with a camera in the project the whole text is not Lua: `%d` is printed instead of the numbers, and
nothing about any device can be read. -/
theorem C112_camera_violated (pre post : List Dev) (d : Dev) (hp : ∀ x ∈ pre, x.Good ∧ x.kind.sound = true)
    (res ready : Int) (hk : d.kind = .camera res ready) (hg : d.Good) (txt : Txt)
    (h : saveAll (pre ++ d :: post) = some txt) : readAll txt = none := by
  refine readAll_bad pre post d hp hg.1 ?_ txt h
  intro a r ha
  obtain ⟨z, h1, h2⟩ := save_eq d "RESULT=%d, READY=%d, ".toList (by rw [hk]; rfl)
  rw [h1, Option.some.injEq] at ha
  subst ha
  refine ⟨z ++ r, by simp, fun n => ?_⟩
  obtain ⟨r', h3⟩ := h2 r
  have hv : ∀ x, d.value = some x → ∃ q, x = .num q := by
    intro x hx
    have := hg.2.2 ("V", .short x) (by simp [Dev.want, hx])
    cases x with
    | num q => exact ⟨q, rfl⟩
    | inf b => simp [Want.finite] at this
    | nan b => simp [Want.finite] at this
  obtain ⟨l, vs, h4, h5, h6⟩ := front_read d hv
  rw [h3, h4]
  have e : ∃ r'', ((l.flatMap fun p => fld p.1 p.2) ++ "RESULT=%d, READY=%d, ".toList ++ parsText d.pars).take
      (((l.flatMap fun p => fld p.1 p.2) ++ "RESULT=%d, READY=%d, ".toList ++ parsText d.pars).length - 2) ++ r' =
      (l.flatMap fun p => fld p.1 p.2) ++ ("RESULT=%".toList ++ r'') := by
    generalize (l.flatMap fun p => fld p.1 p.2) = w
    have e0 : w ++ "RESULT=%d, READY=%d, ".toList ++ parsText d.pars =
      (w ++ "RESULT=%".toList) ++ ("d, READY=%d, ".toList ++ parsText d.pars) := by simp
    rw [e0, List.take_append, List.take_of_length_le (by simp; omega), List.append_assoc, List.append_assoc]
    exact ⟨_, rfl⟩
  obtain ⟨r'', e⟩ := e
  rw [e]
  exact readFields_bad l vs h5 h6 _ (percent_bad r'') n

example : saveAll [⟨"CAM1", false, some 1, some (.num 0), .camera 5 1, []⟩] =
    some "t=\n\t{\n\tCAM1={M=0, ST=1, V=0, RESULT=%d, READY=%d},\n\t}\n".toList := by decide +kernel

theorem minus_bad (w r : Txt) (hw : ∃ c m, w = c :: m ∧ c.isDigit = false) (n : Nat) :
    readFields n ("V=-".toList ++ (w ++ r)) = none := by
  obtain ⟨c, m, rfl, hc⟩ := hw
  cases n with
  | zero => rfl
  | succ n =>
    have e : "V=-".toList ++ (c :: m ++ r) = "V".toList ++ '=' :: ('-' :: (c :: m ++ r)) := by simp
    rw [e]
    simp only [readFields, readName_ok "V".toList '=' _ (by decide +kernel) (by decide)]
    have : readVal ('-' :: (c :: m ++ r)) = none := by
      simp [readVal, readItem, readPos, hc]
    rw [this]

/-- C112 (violated): a value of one device which is a not-a-number with the sign bit (the result of 0/0 on x86) or the negative
infinity makes the text unreadable for all devices: Lua negates a global variable which does not exist. -/
theorem C112_nan_violated (pre post : List Dev) (d : Dev) (hp : ∀ x ∈ pre, x.Good ∧ x.kind.sound = true)
    (hn : isName d.name.toList = true) (hv : d.value = some (.nan true) ∨ d.value = some (.inf true)) (txt : Txt)
    (h : saveAll (pre ++ d :: post) = some txt) : readAll txt = none := by
  refine readAll_bad pre post d hp hn ?_ txt h
  intro a r ha
  cases hx : d.kind.ex with
  | none => simp [Dev.save, hx] at ha
  | some ex =>
    obtain ⟨z, h1, h2⟩ := save_eq d ex hx
    rw [h1, Option.some.injEq] at ha
    subst ha
    refine ⟨z ++ r, by simp, fun n => ?_⟩
    obtain ⟨r', h3⟩ := h2 r
    obtain ⟨l, vs, h4, h5, h6⟩ := front_read { d with value := none } (by simp)
    simp only [valueText, List.append_nil] at h4
    rw [h3, h4]
    have hvt : ∃ w, (∃ c m, w = c :: m ∧ c.isDigit = false) ∧ valueText d.value = "V=-".toList ++ (w ++ ", ".toList) := by
      rcases hv with hv | hv <;> rw [hv]
      · exact ⟨"nan".toList, ⟨'n', ['a', 'n'], by decide +kernel, by decide⟩, by decide +kernel⟩
      · exact ⟨"inf".toList, ⟨'i', ['n', 'f'], by decide +kernel, by decide⟩, by decide +kernel⟩
    obtain ⟨w, hw, hvt⟩ := hvt
    rw [hvt]
    have e : ∃ r'', ((l.flatMap fun p => fld p.1 p.2) ++ ("V=-".toList ++ (w ++ ", ".toList)) ++ ex ++ parsText d.pars).take
        (((l.flatMap fun p => fld p.1 p.2) ++ ("V=-".toList ++ (w ++ ", ".toList)) ++ ex ++ parsText d.pars).length - 2) ++ r' =
        (l.flatMap fun p => fld p.1 p.2) ++ ("V=-".toList ++ (w ++ r'')) := by
      generalize (l.flatMap fun p => fld p.1 p.2) = u
      have e0 : u ++ ("V=-".toList ++ (w ++ ", ".toList)) ++ ex ++ parsText d.pars =
        (u ++ "V=-".toList ++ w) ++ (", ".toList ++ ex ++ parsText d.pars) := by simp
      rw [e0, List.take_append, List.take_of_length_le (by simp; omega)]
      exact ⟨_, by simp only [List.append_assoc]; rfl⟩
    obtain ⟨r'', e⟩ := e
    rw [e]
    exact readFields_bad l vs h5 h6 _ (minus_bad w r'' hw) n

example : saveAll [⟨"QT1", false, some 1, some (.nan true), .plain, []⟩] =
    some "t=\n\t{\n\tQT1={M=0, ST=1, V=-nan},\n\t}\n".toList := by decide +kernel

/-- C112 (violated): on the emulator one concentration sensor with a diagnostic input makes the formatting throw, so there is no
text at all. -/
theorem C112_emulator_violated (pre post : List Dev) (d : Dev) (ok : Int) (hk : d.kind = .concOk true ok) :
    saveAll (pre ++ d :: post) = none := by
  have h : d.save "\t".toList = none := by simp [Dev.save, hk, Kind.ex]
  unfold saveAll
  rw [saveDevs_append]
  simp only [saveDevs, h]
  cases saveDevs pre <;> rfl

example : (saveAll [⟨"QT1", false, some 1, some (.num 3), .concOk false 1, []⟩]).isSome = true := by decide +kernel

end Ptusa.SaveDev
