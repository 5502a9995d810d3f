import Verif.Boot.Lemmas
import Verif.Params.Props

/-!
# C151 to C155: start of the program
-/
namespace Ptusa.Boot

/-- The parts of a start. -/
def parts (a : Args) (w : World) (p q : Int) : List (Ev × Verdict) :=
  (if a.rcrc then [(.resetSize, .ok)] else []) ++ [(.ports p q, .ok)] ++ luaInit a w (p, q) ++
    (match w.opcUa with
      | some b => [(.opcUa, must b)]
      | none => []) ++ [(.iot, .ok)]

theorem start_eq {a : Args} (w : World) {p q : Int} (hh : a.help = false) (hp : portsOf a = some (p, q)) :
    start a w = stages (parts a w p q) := by
  unfold start parts
  rw [hh, hp]
  rfl

theorem parts_split (a : Args) (w : World) (p q : Int) : ∃ m, parts a w p q =
    ((if a.rcrc then [(.resetSize, .ok)] else []) ++ [(.ports p q, .ok)] ++ (List.range 8).map (look a w)) ++ m := by
  unfold parts luaInit
  simp only [List.append_assoc]
  exact ⟨_, rfl⟩

theorem parts_plan (a : Args) (w : World) (p q : Int) : (parts a w p q).map Prod.fst = plan a w p q := by
  unfold parts plan luaInit loadConfiguration
  cases a.rcrc <;> cases w.opcUa <;>
    simp [List.map_append, List.map_map, Function.comp_def, look, exec, List.range_succ]

theorem parts_ok (a : Args) (w : World) (p q : Int) :
    (∀ x ∈ parts a w p q, x.2 = .ok) ↔
      Short a ∧ (∀ i, i < 8 → Right a w i) ∧ (∀ i, i < 8 → w.runs i = true) ∧ w.createIo = true ∧ w.createDevices = true ∧
        w.deviceProps = true ∧ w.techObjects = 0 ∧ 0 ≤ w.count ∧ (∀ i : Nat, 1 ≤ i → (i : Int) ≤ w.count → w.object i = true) ∧
        (w.mainLoads = true ∧ w.mainRuns = true) ∧ (w.nameRus = true ∧ w.nameEng = true) ∧ w.opcUa ≠ some false := by
  unfold parts luaInit loadConfiguration
  constructor
  · intro h
    have hlook : ∀ i, i < 8 → (place a i).length < 100 ∧ Right a w i := by
      intro i hi
      refine (look_ok a w i hi).mp (h _ ?_)
      simp only [List.mem_append, List.mem_map, List.mem_range]
      exact .inl (.inl (.inr (.inl (.inl (.inl (.inl ⟨i, hi, rfl⟩))))))
    have hexec : ∀ i, i < 8 → w.runs i = true := by
      intro i hi
      refine ((exec_ok a w i).mp (h _ ?_)).2
      simp only [List.mem_append, List.mem_map, List.mem_range]
      exact .inl (.inl (.inr (.inl (.inl (.inl (.inr ⟨i, hi, rfl⟩))))))
    have hobj : ∀ i : Nat, 1 ≤ i → (i : Int) ≤ w.count → w.object i = true := by
      intro i h1 h2
      refine (must_ok _).mp (h (.object i, must (w.object i)) ?_)
      simp only [List.mem_append, List.mem_map, List.mem_range]
      refine .inl (.inl (.inr (.inl (.inr (.inl (.inr ⟨i - 1, by omega, ?_⟩))))))
      rw [Nat.sub_add_cancel h1]
    have h1 := (must_ok _).mp (h (.createIo, must w.createIo) (by simp))
    have h2 := (must_ok _).mp (h (.createDevices, must w.createDevices) (by simp))
    have h3 := (must_ok _).mp (h (.deviceProps, must w.deviceProps) (by simp))
    have h4 := (must_ok _).mp (h (.techObjects, must (w.techObjects = 0)) (by simp))
    have h5 := (must_ok _).mp (h (.objectCount, must (0 ≤ w.count)) (by simp))
    have h6 := (must_ok _).mp (h (.loadMain, must w.mainLoads) (by simp))
    have h7 := (must_ok _).mp (h (.runMain, must w.mainRuns) (by simp))
    have h8 := (must_ok _).mp (h (.names, must (w.nameRus && w.nameEng)) (by simp))
    have h9 : w.opcUa ≠ some false := by
      intro hc
      have hm := h (.opcUa, must false) (List.mem_append_left _ (List.mem_append_right _ (by rw [hc]; exact List.mem_singleton.mpr rfl)))
      simp [must] at hm
    exact ⟨fun i hi => (hlook i hi).1, fun i hi => (hlook i hi).2, hexec, h1, h2, h3, by simpa using h4, by simpa using h5, hobj, ⟨h6, h7⟩,
      by simpa using h8, h9⟩
  · rintro ⟨hs, hr, he, h1, h2, h3, h4, h5, hobj, ⟨h6, h7⟩, ⟨h8, h8'⟩, h9⟩ x hx
    simp only [List.mem_append, List.mem_map, List.mem_range, List.mem_cons, List.not_mem_nil, or_false] at hx
    rcases hx with (((hx | rfl) | hx) | hx) | rfl
    · split at hx
      · rcases List.mem_singleton.mp hx with rfl; rfl
      · cases hx
    · rfl
    · rcases hx with (((⟨i, hi, rfl⟩ | ⟨i, hi, rfl⟩) | rfl) | ((hx | ⟨i, hi, rfl⟩) | hx)) | hx
      · exact (look_ok a w i hi).mpr ⟨hs i hi, hr i hi⟩
      · exact (exec_ok a w i).mpr ⟨hs i hi, he i hi⟩
      · rfl
      · rcases hx with rfl | rfl | rfl | rfl | rfl <;> simp [must_ok, h1, h2, h3, h4, h5]
      · exact (must_ok _).mpr (hobj (i + 1) (by omega) (by omega))
      · rcases hx with rfl | rfl <;> rfl
      · rcases hx with rfl | rfl | rfl | rfl | rfl | rfl | rfl | rfl <;> simp [must_ok, h6, h7, h8, h8']
    · cases hw : w.opcUa with
      | none => rw [hw] at hx; cases hx
      | some b =>
        rw [hw] at hx
        rcases List.mem_singleton.mp hx with rfl
        cases b with
        | true => rfl
        | false => exact absurd hw h9
    · rfl

/-! ## C151 -/

/-- C151.  A start with everything in its place does the whole start in its order and enters the loop. -/
theorem C151_ready (a : Args) (w : World) (p q : Int) (hr : Ready a w) (hs : Short a) (hp : portsOf a = some (p, q)) :
    start a w = (plan a w p q, .ok) := by
  rw [start_eq w hr.started hp]
  have hok : (stages (parts a w p q)).2 = .ok :=
    stages_ok.mpr ((parts_ok a w p q).mpr ⟨hs, hr.files, hr.scripts, hr.io, hr.devices, hr.props, hr.tech, hr.count, hr.objects,
      hr.main, hr.names, hr.opcUa⟩)
  rw [← parts_plan, ← stages_all hok, ← hok]

/-- C151 (part).  The loop is entered only after the whole start, and when everything it relies on is there; except for the
user's own preparation, see `C151_init_violated`. -/
theorem C151_loop_partial (a : Args) (w : World) (h : (start a w).2 = .ok) :
    Loaded a w ∧ ∃ p q, portsOf a = some (p, q) ∧ (start a w).1 = plan a w p q := by
  cases hh : a.help with
  | true => simp [start, hh] at h
  | false =>
    cases hp : portsOf a with
    | none => simp [start, hh, hp] at h
    | some x =>
      obtain ⟨p, q⟩ := x
      rw [start_eq w hh hp] at h ⊢
      obtain ⟨_, h1, h2, h3, h4, h5, h6, h7, h8, h9, h10, h11⟩ := (parts_ok a w p q).mp (stages_ok.mp h)
      exact ⟨⟨hh, h1, h2, h3, h4, h5, h6, h7, h8, h9, h10, h11⟩, p, q, rfl, by rw [stages_all h, parts_plan]⟩

/-- C151 (part).  Whatever goes wrong, what has been done is a beginning of the start in its order. -/
theorem C151_order (a : Args) (w : World) (p q : Int) (hp : portsOf a = some (p, q)) : (start a w).1 <+: plan a w p q := by
  cases hh : a.help with
  | true => simp [start, hh]
  | false =>
    rw [start_eq w hh hp, ← parts_plan]
    exact stages_prefix _

/-- C151 (part).  With the arguments for help, or without any, nothing is done. -/
theorem C151_help (a : Args) (w : World) (h : a.help = true) : start a w = ([], .exit 0) := by
  simp [start, h]

/-- C151 does not hold for the user's preparation: whether the function `init` of the project, the description of the
Profibus or the number of the controller fail makes no difference, the loop is entered all the same. -/
theorem C151_init_violated (a : Args) (w : World) (h : Loaded a w) (hs : Short a) (hp : portsOf a ≠ none) (u : Option Bool)
    (b : Bool) (n : Int) : (start a { w with userInit := u, profibus := b, pacId := n }).2 = .ok := by
  obtain ⟨⟨p, q⟩, hp⟩ := Option.ne_none_iff_exists'.mp hp
  rw [start_eq _ h.started hp]
  exact stages_ok.mpr ((parts_ok a _ p q).mpr ⟨hs, h.files, h.scripts, h.io, h.devices, h.props, h.tech, h.count, h.objects,
      h.main, h.names, h.opcUa⟩)

/-- An installation with all files of the right versions and two objects. -/
def demoWorld : World where
  file := fun p =>
    if p = bytes "sys/sys.objects.lua" then some (bytes "--version = 8\nx")
    else if p.take 4 = bytes "sys/" then some (bytes "--version = 2")
    else some (bytes "--version = 1\r\n")
  runs := fun _ => true
  pacId := 7
  createIo := true
  createDevices := true
  deviceProps := true
  techObjects := 0
  count := 2
  object := fun _ => true
  profibus := true
  mainLoads := true
  mainRuns := true
  userInit := some true
  nameRus := true
  nameEng := true
  opcUa := none

/-- Its command line. -/
def demoArgs : Args := { sysDir := bytes "sys/", dir := bytes "prj/" }

example : (start demoArgs demoWorld).2 = .ok ∧ (start demoArgs demoWorld).1.length = 36 := by decide +kernel

example : (start demoArgs { demoWorld with mainRuns := false }).2 = .exit 1 ∧
    (start demoArgs { demoWorld with userInit := some false }).2 = .ok := by decide +kernel

/-! ## C152 -/

/-- C152.  A file that begins with "--version = " and a number has this number as its version. -/
theorem C152_header (ds rest : Text) (hne : ds ≠ []) (hd : ∀ d ∈ ds, isDigit d = true)
    (hr : ∀ c, rest.head? = some c → isDigit c = false) (hl : ds.length ≤ 87) (hv : value ds < 2147483648) :
    checkFile (some (bytes "--version = " ++ ds ++ rest)) = some (value ds : Int) := by
  have hdig : ∀ d, isDigit d = true → 48 ≤ d ∧ d ≤ 57 := by
    intro d h
    simpa [isDigit] using h
  unfold checkFile
  have hhead : (bytes "--version = ").length = 12 := by decide
  have hlen : (bytes "--version = " ++ ds).length ≤ 99 := by rw [List.length_append, hhead]; omega
  have h10 : ∀ c ∈ bytes "--version = " ++ ds, c ≠ 10 ∧ (c != 0) = true := by
    intro c hc
    rcases List.mem_append.mp hc with hc | hc
    · exact (by decide : ∀ c ∈ bytes "--version = ", c ≠ 10 ∧ (c != 0) = true) c hc
    · have := hdig c (hd c hc)
      exact ⟨by omega, by simp; omega⟩
  simp only
  rw [fgets_keep _ rest 99 (fun c hc => (h10 c hc).1) hlen, takeWhile_keep _ _ _ (fun c hc => (h10 c hc).2)]
  generalize hrest : List.takeWhile (fun c => c != 0) (fgets (99 - (bytes "--version = " ++ ds).length) rest) = r
  have hr' : ∀ c, r.head? = some c → isDigit c = false := by
    intro c hc
    rw [← hrest] at hc
    exact hr c (fgets_head _ _ c (takeWhile_head _ _ c hc))
  unfold scanVersion
  have hb : bytes "--version = " ++ ds ++ r = bytes "--version" ++ (32 :: 61 :: 32 :: (ds ++ r)) := by
    rw [show bytes "--version = " = bytes "--version" ++ [32, 61, 32] from by decide]
    simp
  rw [hb, strip_append]
  have hsp : List.dropWhile isSpace (32 :: 61 :: 32 :: (ds ++ r)) = 61 :: 32 :: (ds ++ r) := by
    rw [List.dropWhile_cons, if_pos (by decide), List.dropWhile_cons, if_neg (by decide)]
  obtain ⟨d, ds', rfl⟩ := List.exists_cons_of_ne_nil hne
  have hd0 := hdig d (hd d List.mem_cons_self)
  have hnsp : isSpace d = false := by
    simp only [isSpace, Bool.or_eq_false_iff, decide_eq_false_iff_not, Bool.and_eq_false_iff]
    omega
  have hsp2 : List.dropWhile isSpace (32 :: (d :: ds' ++ r)) = d :: ds' ++ r := by
    rw [List.dropWhile_cons, if_pos (by decide), List.cons_append, List.dropWhile_cons, if_neg (by simp [hnsp])]
  simp only [hsp, hsp2]
  unfold scanInt
  have h45 : ¬ (d :: ds' ++ r).head? = some 45 := by simp; omega
  have h43 : ¬ (d :: ds' ++ r).head? = some 43 := by simp; omega
  simp only [h45, h43, or_self, if_false, takeWhile_digits (d :: ds') r hd hr', decide_false, Bool.false_eq_true]
  rw [if_neg hne, if_pos ⟨by omega, by omega⟩]

example : checkFile (some (bytes "--version = 12\nfoo")) = some 12 ∧ value (bytes "12") = 12 := by decide +kernel

/-- C152 (part).  A file that begins with "--version = -" and a number has a negative version, which no file may have. -/
theorem C152_negative (ds rest : Text) (hne : ds ≠ []) (hd : ∀ d ∈ ds, isDigit d = true)
    (hr : ∀ c, rest.head? = some c → isDigit c = false) (hl : ds.length ≤ 86) (hv : value ds < 2147483648) :
    checkFile (some (bytes "--version = -" ++ ds ++ rest)) = some (-(value ds : Int)) := by
  have hdig : ∀ d, isDigit d = true → 48 ≤ d ∧ d ≤ 57 := by
    intro d h
    simpa [isDigit] using h
  unfold checkFile
  have hhead : (bytes "--version = -").length = 13 := by decide
  have hlen : (bytes "--version = -" ++ ds).length ≤ 99 := by rw [List.length_append, hhead]; omega
  have h10 : ∀ c ∈ bytes "--version = -" ++ ds, c ≠ 10 ∧ (c != 0) = true := by
    intro c hc
    rcases List.mem_append.mp hc with hc | hc
    · exact (by decide : ∀ c ∈ bytes "--version = -", c ≠ 10 ∧ (c != 0) = true) c hc
    · have := hdig c (hd c hc)
      exact ⟨by omega, by simp; omega⟩
  simp only
  rw [fgets_keep _ rest 99 (fun c hc => (h10 c hc).1) hlen, takeWhile_keep _ _ _ (fun c hc => (h10 c hc).2)]
  generalize hrest : List.takeWhile (fun c => c != 0) (fgets (99 - (bytes "--version = -" ++ ds).length) rest) = r
  have hr' : ∀ c, r.head? = some c → isDigit c = false := by
    intro c hc
    rw [← hrest] at hc
    exact hr c (fgets_head _ _ c (takeWhile_head _ _ c hc))
  unfold scanVersion
  have hb : bytes "--version = -" ++ ds ++ r = bytes "--version" ++ (32 :: 61 :: 32 :: 45 :: (ds ++ r)) := by
    rw [show bytes "--version = -" = bytes "--version" ++ [32, 61, 32, 45] from by decide]
    simp
  rw [hb, strip_append]
  have hsp : List.dropWhile isSpace (32 :: 61 :: 32 :: 45 :: (ds ++ r)) = 61 :: 32 :: 45 :: (ds ++ r) := by
    rw [List.dropWhile_cons, if_pos (by decide), List.dropWhile_cons, if_neg (by decide)]
  obtain ⟨d, ds', rfl⟩ := List.exists_cons_of_ne_nil hne
  have hd0 := hdig d (hd d List.mem_cons_self)
  have hsp2 : List.dropWhile isSpace (32 :: 45 :: (d :: ds' ++ r)) = 45 :: (d :: ds' ++ r) := by
    rw [List.dropWhile_cons, if_pos (by decide), List.dropWhile_cons, if_neg (by decide)]
  simp only [hsp, hsp2]
  unfold scanInt
  simp only [List.head?_cons, true_or, if_true, decide_true, List.tail_cons, takeWhile_digits (d :: ds') r hd hr']
  rw [if_neg hne, if_pos ⟨by omega, by omega⟩]

example : checkFile (some (bytes "--version = -2\nfoo")) = some (-2) := by decide +kernel

/-- C152 (part).  A file that does not begin with "--version" (a byte order mark is enough) has the version 0, which no file may
have. -/
theorem C152_foreign (t : Text) (h : ¬ bytes "--version" <+: t) : checkFile (some t) = some 0 := by
  unfold checkFile scanVersion
  simp only
  cases hs : strip (bytes "--version") (List.takeWhile (fun c => c != 0) (fgets 99 t)) with
  | none => rfl
  | some r =>
    exact absurd (((List.prefix_append _ r).trans (strip_some hs ▸ List.takeWhile_prefix _)).trans (fgets_prefix 99 t)) h

example : checkFile (some ([0xEF, 0xBB, 0xBF] ++ bytes "--version = 1")) = some 0 := by decide +kernel

/-- C152 (part).  When a file is missing or has another version, the program ends without having run any script, opened its ports, or
touched parameters and devices. -/
theorem C152_refused (a : Args) (w : World) (i : Nat) (hi : i < 8) (h : ¬ Right a w i) :
    (start a w).2 ≠ .ok ∧ ∀ e ∈ (start a w).1, e.acts = false := by
  refine ⟨fun hok => h ((C151_loop_partial a w hok).1.files i hi), ?_⟩
  intro e he
  cases hh : a.help with
  | true => simp [start, hh] at he
  | false =>
    cases hp : portsOf a with
    | none => simp [start, hh, hp] at he
    | some x =>
      obtain ⟨p, q⟩ := x
      rw [start_eq w hh hp] at he
      have hsplit := parts_split a w p q
      obtain ⟨m, hm⟩ := hsplit
      have hno : (stages ((if a.rcrc then [(.resetSize, .ok)] else []) ++ [(.ports p q, .ok)] ++ (List.range 8).map (look a w))).2 ≠ .ok := by
        intro hc
        have := stages_ok.mp hc (look a w i) (by
          simp only [List.mem_append, List.mem_map, List.mem_range]
          exact .inr ⟨i, hi, rfl⟩)
        exact h ((look_ok a w i hi).mp this).2
      rw [hm, stages_append, if_neg hno] at he
      have := (stages_prefix _).subset he
      simp only [List.map_append, List.map_map, List.mem_append, List.mem_map, Function.comp_apply] at this
      rcases this with (⟨x, hx, rfl⟩ | ⟨x, hx, rfl⟩) | ⟨j, _, rfl⟩
      · split at hx
        · rcases List.mem_singleton.mp hx with rfl; rfl
        · cases hx
      · rcases List.mem_singleton.mp hx with rfl; rfl
      · rfl

example : (start demoArgs { demoWorld with file := fun p => if p = bytes "prj/main.io.lua" then none else demoWorld.file p }) =
    ([.ports 10000 10502, .look 0, .look 1, .look 2, .look 3], .exit 1) := by decide +kernel

/-! ## C153 -/

/-- C153.  With directories that leave room for the names of the files the start has no undefined behaviour, as long as the
versions in the files and the port are in the range of `int`. -/
theorem C153_safe_partial (a : Args) (w : World) (hs : Short a) (hp : portsOf a ≠ none)
    (hv : ∀ i, i < 8 → checkFile (w.file (place a i)) ≠ none) : (start a w).2 ≠ .ub := by
  obtain ⟨⟨p, q⟩, hp⟩ := Option.ne_none_iff_exists'.mp hp
  cases hh : a.help with
  | true => simp [start, hh]
  | false =>
    rw [start_eq w hh hp]
    apply stages_ub
    intro x hx
    unfold parts luaInit loadConfiguration at hx
    simp only [List.mem_append, List.mem_map, List.mem_range, List.mem_cons, List.not_mem_nil, or_false] at hx
    rcases hx with (((hx | rfl) | hx) | hx) | rfl
    · split at hx
      · rcases List.mem_singleton.mp hx with rfl; simp
      · cases hx
    · simp
    · rcases hx with (((⟨i, hi, rfl⟩ | ⟨i, hi, rfl⟩) | rfl) | ((hx | ⟨i, hi, rfl⟩) | hx)) | hx
      · unfold look
        rw [path_eq, if_pos (hs i hi)]
        obtain ⟨v, hv⟩ := Option.ne_none_iff_exists'.mp (hv i hi)
        simp only [hv]
        split
        · simp
        · split <;> simp
      · unfold exec
        rw [path_eq, if_pos (hs i hi)]
        exact must_ne_ub _
      · simp
      · rcases hx with rfl | rfl | rfl | rfl | rfl <;> exact must_ne_ub _
      · exact must_ne_ub _
      · rcases hx with rfl | rfl <;> simp
      · rcases hx with rfl | rfl | rfl | rfl | rfl | rfl | rfl | rfl <;> first | exact must_ne_ub _ | simp
    · cases hw : w.opcUa with
      | none => rw [hw] at hx; cases hx
      | some b =>
        rw [hw] at hx
        rcases List.mem_singleton.mp hx with rfl
        exact must_ne_ub _
    · simp

/-- Directories of up to 78 bytes leave room. -/
theorem C153_room (a : Args) (h1 : a.sysDir.length ≤ 78) (h2 : a.dir.length ≤ 78) : Short a := by
  intro i hi
  have hf : (files.getD i []).length ≤ 21 := by
    have : ∀ i, i < 8 → (files.getD i []).length ≤ 21 := by decide +kernel
    exact this i hi
  unfold place
  rw [List.length_append]
  split <;> omega

example : Short demoArgs ∧ portsOf demoArgs ≠ none := ⟨C153_room _ (by decide +kernel) (by decide +kernel), by decide⟩

/-- C153 does not hold for longer directories: a directory with the system files of 90 bytes or more overflows the buffer of the path,
whatever the files are. -/
theorem C153_long_violated (a : Args) (w : World) (hh : a.help = false) (hp : portsOf a ≠ none) (hl : 90 ≤ a.sysDir.length) :
    (start a w).2 = .ub := by
  obtain ⟨⟨p, q⟩, hp⟩ := Option.ne_none_iff_exists'.mp hp
  rw [start_eq w hh hp]
  have h0 : look a w 0 = (.look 0, .ub) := by
    unfold look
    rw [path_eq, if_neg]
    unfold place
    rw [List.length_append, show (files.getD 0 []).length = 10 from by decide +kernel]
    simp only [Nat.zero_lt_succ, if_true]
    omega
  obtain ⟨m, hm⟩ := parts_split a w p q
  have h8 : (List.range 8).map (look a w) = (.look 0, .ub) :: (List.range 7).map fun i => look a w (i + 1) := by
    rw [← h0]
    rfl
  rw [hm, h8, stages_append]
  cases a.rcrc <;> simp [stages]

example : 90 ≤ (List.replicate 95 97 : Text).length := by decide

/-! ## C154 -/

/-- C154.  Without an option the server listens on the ports 10000 and 10502, with a port up to 65033 on this one and on that plus 502. -/
theorem C154_ports_partial (a : Args) (w : World) (x y : BitVec 16) (h : Ev.listen x y ∈ (start a w).1)
    (hr : ∀ p, a.port = some p → 0 < p → p ≤ 65033) :
    match a.port with
    | some p => if 0 < p then (x.toNat : Int) = p ∧ (y.toNat : Int) = p + 502 else x.toNat = 10000 ∧ y.toNat = 10502
    | none => x.toNat = 10000 ∧ y.toNat = 10502 := by
  have key : ∀ p q, portsOf a = some (p, q) → x = BitVec.ofInt 16 p ∧ y = BitVec.ofInt 16 q := by
    intro p q hp
    have := (C151_order a w p q hp).subset h
    unfold plan at this
    cases a.rcrc <;> cases w.opcUa <;> simpa [List.range_succ] using this
  cases hp : a.port with
  | none =>
    have := key 10000 10502 (by simp [portsOf, hp])
    rw [this.1, this.2]
    decide
  | some p =>
    simp only
    by_cases h0 : 0 < p
    · have hb := hr p hp h0
      have := key p (p + 502) (by simp [portsOf, hp, h0]; omega)
      rw [if_pos h0, this.1, this.2]
      simp only [BitVec.toNat_ofInt]
      omega
    · have := key 10000 10502 (by simp [portsOf, hp, h0])
      rw [if_neg h0, this.1, this.2]
      decide

example : Ev.listen 20000 20502 ∈ (start { demoArgs with port := some 20000 } demoWorld).1 := by decide +kernel

/-- C154 does not hold for larger ports: the server of Modbus then listens on another port than the one that is reported; for
65034 on a port the system chooses. -/
theorem C154_large_violated (a : Args) (w : World) (p : Int) (hp : a.port = some p) (h0 : 65033 < p)
    (x y : BitVec 16) (h : Ev.listen x y ∈ (start a w).1) : (y.toNat : Int) ≠ p + 502 ∧ (p = 65034 → y = 0) := by
  have hq : p + 502 < 2147483648 := by
    refine Decidable.byContradiction fun hc => ?_
    have hnone : portsOf a = none := by simp only [portsOf, hp]; rw [if_pos (by omega), if_neg hc]
    unfold start at h
    rw [hnone] at h
    split at h <;> simp at h
  have := (C151_order a w p (p + 502) (by simp only [portsOf, hp]; rw [if_pos (by omega), if_pos hq])).subset h
  have hy : y = BitVec.ofInt 16 (p + 502) := by
    unfold plan at this
    have h2 : x = BitVec.ofInt 16 p ∧ y = BitVec.ofInt 16 (p + 502) := by
      cases a.rcrc <;> cases w.opcUa <;> simpa [List.range_succ] using this
    exact h2.2
  constructor
  · have := y.isLt
    omega
  · rintro rfl
    rw [hy]
    decide

example : Ev.listen 65034 0 ∈ (start { demoArgs with port := some 65034 } demoWorld).1 := by decide +kernel

/-! ## C155 -/

/-- C155 (part).  The check sum of the parameters tells any two memories apart that differ in one byte (for the same controller). -/
theorem C155_checksum_partial (l m : List (BitVec 8)) (x y : BitVec 8) (id : BitVec 32) (h : x ≠ y) :
    solveCrc (l ++ x :: m) id ≠ solveCrc (l ++ y :: m) id := by
  intro hc
  unfold solveCrc at hc
  have h1 := crcByte_inj_left (crcByte_inj_left hc)
  rw [List.foldl_append, List.foldl_append, List.foldl_cons, List.foldl_cons] at h1
  exact h (crcByte_inj_right (fold_inj m h1))

example : solveCrc [1, 2, 3] 7 ≠ solveCrc [1, 6, 3] 7 := by decide +kernel

/-- **C155.**  The check sum tells apart any two projects whose numbers differ in their lower half. -/
theorem C155_project_partial (l : List (BitVec 8)) (id id' : BitVec 32) (h : id.toNat % 65536 ≠ id'.toNat % 65536) :
    solveCrc l id ≠ solveCrc l id' := by
  intro hc
  unfold solveCrc at hc
  obtain ⟨h1, h2⟩ := crc_two hc
  apply h
  have e1 := congrArg BitVec.toNat h1
  have e2 := congrArg BitVec.toNat h2
  simp [Nat.shiftRight_eq_div_pow] at e1 e2
  omega

example : solveCrc [1, 2, 3] 0x107 ≠ solveCrc [1, 2, 3] 0x207 := by decide +kernel

/-- **C155, violated.**  The upper half of the number of the project does not matter. -/
theorem C155_project_violated (l : List (BitVec 8)) (id id' : BitVec 32) (h : id.toNat % 65536 = id'.toNat % 65536) :
    solveCrc l id = solveCrc l id' := by
  have e1 : (id.truncate 8 : BitVec 8) = id'.truncate 8 := by
    apply BitVec.eq_of_toNat_eq
    simp
    omega
  have e2 : ((id >>> 8).truncate 8 : BitVec 8) = (id' >>> 8).truncate 8 := by
    apply BitVec.eq_of_toNat_eq
    simp [Nat.shiftRight_eq_div_pow]
    omega
  unfold solveCrc
  rw [e1, e2]

example : solveCrc [1, 2, 3] 0x10107 = solveCrc [1, 2, 3] 0x20107 := by decide +kernel

open Params Mem in
/-- C155 does not hold: the start never computes the check sum.  Whichever byte of the saved parameters is damaged, and however, as long
as the stored size is the size of the parameters the damaged byte is taken for the parameter, and nothing is written. -/
theorem C155_damage_violated (layout : List (Word × Word)) (df : Defaults) (d : Disk)
    (h : marker d = (createAll 0 layout).1) (p : Nat) (hp : p < 30720) (v : Byte) :
    let damaged : Disk := fun q => if q = 64 + p then v else d q
    (boot layout df damaged).ram p = v ∧ (boot layout df damaged).disk = damaged := by
  intro damaged
  have hm : marker damaged = (createAll 0 layout).1 := by
    rw [← h, marker_eq, marker_eq]
    simp only [getWord, damaged]
    repeat rw [if_neg (by omega)]
  unfold boot finalInitRam finalInitWrites
  simp only [if_pos hm]
  refine ⟨?_, by simp [applyAll]⟩
  rw [loadRam_apply, if_pos hp]
  simp [damaged]

open Params Mem in
example : marker (fun q => if q = 4 then 8 else 0) = (createAll 0 [(2, 0)]).1 := by decide +kernel

end Ptusa.Boot
