import Verif.Journal.Spec
import Verif.Journal.Lemmas

/-!
# C225 — The journal holds the messages
-/
namespace Ptusa.Journal
open SaveDev (Txt intText natText)

theorem emit_shows (p : Prio) (t : Txt) : Shows (emit p t) p t := by
  have key : ∀ t : Txt, (oneLine t).length = t.length ∧ ∀ i c, t[i]? = some c → (oneLine t)[i]? = some (if c = '\n' ∧ i + 1 < t.length then ';' else c) := by
    intro t
    induction t with
    | nil => exact ⟨rfl, fun i c h => by simp at h⟩
    | cons x t ih =>
      cases t with
      | nil =>
        refine ⟨rfl, fun i c h => ?_⟩
        cases i with
        | zero =>
          rw [if_neg (by simp)]
          exact h
        | succ i => simp at h
      | cons y t =>
        refine ⟨congrArg (· + 1) ih.1, fun i c h => ?_⟩
        cases i with
        | zero =>
          have e : x = c := by simpa using h
          subst e
          show some (if x = '\n' then ';' else x) = _
          by_cases c1 : x = '\n'
          · rw [if_pos c1, if_pos ⟨c1, by simp⟩]
          · rw [if_neg c1, if_neg (fun z => c1 z.1)]
        | succ i =>
          have := ih.2 i c h
          show (oneLine (y :: t))[i]? = _
          rw [this]
          simp
  exact ⟨rfl, rfl, (key t).1, (key t).2⟩

/-- **C225.**  A text given as such is in the journal, up to 10239 bytes of it. -/
theorem C225_text (p : Prio) (t : Txt) : Shows (writeLog p t) p (t.take 10239) := emit_shows p _

/-- **C225, in part.**  A message without a percent sign and shorter than the buffer is in the journal, whatever the arguments. -/
theorem C225_plain_partial (p : Prio) (t : Txt) (as : List Arg) (h : '%' ∉ t) (hl : t.length < 10240) : ∃ e, logf p t as = some [e] ∧ Shows e p t := by
  refine ⟨_, ?_, emit_shows p t⟩
  unfold logf
  rw [format_text t as h]
  exact if_pos hl

/-- A text with each percent sign doubled. -/
def doubled (t : Txt) : Txt := t.flatMap fun c => if c = '%' then ['%', '%'] else [c]

theorem format_doubled (t : Txt) (as : List Arg) : format (doubled t) as = some t := by
  induction t with
  | nil => rfl
  | cons c t ih =>
    by_cases e : c = '%'
    · subst e
      show format ('%' :: '%' :: doubled t) as = _
      unfold format
      rw [if_pos rfl]
      show ((format (doubled t) as).map (['%'] ++ ·)) = _
      rw [ih]
      rfl
    · have e1 : doubled (c :: t) = c :: doubled t := by
        show (if c = '%' then ['%', '%'] else [c]) ++ doubled t = _
        rw [if_neg e]
        rfl
      rw [e1]
      generalize doubled t = u at ih
      cases u with
      | nil =>
        have : t = [] := by
          have := ih
          unfold format at this
          exact (Option.some.inj this).symm
        subst this
        unfold format
        exact if_neg e
      | cons x u =>
        unfold format
        rw [if_neg e, ih]
        rfl

/-- **C225.**  A text whose percent signs are doubled can be a message: it is in the journal with each of them once. -/
theorem C225_doubled (p : Prio) (t : Txt) (as : List Arg) (hl : t.length < 10240) : ∃ e, logf p (doubled t) as = some [e] ∧ Shows e p t := by
  refine ⟨_, ?_, emit_shows p t⟩
  unfold logf
  rw [format_doubled t as]
  exact if_pos hl

example : doubled "5% sugar".toList = "5%% sugar".toList := by decide +kernel

/-- **C225, in part.**  A message with a text as its argument: the text stands in its place, with percent signs or not. -/
theorem C225_args_partial (p : Prio) (a b x : Txt) (ha : '%' ∉ a) (hb : '%' ∉ b) (hl : (a ++ x ++ b).length < 10240) :
    ∃ e, logf p (a ++ "%s".toList ++ b) [.str x] = some [e] ∧ Shows e p (a ++ x ++ b) := by
  refine ⟨_, ?_, emit_shows p _⟩
  unfold logf
  rw [List.append_assoc, format_plain a _ _ ha]
  show Option.bind (Option.map _ (format ('%' :: 's' :: b) [.str x])) _ = _
  rw [format_s]
  rw [format_text b [] hb]
  simp only [Option.map_some, Option.bind_some, ← List.append_assoc]
  exact if_pos hl

/-- **C225 (violated).**  A text that is used as the message itself and has a percent sign before anything but a percent sign: arguments are read that
nobody gave. -/
theorem C225_percent_violated (p : Prio) (a b : Txt) (c : Char) (ha : '%' ∉ a) (hc : c ≠ '%') : logf p (a ++ '%' :: c :: b) [] = none := by
  unfold logf
  rw [format_plain a _ _ ha, format_bad c b hc]
  rfl

/-- **C225 (violated).**  So does every command for recipes that the server sends, when the program runs with debug output: a recipe with the name “5% sugar”. -/
theorem C225_command_violated : driverCmd true "__RECMAN[1]:set_cmd( \"NAME\", 0, \"5% sugar\" )".toList = none := by decide +kernel

/-- **C225, in part.**  Without debug output, or with a command that has no percent sign, nothing goes wrong. -/
theorem C225_command_partial (dbg : Bool) (cmd : Txt) (h : dbg = true → '%' ∉ cmd ∧ cmd.length < 10240) :
    ∃ j, driverCmd dbg cmd = some j ∧ (dbg = true → ∃ e, j = [e] ∧ Shows e .debug cmd) ∧ (dbg = false → j = []) := by
  cases dbg with
  | false => exact ⟨[], rfl, fun x => (nomatch x), fun _ => rfl⟩
  | true =>
    obtain ⟨e, e1, e2⟩ := C225_plain_partial .debug cmd [] (h rfl).1 (h rfl).2
    exact ⟨[e], e1, fun _ => ⟨e, rfl, e2⟩, fun x => (nomatch x)⟩

/-- **C225 (violated).**  A message longer than the buffer is written behind it. -/
theorem C225_long_violated (p : Prio) (t : Txt) (as : List Arg) (h : '%' ∉ t) (hl : 10240 ≤ t.length) : logf p t as = none := by
  unfold logf
  rw [format_text t as h]
  exact if_neg (by unfold size; omega)

/-- **C225.**  The version of a file is the one its first line states. -/
theorem C225_version (name rest line : Txt) (v : Nat) (h : States v line) : checkFile false name (some (line ++ '\n' :: rest)) = some ((v : Int), [], []) := by
  obtain ⟨⟨b, c, t, rfl, hb, ht⟩, hn, hl⟩ := h
  have bl : ∀ x ∈ b ++ c, isBlank x = true := fun x hx => by rcases hb x hx with rfl | rfl <;> rfl
  have hs : scanVersion (firstLine (("--version".toList ++ b ++ '=' :: c ++ natText v ++ t) ++ '\n' :: rest)) = v := by
    rw [firstLine_eq _ _ hn hl]
    unfold scanVersion
    rw [if_pos (by simp only [List.append_assoc]; exact List.isPrefixOf_iff_prefix.2 (List.prefix_append _ _))]
    have e1 : (("--version".toList ++ b ++ '=' :: c ++ natText v ++ t) ++ ['\n']).drop 9 = b ++ ('=' :: (c ++ (natText v ++ (t ++ ['\n'])))) := by
      simp only [List.append_assoc, List.cons_append]
      rfl
    rw [e1, dropBlanks b _ (fun x hx => bl x (by simp [hx])) (fun x u e => by rw [← (List.cons.inj e).1]; rfl)]
    show scanInt (List.dropWhile isBlank _) = _
    rw [dropBlanks c _ (fun x hx => bl x (by simp [hx])), scanInt_nat]
    · intro x u e
      cases t with
      | nil => rw [← (List.cons.inj e).1]; rfl
      | cons y t => rw [← (List.cons.inj e).1]; exact ht y t rfl
    · intro x u e
      have hd := SaveDev.natText_digits v
      have hne := SaveDev.natText_ne v
      revert e hd hne
      generalize natText v = w
      intro e hd hne
      cases w with
      | nil => exact absurd rfl hne
      | cons y w =>
        have ey : y = x := (List.cons.inj e).1
        have dy := hd y (by simp)
        rw [ey] at dy
        cases hx : isBlank x with
        | false => rfl
        | true => rw [blank_digit x hx] at dy; exact nomatch dy
  unfold checkFile
  simp only [hs]
  rfl

theorem wrongVersion_eq (name : Txt) (v want : Nat) : wrongVersion name v want =
    some ("File \"".toList ++ name ++ "\" has version ".toList ++ natText v ++ ", must be ".toList ++ natText want ++
      " (consider updating program \"ptusa_main\").".toList) := by
  have it : ∀ k : Nat, intText (k : Int) = natText k := fun k => by
    unfold intText
    rw [if_neg (by omega)]
    rfl
  show format ("File \"".toList ++ '%' :: 's' :: ("\" has version ".toList ++ '%' :: 'd' :: (", must be ".toList ++ '%' :: 'd' ::
    " (consider updating program \"ptusa_main\").".toList))) _ = _
  rw [format_plain _ _ _ (by decide), format_s, format_plain _ _ _ (by decide), format_d, format_plain _ _ _ (by decide), format_d]
  rw [format_text _ _ (by decide)]
  simp only [Option.map_some, it, List.append_assoc]

theorem wrongVersion_length (name a b : Txt) :
    ("File \"".toList ++ name ++ "\" has version ".toList ++ a ++ ", must be ".toList ++ b ++ " (consider updating program \"ptusa_main\").".toList).length =
      72 + name.length + a.length + b.length := by
  have a1 : "File \"".toList.length = 6 := rfl
  have a2 : "\" has version ".toList.length = 14 := rfl
  have a3 : ", must be ".toList.length = 10 := rfl
  have a4 : " (consider updating program \"ptusa_main\").".toList.length = 42 := by decide +kernel
  simp only [List.length_append]
  omega

/-- **C225, in part.**  A script of the right version passes; one of another version is reported with its name and both versions, to the server and in the
journal, if name and versions have less than 28 characters together. -/
theorem C225_reload_partial (dir name rest line : Txt) (here : Option Txt) (v want : Nat) (h : States v line) (hp : (dir ++ name).length < 100)
    (hl : name.length + (natText v).length + (natText want).length < 28) :
    (v = want → reloadCheck false dir name want (some (line ++ '\n' :: rest)) here = some (none, [])) ∧
    (v ≠ want → ∃ e m, reloadCheck false dir name want (some (line ++ '\n' :: rest)) here = some (some m, [e]) ∧ Shows e .err m ∧
      m = "File \"".toList ++ name ++ "\" has version ".toList ++ natText v ++ ", must be ".toList ++ natText want ++
        " (consider updating program \"ptusa_main\").".toList) := by
  have hc := C225_version (dir ++ name) rest line v h
  have n1 : ¬ ((v : Int) = -1) := by omega
  have n2 : ¬ 100 ≤ (dir ++ name).length := by omega
  constructor
  · intro e
    subst e
    unfold reloadCheck
    rw [if_neg n2, hc]
    simp only [Option.bind_some, if_neg n1]
    rw [if_neg (fun x => x rfl)]
  · intro ne
    have hm := wrongVersion_length name (natText v) (natText want)
    obtain ⟨e, e1, e2⟩ := C225_args_partial .err [] [] ("File \"".toList ++ name ++ "\" has version ".toList ++ natText v ++ ", must be ".toList ++ natText want ++
          " (consider updating program \"ptusa_main\").".toList) (by simp) (by simp) (by
        rw [List.nil_append, List.append_nil, hm]
        omega)
    rw [List.nil_append, List.append_nil] at e2
    refine ⟨e, _, ?_, e2, rfl⟩
    unfold reloadCheck
    rw [if_neg n2, hc]
    simp only [Option.bind_some, if_neg n1]
    rw [if_pos (show (want : Int) ≠ (v : Int) by omega), wrongVersion_eq]
    simp only [Option.bind_some]
    rw [if_neg (by rw [hm]; omega)]
    rw [List.nil_append, List.append_nil] at e1
    rw [e1]
    rfl

/-- **C225 (violated).**  A longer message does not fit into `err_str`: a version of six digits or more, such as a date, in “main.restrictions.lua”. -/
theorem C225_reload_violated (dir name rest line : Txt) (here : Option Txt) (v want : Nat) (h : States v line) (ne : v ≠ want)
    (hl : 28 ≤ name.length + (natText v).length + (natText want).length) :
    reloadCheck false dir name want (some (line ++ '\n' :: rest)) here = none := by
  have hc := C225_version (dir ++ name) rest line v h
  have n1 : ¬ ((v : Int) = -1) := by omega
  unfold reloadCheck
  by_cases c : 100 ≤ (dir ++ name).length
  · exact if_pos c
  rw [if_neg c, hc]
  simp only [Option.bind_some, if_neg n1]
  rw [if_pos (show (want : Int) ≠ (v : Int) by omega), wrongVersion_eq]
  simp only [Option.bind_some]
  exact if_pos (by rw [wrongVersion_length]; omega)

/-- **C225 (violated).**  A file that is not found is reported by an empty entry: the empty `err_str` is used as the message. -/
theorem C225_missing_violated (dbg : Bool) (name : Txt) : checkFile dbg name none = some (-1, [], [⟨.err, [], []⟩]) := rfl

/-- **C225 (violated).**  A script that is to be loaded again and is missing in both directories: three empty entries, and an empty text for the server. -/
theorem C225_missing_reload_violated (dbg : Bool) (dir name : Txt) (want : Int) (hp : (dir ++ name).length < 100) :
    reloadCheck dbg dir name want none none = some (some [], [⟨.err, [], []⟩, ⟨.err, [], []⟩, ⟨.err, [], []⟩]) := by
  unfold reloadCheck
  rw [if_neg (by omega)]
  rfl

/-- A message of two lines. -/
example : logf .err "a\nb\n".toList [] = some [⟨.err, "a\nb\n".toList, "a;b\n".toList⟩] := by decide +kernel

/-- An argument with a percent sign does no harm. -/
example : logf .err "Error: %s!".toList [.str "5% s".toList] = some [⟨.err, "Error: 5% s!".toList, "Error: 5% s!".toList⟩] := by decide +kernel

example : States 12 "--version  = 12 ;".toList :=
  ⟨⟨"  ".toList, " ".toList, " ;".toList, by simp [natText, SaveDev.digit], by decide, fun x u e => by rw [← (List.cons.inj e).1]; decide⟩, by decide, by decide⟩

end Ptusa.Journal
