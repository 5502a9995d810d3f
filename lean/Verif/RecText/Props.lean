import Verif.RecText.Lemmas

/-!
# C217: the server reads the recipes from their text
-/
namespace Ptusa.RecText
open SaveDev LuaText

/-- **C217** (part). Whatever the buffer held and whatever the server knew: it reads, adapter by adapter, the activity, the number and the name of
the chosen recipe, the lists of recipes and the exact values of the parameters, and nothing else in its table changes. -/
theorem C217_read_partial (l : List Adapter) (h : ∀ a ∈ l, Readable a) (b : Buf) (env : Env) :
    ∃ env', runText (save b l) env = some env' ∧
      env' "RECMAN".toList = some (.table (l.map fun a => (none, .table (want a)))) ∧ ∀ x, x ≠ "RECMAN".toList → env' x = env x := by
  refine ⟨Function.update env "RECMAN".toList (some (.table (l.map fun a => (none, .table (want a))))), ?_, ?_, ?_⟩
  · rw [save_eq b l (short_pieces l fun a ha => (h a ha).short)]
    exact ObjText.runText_stmts (stmts_all l h) env
  · exact Function.update_self ..
  · intro x hx; exact Function.update_of_ne hx ..

/-- An adapter with a recipe of three parameters. -/
def sample : Adapter := ⟨1, 2, "milk".toList, "1##water||2##milk||".toList, ["1##water||".toList], [.dec false 20 0 0, .dec true 0 2 5, .nan false]⟩

example : Readable sample := by
  refine ⟨by decide +kernel, by decide +kernel, by decide +kernel, ?_, by decide +kernel⟩
  intro p hp
  rcases List.mem_cons.mp hp with e | hp
  · subst e; show 0 < 10 ^ 0; decide
  · rcases List.mem_cons.mp hp with e | hp
    · subst e; show 5 < 10 ^ 2; decide
    · rw [List.mem_singleton.mp hp]; rfl

example : save (fun _ => '?') [sample] =
    "t.RECMAN = \n\t{\n\t\t{\n\t\t\tCMD=0,\n\t\t\tACT=1,\n\t\t\tNMR=2,\n\t\t\tNAME='milk',\n\t\t\tLIST='1##water||2##milk||',\n\t\t\tLIST1='1##water||',\n\t\t\tPAR=\n\t\t\t{\n\t\t\t20,-0.05,nan,\n\t\t\t},\n\t\t},\n\t}\n".toList := by
  decide +kernel

/-- **C217 is violated** when a piece is longer than 1000 characters, as the list of some fifty recipes is: the text then contains
characters that an earlier answer left in the buffer. -/
theorem C217_stale_violated (l : List Adapter) (h : ∃ t ∈ pieces l, 1000 < t.length) : ∃ i, ∀ b, (save b l)[i]? = some (b i) := by
  obtain ⟨t, ht, hl⟩ := h
  obtain ⟨pre, post, hp⟩ := List.append_of_mem ht
  refine ⟨pre.flatten.length + 1000, fun b => ?_⟩
  obtain ⟨h1, h2⟩ := emit_long pre post t hl b
  unfold save
  rw [hp]
  simp only
  rw [List.getElem?_map, List.getElem?_range h2, Option.map_some, h1]

/-- A list of 1000 characters. -/
example : ∃ t ∈ pieces [{ sample with list := List.replicate 1000 'x' }], 1000 < t.length := by decide +kernel

/-- **C217 is violated**: a list of recipes longer than 990 characters, in a buffer that held line feeds, makes the recipes of all adapters unreadable. -/
theorem C217_long_violated (l1 l2 : List Adapter) (a : Adapter) (h1 : ∀ x ∈ l1, Readable x) (hn : Clean a.name) (hl : Clean a.list)
    (hs : ∀ t ∈ a.pieces.take 5, t.length ≤ 1000) (hlen : 990 < a.list.length) (env : Env) :
    runText (save (fun _ => '\n') (l1 ++ a :: l2)) env = none := by
  let pre : List Txt := "t.RECMAN = \n\t{".toList :: l1.flatMap Adapter.pieces ++ a.pieces.take 5
  let t : Txt := fieldText "LIST".toList (quoted a.list)
  have q : fieldText "LIST".toList (quoted a.list) = "\n\t\t\tLIST=".toList ++ ('\'' :: (a.list ++ ['\'', ','])) := by
    have : "\n\t\t\tLIST=".toList = "\n\t\t\t".toList ++ "LIST".toList ++ ['='] := by decide +kernel
    rw [this]; simp [fieldText, quoted]
  have hp : pieces (l1 ++ a :: l2) = pre ++ t :: (a.pieces.drop 6 ++ (l2.flatMap Adapter.pieces ++ ["\n\t}\n".toList])) := by
    have e : a.pieces = a.pieces.take 5 ++ t :: a.pieces.drop 6 := rfl
    unfold pieces
    rw [List.flatMap_append, List.flatMap_cons]
    conv => lhs; rw [e]
    simp [pre]
  have hpre : ∀ x ∈ pre, x.length ≤ 1000 := by
    intro x hx
    rcases List.mem_append.mp hx with hx | hx
    · rcases List.mem_cons.mp hx with hx | hx
      · rw [hx]; decide +kernel
      · obtain ⟨y, hy, hx⟩ := List.mem_flatMap.mp hx
        exact (h1 y hy).short x hx
    · exact hs x hx
  have hlt : 1000 < t.length := by
    show 1000 < (fieldText "LIST".toList (quoted a.list)).length
    rw [q]
    have : "\n\t\t\tLIST=".toList.length = 9 := by decide +kernel
    simp only [List.length_append, List.length_cons, this, List.length_nil]
    omega
  obtain ⟨r, hr⟩ := save_long (fun _ => '\n') (l1 ++ a :: l2) pre _ t hp hpre hlt
  have htake : t.take 1000 = "\n\t\t\tLIST=".toList ++ ('\'' :: a.list.take 990) := by
    show (fieldText "LIST".toList (quoted a.list)).take 1000 = _
    rw [q, List.take_append]
    have : "\n\t\t\tLIST=".toList.length = 9 := by decide +kernel
    rw [this, List.take_of_length_le (by rw [this]; omega), List.take_succ_cons, List.take_append_of_le_length (by omega)]
  have hscan : scan .idle (save (fun _ => '\n') (l1 ++ a :: l2)) = none := by
    rw [hr, htake]
    obtain ⟨ts, s1, _⟩ := all_flds l1 h1
    have s2 : ∃ us, scan .idle (a.pieces.take 5).flatten = some (.idle, us) := by
      have k2 : luaName "ACT".toList = true := by decide +kernel
      have k3 : luaName "NMR".toList = true := by decide +kernel
      have k4 : luaName "NAME".toList = true := by decide +kernel
      obtain ⟨u2, x2, _⟩ := flds_field k2 (item_nat a.act)
      obtain ⟨u3, x3, _⟩ := flds_field k3 (item_int a.nmr)
      obtain ⟨u4, x4, _⟩ := flds_field k4 (item_str a.name hn)
      have x0 : scan .idle "\n\t\t{".toList = some (.idle, [.sym '{']) := by decide +kernel
      have x1 : scan .idle (fieldText "CMD".toList ['0']) = some (.idle, [.name "CMD".toList, .sym '=', .num 0, .sym ',']) := by decide +kernel
      refine ⟨_, Eq.trans (congrArg (scan .idle) ?_) (scan_app x0 (scan_app x1 (scan_app x2 (scan_app x3 x4))))⟩
      simp [Adapter.pieces, quoted]
    obtain ⟨us, s2⟩ := s2
    have s3 : scan .idle "\n\t\t\tLIST=".toList = some (.idle, [.name "LIST".toList, .sym '=']) := by decide +kernel
    have s4 : scan .idle ['\''] = some (.str '\'' [], []) := by decide +kernel
    have hc : Clean (a.list.take 990) := fun c hc => hl c (List.mem_of_mem_take hc)
    have hnone : scan (.str '\'' []) (a.list.take 990 ++ '\n' :: r) = none := ObjText.scan_str_newline [] _ hc r
    have all := scan_app_none head_scan (scan_app_none s1 (scan_app_none s2 (scan_app_none s3 (scan_app_none s4 hnone))))
    refine Eq.trans (congrArg (scan .idle) ?_) all
    simp [pre]
  simp [runText, lex_scan, hscan]

example : (∀ t ∈ ({ sample with list := List.replicate 991 'x' } : Adapter).pieces.take 5, t.length ≤ 1000) ∧
    Clean (List.replicate 991 'x') ∧ runText (save (fun _ => '\n') [{ sample with list := List.replicate 991 'x' }]) (fun _ => none) = none := by
  refine ⟨by decide +kernel, by decide +kernel, ?_⟩
  exact C217_long_violated [] [] { sample with list := List.replicate 991 'x' } (fun _ h => nomatch h) (by decide +kernel) (by decide +kernel)
    (by decide +kernel) (by decide +kernel) _

/-- **C217 is violated** by a name with an apostrophe and by a parameter that is a negative not-a-number. -/
theorem C217_text_violated :
    runText (save (fun _ => ' ') [{ sample with name := "d'or".toList }]) (fun _ => none) = none ∧
    runText (save (fun _ => ' ') [{ sample with params := [.nan true] }]) (fun _ => none) = none := by
  have h : ∀ x : Option Env, x.isNone = true → x = none := fun x hx => Option.isNone_iff_eq_none.mp hx
  exact ⟨h _ (by decide +kernel), h _ (by decide +kernel)⟩

end Ptusa.RecText
