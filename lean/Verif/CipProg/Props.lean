import Verif.CipProg.Lemmas

/-!
# C128, C129: the list of washing programs and the choice of one
-/
namespace Ptusa.CipProg
open Valve (toUnsigned)

/-- C128.  After any history the list offers either the preparation of solutions (and the cleaning of the tanks), or
exactly the programs that the mask of the object allows, each once. -/
theorem C128_list_partial (sc : Bool) (es : List Ev) (l : Ln) (h : run (initial sc) es = some l) :
    (∃ sc, numbers l.list = prepared sc) ∨
      ∃ m, toUnsigned 64 l.mask = some m ∧ (numbers l.list).Nodup ∧ ∀ n, n ∈ numbers l.list ↔ Offered m l.prog n := by
  rcases (run_inv es _ l (initial_inv sc) h).list with ⟨sc, h⟩ | ⟨m, hm, h⟩
  · exact .inl ⟨sc, by rw [h, prep_numbers]⟩
  · exact .inr ⟨m, hm, by rw [h]; exact wash_nodup m _, fun n => by rw [h]; exact numbers_wash m _ n⟩

/-- C128.  Once an object was chosen, and as long as only programs are chosen and washed, the list is that of the object. -/
theorem C128_object_partial (sc : Bool) (es fs : List Ev) (m : Nat) (hm : m < 2 ^ 32)
    (hf : ∀ e ∈ fs, (∃ v, e = .server v) ∨ (∃ k, e = .panel k) ∨ e = .cycle ∨ e = .start) (l : Ln)
    (h : run (initial sc) (es ++ [.recipe (.num m), .cycle] ++ fs) = some l) (n : Nat) :
    n ∈ numbers l.list ↔ Offered m l.prog n := by
  rw [run_append, Option.bind_eq_some_iff] at h
  obtain ⟨l2, h2, h3⟩ := h
  rw [run_append, Option.bind_eq_some_iff] at h2
  obtain ⟨l1, h1, h2⟩ := h2
  have hi := run_inv _ _ _ (initial_inv sc) h1
  have hc := run_chosen m hm fs l2 l (by
    intro e he
    rcases hf e he with ⟨v, rfl⟩ | ⟨k, rfl⟩ | rfl | rfl <;> rfl) (recipe_chosen m hm l1 l2 hi.agree.size h2) h3
  rw [hc.list]
  exact numbers_wash m _ n

/-- C128.  The rows of the panel are those of the list, up to the 16 rows the panel has. -/
theorem C128_panel_partial (sc : Bool) (es : List Ev) (l : Ln) (h : run (initial sc) es = some l) :
    l.len = min 16 l.list.length ∧ ∀ k < l.len, l.rows[k]? = l.list[k]? := by
  have hi := (run_inv es _ l (initial_inv sc) h).agree
  refine ⟨hi.len, fun k hk => ?_⟩
  have h1 : k < 16 := by have := hi.len; simp only [panelMax] at this; omega
  have := congrArg (·[k]?) hi.rows
  simpa [List.getElem?_take, hk, h1, panelMax] using this

-- An object with disinfection, rinse and acid; after disinfection was chosen the list does not change, as leaving out the
-- rinse is not allowed (bit 16).
example : ((run (initial true) [.recipe (.num 11), .cycle]).map fun l => (numbers l.list, l.len)) = some ([5, 128, 144], 3) ∧
    ((run (initial true) [.recipe (.num 11), .cycle, .panel 0, .cycle]).map fun l => (numbers l.list, l.prog, l.name)) =
      some ([5, 128, 144], 5, "Дезинфекция") ∧
    ((run (initial true) [.recipe (.num 65547), .cycle, .panel 0, .cycle]).map fun l => numbers l.list) =
      some [5, 128, 144, 9010] ∧
    numbers (initial true).list = [256, 512, 2048] := by
  decide +kernel

/-- C128 fails at the panel for an object that allows everything: the seventeenth row, to leave out the rinse, is not
shown, so that it cannot be chosen at the panel. -/
theorem C128_last_row_violated (sc : Bool) :
    ∃ l, run (initial sc) [.recipe (.num 0x1FFFF), .cycle, .server (.num 5), .cycle] = some l ∧
      9010 ∈ numbers l.list ∧ ∀ r ∈ l.rows, r.1 ≠ 9010 := by
  cases sc
  · refine ⟨_, rfl, ?_⟩
    decide +kernel
  · refine ⟨_, rfl, ?_⟩
    decide +kernel

/-- C129.  The name that is shown is always that of the program that will run: whether the final rinse is left out, and
for a rinse with clean water where it goes. -/
theorem C129_shown (sc : Bool) (es : List Ev) (l : Ln) (h : run (initial sc) es = some l) :
    l.name ∈ titles l.prog l.noRinse l.canal :=
  (run_inv es _ l (initial_inv sc) h).name

/-- C129.  The final rinse is left out only of programs for which that can be chosen: whenever a washing program is
loaded for which it cannot, it is done. -/
theorem C129_rinsed (sc : Bool) (es : List Ev) (l : Ln) (h : run (initial sc) es = some l)
    (hp : rinseOptional l.prog = false) (hw : l.prog ≠ 0 ∧ l.prog ≠ 256 ∧ l.prog ≠ 512 ∧ l.prog ≠ 2048) :
    l.noRinse = false := by
  have := (run_inv es _ l (initial_inv sc) h).option
  cases hn : l.noRinse with
  | false => rfl
  | true =>
    rcases this hn with h | h | h | h | h
    · rw [h] at hp; cases hp
    all_goals simp_all

/-- C129.  Choosing an offered program, other than the option, loads it: it runs, with the final rinse. -/
theorem C129_choice_partial (sc : Bool) (es : List Ev) (l : Ln) (h : run (initial sc) (es ++ [.cycle]) = some l)
    (n : Nat) (hn : n ∈ numbers l.list) (h9 : n ≠ 9010) :
    ∃ l', run l [.server (.num n), .cycle] = some l' ∧ l'.prog = runs n ∧ l'.loaded = n ∧
      l'.noRinse = (l.noRinse && (n == 256 || n == 512 || n == 2048)) ∧
      (n = 9000 → l'.canal = true) ∧ (n = 9001 → l'.canal = false) := by
  obtain ⟨hr, m, hm⟩ := run_cycle es sc l h
  rcases (run_inv _ _ l (initial_inv sc) h).list with ⟨sc, hl⟩ | ⟨m', -, hl⟩
  · rw [hl, prep_numbers] at hn
    have hp : ∃ s, prepNames n = some s := by
      unfold prepared at hn
      split at hn <;> simp only [List.mem_cons, List.not_mem_nil, or_false] at hn <;>
        (rcases hn with rfl | rfl | rfl) <;> simp [prepNames]
    obtain ⟨s, hs⟩ := hp
    have h3 : n = 256 ∨ n = 512 ∨ n = 2048 := (prepNames_titles n s hs false false).2
    refine ⟨_, run_choose l n m (by omega) (by omega) hr hm, ?_⟩
    rw [pick_prep _ n s hs]
    refine ⟨(form_fields _ m).2.1.trans ?_, (form_fields _ m).2.2.1.trans rfl, (form_fields _ m).2.2.2.1.trans ?_, ?_, ?_⟩
    all_goals rcases h3 with rfl | rfl | rfl <;> simp [runs]
  · rw [hl, numbers_wash] at hn
    obtain ⟨b, hb, -⟩ := hn
    obtain ⟨h0, h1⟩ := bitOf_lt n b hb
    refine ⟨_, run_choose l n m h0 h1 hr hm, ?_⟩
    obtain ⟨a1, a2, a3, a4, a5, a6, a7, a8, a9⟩ := form_fields (({ l with sel := .num n } : Ln).pick n) m
    simp only [a2, a3, a4, a5]
    rcases bitOf_names n b hb with rfl | rfl | rfl | ⟨s, hs⟩
    · simp [Ln.pick, runs]
    · simp [Ln.pick, runs]
    · exact absurd rfl h9
    · rw [pick_names _ n s hs]
      have : n ≠ 9000 ∧ n ≠ 9001 ∧ n ≠ 256 ∧ n ≠ 512 ∧ n ≠ 2048 := by
        refine ⟨?_, ?_, ?_, ?_, ?_⟩ <;> rintro rfl <;> simp [names] at hs
      simp [runs, this]

/-- C129.  A row chosen at the panel while no wash runs is the program of that row of the list. -/
theorem C129_panel_partial (sc : Bool) (es : List Ev) (l : Ln) (h : run (initial sc) es = some l) (hb : l.busy = false)
    (k : Nat) (hk : k < l.len) :
    ∃ r, l.list[k]? = some r ∧ l.step (.panel k) = l.step (.server (.num r.1)) := by
  have hi := C128_panel_partial sc es l h
  have h1 := hi.2 k hk
  have h2 : k < l.list.length := by omega
  refine ⟨l.list[k], by simp [h2], ?_⟩
  rw [List.getElem?_eq_getElem h2] at h1
  simp [Ln.step, hb, h1]

/-- C129.  Leaving out the rinse of a program that allows it keeps the program. -/
theorem C129_option_partial (sc : Bool) (es : List Ev) (l : Ln) (h : run (initial sc) (es ++ [.cycle]) = some l)
    (hp : rinseOptional l.prog = true) :
    ∃ l', run l [.server (.num 9010), .cycle] = some l' ∧ l'.prog = l.prog ∧ l'.noRinse = true ∧ l'.canal = l.canal := by
  obtain ⟨hr, m, hm⟩ := run_cycle es sc l h
  have hrun := run_choose l 9010 m (by omega) (by omega) hr hm
  rw [show ((9010 : Nat) : Rat) = (9010 : Rat) from rfl] at hrun
  refine ⟨_, hrun, ?_⟩
  obtain ⟨a1, a2, a3, a4, a5, a6, a7, a8, a9⟩ := form_fields (({ l with sel := .num 9010 } : Ln).pick (9010 : Nat)) m
  simp only [a2, a4, a5]
  simp only [rinseOptional, Bool.or_eq_true, beq_iff_eq] at hp
  rcases hp with ((hp | hp) | hp) | hp <;> simp [Ln.pick, hp, noRinseNames]

-- Acid with disinfection, then without the rinse; the row of the option is the last one.
example : ((run (initial false) [.recipe (.num 0x10018), .cycle, .panel 1, .cycle]).map fun l =>
      (numbers l.list, l.prog, l.name, l.busy)) = some ([144, 149, 9010], 149, "Кислота+Дез", false) ∧
    ((run (initial false) [.recipe (.num 0x10018), .cycle, .panel 1, .cycle, .panel 2, .cycle]).map fun l =>
      (l.prog, l.name, l.noRinse)) = some (149, "Кисл+ДезБО", true) := by
  decide +kernel

/-- C129 fails for a rinse with disinfection: leaving out the final rinse is offered, but choosing it drops the program. -/
theorem C129_option_violated (sc : Bool) :
    ∃ l, run (initial sc) [.recipe (.num 0x10004), .cycle, .server (.num 133), .cycle] = some l ∧ l.prog = 133 ∧
      9010 ∈ numbers l.list ∧
      ∃ l', run l [.server (.num 9010), .cycle] = some l' ∧ l'.prog = 0 ∧ l'.name = noProgram := by
  cases sc
  · refine ⟨_, rfl, by decide +kernel, by decide +kernel, _, rfl, ?_⟩
    decide +kernel
  · refine ⟨_, rfl, by decide +kernel, by decide +kernel, _, rfl, ?_⟩
    decide +kernel

/-- C129 fails for the way of the final rinse: after the rinse to the canal was chosen, and instead of it any other
washing program, the final rinse of that program goes to the canal too. -/
theorem C129_return_violated (sc : Bool) (es : List Ev) (l : Ln) (h : run (initial sc) (es ++ [.cycle]) = some l)
    (n : Nat) (s : String) (hs : names n = some s) :
    ∃ l', run l [.server (.num 9000), .cycle, .server (.num n), .cycle] = some l' ∧ l'.prog = n ∧ l'.name = s ∧
      l'.canal = true := by
  obtain ⟨hr, m, hm⟩ := run_cycle es sc l h
  have hrun := run_choose l 9000 m (by omega) (by omega) hr hm
  rw [show ((9000 : Nat) : Rat) = (9000 : Rat) from rfl] at hrun
  have hn : 0 < n ∧ n < 2 ^ 31 := by
    unfold names at hs
    split at hs <;> simp_all
  rw [show [Ev.server (.num 9000), .cycle, .server (.num n), .cycle] =
    [Ev.server (.num 9000), .cycle] ++ [.server (.num n), .cycle] from rfl, run_append, hrun, Option.bind_some]
  have hp : ({ l with sel := Fl.num 9000 } : Ln).pick (9000 : Nat) = { l with
      loaded := 9000, name := "Опол.чист.водой в канал.", canal := true, prog := 1, noRinse := false,
      sel := Fl.num 9000 } := by
    simp [Ln.pick]
  rw [hp]
  generalize hl0 : ({ l with
      loaded := 9000, name := "Опол.чист.водой в канал.", canal := true, prog := 1, noRinse := false,
      sel := Fl.num 9000 } : Ln) = l0
  obtain ⟨a1, a2, a3, a4, a5, a6, a7, a8, a9⟩ := form_fields l0 m
  have hm1 : toUnsigned 64 ({ l0.form m with sel := Fl.num 0 } : Ln).mask = some m := by
    change toUnsigned 64 (l0.form m).mask = some m
    rw [a7, ← hl0]; exact hm
  have hr1 : ({ l0.form m with sel := Fl.num 0 } : Ln).recipe = none := by
    change (l0.form m).recipe = none
    rw [a9, ← hl0]; exact hr
  refine ⟨_, run_choose _ n m hn.1 hn.2 hr1 hm1, ?_⟩
  rw [pick_names _ n s hs]
  have hf := form_fields { l0.form m with sel := Fl.num n, loaded := n, name := s, prog := n, noRinse := false } m
  refine ⟨hf.2.1, hf.2.2.2.2.2.1, hf.2.2.2.2.1.trans ?_⟩
  change (l0.form m).canal = true
  rw [a5, ← hl0]

/-- C129 fails when another object is chosen after the program: the program stays loaded, whether the mask of the new
object allows it or not, and a wash can be started with it. -/
theorem C129_object_violated (sc : Bool) (es : List Ev) (l : Ln) (h : run (initial sc) (es ++ [.cycle]) = some l)
    (hsel : (Fl.num 0).lt l.sel = false) (m : Nat) (hm : m < 2 ^ 32) :
    ∃ l', run l [.recipe (.num m), .cycle] = some l' ∧ l'.prog = l.prog ∧ l'.name = l.name ∧
      ∀ n, n ∈ numbers l'.list ↔ Offered m l.prog n := by
  have hi := run_inv _ _ _ (initial_inv sc) h
  have hf := form_fields { l with mask := .num m, recipe := none } m
  have he : run l [.recipe (.num m), .cycle] = some (({ l with mask := .num m, recipe := none } : Ln).form m) := by
    rw [run_recipe l _ m (toUnsigned_nat m 32 hm), Ln.evalProgram, hf.2.2.2.2.2.2.2.1]
    simp [hsel]
  refine ⟨_, he, hf.2.1, hf.2.2.2.2.2.1, fun n => ?_⟩
  have := (recipe_chosen m hm l _ hi.agree.size he).list
  rw [this, hf.2.1]
  exact numbers_wash m _ n

-- Acid for the first object; the second one allows rinsing only.
example : ((run (initial false) [.recipe (.num 8), .cycle, .panel 0, .cycle, .recipe (.num 2), .cycle]).map fun l =>
    (l.prog, l.name, numbers l.list)) = some (144, "Кислота", [128]) := by
  decide +kernel

/-- C129 fails for programs that are not offered: the server can choose every washing program for every object, also
while a wash runs. -/
theorem C129_not_offered_violated (sc : Bool) (es : List Ev) (l : Ln) (h : run (initial sc) (es ++ [.cycle]) = some l)
    (n : Nat) (s : String) (hs : names n = some s) :
    ∃ l', run l [.server (.num n), .cycle] = some l' ∧ l'.prog = n ∧ l'.busy = l.busy := by
  obtain ⟨hr, m, hm⟩ := run_cycle es sc l h
  have hn : 0 < n ∧ n < 2 ^ 31 := by
    unfold names at hs
    split at hs <;> simp_all
  refine ⟨_, run_choose l n m hn.1 hn.2 hr hm, ?_⟩
  rw [pick_names _ n s hs]
  have hf := form_fields { l with sel := Fl.num n, loaded := n, name := s, prog := n, noRinse := false } m
  exact ⟨hf.2.1, hf.1⟩

-- Acid for an object that allows rinsing only, during its rinse.
example : ((run (initial false) [.recipe (.num 2), .cycle, .panel 0, .cycle, .start, .server (.num 144), .cycle]).map fun l =>
    (l.prog, l.busy, numbers l.list)) = some (144, true, [128]) := by
  decide +kernel

/-- C129 fails at the panel for rows that the list does not have: they are those of an earlier list. -/
theorem C129_stale_row_violated (sc : Bool) :
    ∃ l, run (initial sc) [.recipe (.num 11), .cycle, .recipe (.num 2), .cycle] = some l ∧
      numbers l.list = [128] ∧ ∃ l', run l [.panel 2, .cycle] = some l' ∧ l'.prog = 144 := by
  cases sc
  · refine ⟨_, rfl, by decide +kernel, _, rfl, ?_⟩
    decide +kernel
  · refine ⟨_, rfl, by decide +kernel, _, rfl, ?_⟩
    decide +kernel

/-- C129 fails at the panel for rows that no list has: the number of the row is not checked, and memory outside of the
rows is read. -/
theorem C129_row_number_violated (sc : Bool) (es : List Ev) (l : Ln) (h : run (initial sc) es = some l)
    (hb : l.busy = false) (k : Int) (hk : k < 0 ∨ 16 ≤ k) : l.step (.panel k) = none := by
  have hs := (run_inv es _ l (initial_inv sc) h).agree.size
  simp only [Ln.step, hb, Bool.false_eq_true, if_false]
  rcases hk with hk | hk
  · rw [if_pos hk]
  · rw [if_neg (by omega), List.getElem?_eq_none (by rw [hs, panelMax]; omega)]
    rfl

example : (initial true).step (.panel 16) = none ∧ ((initial true).step (.panel 15)).isSome = true := by
  decide +kernel

end Ptusa.CipProg
