import Verif.ObjText.Spec
import Verif.LuaText.Lemmas

/-!
# Lemmas about the texts of the objects
-/
namespace Ptusa.ObjText
open SaveDev LuaText

theorem hundredths_eq (q : Rat) : hundredths q = ratVal 2 q := rfl

theorem item_bool (b : Bool) : Item (boolText b) (bit b) := by
  cases b
  · have := item_nat 0
    rw [natText] at this
    simpa [boolText, bit, digit] using this
  · have := item_nat 1
    rw [natText] at this
    simpa [boolText, bit, digit] using this

theorem item_nan : Item "nan".toList (.glob "nan".toList) := item_name (by decide +kernel)

theorem item_float {x : Fv} (h : Printable x) : ∃ t, floatText x = some t ∧ Item t (seen x) := by
  cases x with
  | inf neg => exact absurd h id
  | nan neg =>
    have : neg = false := h
    subst this
    exact ⟨"nan".toList, by simp [floatText, fixed], item_nan⟩
  | num q =>
    by_cases h0 : q = 0
    · subst h0
      refine ⟨['0'], by simp [floatText], ?_⟩
      have := item_nat 0
      rw [natText] at this
      simpa [seen, digit] using this
    · by_cases hd : q.den = 1
      · refine ⟨intText q.num, by simp [floatText, h0, hd, h hd], ?_⟩
        have := item_int q.num
        have e : (q.num : Rat) = q := by
          conv_rhs => rw [← Rat.num_div_den q, hd]
          simp
        simpa [seen, hd, e] using this
      · refine ⟨ratText 2 q, by simp [floatText, h0, hd], ?_⟩
        have := item_rat 2 (by decide) q
        simpa [seen, hd, hundredths_eq] using this

theorem items_floats (l : List Fv) (h : ∀ x ∈ l, Printable x) :
    ∃ ts, floatsText l = some ts ∧ List.Forall₂ Item ts (l.map seen) := by
  induction l with
  | nil => exact ⟨[], rfl, .nil⟩
  | cons x l ih =>
    obtain ⟨t, e1, h1⟩ := item_float (h x (by simp))
    obtain ⟨ts, e2, h2⟩ := ih (fun y hy => h y (by simp [hy]))
    exact ⟨t :: ts, by simp [floatsText, e1, e2], .cons h1 h2⟩

theorem forall2_map {α : Type} (l : List α) (f : α → Txt) (g : α → Lv) (h : ∀ x ∈ l, Item (f x) (g x)) :
    List.Forall₂ Item (l.map f) (l.map g) := by
  induction l with
  | nil => exact .nil
  | cons x l ih => exact .cons (h x (by simp)) (ih fun y hy => h y (by simp [hy]))

theorem flds_items {ts : List Txt} {vs : List Lv} (h : List.Forall₂ Item ts vs) :
    Flds (itemsText ts) (vs.map fun v => (none, v)) := by
  induction h with
  | nil => exact flds_nil
  | cons h1 _ ih =>
    simp only [itemsText, List.flatMap_cons, List.map_cons]
    exact flds_append (flds_item h1) ih

theorem flds_list {k : Txt} {ts : List Txt} {vs : List Lv} (hk : luaName k = true) (h : List.Forall₂ Item ts vs) :
    Flds (listText k ts) [many k vs] := by
  have b1 : Blank "\n\t\t".toList := by decide +kernel
  have b2 : Blank "\n\t\t".toList := b1
  have b0 : Blank ['\t'] := by decide +kernel
  have b3 : Blank ['\n'] := by decide +kernel
  have body := flds_append (flds_blank _ b2) (flds_append (flds_items h) (flds_blank _ b1))
  have := flds_append (flds_blank _ b0) (flds_append (flds_table hk b1 body) (flds_blank _ b3))
  have e : listText k ts = ['\t'] ++ (k ++ '=' :: "\n\t\t".toList ++ '{' :: ("\n\t\t".toList ++ (itemsText ts ++
      "\n\t\t".toList)) ++ ['}', ','] ++ ['\n']) := by
    have e1 : "=\n\t\t{\n\t\t".toList = '=' :: "\n\t\t".toList ++ '{' :: "\n\t\t".toList := by decide +kernel
    have e2 : "\n\t\t},\n".toList = "\n\t\t".toList ++ ['}', ',', '\n'] := by decide +kernel
    simp only [listText, e1, e2, List.append_assoc, List.cons_append, List.nil_append]
  rw [e]
  simpa [many] using this

theorem flds_one {k t : Txt} {v : Lv} (hk : luaName k = true) (h : Item t v) : Flds (oneText k t) [(some k, v)] := by
  have b0 : Blank ['\t'] := by decide +kernel
  have b3 : Blank ['\n'] := by decide +kernel
  have := flds_append (flds_blank _ b0) (flds_append (flds_key hk h) (flds_blank _ b3))
  simpa [oneText] using this

theorem steps_items (s : StepSt) : List.Forall₂ Item (stepsText s) (activeSteps s) := by
  have e : stepsText s = (List.range s.count).map (fun j => stepText s (j + 1)) := by
    rw [stepsText, List.range'_eq_map_range, List.map_map]
    apply List.map_congr_left
    intro j _
    simp [Nat.add_comm]
  rw [e]
  refine forall2_map _ _ _ fun j _ => ?_
  unfold stepText
  by_cases h : s.active = j + 1 ∨ ((j + 1 : Nat) : Int) ∈ s.extra
  · rw [if_pos h, decide_eq_true h]
    exact item_bool true
  · rw [if_neg h, decide_eq_false h]
    exact item_bool false

/-! ## Names with a number -/

theorem reserved_lower : ∀ w ∈ reserved, ∃ c r, w = c :: r ∧ c.isLower = true := by
  have : ∀ w ∈ reserved, (match w with | [] => false | c :: _ => c.isLower) = true := by decide +kernel
  intro w hw
  have h := this w hw
  cases w with
  | nil => simp at h
  | cons c r => exact ⟨c, r, rfl, h⟩

theorem luaName_num (c : Char) (p : Txt) (n : Nat) (hl : c.isLower = false) (hd : c.isDigit = false)
    (hw : ∀ d ∈ c :: p, isWord d = true) : luaName ((c :: p) ++ natText n) = true := by
  have h1 : isName ((c :: p) ++ natText n) = true := by
    simp only [isName, Bool.and_eq_true, List.all_eq_true, List.cons_append, Bool.not_eq_true']
    refine ⟨fun d hd' => ?_, hd⟩
    rw [← List.cons_append] at hd'
    rcases List.mem_append.1 hd' with h | h
    · exact hw d h
    · exact isDigit_isWord (natText_digits n d h)
  have h2 : reserved.contains ((c :: p) ++ natText n) = false := by
    cases hc : reserved.contains ((c :: p) ++ natText n) with
    | false => rfl
    | true =>
      obtain ⟨d, r, e, hl'⟩ := reserved_lower _ (by simpa using hc)
      simp only [List.cons_append, List.cons.injEq] at e
      rw [← e.1, hl] at hl'
      exact absurd hl' (by decide)
  have h3 : (c :: p) ++ natText n ≠ ['o', 'r'] := by
    intro e
    simp only [List.cons_append, List.cons.injEq] at e
    rw [e.1] at hl
    exact absurd hl (by decide)
  simp only [luaName, h1, h2, Bool.and_eq_true, bne_iff_ne]
  exact ⟨by simp, h3⟩

/-- The prefix of a list of steps begins like a name of its own. -/
def goodPrefix (p : Txt) : Bool :=
  match p with
  | [] => false
  | c :: _ => !c.isLower && !c.isDigit && p.all isWord

theorem luaName_prefix {p : Txt} (n : Nat) (h : goodPrefix p = true) : luaName (p ++ natText n) = true := by
  cases p with
  | nil => simp [goodPrefix] at h
  | cons c p =>
    simp only [goodPrefix, Bool.and_eq_true, Bool.not_eq_true', List.all_eq_true] at h
    exact luaName_num c p n h.1.1 h.1.2 h.2

theorem steps_prefix : goodPrefix "STEPS".toList = true := by decide +kernel

theorem state_prefix (s : Nat) : goodPrefix ((stateName s).toList ++ "_STEPS".toList) = true := by
  have h : ∀ s < 15, goodPrefix ((stateName s).toList ++ "_STEPS".toList) = true := by decide +kernel
  by_cases hs : s < 15
  · exact h s hs
  · have : stateName s = "" := by
      unfold stateName
      split <;> first | omega | rfl
    rw [this]
    decide +kernel

theorem runSteps_flds (i : Nat) (l : List Op) : Flds (runSteps i l)
    (((l.zipIdx i).filter fun p => (p.1.states 1).count ≠ 0).map
      (fun p => many ("STEPS".toList ++ natText p.2) (activeSteps (p.1.states 1)))) := by
  induction l generalizing i with
  | nil => exact flds_nil
  | cons o l ih =>
    simp only [runSteps, List.zipIdx_cons]
    by_cases h : (o.states 1).count = 0
    · rw [if_pos h, List.filter_cons_of_neg (by simpa using h)]
      simpa using ih (i + 1)
    · rw [if_neg h, List.filter_cons_of_pos (by simpa using h), List.map_cons]
      exact flds_append (flds_list (luaName_prefix i steps_prefix) (steps_items _)) (ih (i + 1))

theorem stateSteps_flds (s i : Nat) (l : List Op) : Flds (stateSteps s i l)
    (((l.zipIdx i).filter fun p => (p.1.states s).count ≠ 0).map
      (fun p => many ((stateName s).toList ++ "_STEPS".toList ++ natText p.2) (activeSteps (p.1.states s)))) := by
  induction l generalizing i with
  | nil => exact flds_nil
  | cons o l ih =>
    simp only [stateSteps, List.zipIdx_cons]
    by_cases h : (o.states s).count = 0
    · rw [if_pos h, List.filter_cons_of_neg (by simpa using h)]
      simpa using ih (i + 1)
    · rw [if_neg h, List.filter_cons_of_pos (by simpa using h), List.map_cons]
      exact flds_append (flds_list (luaName_prefix i (state_prefix s)) (steps_items _)) (ih (i + 1))

theorem stepTime_eq (l : List Op) : stepTime l = lastStepTime l := by
  induction l with
  | nil => rfl
  | cons o l ih =>
    unfold stepTime lastStepTime
    by_cases h : l.any (fun o => o.state == 1) = true
    · rw [if_pos h, ih, lastStepTime]
      have hne : (l.filter fun o => o.state == 1) ≠ [] := by
        intro e
        rw [List.any_eq_true] at h
        obtain ⟨x, hx, hs⟩ := h
        have : x ∈ l.filter (fun o => o.state == 1) := List.mem_filter.2 ⟨hx, hs⟩
        rw [e] at this
        simp at this
      by_cases ho : o.state = 1
      · rw [List.filter_cons_of_pos (by simpa using ho), List.getLast?_cons_of_ne_nil hne]
      · rw [List.filter_cons_of_neg (by simpa using ho)]
    · rw [if_neg h]
      have he : (l.filter fun o => o.state == 1) = [] := by
        rw [List.filter_eq_nil_iff]
        intro x hx hs
        exact h (List.any_eq_true.2 ⟨x, hx, hs⟩)
      by_cases ho : o.state = 1
      · rw [if_pos ho, List.filter_cons_of_pos (by simpa using ho), he]
        rfl
      · rw [if_neg ho, List.filter_cons_of_neg (by simpa using ho), he]
        rfl

/-! ## The table of an object -/

/-- The part of the text between the braces. -/
def bodyText (o : Obj) (pf rf : List Txt) : Txt :=
  oneText "CMD".toList (natText o.cmd) ++ oneText "LASTRECNMR".toList (intText o.recNmr) ++
  oneText "LASTRECNAME".toList ('\'' :: o.recName ++ ['\'']) ++
  listText "ST".toList (o.words.map natText) ++
  listText "MODES".toList (o.ops.map fun p => boolText (p.state != 0)) ++
  listText "OPERATIONS".toList (o.ops.map fun p => natText p.state) ++
  listText "AVAILABILITY".toList (o.ops.map fun p => boolText (p.unavailable == 0)) ++
  oneText "ACTIVE_OPERATION_OR_IDLE_TIME".toList (natText (o.idle / 1000)) ++
  oneText "ACTIVE_STEP_TIME".toList (natText (stepTime o.ops)) ++
  listText "MODES_TIME".toList (o.ops.map fun p => natText (p.time / 1000)) ++
  listText "MODES_STEPS".toList (o.ops.map fun p => natText p.activeStep) ++
  listText "MODES_RUN_STEPS".toList (o.ops.map fun p => intText p.runStep) ++
  runSteps 1 o.ops ++ (List.range' 1 14).flatMap (fun s => stateSteps s 1 o.ops) ++
  listText "S_PAR_F".toList pf ++ listText "S_PAR_UI".toList (o.parU.map natText) ++
  listText "RT_PAR_F".toList rf ++ listText "RT_PAR_UI".toList (o.rtU.map natText)

theorem activeStep_eq (p : Op) : p.activeStep = currentStep p := by
  unfold Op.activeStep currentStep
  by_cases h : 0 < p.state ∧ p.state < 15
  · rw [if_pos h, if_neg (by omega)]
  · rw [if_neg h, if_pos (by omega)]

theorem body_flds (o : Obj) (pf rf : List Txt) (hr : Clean o.recName) (hp : List.Forall₂ Item pf (o.parF.map seen))
    (hf : List.Forall₂ Item rf (o.rtF.map seen)) : Flds (bodyText o pf rf) (want o) := by
  have k1 : luaName "CMD".toList = true := by decide +kernel
  have k2 : luaName "LASTRECNMR".toList = true := by decide +kernel
  have k3 : luaName "LASTRECNAME".toList = true := by decide +kernel
  have k4 : luaName "ST".toList = true := by decide +kernel
  have k5 : luaName "MODES".toList = true := by decide +kernel
  have k6 : luaName "OPERATIONS".toList = true := by decide +kernel
  have k7 : luaName "AVAILABILITY".toList = true := by decide +kernel
  have k8 : luaName "ACTIVE_OPERATION_OR_IDLE_TIME".toList = true := by decide +kernel
  have k9 : luaName "ACTIVE_STEP_TIME".toList = true := by decide +kernel
  have k10 : luaName "MODES_TIME".toList = true := by decide +kernel
  have k11 : luaName "MODES_STEPS".toList = true := by decide +kernel
  have k12 : luaName "MODES_RUN_STEPS".toList = true := by decide +kernel
  have k13 : luaName "S_PAR_F".toList = true := by decide +kernel
  have k14 : luaName "S_PAR_UI".toList = true := by decide +kernel
  have k15 : luaName "RT_PAR_F".toList = true := by decide +kernel
  have k16 : luaName "RT_PAR_UI".toList = true := by decide +kernel
  have f1 := flds_one k1 (item_nat o.cmd)
  have f2 := flds_one k2 (item_int o.recNmr)
  have f3 := flds_one k3 (item_str o.recName hr)
  have f4 := flds_list k4 (forall2_map o.words natText (fun n => .num n) fun n _ => item_nat n)
  have f5 := flds_list k5 (forall2_map o.ops (fun p => boolText (p.state != 0)) (fun p => bit (p.state ≠ 0)) fun p _ => by
    have := item_bool (p.state != 0)
    have e : (p.state != 0) = decide (p.state ≠ 0) := by
      by_cases h : p.state = 0 <;> simp [h]
    rw [← e]
    exact this)
  have f6 := flds_list k6 (forall2_map o.ops (fun p => natText p.state) (fun p => .num p.state) fun p _ => item_nat _)
  have f7 := flds_list k7 (forall2_map o.ops (fun p => boolText (p.unavailable == 0)) (fun p => bit (p.unavailable = 0))
    fun p _ => by
      have := item_bool (p.unavailable == 0)
      have e : (p.unavailable == 0) = decide (p.unavailable = 0) := by
        by_cases h : p.unavailable = 0 <;> simp [h]
      rw [← e]
      exact this)
  have f8 := flds_one k8 (item_nat (o.idle / 1000))
  have f9 := flds_one k9 (item_nat (stepTime o.ops))
  have f10 := flds_list k10 (forall2_map o.ops (fun p => natText (p.time / 1000)) (fun p => .num (p.time / 1000 : Nat))
    fun p _ => item_nat _)
  have f11 := flds_list k11 (forall2_map o.ops (fun p => natText p.activeStep) (fun p => .num (currentStep p))
    fun p _ => activeStep_eq p ▸ item_nat _)
  have f12 := flds_list k12 (forall2_map o.ops (fun p => intText p.runStep) (fun p => .num p.runStep)
    fun p _ => item_int _)
  have f13 := flds_list k13 hp
  have f14 := flds_list k14 (forall2_map o.parU natText (fun n => .num n) fun n _ => item_nat n)
  have f15 := flds_list k15 hf
  have f16 := flds_list k16 (forall2_map o.rtU natText (fun n => .num n) fun n _ => item_nat n)
  have g1 := runSteps_flds 1 o.ops
  have g2 := flds_flatMap (List.range' 1 14) (fun s => stateSteps s 1 o.ops) _ fun s _ => stateSteps_flds s 1 o.ops
  rw [stepTime_eq] at f9
  have all := flds_append (flds_append (flds_append (flds_append (flds_append (flds_append (flds_append (flds_append (flds_append
    (flds_append (flds_append (flds_append (flds_append (flds_append (flds_append (flds_append (flds_append f1 f2) f3) f4) f5) f6)
    f7) f8) f9) f10) f11) f12) g1) g2) f13) f14) f15) f16
  unfold bodyText
  rw [stepTime_eq]
  convert all using 1
  unfold want
  simp only [one, List.append_assoc, List.cons_append, List.nil_append]

/-! ## The chunk -/

/-- The text is a sequence of assignments. -/
def Stmts (t : Txt) (f : Env → Env) : Prop := ∃ toks, scan .idle t = some (.idle, toks) ∧
  ∀ n r env, toks.length + r.length < n → ∃ m, r.length < m ∧ exec n (toks ++ r) env = exec m r (f env)

theorem stmts_nil : Stmts [] id := ⟨[], rfl, fun n r env h => ⟨n, by simpa using h, rfl⟩⟩

theorem stmts_append {a b : Txt} {f g : Env → Env} (ha : Stmts a f) (hb : Stmts b g) : Stmts (a ++ b) (g ∘ f) := by
  obtain ⟨ta, sa, ea⟩ := ha
  obtain ⟨tb, sb, eb⟩ := hb
  refine ⟨ta ++ tb, scan_app sa sb, fun n r env h => ?_⟩
  obtain ⟨m, hm, e⟩ := ea n (tb ++ r) env (by simpa [List.length_append, Nat.add_assoc] using h)
  obtain ⟨k, hk, e2⟩ := eb m r (f env) (by simpa using hm)
  exact ⟨k, hk, by rw [List.append_assoc, e, e2]; rfl⟩

theorem runText_stmts {t : Txt} {f : Env → Env} (h : Stmts t f) (env : Env) : runText t env = some (f env) := by
  obtain ⟨toks, hs, he⟩ := h
  obtain ⟨m, hm, e⟩ := he (toks.length + 1) [] env (by simp)
  rw [List.append_nil] at e
  simp only [runText, lex_of_scan hs, e]
  cases m with
  | zero => simp at hm
  | succ m => simp [exec]

theorem scan_tdot : scan .idle "t.".toList = some (.idle, [.name ['t'], .sym '.']) := by decide +kernel

theorem ends_space : Ends ' ' [] := ⟨by decide, by decide, by decide⟩

/-- The first line: `t.X = t.X or {}`. -/
theorem stmts_or {x : Txt} (hx : luaName x = true) :
    Stmts ("t.".toList ++ x ++ " = t.".toList ++ x ++ " or {}\n".toList)
      (fun env => Function.update env x (some ((env x).getD (.table [])))) := by
  have e1 : " = t.".toList = ' ' :: "= t.".toList := by decide +kernel
  have e2 : " or {}\n".toList = ' ' :: "or {}\n".toList := by decide +kernel
  have s1 : scan .idle "= t.".toList = some (.idle, [.sym '=', .name ['t'], .sym '.']) := by decide +kernel
  have s2 : scan .idle "or {}\n".toList = some (.idle, [.orr, .sym '{', .sym '}']) := by decide +kernel
  have hw := scan_app (scan_name hx) (scan_end (wordTok_name hx) ends_space)
  refine ⟨[.name ['t'], .sym '.', .name x, .sym '=', .name ['t'], .sym '.', .name x, .orr, .sym '{', .sym '}'], ?_, ?_⟩
  · have := scan_app scan_tdot (scan_app hw (scan_app s1 (scan_app hw s2)))
    rw [e1, e2]
    simpa using this
  · intro n r env h
    cases n with
    | zero => simp at h
    | succ n =>
      refine ⟨n, by simp at h; omega, ?_⟩
      simp [exec]

/-- The second line and the table. -/
theorem stmts_table {x b1 body : Txt} {fs : List (Option Txt × Lv)} (hx : luaName x = true) (h1 : Blank b1) (hb : Flds body fs) :
    Stmts ("t.".toList ++ x ++ '=' :: b1 ++ '{' :: body ++ ['}']) (fun env => Function.update env x (some (.table fs))) := by
  obtain ⟨ts, hs, hf⟩ := hb
  refine ⟨.name ['t'] :: .sym '.' :: .name x :: .sym '=' :: (.sym '{' :: (ts ++ [.sym '}'])), ?_, ?_⟩
  · have := scan_app scan_tdot (scan_app (scan_key hx) (scan_app (scan_blank b1 h1) (scan_app scan_open (scan_app hs scan_close))))
    simpa using this
  · intro n r env h
    cases n with
    | zero => simp at h
    | succ n =>
      refine ⟨n, by simp at h; omega, ?_⟩
      have hp := PV_table (hf _ _ PF_close)
      have e := hp (Tok.sym '{' :: (ts ++ [.sym '}']) ++ r).length r (by simp)
      rw [List.append_nil] at e
      simp only [List.cons_append, exec, ne_eq, not_true_eq_false, if_false] at e ⊢
      rw [e]

theorem stmts_blank (t : Txt) (h : Blank t) : Stmts t id :=
  ⟨[], scan_blank t h, fun n r env hn => ⟨n, by simpa using hn, rfl⟩⟩

theorem save_stmts {o : Obj} (h : Readable o) : ∃ t, o.save = some t ∧
    Stmts t (fun env => Function.update env o.name (some (.table (want o)))) := by
  obtain ⟨pf, e1, h1⟩ := items_floats o.parF h.parF
  obtain ⟨rf, e2, h2⟩ := items_floats o.rtF h.rtF
  have hb := body_flds o pf rf h.recipe h1 h2
  have b1 : Blank "\n\t".toList := by decide +kernel
  have b2 : Blank "\n".toList := by decide +kernel
  have b3 : Blank "\t".toList := by decide +kernel
  have st := stmts_append (stmts_append (stmts_or h.name) (stmts_table h.name b1
    (flds_append (flds_append (flds_blank _ b2) hb) (flds_blank _ b3)))) (stmts_blank _ b2)
  have e : o.save = some ("t.".toList ++ o.name ++ " = t.".toList ++ o.name ++ " or {}\n".toList ++ ("t.".toList ++ o.name ++
      '=' :: "\n\t".toList ++ '{' :: ("\n".toList ++ bodyText o pf rf ++ "\t".toList) ++ ['}']) ++ "\n".toList) := by
    have q1 : " or {}\nt.".toList = " or {}\n".toList ++ "t.".toList := by decide +kernel
    have q2 : "=\n\t{\n".toList = '=' :: "\n\t".toList ++ '{' :: "\n".toList := by decide +kernel
    have q3 : "\t}\n".toList = "\t".toList ++ ['}'] ++ "\n".toList := by decide +kernel
    simp only [Obj.save, e1, e2, q1, q2, q3, bodyText, List.append_assoc, List.cons_append, List.nil_append]
  refine ⟨_, e, ?_⟩
  have ef : ((id : Env → Env) ∘ (fun env : Env => Function.update env o.name (some (.table ([] ++ want o ++ [])))) ∘
      (fun env : Env => Function.update env o.name (some ((env o.name).getD (.table []))))) =
      (fun env => Function.update env o.name (some (.table (want o)))) := by
    funext env
    simp
  rw [← ef]
  exact st

/-- The table `t` after the texts of some objects. -/
def after (env : Env) (l : List Obj) : Env := l.foldl (fun e o => Function.update e o.name (some (.table (want o)))) env

theorem saveObjs_stmts (l : List Obj) (h : ∀ o ∈ l, Readable o) : ∃ t, saveObjs l = some t ∧ Stmts t (fun env => after env l) := by
  induction l with
  | nil => exact ⟨[], rfl, stmts_nil⟩
  | cons o l ih =>
    obtain ⟨a, e1, h1⟩ := save_stmts (h o (by simp))
    obtain ⟨b, e2, h2⟩ := ih (fun x hx => h x (by simp [hx]))
    exact ⟨a ++ b, by simp [saveObjs, e1, e2], stmts_append h1 h2⟩

theorem after_last (env : Env) (l : List Obj) (hn : (l.map (·.name)).Nodup) (o : Obj) (ho : o ∈ l) :
    after env l o.name = some (.table (want o)) := by
  induction l generalizing env with
  | nil => simp at ho
  | cons p l ih =>
    simp only [List.map_cons, List.nodup_cons] at hn
    have hstep : after env (p :: l) = after (Function.update env p.name (some (.table (want p)))) l := rfl
    rw [hstep]
    rcases List.mem_cons.1 ho with h | h
    · subst h
      have : ∀ (l : List Obj) (e : Env) (x : Txt), x ∉ l.map (·.name) → after e l x = e x := by
        intro l
        induction l with
        | nil => intro e x _; rfl
        | cons q l ih2 =>
          intro e x hx
          simp only [List.map_cons, List.mem_cons, not_or] at hx
          have : after e (q :: l) = after (Function.update e q.name (some (.table (want q)))) l := rfl
          rw [this, ih2 _ _ hx.2, Function.update_of_ne hx.1]
      rw [this _ _ _ hn.1, Function.update_self]
    · exact ih _ hn.2 h

theorem after_other (env : Env) (l : List Obj) (x : Txt) (h : x ∉ l.map (·.name)) : after env l x = env x := by
  induction l generalizing env with
  | nil => rfl
  | cons q l ih =>
    simp only [List.map_cons, List.mem_cons, not_or] at h
    have : after env (q :: l) = after (Function.update env q.name (some (.table (want q)))) l := rfl
    rw [this, ih _ h.2, Function.update_of_ne h.1]

/-! ## Every key once -/

/-- The part of a key before its number. -/
def stem (k : Txt) : Txt := (k.reverse.dropWhile Char.isDigit).reverse

/-- The digits at the end of a key. -/
def tailDigits (k : Txt) : Txt := (k.reverse.takeWhile Char.isDigit).reverse

/-- A stem ends with something which is not a digit. -/
def noDigit (p : Txt) : Bool := match p.reverse with | [] => false | c :: _ => !c.isDigit

theorem stem_num {p : Txt} (n : Nat) (h : noDigit p = true) : stem (p ++ natText n) = p ∧ tailDigits (p ++ natText n) = natText n := by
  unfold noDigit at h
  cases hp : p.reverse with
  | nil => simp [hp] at h
  | cons c r =>
    rw [hp] at h
    obtain ⟨i, j⟩ := take_run Char.isDigit (natText n).reverse c r
      (fun x hx => natText_digits n x (by simpa using hx)) (by simpa using h)
    have e : p = (c :: r).reverse := by rw [← hp, List.reverse_reverse]
    constructor
    · rw [stem, List.reverse_append, hp, j, ← e]
    · rw [tailDigits, List.reverse_append, hp, i, List.reverse_reverse]

theorem natText_inj {a b : Nat} (h : natText a = natText b) : a = b := by
  rw [← natText_val a, ← natText_val b, h]

theorem numbered_inj {p q : Txt} {a b : Nat} (hp : noDigit p = true) (hq : noDigit q = true)
    (h : p ++ natText a = q ++ natText b) : p = q ∧ a = b := by
  have h1 := stem_num a hp
  have h2 := stem_num b hq
  rw [h] at h1
  exact ⟨h1.1.symm.trans h2.1, natText_inj (h1.2.symm.trans h2.2)⟩

theorem stem_plain {k : Txt} (h : noDigit k = true) : stem k = k := by
  unfold noDigit at h
  cases hp : k.reverse with
  | nil => simp [hp] at h
  | cons c r =>
    rw [hp] at h
    simp only [Bool.not_eq_true'] at h
    rw [stem, hp, List.dropWhile_cons_of_neg (by simp [h]), ← hp, List.reverse_reverse]

theorem field_of_nodup {fs : List (Option Txt × Lv)} (h : (fs.map (·.1)).Nodup) {k : String} {v : Lv}
    (hm : (some k.toList, v) ∈ fs) : field fs k = some v := by
  have : fs.filter (fun p => p.1 == some k.toList) = [(some k.toList, v)] := by
    induction fs with
    | nil => simp at hm
    | cons p fs ih =>
      simp only [List.map_cons, List.nodup_cons] at h
      rcases List.mem_cons.1 hm with e | e
      · subst e
        rw [List.filter_cons_of_pos (by simp)]
        have : fs.filter (fun p => p.1 == some k.toList) = [] := by
          rw [List.filter_eq_nil_iff]
          intro x hx he
          exact h.1 (List.mem_map.2 ⟨x, hx, by simpa using he⟩)
        rw [this]
      · have hne : p.1 ≠ some k.toList := by
          intro e2
          exact h.1 (List.mem_map.2 ⟨_, e, e2.symm⟩)
        rw [List.filter_cons_of_neg (by simpa using hne)]
        exact ih h.2 e
  simp [field, this]

/-- The keys of the numbered lists: a stem for each group, with the numbers of the operations. -/
def numKeys (p : Txt) (l : List (Op × Nat)) : List (Option Txt) := l.map fun x => some (p ++ natText x.2)

theorem numKeys_nodup (p : Txt) (hp : noDigit p = true) (l : List (Op × Nat)) (h : (l.map (·.2)).Nodup) :
    (numKeys p l).Nodup := by
  have : numKeys p l = (l.map (·.2)).map fun n => some (p ++ natText n) := by simp [numKeys]
  rw [this]
  refine List.Nodup.map_on ?_ h
  intro a _ b _ e
  exact (numbered_inj hp hp (Option.some.inj e)).2

theorem zipIdx_nodup (l : List Op) (i : Nat) (f : Op × Nat → Bool) : (((l.zipIdx i).filter f).map (·.2)).Nodup := by
  have h : ((l.zipIdx i).map (·.2)).Nodup := by
    rw [List.zipIdx_map_snd]
    exact List.nodup_range'
  exact h.sublist (List.Sublist.map _ List.filter_sublist)

theorem numKeys_stem {p : Txt} (hp : noDigit p = true) {l : List (Op × Nat)} {k : Option Txt} (h : k ∈ numKeys p l) :
    k.map stem = some p := by
  obtain ⟨x, _, e⟩ := List.mem_map.1 h
  rw [← e]
  simp [(stem_num x.2 hp).1]

/-- The operations with steps in a state. -/
def withSteps (o : Obj) (s : Nat) : List (Op × Nat) := (o.ops.zipIdx 1).filter fun p => (p.1.states s).count ≠ 0

/-- The beginning of the key of a list of steps. -/
def stateStem (s : Nat) : Txt := (stateName s).toList ++ "_STEPS".toList

/-- The keys before the lists of steps. -/
def keysA : List Txt := ["CMD", "LASTRECNMR", "LASTRECNAME", "ST", "MODES", "OPERATIONS", "AVAILABILITY",
  "ACTIVE_OPERATION_OR_IDLE_TIME", "ACTIVE_STEP_TIME", "MODES_TIME", "MODES_STEPS", "MODES_RUN_STEPS"].map String.toList

/-- The keys after the lists of steps. -/
def keysB : List Txt := ["S_PAR_F", "S_PAR_UI", "RT_PAR_F", "RT_PAR_UI"].map String.toList

theorem want_keys (o : Obj) : (want o).map (·.1) = keysA.map some ++ numKeys "STEPS".toList (withSteps o 1) ++
    (List.range' 1 14).flatMap (fun s => numKeys (stateStem s) (withSteps o s)) ++ keysB.map some := by
  simp only [want, List.map_append, List.map_flatMap, List.map_map, keysA, keysB, numKeys, withSteps, stateStem]
  rfl

theorem noDigit_state : ∀ s < 15, noDigit (stateStem s) = true := by decide +kernel

theorem stem_of {l : List Txt} (h : ∀ k ∈ l, noDigit k = true) {k : Option Txt} (hk : k ∈ l.map some) :
    ∃ x ∈ l, k.map stem = some x := by
  obtain ⟨x, hx, e⟩ := List.mem_map.1 hk
  exact ⟨x, hx, by rw [← e]; simp [stem_plain (h x hx)]⟩

theorem group_stem {o : Obj} {k : Option Txt}
    (h : k ∈ (List.range' 1 14).flatMap (fun s => numKeys (stateStem s) (withSteps o s))) :
    ∃ s, s < 15 ∧ k.map stem = some (stateStem s) := by
  obtain ⟨s, hs, hk⟩ := List.mem_flatMap.1 h
  have hs' : s < 15 := by simp only [List.mem_range'_1] at hs; omega
  exact ⟨s, hs', numKeys_stem (noDigit_state s hs') hk⟩

theorem want_nodup (o : Obj) (h : Named o) : ((want o).map (·.1)).Nodup := by
  have dA : ∀ k ∈ keysA, noDigit k = true := by decide +kernel
  have dB : ∀ k ∈ keysB, noDigit k = true := by decide +kernel
  have dS : noDigit "STEPS".toList = true := by decide +kernel
  have nA : keysA.Nodup := by decide +kernel
  have nB : keysB.Nodup := by decide +kernel
  have AB : ∀ a ∈ keysA, a ∉ keysB := by decide +kernel
  have AS : "STEPS".toList ∉ keysA := by decide +kernel
  have BS : "STEPS".toList ∉ keysB := by decide +kernel
  have AG : ∀ s < 15, stateStem s ∉ keysA := by decide +kernel
  have BG : ∀ s < 15, stateStem s ∉ keysB := by decide +kernel
  have SG : ∀ s < 15, stateStem s ≠ "STEPS".toList := by decide +kernel
  have GG : ∀ s < 15, ∀ t < 15, stateStem s = stateStem t → s = t ∨ stateName s = "" := by decide +kernel
  have inj : Function.Injective (some : Txt → Option Txt) := Option.some_injective _
  have groups : ((List.range' 1 14).flatMap (fun s => numKeys (stateStem s) (withSteps o s))).Nodup := by
    rw [List.nodup_flatMap]
    constructor
    · intro s hs
      have hs' : s < 15 := by simp only [List.mem_range'_1] at hs; omega
      exact numKeys_nodup _ (noDigit_state s hs') _ (zipIdx_nodup _ _ _)
    · have hp : (List.range' 1 14).Pairwise (fun a b => a ≠ b) := List.nodup_range'
      refine List.Pairwise.imp_of_mem ?_ hp
      intro s t hs ht hne
      have hs' : s < 15 := by simp only [List.mem_range'_1] at hs; omega
      have ht' : t < 15 := by simp only [List.mem_range'_1] at ht; omega
      show List.Disjoint _ _
      intro k h1 h2
      have e1 := numKeys_stem (noDigit_state s hs') h1
      have e2 := numKeys_stem (noDigit_state t ht') h2
      rcases GG s hs' t ht' (Option.some.inj (e1.symm.trans e2)) with e | e
      · exact hne e
      · obtain ⟨x, hx, _⟩ := List.mem_map.1 h1
        simp only [withSteps, List.mem_filter] at hx
        have hm : x.1 ∈ o.ops := List.fst_mem_of_mem_zipIdx hx.1
        exact absurd (h x.1 hm s e) (by simpa using hx.2)
  rw [want_keys, List.nodup_append', List.nodup_append', List.nodup_append']
  refine ⟨⟨⟨nA.map inj, numKeys_nodup _ dS _ (zipIdx_nodup _ _ _), ?_⟩, groups, ?_⟩, nB.map inj, ?_⟩
  · intro k h1 h2
    obtain ⟨x, hx, e⟩ := stem_of dA h1
    rw [numKeys_stem dS h2] at e
    exact AS (Option.some.inj e ▸ hx)
  · intro k h1 h2
    obtain ⟨s, hs, e2⟩ := group_stem h2
    rcases List.mem_append.1 h1 with h1 | h1
    · obtain ⟨x, hx, e⟩ := stem_of dA h1
      rw [e2] at e
      exact AG s hs (Option.some.inj e ▸ hx)
    · rw [numKeys_stem dS h1] at e2
      exact SG s hs (Option.some.inj e2).symm
  · intro k h1 h2
    obtain ⟨y, hy, e2⟩ := stem_of dB h2
    rcases List.mem_append.1 h1 with h1 | h1
    · rcases List.mem_append.1 h1 with h1 | h1
      · obtain ⟨x, hx, e⟩ := stem_of dA h1
        rw [e2] at e
        exact AB x hx (Option.some.inj e ▸ hy)
      · rw [numKeys_stem dS h1] at e2
        exact BS (Option.some.inj e2 ▸ hy)
    · obtain ⟨s, hs, e⟩ := group_stem h1
      rw [e2] at e
      exact BG s hs (Option.some.inj e ▸ hy)

/-! ## An apostrophe in the name of the recipe -/

theorem scan_quote_none (st : St) (u : Txt) (h : ∀ c ∈ u, c ≠ '\'') (hs : st = .idle ∨ (∃ w, st = .word w) ∨ ∃ s, st = .str '"' s) :
    scan st (u ++ "',\n".toList) = none := by
  have e0 : "',\n".toList = ['\'', ',', '\n'] := by decide +kernel
  rw [e0]
  induction u generalizing st with
  | nil =>
    rcases hs with rfl | ⟨w, rfl⟩ | ⟨s, rfl⟩
    · decide +kernel
    · have e1 : isWord '\'' = false := by decide
      have e2 : start '\'' = some (.str '\'' [], []) := by decide
      simp only [List.nil_append, scan, step, e1, Bool.false_or]
      rw [if_neg (by simp)]
      cases wordTok w with
      | none => rfl
      | some t => simp [e2]
    · simp [scan, step]
  | cons c u ih =>
    have hc := h c (by simp)
    have hu : ∀ d ∈ u, d ≠ '\'' := fun d hd => h d (by simp [hd])
    have key : ∀ st', (st' = .idle ∨ (∃ w, st' = .word w) ∨ ∃ s, st' = .str '"' s) → scan st' (u ++ ['\'', ',', '\n']) = none :=
      fun st' h' => ih st' hu h'
    have st1 : ∀ p, start c = some p → (p.1 = .idle ∨ (∃ w, p.1 = .word w) ∨ ∃ s, p.1 = .str '"' s) := by
      intro p hp
      unfold start at hp
      split at hp
      · cases hp; exact .inl rfl
      · split at hp
        · cases hp; exact .inr (.inl ⟨_, rfl⟩)
        · split at hp
          · rename_i hq
            rcases hq with hq | hq
            · subst hq
              cases hp; exact .inr (.inr ⟨_, rfl⟩)
            · exact absurd hq hc
          · split at hp
            · cases hp; exact .inl rfl
            · cases hp
    rw [List.cons_append]
    simp only [scan]
    cases hst : step st c with
    | none => rfl
    | some p =>
      have hp : p.1 = .idle ∨ (∃ w, p.1 = .word w) ∨ ∃ s, p.1 = .str '"' s := by
        rcases hs with rfl | ⟨w, rfl⟩ | ⟨s, rfl⟩
        · exact st1 p hst
        · simp only [step] at hst
          split at hst
          · cases hst; exact .inr (.inl ⟨_, rfl⟩)
          · cases hw : wordTok w with
            | none => rw [hw] at hst; simp at hst
            | some t =>
              rw [hw] at hst
              simp only [Option.map_eq_some_iff] at hst
              obtain ⟨q, hq, e⟩ := hst
              rw [← e]
              exact st1 q hq
        · simp only [step] at hst
          split at hst
          · cases hst; exact .inl rfl
          · split at hst
            · cases hst
            · cases hst; exact .inr (.inr ⟨_, rfl⟩)
      simp [key p.1 hp]

theorem scan_str_newline (acc w : Txt) (h : Clean w) (b : Txt) : scan (.str '\'' acc) (w ++ '\n' :: b) = none :=
  scan_app_none (scan_str acc w h) (by simp [scan, step])

/-- The beginning of the text of an object up to the name of its recipe. -/
def headText (o : Obj) : Txt :=
  "t.".toList ++ o.name ++ " = t.".toList ++ o.name ++ " or {}\n".toList ++ "t.".toList ++ o.name ++ "=\n\t{\n".toList ++
  oneText "CMD".toList (natText o.cmd) ++ oneText "LASTRECNMR".toList (intText o.recNmr) ++ "\tLASTRECNAME=".toList

theorem scan_head (o : Obj) (h : luaName o.name = true) : ∃ ts, scan .idle (headText o) = some (.idle, ts) := by
  obtain ⟨t1, s1, _⟩ := stmts_or h
  have s2 := scan_app scan_tdot (scan_key h)
  have q : scan .idle "\n\t{\n".toList = some (.idle, [.sym '{']) := by decide +kernel
  have k1 : luaName "CMD".toList = true := by decide +kernel
  have k2 : luaName "LASTRECNMR".toList = true := by decide +kernel
  obtain ⟨t3, s3, _⟩ := flds_one k1 (item_nat o.cmd)
  obtain ⟨t4, s4, _⟩ := flds_one k2 (item_int o.recNmr)
  have s5 : scan .idle "\tLASTRECNAME=".toList = some (.idle, [.name "LASTRECNAME".toList, .sym '=']) := by decide +kernel
  have all := scan_app s1 (scan_app s2 (scan_app q (scan_app s3 (scan_app s4 s5))))
  have e : "=\n\t{\n".toList = '=' :: "\n\t{\n".toList := by decide +kernel
  refine ⟨_, Eq.trans (congrArg (scan .idle) ?_) all⟩
  unfold headText
  rw [e]
  simp only [List.append_assoc, List.cons_append, List.nil_append]

theorem save_head (o : Obj) (t : Txt) (h : o.save = some t) :
    ∃ r, t = headText o ++ ('\'' :: (o.recName ++ "',\n".toList ++ r)) := by
  unfold Obj.save at h
  split at h
  · rename_i pf rf _ _
    injection h with h
    have q1 : " or {}\nt.".toList = " or {}\n".toList ++ "t.".toList := by decide +kernel
    have q2 : "\tLASTRECNAME=".toList = '\t' :: ("LASTRECNAME".toList ++ ['=']) := by decide +kernel
    have q3 : "',\n".toList = ['\'', ',', '\n'] := by decide +kernel
    subst h
    refine ⟨?_, ?_⟩
    rotate_left
    · unfold headText
      rw [q1, q2, q3]
      rw [show oneText "LASTRECNAME".toList ('\'' :: o.recName ++ ['\'']) =
        '\t' :: ("LASTRECNAME".toList ++ ['=']) ++ '\'' :: (o.recName ++ ['\'', ',', '\n']) by simp [oneText]]
      simp only [List.append_assoc, List.cons_append, List.nil_append]
      rfl
  · cases h

/-- The text cannot be read. -/
theorem unreadable_of {l1 l2 : List Obj} {o : Obj} (h1 : ∀ x ∈ l1, Readable x) (ho : luaName o.name = true)
    (hq : ∀ r, scan (.str '\'' []) (o.recName ++ "',\n".toList ++ r) = none) (env : Env) (t : Txt)
    (ht : saveObjs (l1 ++ o :: l2) = some t) : runText t env = none := by
  have split : ∀ (l1 : List Obj) (t : Txt), saveObjs (l1 ++ o :: l2) = some t → ∃ a b c, saveObjs l1 = some a ∧ o.save = some b ∧
      t = a ++ (b ++ c) := by
    intro l1
    induction l1 with
    | nil =>
      intro t ht
      simp only [List.nil_append, saveObjs] at ht
      split at ht
      · rename_i a b ea eb
        injection ht with ht
        exact ⟨[], a, b, rfl, ea, by simp [ht]⟩
      · cases ht
    | cons x l1 ih =>
      intro t ht
      simp only [List.cons_append, saveObjs] at ht
      split at ht
      · rename_i a b ea eb
        injection ht with ht
        obtain ⟨a', b', c', e1, e2, e3⟩ := ih b eb
        exact ⟨a ++ a', b', c', by simp [saveObjs, ea, e1], e2, by rw [← ht, e3]; simp⟩
      · cases ht
  obtain ⟨a, b, c, ea, eb, et⟩ := split l1 t ht
  obtain ⟨a', ea', ha⟩ := saveObjs_stmts l1 h1
  rw [ea] at ea'
  injection ea' with ea'
  subst ea'
  obtain ⟨ts, hs, _⟩ := ha
  obtain ⟨r, er⟩ := save_head o b eb
  obtain ⟨us, hh⟩ := scan_head o ho
  have e1 : scan .idle ['\''] = some (.str '\'' [], []) := by decide +kernel
  have hn : scan .idle t = none := by
    rw [et, er]
    have : a ++ (headText o ++ '\'' :: (o.recName ++ "',\n".toList ++ r) ++ c) =
        a ++ (headText o ++ (['\''] ++ (o.recName ++ "',\n".toList ++ (r ++ c)))) := by simp
    rw [this]
    exact scan_app_none hs (scan_app_none hh (scan_app_none e1 (hq (r ++ c))))
  simp [runText, lex_scan, hn]

end Ptusa.ObjText
