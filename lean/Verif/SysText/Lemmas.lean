import Verif.SysText.Spec
import Verif.ObjText.Lemmas

/-!
# Lemmas about the text of the controller
-/
namespace Ptusa.SysText
open SaveDev LuaText ObjText

theorem scan_strq (acc s : Txt) (h : CleanQ s) : scan (.str '"' acc) s = some (.str '"' (acc ++ s), []) := by
  induction s generalizing acc with
  | nil => simp [scan]
  | cons c s ih =>
    have hc := h c (by simp)
    have := ih (acc ++ [c]) (fun d hd => h d (by simp [hd]))
    simp [scan, LuaText.step, hc.1, hc.2.1, hc.2.2, this]

theorem scan_quotedq (s : Txt) (h : CleanQ s) : scan .idle (quoted s) = some (.idle, [.str s]) := by
  have e : scan .idle ['"'] = some (.str '"' [], []) := by decide +kernel
  have e2 : scan (.str '"' s) ['"'] = some (.idle, [.str s]) := by simp [scan, LuaText.step]
  have := scan_app e (scan_app (scan_strq [] s h) e2)
  simpa [quoted] using this

theorem item_q (s : Txt) (h : CleanQ s) : Item (quoted s) (.str s) :=
  ⟨[.str s], PV_str s, notKey_one _, fun c us hc => by
    have e : scan .idle [c] = some (.idle, us) := by simp [scan, LuaText.step, hc.1]
    have := scan_app (scan_quotedq s h) e
    simpa using this⟩

/-- The text is fields which do not hide an error after them. -/
def Pre (t : Txt) : Prop := ∃ toks, scan .idle t = some (.idle, toks) ∧
  ∀ n ts, toks.length + ts.length ≤ n → (∀ m, ts.length ≤ m → pFields m ts = none) → pFields n (toks ++ ts) = none

theorem pre_append {a b : Txt} (ha : Pre a) (hb : Pre b) : Pre (a ++ b) := by
  obtain ⟨ta, sa, pa⟩ := ha
  obtain ⟨tb, sb, pb⟩ := hb
  refine ⟨ta ++ tb, scan_app sa sb, fun n ts h hn => ?_⟩
  rw [List.append_assoc]
  refine pa n (tb ++ ts) (by simpa [Nat.add_assoc] using h) fun m hm => ?_
  exact pb m ts (by simpa using hm) hn

theorem pre_one {k t : Txt} {v : Lv} (hk : luaName k = true) (h : Item t v) : Pre (oneText k t) := by
  obtain ⟨ts, hv, _, hs⟩ := h
  have b0 : scan .idle ['\t'] = some (.idle, []) := by decide +kernel
  have b3 : scan .idle ['\n'] = some (.idle, []) := by decide +kernel
  refine ⟨.name k :: .sym '=' :: ts ++ [.sym ','], ?_, fun n us hn hb => ?_⟩
  · have := scan_app b0 (scan_app (scan_key hk) (scan_app (hs ',' _ ends_comma) b3))
    simpa [oneText] using this
  · cases n with
    | zero => simp at hn
    | succ n =>
      simp only [List.length_cons, List.length_append] at hn
      have e1 := hv n (.sym ',' :: us) (by omega)
      have e2 := hb n (by omega)
      simp only [List.cons_append, List.append_assoc, List.nil_append] at *
      simp [pFields, e1, e2]

/-- Both. -/
def FP (t : Txt) (fs : List (Option Txt × Lv)) : Prop := Flds t fs ∧ Pre t

theorem fp_append {a b : Txt} {fs gs : List (Option Txt × Lv)} (ha : FP a fs) (hb : FP b gs) : FP (a ++ b) (fs ++ gs) :=
  ⟨flds_append ha.1 hb.1, pre_append ha.2 hb.2⟩

theorem fp_one {k t : Txt} {v : Lv} (hk : luaName k = true) (h : Item t v) : FP (oneText k t) [(some k, v)] :=
  ⟨flds_one hk h, pre_one hk h⟩

/-- The table of the controller. -/
def want (s : Sys) (a : Txt) : List (Option Txt × Lv) :=
  [one "RESET_BY" s.reset, one "UP_DAYS" s.days, one "UP_HOURS" s.hours, one "UP_MINS" s.mins, one "UP_SECS" s.secs,
   (some "UP_TIME".toList, .str s.upTime),
   one "WASH_VALVE_SEAT_PERIOD" (s.par 1), one "WASH_VALVE_UPPER_SEAT_TIME" (s.par 2),
   one "WASH_VALVE_LOWER_SEAT_TIME" (s.par 3), one "P_V_OFF_DELAY_TIME" (s.par 4), one "P_V_BOTTOM_ON_DELAY_TIME" (s.par 5),
   one "P_WAGO_TCP_NODE_WARN_ANSWER_AVG_TIME" (s.par 6), one "P_MAIN_CYCLE_WARN_ANSWER_AVG_TIME" (s.par 7),
   one "P_RESTRICTIONS_MODE" (s.par 8), one "P_RESTRICTIONS_MANUAL_TIME" (s.par 9), one "P_AUTO_PAUSE_OPER_ON_DEV_ERR" (s.par 10),
   one "CMD" s.cmd, (some "CMD_ANSWER".toList, .str a), (some "VERSION".toList, .str s.version),
   many "NODEENABLED".toList (s.nodes.map bit),
   one "P_IS_OPC_UA_SERVER_ACTIVE" (s.par 13), one "P_IS_OPC_UA_SERVER_CONTROL" (s.par 14)]

/-- The text up to the answer. -/
def front (s : Sys) : Txt :=
  oneText "RESET_BY".toList (natText s.reset) ++
  oneText "UP_DAYS".toList (natText s.days) ++
  oneText "UP_HOURS".toList (natText s.hours) ++
  oneText "UP_MINS".toList (natText s.mins) ++
  oneText "UP_SECS".toList (natText s.secs) ++
  oneText "UP_TIME".toList (quoted s.upTime) ++
  oneText "WASH_VALVE_SEAT_PERIOD".toList (natText (s.par 1)) ++
  oneText "WASH_VALVE_UPPER_SEAT_TIME".toList (natText (s.par 2)) ++
  oneText "WASH_VALVE_LOWER_SEAT_TIME".toList (natText (s.par 3)) ++
  oneText "P_V_OFF_DELAY_TIME".toList (natText (s.par 4)) ++
  oneText "P_V_BOTTOM_ON_DELAY_TIME".toList (natText (s.par 5)) ++
  oneText "P_WAGO_TCP_NODE_WARN_ANSWER_AVG_TIME".toList (natText (s.par 6)) ++
  oneText "P_MAIN_CYCLE_WARN_ANSWER_AVG_TIME".toList (natText (s.par 7)) ++
  oneText "P_RESTRICTIONS_MODE".toList (natText (s.par 8)) ++
  oneText "P_RESTRICTIONS_MANUAL_TIME".toList (natText (s.par 9)) ++
  oneText "P_AUTO_PAUSE_OPER_ON_DEV_ERR".toList (natText (s.par 10)) ++
  oneText "CMD".toList (intText s.cmd)

/-- The text after the answer. -/
def back (s : Sys) : Txt :=
  oneText "VERSION".toList (quoted s.version) ++
  ("\tNODEENABLED = \n\t{\n\t".toList ++ itemsText (s.nodes.map boolText) ++ "\n\t},\n".toList) ++
  oneText "P_IS_OPC_UA_SERVER_ACTIVE".toList (natText (s.par 13)) ++
  oneText "P_IS_OPC_UA_SERVER_CONTROL".toList (natText (s.par 14))

theorem save_eq (s : Sys) (a : Txt) (h : s.answer = some a) :
    save s = some ("t.SYSTEM = \n\t{\n".toList ++ (front s ++ oneText "CMD_ANSWER".toList (quoted a) ++ back s) ++ "\t}\n".toList) := by
  unfold save front back
  rw [h]
  simp only [List.append_assoc]

/-- The table up to the answer. -/
def wantFront (s : Sys) : List (Option Txt × Lv) := (want s []).take 17

theorem front_fp (s : Sys) (h : CleanQ s.upTime) : FP (front s) (wantFront s) := by
  have k1 : luaName "RESET_BY".toList = true := by decide +kernel
  have k2 : luaName "UP_DAYS".toList = true := by decide +kernel
  have k3 : luaName "UP_HOURS".toList = true := by decide +kernel
  have k4 : luaName "UP_MINS".toList = true := by decide +kernel
  have k5 : luaName "UP_SECS".toList = true := by decide +kernel
  have k6 : luaName "UP_TIME".toList = true := by decide +kernel
  have k7 : luaName "WASH_VALVE_SEAT_PERIOD".toList = true := by decide +kernel
  have k8 : luaName "WASH_VALVE_UPPER_SEAT_TIME".toList = true := by decide +kernel
  have k9 : luaName "WASH_VALVE_LOWER_SEAT_TIME".toList = true := by decide +kernel
  have k10 : luaName "P_V_OFF_DELAY_TIME".toList = true := by decide +kernel
  have k11 : luaName "P_V_BOTTOM_ON_DELAY_TIME".toList = true := by decide +kernel
  have k12 : luaName "P_WAGO_TCP_NODE_WARN_ANSWER_AVG_TIME".toList = true := by decide +kernel
  have k13 : luaName "P_MAIN_CYCLE_WARN_ANSWER_AVG_TIME".toList = true := by decide +kernel
  have k14 : luaName "P_RESTRICTIONS_MODE".toList = true := by decide +kernel
  have k15 : luaName "P_RESTRICTIONS_MANUAL_TIME".toList = true := by decide +kernel
  have k16 : luaName "P_AUTO_PAUSE_OPER_ON_DEV_ERR".toList = true := by decide +kernel
  have k17 : luaName "CMD".toList = true := by decide +kernel
  have f1 := fp_one k1 (item_nat s.reset)
  have f2 := fp_one k2 (item_nat s.days)
  have f3 := fp_one k3 (item_nat s.hours)
  have f4 := fp_one k4 (item_nat s.mins)
  have f5 := fp_one k5 (item_nat s.secs)
  have f6 := fp_one k6 (item_q s.upTime h)
  have f7 := fp_one k7 (item_nat (s.par 1))
  have f8 := fp_one k8 (item_nat (s.par 2))
  have f9 := fp_one k9 (item_nat (s.par 3))
  have f10 := fp_one k10 (item_nat (s.par 4))
  have f11 := fp_one k11 (item_nat (s.par 5))
  have f12 := fp_one k12 (item_nat (s.par 6))
  have f13 := fp_one k13 (item_nat (s.par 7))
  have f14 := fp_one k14 (item_nat (s.par 8))
  have f15 := fp_one k15 (item_nat (s.par 9))
  have f16 := fp_one k16 (item_nat (s.par 10))
  have f17 := fp_one k17 (item_int s.cmd)
  have all := fp_append (fp_append (fp_append (fp_append (fp_append (fp_append (fp_append (fp_append (fp_append
    (fp_append (fp_append (fp_append (fp_append (fp_append (fp_append (fp_append f1 f2) f3) f4) f5) f6) f7) f8) f9)
    f10) f11) f12) f13) f14) f15) f16) f17
  exact all

theorem nodes_flds (l : List Bool) : Flds ("\tNODEENABLED = \n\t{\n\t".toList ++ itemsText (l.map boolText) ++ "\n\t},\n".toList)
    [many "NODEENABLED".toList (l.map bit)] := by
  obtain ⟨ts, hs, hf⟩ := flds_items (forall2_map l boolText bit fun b _ => item_bool b)
  have e1 : scan .idle "\tNODEENABLED = \n\t{\n\t".toList = some (.idle, [.name "NODEENABLED".toList, .sym '=', .sym '{']) := by
    decide +kernel
  have e2 : scan .idle "\n\t},\n".toList = some (.idle, [.sym '}', .sym ',']) := by decide +kernel
  refine ⟨_, scan_app (scan_app e1 hs) e2, fun us gs hg => ?_⟩
  have hv := PV_table (hf _ _ PF_close)
  have := PF_key "NODEENABLED".toList hv hg
  simpa [many] using this

theorem back_flds (s : Sys) (h : CleanQ s.version) : Flds (back s) ((want s []).drop 18) := by
  have k1 : luaName "VERSION".toList = true := by decide +kernel
  have k2 : luaName "P_IS_OPC_UA_SERVER_ACTIVE".toList = true := by decide +kernel
  have k3 : luaName "P_IS_OPC_UA_SERVER_CONTROL".toList = true := by decide +kernel
  have f1 := flds_one k1 (item_q s.version h)
  have f2 := nodes_flds s.nodes
  have f3 := flds_one k2 (item_nat (s.par 13))
  have f4 := flds_one k3 (item_nat (s.par 14))
  have all := flds_append (flds_append (flds_append f1 f2) f3) f4
  exact all

theorem save_run (s : Sys) (h : Clear s) : ∃ t a, save s = some t ∧ s.answer = some a ∧
    ∀ env, runText t env = some (Function.update env "SYSTEM".toList (some (.table (want s a)))) := by
  obtain ⟨a, ha, hq⟩ := h.answer
  refine ⟨_, a, save_eq s a ha, ha, fun env => ?_⟩
  have k : luaName "CMD_ANSWER".toList = true := by decide +kernel
  have body := flds_append (flds_append (front_fp s h.upTime).1 (flds_one k (item_q a hq))) (back_flds s h.version)
  have e : wantFront s ++ [(some "CMD_ANSWER".toList, Lv.str a)] ++ (want s []).drop 18 = want s a := rfl
  rw [e] at body
  generalize want s a = fs at body ⊢
  obtain ⟨ts, hs, hf⟩ := body
  have e1 : scan .idle "t.SYSTEM = \n\t{\n".toList = some (.idle, [.name ['t'], .sym '.', .name "SYSTEM".toList, .sym '=', .sym '{']) := by
    decide +kernel
  have e2 : scan .idle "\t}\n".toList = some (.idle, [.sym '}']) := by decide +kernel
  have hl := lex_of_scan (scan_app (scan_app e1 hs) e2)
  rw [runText, hl]
  have hp := PV_table (hf _ _ PF_close)
  have hv := hp (Tok.sym '{' :: (ts ++ [.sym '}'])).length [] le_rfl
  simp only [List.append_nil] at hv
  simp only [List.cons_append, List.nil_append, exec, ne_eq, not_true_eq_false, if_false]
  rw [hv]
  simp [exec]

/-- Tokens which are an error, whatever follows. -/
theorem runText_none {a : Txt} {st : St} {toks : List Tok} (h : scan .idle a = some (st, toks))
    (hx : ∀ g n env, exec n (toks ++ g) env = none) (rest : Txt) (env : Env) : runText (a ++ rest) env = none := by
  rw [runText, lex_scan, scan_append, h]
  cases hr : scan st rest with
  | none => simp [hr]
  | some p =>
    cases hfl : flush p.1 with
    | none => simp [hr, hfl]
    | some l =>
      simp only [Option.bind_some, hr, Option.map_some, hfl, List.append_assoc]
      exact hx _ _ _

/-- A field whose string is followed by a word is an error. -/
theorem bad_field (k w x : Txt) (g : List Tok) (n : Nat) :
    pFields n (.name k :: .sym '=' :: .str w :: .name x :: g) = none := by
  match n with
  | 0 => simp [pFields]
  | 1 => simp [pFields, pVal]
  | n + 2 => simp [pFields, pVal]

theorem exec_bad {y : Txt} {ps ts : List Tok}
    (hp : ∀ n, (ps ++ ts).length ≤ n → pFields n (ps ++ ts) = none) (n : Nat) (env : Env) :
    exec n (.name ['t'] :: .sym '.' :: .name y :: .sym '=' :: .sym '{' :: (ps ++ ts)) env = none := by
  cases n with
  | zero => rfl
  | succ n =>
    have : pVal (Tok.sym '{' :: (ps ++ ts)).length (.sym '{' :: (ps ++ ts)) = none := by
      simp only [List.length_cons, pVal]
      rw [hp _ le_rfl]
      rfl
    simp only [exec, ne_eq, not_true_eq_false, if_false]
    rw [this]

/-- A quotation mark within the answer, and a word after it: the text is an error. -/
theorem unreadable (s : Sys) (h : CleanQ s.upTime) (a w m u x : Txt) (ts : List Tok) (st : St) (ha : s.answer = some a)
    (he : a = w ++ '"' :: (m ++ u)) (hw : CleanQ w) (hm : scan .idle m = some (st, .name x :: ts)) (t : Txt) (ht : save s = some t)
    (env : Env) : runText t env = none := by
  rw [save_eq s a ha] at ht
  injection ht with ht
  obtain ⟨ps, hs, hp⟩ := (front_fp s h).2
  have e1 : scan .idle "t.SYSTEM = \n\t{\n".toList = some (.idle, [.name ['t'], .sym '.', .name "SYSTEM".toList, .sym '=', .sym '{']) := by
    decide +kernel
  have e2 : scan .idle ['\t'] = some (.idle, []) := by decide +kernel
  have k : luaName "CMD_ANSWER".toList = true := by decide +kernel
  have e3 := scan_key k
  have e4 := scan_quotedq w hw
  have e5 := scan_app e1 (scan_app hs (scan_app e2 (scan_app e3 (scan_app e4 hm))))
  have et : t = "t.SYSTEM = \n\t{\n".toList ++ (front s ++ (['\t'] ++ (("CMD_ANSWER".toList ++ ['=']) ++ (quoted w ++ m)))) ++
      (u ++ ['"', ',', '\n'] ++ back s ++ "\t}\n".toList) := by
    rw [← ht, he]
    simp only [oneText, quoted, List.append_assoc, List.cons_append, List.nil_append]
  rw [et]
  refine runText_none e5 (fun g n env => ?_) _ env
  have := exec_bad (y := "SYSTEM".toList) (ps := ps) (ts := .name "CMD_ANSWER".toList :: .sym '=' :: .str w :: .name x :: (ts ++ g))
    (fun n hn => hp n _ (by simpa using hn) fun m _ => bad_field _ _ _ _ m) n env
  rw [← this]
  simp only [List.append_assoc, List.cons_append, List.nil_append]

theorem want_nodup (s : Sys) (a : Txt) : ((want s a).map (·.1)).Nodup := by
  have : (want s a).map (·.1) = ["RESET_BY", "UP_DAYS", "UP_HOURS", "UP_MINS", "UP_SECS", "UP_TIME", "WASH_VALVE_SEAT_PERIOD",
    "WASH_VALVE_UPPER_SEAT_TIME", "WASH_VALVE_LOWER_SEAT_TIME", "P_V_OFF_DELAY_TIME", "P_V_BOTTOM_ON_DELAY_TIME",
    "P_WAGO_TCP_NODE_WARN_ANSWER_AVG_TIME", "P_MAIN_CYCLE_WARN_ANSWER_AVG_TIME", "P_RESTRICTIONS_MODE",
    "P_RESTRICTIONS_MANUAL_TIME", "P_AUTO_PAUSE_OPER_ON_DEV_ERR", "CMD", "CMD_ANSWER", "VERSION", "NODEENABLED",
    "P_IS_OPC_UA_SERVER_ACTIVE", "P_IS_OPC_UA_SERVER_CONTROL"].map (fun k => some k.toList) := rfl
  rw [this]
  decide +kernel

end Ptusa.SysText
