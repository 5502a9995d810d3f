import Verif.AlarmText.Spec
import Verif.SysText.Lemmas

/-!
# Lemmas about the list of alarms
-/
namespace Ptusa.AlarmText
open SaveDev LuaText ObjText
open SysText (CleanQ quoted item_q)
open CritErr (Err)

/-- A key, a value, a comma and blanks. -/
theorem flds_pre {pre k t b : Txt} {v : Lv} (h : scan .idle pre = some (.idle, [.name k, .sym '='])) (hi : Item t v)
    (hb : Blank b) : Flds (pre ++ t ++ ',' :: b) [(some k, v)] := by
  obtain ⟨ts, hv, _, hs⟩ := hi
  refine ⟨.name k :: .sym '=' :: ts ++ [.sym ','], ?_, fun us gs hg => ?_⟩
  · have := scan_app h (scan_app (hs ',' _ ends_comma) (scan_blank b hb))
    simpa using this
  · have := PF_key k hv hg
    simpa using this

/-- A table in braces as a numbered field. -/
theorem flds_entry {a b body : Txt} {fs : List (Option Txt × Lv)} (ha : scan .idle a = some (.idle, [.sym '{']))
    (hb : scan .idle b = some (.idle, [.sym '}', .sym ','])) (h : Flds body fs) :
    Flds (a ++ body ++ b) [(none, .table fs)] := by
  obtain ⟨ts, hs, hf⟩ := h
  refine ⟨_, scan_app (scan_app ha hs) hb, fun us gs hg => ?_⟩
  have hv := PV_table (hf _ _ PF_close)
  have := PF_item hv ⟨by simp, by simp⟩ hg
  simpa using this

/-- The same, with a last field without a comma. -/
theorem flds_entry_last {a b body : Txt} {fs : List (Option Txt × Lv)} {k : Txt} {t : Tok} {v : Lv}
    (ha : scan .idle a = some (.idle, [.sym '{']))
    (hb : scan .idle b = some (.idle, [.name k, .sym '=', t, .sym '}', .sym ','])) (ht : PV [t] v) (h : Flds body fs) :
    Flds (a ++ body ++ b) [(none, .table (fs ++ [(some k, v)]))] := by
  obtain ⟨ts, hs, hf⟩ := h
  refine ⟨_, scan_app (scan_app ha hs) hb, fun us gs hg => ?_⟩
  have hl : PF [.name k, .sym '=', t, .sym '}'] [(some k, v)] := by simpa using PF_keylast k ht
  have hv := PV_table (hf _ _ hl)
  have := PF_item hv ⟨by simp, by simp⟩ hg
  simpa using this

theorem blank_nl : Blank ['\n'] := by decide +kernel
theorem blank_nil : Blank [] := by decide +kernel

theorem item_group : Item ('\'' :: "Авария".toList ++ ['\'']) (.str "Авария".toList) := item_str _ (by decide +kernel)

/-- The table of a critical error. -/
def critFs (d : Txt) (e : Err) : List (Option Txt × Lv) :=
  [(some "description".toList, .str d), (some "type".toList, .glob "AT_SPECIAL".toList),
   (some "group".toList, .str "Авария".toList), (some "priority".toList, .num (100 : Nat)),
   (some "state".toList, .glob "AS_ALARM".toList), (some "id_n".toList, .num e.param.toInt)]

theorem crit_flds (x : Ctx) (e : Err) (d t : Txt) (hd : descr x e true = some d) (hc : CleanQ d)
    (h : critText x e = some t) : Flds t [(none, .table (critFs d e))] := by
  simp only [critText, hd, Option.map_some, Option.some.injEq] at h
  subst h
  have k1 : scan .idle "\tdescription = ".toList = some (.idle, [.name "description".toList, .sym '=']) := by decide +kernel
  have k2 : scan .idle "\ttype = ".toList = some (.idle, [.name "type".toList, .sym '=']) := by decide +kernel
  have k3 : scan .idle "\tgroup = ".toList = some (.idle, [.name "group".toList, .sym '=']) := by decide +kernel
  have k4 : scan .idle "\tpriority = ".toList = some (.idle, [.name "priority".toList, .sym '=']) := by decide +kernel
  have k5 : scan .idle "\tstate = ".toList = some (.idle, [.name "state".toList, .sym '=']) := by decide +kernel
  have k6 : scan .idle "\tid_n = ".toList = some (.idle, [.name "id_n".toList, .sym '=']) := by decide +kernel
  have n1 : luaName "AT_SPECIAL".toList = true := by decide +kernel
  have n2 : luaName "AS_ALARM".toList = true := by decide +kernel
  have a : scan .idle "\t{\n".toList = some (.idle, [.sym '{']) := by decide +kernel
  have b : scan .idle "\t},\n".toList = some (.idle, [.sym '}', .sym ',']) := by decide +kernel
  have f1 := flds_pre k1 (item_q d hc) blank_nl
  have f2 := flds_pre k2 (item_name n1) blank_nl
  have f3 := flds_pre k3 item_group blank_nl
  have f4 := flds_pre k4 (item_nat 100) blank_nl
  have f5 := flds_pre k5 (item_name n2) blank_nl
  have f6 := flds_pre k6 (item_int e.param.toInt) blank_nl
  exact flds_entry a b (flds_append (flds_append (flds_append (flds_append (flds_append f1 f2) f3) f4) f5) f6)

theorem last_scan (b : Bool) : scan .idle ("suppress=".toList ++ truth b ++ "\n},\n".toList) =
    some (.idle, [.name "suppress".toList, .sym '=', .bool b, .sym '}', .sym ',']) := by
  cases b <;> decide +kernel

theorem stateNo_eq (st : Alarm.AState) : stateNo st = stateFor st := by cases st <;> rfl

theorem kind_eq (k : Nat) : (group k, priority k) = kindFor k := by
  unfold kindFor
  split <;> (try decide +kernel)
  rename_i h0 h1 h2 h3 h4 h5 h6 h7 h8
  have e : '?' :: [] = "?".toList := by decide +kernel
  simp only [imp_false] at *
  simp only [group, priority, h0, h1, h2, h3, h4, h5, h6, h7, h8, or_self, if_false, e]

theorem group_eq (k : Nat) : group k = (kindFor k).1 := by rw [← kind_eq]

theorem priority_eq (k : Nat) : priority k = (kindFor k).2 := by rw [← kind_eq]

theorem priority_cases (k : Nat) : priority k = 750 ∨ priority k = 500 ∨ priority k = 250 := by
  unfold priority; split <;> [skip; split] <;> simp

theorem group_clean (k : Nat) : CleanQ (group k) := by
  unfold group
  repeat' split
  all_goals decide +kernel

/-- The table of a message. -/
def msgFs (number type : Nat) (m : Msg) : List (Option Txt × Lv) :=
  [(some "description".toList, .str m.text), (some "group".toList, .str (group m.kind)),
   (some "priority".toList, .num (priority m.kind)), (some "state".toList, .num (1 : Nat)), (some "type".toList, .num (4 : Nat)),
   (some "id_n".toList, .num number), (some "id_object_alarm_number".toList, .num m.n), (some "id_type".toList, .num type)] ++
  [(some "suppress".toList, .bool false)]

theorem msg_flds (number type : Nat) (m : Msg) (hc : CleanQ m.text) :
    Flds (msgText number type m) [(none, .table (msgFs number type m))] := by
  have k1 : scan .idle "\tdescription=".toList = some (.idle, [.name "description".toList, .sym '=']) := by decide +kernel
  have k2 : scan .idle "\tgroup=".toList = some (.idle, [.name "group".toList, .sym '=']) := by decide +kernel
  have k3 : scan .idle "priority=".toList = some (.idle, [.name "priority".toList, .sym '=']) := by decide +kernel
  have k4 : scan .idle "state=".toList = some (.idle, [.name "state".toList, .sym '=']) := by decide +kernel
  have k5 : scan .idle "type=".toList = some (.idle, [.name "type".toList, .sym '=']) := by decide +kernel
  have k6 : scan .idle "id_n=".toList = some (.idle, [.name "id_n".toList, .sym '=']) := by decide +kernel
  have k7 : scan .idle "id_object_alarm_number=".toList =
    some (.idle, [.name "id_object_alarm_number".toList, .sym '=']) := by decide +kernel
  have k8 : scan .idle "id_type=".toList = some (.idle, [.name "id_type".toList, .sym '=']) := by decide +kernel
  have a : scan .idle "\t{\n".toList = some (.idle, [.sym '{']) := by decide +kernel
  have f1 := flds_pre k1 (item_q m.text hc) blank_nl
  have f2 := flds_pre k2 (item_q _ (group_clean m.kind)) blank_nl
  have f3 := flds_pre k3 (item_nat (priority m.kind)) blank_nil
  have f4 := flds_pre k4 (item_nat 1) blank_nl
  have f5 := flds_pre k5 (item_nat 4) blank_nl
  have f6 := flds_pre k6 (item_nat number) blank_nl
  have f7 := flds_pre k7 (item_int m.n) blank_nl
  have f8 := flds_pre k8 (item_nat type) blank_nl
  exact flds_entry_last a (last_scan false) (PV_bool false) (flds_append (flds_append (flds_append (flds_append (flds_append
    (flds_append (flds_append f1 f2) f3) f4) f5) f6) f7) f8)

/-- The table of a device. -/
def devFs (name text : Txt) (st : Alarm.AState) (sup : Bool) (number type : Nat) : List (Option Txt × Lv) :=
  [(some "description".toList, .str (name ++ " - ".toList ++ text)), (some "priority".toList, .num (250 : Nat)),
   (some "state".toList, .num (stateNo st)), (some "type".toList, .num (4 : Nat)), (some "group".toList, .str "тревога".toList),
   (some "id_n".toList, .num number), (some "id_type".toList, .num type)] ++
  [(some "suppress".toList, .bool sup)]

theorem cleanQ_append {a b : Txt} (ha : CleanQ a) (hb : CleanQ b) : CleanQ (a ++ b) := by
  intro c hc
  rcases List.mem_append.mp hc with h | h
  · exact ha c h
  · exact hb c h

/-- The tables of an element. -/
def elemFs : Elem → List (Option Txt × Lv)
  | .dev name text st sup number type =>
    if st = .normal then [] else [(none, .table (devFs name text st sup number type))]
  | .obj msgs number type => msgs.flatMap fun m => [(none, .table (msgFs number type m))]

theorem elem_flds (e : Elem) (h : e.Clean) : Flds (elemText e) (elemFs e) := by
  cases e with
  | obj msgs number type =>
    exact flds_flatMap msgs _ _ fun m hm => msg_flds number type m (h m hm)
  | dev name text st sup number type =>
    simp only [elemText, elemFs]
    by_cases hs : st = .normal
    · simpa [hs] using flds_nil
    · rw [if_neg hs, if_neg hs]
      have k1 : scan .idle "\tdescription=".toList = some (.idle, [.name "description".toList, .sym '=']) := by decide +kernel
      have k2 : scan .idle "group=".toList = some (.idle, [.name "group".toList, .sym '=']) := by decide +kernel
      have k3 : scan .idle "priority=".toList = some (.idle, [.name "priority".toList, .sym '=']) := by decide +kernel
      have k4 : scan .idle "state=".toList = some (.idle, [.name "state".toList, .sym '=']) := by decide +kernel
      have k5 : scan .idle "type=".toList = some (.idle, [.name "type".toList, .sym '=']) := by decide +kernel
      have k6 : scan .idle "id_n=".toList = some (.idle, [.name "id_n".toList, .sym '=']) := by decide +kernel
      have k8 : scan .idle "id_type=".toList = some (.idle, [.name "id_type".toList, .sym '=']) := by decide +kernel
      have a : scan .idle "\t{\n".toList = some (.idle, [.sym '{']) := by decide +kernel
      have hg : CleanQ "тревога".toList := by decide +kernel
      have hm : CleanQ " - ".toList := by decide +kernel
      have f1 := flds_pre k1 (item_q _ (cleanQ_append (cleanQ_append h.1 hm) h.2)) blank_nl
      have f2 := flds_pre k3 (item_nat 250) blank_nil
      have f3 := flds_pre k4 (item_nat (stateNo st)) blank_nl
      have f4 := flds_pre k5 (item_nat 4) blank_nl
      have f5 := flds_pre k2 (item_q _ hg) blank_nl
      have f6 := flds_pre k6 (item_nat number) blank_nl
      have f8 := flds_pre k8 (item_nat type) blank_nl
      exact flds_entry_last a (last_scan sup) (PV_bool sup) (flds_append (flds_append (flds_append (flds_append (flds_append
        (flds_append f1 f2) f3) f4) f5) f6) f8)

theorem crits_flds (x : Ctx) (ds : List (Txt × Err)) (hd : ∀ d ∈ ds, descr x d.2 true = some d.1 ∧ CleanQ d.1) :
    ∃ t, critsText x (ds.map (·.2)) = some t ∧ Flds t (ds.map fun d => (none, .table (critFs d.1 d.2))) := by
  induction ds with
  | nil => exact ⟨[], rfl, flds_nil⟩
  | cons d ds ih =>
    obtain ⟨u, hu, hf⟩ := ih fun d hd' => hd d (by simp [hd'])
    obtain ⟨h1, h2⟩ := hd d (by simp)
    have ht : ∃ t, critText x d.2 = some t := by simp [critText, h1]
    obtain ⟨t, ht⟩ := ht
    refine ⟨t ++ u, by simp [critsText, ht, hu], ?_⟩
    exact flds_append (crit_flds x d.2 d.1 t h1 h2 ht) hf

/-- The whole table. -/
def allFs (ds : List (Txt × Err)) (l : List Elem) (ready : Bool) (id : Nat) : List (Option Txt × Lv) :=
  ds.map (fun d => (none, .table (critFs d.1 d.2))) ++ (if ds = [] ∧ ready then l.flatMap elemFs else []) ++
    [(some "id".toList, .num id)]

theorem assign_some {ts : List Tok} {v : Lv} (h : PV ts v) (n : Nat) (t : Txt) (q : Rat) (r : List Tok) (env : Tables) :
    assign (n + 1) (.name t :: .sym '[' :: .num q :: .sym ']' :: .sym '=' :: ts ++ r) env =
      assign n r (fun t' q' => if t' = t ∧ q' = q then some v else env t' q') := by
  have := h (ts ++ r).length r (by simp)
  simp only [List.cons_append]
  rw [assign, this]

theorem answer_reads (x : Ctx) (p : Nat) (ds : List (Txt × Err)) (l : List Elem) (ready : Bool) (id : Nat)
    (hd : ∀ d ∈ ds, descr x d.2 true = some d.1 ∧ CleanQ d.1) (hl : ∀ e ∈ l, e.Clean) (env : Tables) :
    ∃ t, answer x p (ds.map (·.2)) l ready id = some t ∧
      serverReads t env = some (fun t' q' => if t' = "alarms".toList ∧ q' = (p : Rat) then
        some (.table (allFs ds l ready id)) else env t' q') := by
  obtain ⟨c, hc, hf⟩ := crits_flds x ds hd
  have hempty : (ds.map (·.2) = [] ∧ ready = true) ↔ (ds = [] ∧ ready = true) := by simp
  have h2 : Flds (if ds = [] ∧ ready then l.flatMap elemText else []) (if ds = [] ∧ ready then l.flatMap elemFs else []) := by
    split
    · exact flds_flatMap l _ _ fun e he => elem_flds e (hl e he)
    · exact flds_nil
  have k : scan .idle "  id = ".toList = some (.idle, [.name "id".toList, .sym '=']) := by decide +kernel
  have h3 := flds_pre k (item_nat id) blank_nl
  have body := flds_append (flds_append hf h2) h3
  change Flds _ (allFs ds l ready id) at body
  refine ⟨_, by simp only [answer, hc, Option.map_some, hempty]; rfl, ?_⟩
  generalize allFs ds l ready id = fs at body ⊢
  obtain ⟨ts, hs, hp⟩ := body
  have e0 : scan .idle "alarms[ ".toList = some (.idle, [.name "alarms".toList, .sym '[']) := by decide +kernel
  have en : scan .idle (natText p ++ [' ']) = some (.idle, [.num p]) := by
    have ends : Ends ' ' [] := ⟨by decide, by decide, by decide⟩
    exact scan_app (scan_nat p) (scan_end (wordTok_nat p) ends)
  have e1 : scan .idle "] = \n  {}".toList = some (.idle, [.sym ']', .sym '=', .sym '{', .sym '}']) := by decide +kernel
  have e2 : scan .idle "] = \n  {".toList = some (.idle, [.sym ']', .sym '=', .sym '{']) := by decide +kernel
  have e3 : scan .idle "  }\n".toList = some (.idle, [.sym '}']) := by decide +kernel
  have s1 := scan_app (scan_app (scan_app e0 (scan_app en e1)) (scan_app e0 (scan_app en e2))) (scan_app hs e3)
  have hlex := lex_of_scan s1
  have q1 : " ] = \n  {}".toList = ' ' :: "] = \n  {}".toList := by decide +kernel
  have q2 : " ] = \n  {".toList = ' ' :: "] = \n  {".toList := by decide +kernel
  unfold serverReads
  rw [q1, q2]
  simp only [List.append_assoc, List.cons_append, List.nil_append] at hlex ⊢
  rw [hlex]
  have v1 : PV [.sym '{', .sym '}'] (.table []) := PV_table PF_close
  have v2 := PV_table (hp _ _ PF_close)
  have a1 := assign_some v1 ((ts ++ [Tok.sym '}']).length + 13) "alarms".toList p
    (.name "alarms".toList :: .sym '[' :: .num p :: .sym ']' :: .sym '=' :: (.sym '{' :: (ts ++ [.sym '}']))) env
  have a2 := assign_some v2 ((ts ++ [Tok.sym '}']).length + 12) "alarms".toList p []
    (fun t' q' => if t' = "alarms".toList ∧ q' = (p : Rat) then some (.table []) else env t' q')
  simp only [List.append_nil, List.cons_append, List.nil_append] at a1 a2
  simp only [List.length_cons, List.length_append, List.length_nil] at a1 a2 ⊢
  refine Eq.trans ?_ (a1.trans (a2.trans ?_))
  · congr 1
  · rw [assign]
    congr 1
    funext t' q'
    by_cases h : t' = "alarms".toList ∧ q' = (p : Rat)
    · simp [h]
    · simp only [if_neg h]

end Ptusa.AlarmText
