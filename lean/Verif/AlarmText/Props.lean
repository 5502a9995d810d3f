import Verif.AlarmText.Lemmas

/-!
# C131, C132: the list of alarms

* C131: the server reads the list of alarms as it is.
* C132: the description of a critical error names what has failed.
-/
namespace Ptusa.AlarmText
open SaveDev LuaText ObjText
open SysText (CleanQ quoted)
open CritErr (Err)

/-- A record as the fields of a table. -/
def asFields (r : Rec) : List (Option Txt × Lv) := r.map fun p => (some p.1.toList, p.2)

theorem says_fields (r : Rec) (h : (r.map (·.1)).Nodup) : Says (.table (asFields r)) r := by
  refine ⟨_, rfl, ?_, fun p hp => field_of_nodup ?_ (List.mem_map_of_mem hp)⟩
  · unfold items asFields
    rw [List.map_eq_nil_iff, List.filter_eq_nil_iff]
    intro p hp
    obtain ⟨q, _, rfl⟩ := List.mem_map.mp hp
    simp
  · unfold asFields
    rw [List.map_map]
    have : ((fun x : Option Txt × Lv => x.1) ∘ fun p : String × Lv => (some p.1.toList, p.2)) =
        (fun k : String => some k.toList) ∘ (fun p : String × Lv => p.1) := rfl
    rw [this, ← List.map_map]
    refine List.Nodup.map (fun a b hab => ?_) h
    exact String.toList_inj.mp (Option.some.inj hab)

theorem crit_says (d : Txt) (e : Err) : Says (.table (critFs d e)) (critRec d e) := by
  have h : critFs d e = asFields (critRec d e) := by simp only [critFs, critRec, asFields, List.map_cons, List.map_nil, Nat.cast_ofNat]
  rw [h]
  exact says_fields _ (by simp [critRec])

theorem dev_says (name text : Txt) (st : Alarm.AState) (sup : Bool) (number type : Nat) (h : st ≠ .normal) :
    List.Forall₂ Says [.table (devFs name text st sup number type)] (elemRecs (.dev name text st sup number type)) := by
  rw [elemRecs, if_neg h, ← stateNo_eq]
  refine .cons ?_ .nil
  have h : devFs name text st sup number type = asFields [("description", .str (name ++ " - ".toList ++ text)),
      ("priority", .num 250), ("state", .num (stateNo st)), ("type", .num 4), ("group", .str "тревога".toList),
      ("id_n", .num number), ("id_type", .num type), ("suppress", .bool sup)] := by
    simp only [devFs, asFields, List.map_cons, List.map_nil, Nat.cast_ofNat, List.cons_append, List.nil_append]
  rw [h]
  exact says_fields _ (by simp)

theorem msg_says (number type : Nat) (m : Msg) : Says (.table (msgFs number type m))
    [("description", .str m.text), ("group", .str (group m.kind)), ("priority", .num (priority m.kind)), ("state", .num 1),
     ("type", .num 4), ("id_n", .num number), ("id_object_alarm_number", .num m.n), ("id_type", .num type),
     ("suppress", .bool false)] := by
  have h : msgFs number type m = asFields [("description", .str m.text), ("group", .str (group m.kind)),
     ("priority", .num (priority m.kind)), ("state", .num 1),
     ("type", .num 4), ("id_n", .num number), ("id_object_alarm_number", .num m.n), ("id_type", .num type),
     ("suppress", .bool false)] := by
    simp only [msgFs, asFields, List.map_cons, List.map_nil, Nat.cast_ofNat, Nat.cast_one, List.cons_append, List.nil_append]
  rw [h]
  exact says_fields _ (by simp)

theorem elem_says (e : Elem) : List.Forall₂ Says (items (elemFs e)) (elemRecs e) := by
  cases e with
  | dev name text st sup number type =>
    by_cases h : st = .normal
    · simp only [elemFs, elemRecs, if_pos h]; exact .nil
    · simp only [elemFs, if_neg h]; exact dev_says name text st sup number type h
  | obj msgs number type =>
    simp only [elemFs, elemRecs]
    induction msgs with
    | nil => exact .nil
    | cons m ms ih =>
      refine .cons ?_ ih
      have := msg_says number type m
      rw [group_eq, priority_eq] at this
      exact this

theorem items_all (ds : List (Txt × Err)) (l : List Elem) (ready : Bool) (id : Nat) :
    List.Forall₂ Says (items (allFs ds l ready id)) (listed ds l ready) := by
  have happ : ∀ a b : List (Option Txt × Lv), items (a ++ b) = items a ++ items b := by
    intro a b; simp [items]
  unfold allFs listed
  rw [happ, happ]
  have h3 : items [(some "id".toList, Lv.num id)] = [] := rfl
  rw [h3, List.append_nil]
  refine List.rel_append ?_ ?_
  · induction ds with
    | nil => exact .nil
    | cons d ds ih => exact .cons (crit_says d.1 d.2) ih
  · split
    · clear h3
      induction l with
      | nil => exact .nil
      | cons e l ih =>
        rw [List.flatMap_cons, List.flatMap_cons, happ]
        exact List.rel_append (elem_says e) ih
    · exact .nil

theorem nokey_elem (e : Elem) : ∀ p ∈ elemFs e, p.1 = none := by
  cases e with
  | dev name text st sup number type =>
    simp only [elemFs]
    split <;> simp
  | obj msgs number type =>
    simp only [elemFs, List.mem_flatMap, List.mem_singleton]
    rintro p ⟨m, _, rfl⟩
    rfl

theorem field_skip (a b : List (Option Txt × Lv)) (k : String) (h : ∀ p ∈ a, p.1 = none) : field (a ++ b) k = field b k := by
  unfold field
  have : a.filter (fun p => p.1 == some k.toList) = [] := by
    rw [List.filter_eq_nil_iff]
    intro p hp
    simp [h p hp]
  rw [List.filter_append, this, List.nil_append]

theorem field_id (ds : List (Txt × Err)) (l : List Elem) (ready : Bool) (id : Nat) :
    field (allFs ds l ready id) "id" = some (.num id) := by
  unfold allFs
  rw [field_skip]
  · rfl
  · intro p hp
    rcases List.mem_append.mp hp with h | h
    · obtain ⟨d, _, rfl⟩ := List.mem_map.mp h
      rfl
    · split at h
      · obtain ⟨e, _, he⟩ := List.mem_flatMap.mp h
        exact nokey_elem e p he
      · simp at h

theorem cleanQ_int (z : Int) : CleanQ (intText z) := by
  intro c hc
  have hd : c = '-' ∨ c.isDigit = true := by
    unfold intText at hc
    split at hc
    · rcases List.mem_cons.mp hc with h | h
      · exact .inl h
      · exact .inr (natText_digits _ c h)
    · exact .inr (natText_digits _ c hc)
  refine ⟨?_, ?_, ?_⟩ <;> · rintro rfl; revert hd; decide +kernel

theorem cleanQ_cons {c : Char} {t : Txt} (hc : CleanQ [c]) (ht : CleanQ t) : CleanQ (c :: t) := cleanQ_append hc ht

theorem fit_some {t u : Txt} (h : fit t = some u) : u = t ∧ bytes t < 200 := by
  unfold fit at h
  split at h
  · simp only [Option.some.injEq] at h; exact ⟨h.symm, by assumption⟩
  · simp at h

theorem cleanQ_numbers (e : Err) : CleanQ (numbers e) := by
  unfold numbers
  have m : CleanQ ['-'] := by decide +kernel
  have a : CleanQ " : ".toList := by decide +kernel
  exact cleanQ_append (cleanQ_append (cleanQ_append (cleanQ_int _) (cleanQ_cons m (cleanQ_int _))) (cleanQ_cons m (cleanQ_int _))) a

theorem node_mem {x : Ctx} {par : Int} {n : Node} (h : x.node par = some n) : n ∈ x.nodes := by
  unfold Ctx.node at h
  split at h
  · simp at h
  · exact List.mem_of_getElem? h

theorem cleanQ_partner {x : Ctx} (hx : x.Clean) {sub par : Int} {p : Txt} (h : partner x sub par = some p) : CleanQ p := by
  unfold partner at h
  have dot : CleanQ ['.'] := by decide +kernel
  repeat' split at h
  · obtain ⟨n, hn, rfl⟩ := Option.map_eq_some_iff.mp h
    obtain ⟨h1, h2⟩ := hx.1 n (node_mem hn)
    have a1 : CleanQ "узлом I/O '".toList := by decide +kernel
    have a2 : CleanQ "' ('".toList := by decide +kernel
    have a3 : CleanQ "', '".toList := by decide +kernel
    have a4 : CleanQ "')".toList := by decide +kernel
    exact cleanQ_append (cleanQ_append (cleanQ_append (cleanQ_append (cleanQ_append (cleanQ_append a1 h1) a2) h2) a3) hx.2.1) a4
  · simp only [Option.some.injEq] at h; subst h
    exact cleanQ_append (cleanQ_append (by decide +kernel) (cleanQ_int _)) dot
  · simp only [Option.some.injEq] at h; subst h
    exact cleanQ_append (cleanQ_append (by decide +kernel) (cleanQ_int _)) dot
  · simp only [Option.some.injEq] at h; subst h
    exact cleanQ_append (cleanQ_append (by decide +kernel) (cleanQ_int _)) dot
  · simp only [Option.some.injEq] at h; subst h; decide +kernel
  · simp only [Option.some.injEq] at h; subst h; decide +kernel
  · simp only [Option.some.injEq] at h; subst h; decide +kernel

theorem cleanQ_net (sub : Int) : CleanQ (netText sub) := by
  unfold netText
  repeat' split
  all_goals decide +kernel

theorem cleanQ_ite {c : Prop} [Decidable c] {a b : Txt} (ha : CleanQ a) (hb : CleanQ b) : CleanQ (if c then a else b) := by
  split <;> assumption

theorem cleanQ_descr {x : Ctx} (hx : x.Clean) {e : Err} {d : Txt} (h : descr x e true = some d) : CleanQ d := by
  unfold descr at h
  simp only [if_true] at h
  have hn := cleanQ_numbers e
  split at h
  · rw [(fit_some h).1]; exact cleanQ_append hn (by decide +kernel)
  split at h
  · obtain ⟨p, hp, hf⟩ := Option.bind_eq_some_iff.mp h
    rw [(fit_some hf).1]
    exact cleanQ_append (cleanQ_append hn (by decide +kernel)) (cleanQ_partner hx hp)
  split at h
  · simp only [Option.some.injEq] at h; subst h; decide +kernel
  split at h
  · obtain ⟨t, ht, hf⟩ := Option.bind_eq_some_iff.mp h
    rw [(fit_some hf).1, (fit_some ht).1]
    have a1 : CleanQ "master : ".toList := by decide +kernel
    have a2 : CleanQ "modbus : ".toList := by decide +kernel
    have a3 : CleanQ [] := by decide +kernel
    exact cleanQ_append (cleanQ_append (cleanQ_append (cleanQ_append (cleanQ_append hn (by decide +kernel))
      (cleanQ_ite a1 (cleanQ_ite a2 a3))) (cleanQ_net _)) hx.2.2) (by decide +kernel)
  split at h
  · obtain ⟨p, hp, hf⟩ := Option.bind_eq_some_iff.mp h
    rw [(fit_some hf).1]
    refine cleanQ_append (cleanQ_append hn ?_) (by decide +kernel)
    split at hp
    · obtain ⟨n, hn, rfl⟩ := Option.map_eq_some_iff.mp hp
      obtain ⟨h1, h2⟩ := hx.1 n (node_mem hn)
      have a1 : CleanQ "Узел ввода/вывода '".toList := by decide +kernel
      have a2 : CleanQ "' ('".toList := by decide +kernel
      have a4 : CleanQ "') - ".toList := by decide +kernel
      exact cleanQ_append (cleanQ_append (cleanQ_append (cleanQ_append a1 h1) a2) h2) a4
    · simp only [Option.some.injEq] at hp; subst hp; decide +kernel
  · rw [(fit_some h).1]; exact hn

theorem crits_descr (x : Ctx) (crit : List Err) (c : Txt) (h : critsText x crit = some c) :
    ∃ ds : List (Txt × Err), ds.map (·.2) = crit ∧ ∀ d ∈ ds, descr x d.2 true = some d.1 := by
  induction crit generalizing c with
  | nil => exact ⟨[], rfl, by simp⟩
  | cons e l ih =>
    rw [critsText] at h
    obtain ⟨t, ht, hu⟩ := Option.bind_eq_some_iff.mp h
    obtain ⟨u, hu, _⟩ := Option.map_eq_some_iff.mp hu
    obtain ⟨ds, h1, h2⟩ := ih u hu
    obtain ⟨d, hd, _⟩ := Option.map_eq_some_iff.mp ht
    refine ⟨(d, e) :: ds, by simp [h1], ?_⟩
    intro p hp
    rcases List.mem_cons.mp hp with rfl | hp
    · exact hd
    · exact h2 p hp

/-- **C131.** The server which runs the answer gets the list as it is: every critical error with its description, or, without
critical errors, every device whose alarm is not normal and every message of every object, each with its state, group, priority,
number and type, in their order and nothing else, under the number of the list. No other table is changed.
Missing: texts with quotation marks, line ends or backslashes (see below). -/
theorem C131_alarm_list_partial (x : Ctx) (p : Nat) (crit : List Err) (l : List Elem) (ready : Bool) (id : Nat) (t : Txt)
    (ht : answer x p crit l ready id = some t) (hx : x.Clean) (hl : ∀ e ∈ l, e.Clean) (env : Tables) :
    ∃ (ds : List (Txt × Err)) (env' : Tables), ds.map (·.2) = crit ∧ (∀ d ∈ ds, descr x d.2 true = some d.1) ∧
      serverReads t env = some env' ∧ Lists env' p (listed ds l ready) id ∧
      ∀ t' q', ¬(t' = "alarms".toList ∧ q' = (p : Rat)) → env' t' q' = env t' q' := by
  have hc : ∃ c, critsText x crit = some c := by
    obtain ⟨c, hc, _⟩ := Option.map_eq_some_iff.mp ht
    exact ⟨c, hc⟩
  obtain ⟨c, hc⟩ := hc
  obtain ⟨ds, h1, h2⟩ := crits_descr x crit c hc
  obtain ⟨t', e1, e2⟩ := answer_reads x p ds l ready id (fun d hd => ⟨h2 d hd, cleanQ_descr hx (h2 d hd)⟩) hl env
  rw [h1, ht, Option.some.injEq] at e1
  subst e1
  refine ⟨ds, _, h1, h2, e2, ⟨_, if_pos ⟨rfl, rfl⟩, items_all ds l ready id, field_id ds l ready id⟩, fun t' q' h => if_neg h⟩

/-- A controller with one node, a valve with an alarm, one without and an object with two messages. -/
def ctx1 : Ctx := ⟨[⟨1, "A1".toList, "10.0.0.2".toList⟩], "Танк".toList, "Success".toList⟩
def elems1 : List Elem :=
  [.dev "V1".toList "обратная связь".toList .alarm true 3 0, .dev "V2".toList "обратная связь".toList .normal false 4 0,
   .obj [⟨"Нет воды".toList, 2, 1⟩, ⟨"Стоп".toList, 5, 2⟩] 1 101]

example : ctx1.Clean ∧ (∀ e ∈ elems1, e.Clean) ∧ (answer ctx1 1 [] elems1 true 5).isSome ∧
    (answer ctx1 1 [lost 1] elems1 true 5).isSome ∧ (listed [] elems1 true).length = 3 := by
  refine ⟨⟨?_, ?_, ?_⟩, ?_, ?_, ?_, ?_⟩
  · simp only [ctx1, List.mem_singleton]; rintro n rfl; decide +kernel
  · decide +kernel
  · decide +kernel
  · simp only [elems1, List.mem_cons, List.not_mem_nil, or_false]
    rintro e (rfl | rfl | rfl)
    · exact ⟨by decide +kernel, by decide +kernel⟩
    · exact ⟨by decide +kernel, by decide +kernel⟩
    · simp only [Elem.Clean, List.mem_cons, List.not_mem_nil, or_false]; rintro m (rfl | rfl) <;> decide +kernel
  · decide +kernel
  · decide +kernel
  · decide +kernel

/-- **C131.** While there is a critical error no alarm of a device and no message is sent. -/
theorem C131_critical_hides (x : Ctx) (p : Nat) (e : Err) (crit : List Err) (l l' : List Elem) (ready ready' : Bool) (id : Nat) :
    answer x p (e :: crit) l ready id = answer x p (e :: crit) l' ready' id := by simp [answer]

example : (answer ctx1 1 [lost 1] elems1 true 5).isSome ∧ answer ctx1 1 [] elems1 true 5 ≠ answer ctx1 1 [] [] true 5 := by
  decide +kernel

theorem lex_fail {u r : Txt} {c : Char} {ts : List Tok} (h : scan .idle u = some (.idle, ts)) (hc : start c = none) :
    lex .idle (u ++ c :: r) = none := by
  have hs : ∀ (a b : Txt) (st st' : St) (ts : List Tok), scan st a = some (st', ts) →
      lex st (a ++ b) = (lex st' b).map fun l => ts ++ l := by
    intro a b
    induction a with
    | nil => intro st st' ts h; simp only [scan, Option.some.injEq, Prod.mk.injEq] at h; simp [h.1, ← h.2]
    | cons d a ih =>
      intro st st' ts h
      unfold scan at h
      rw [List.cons_append, lex]
      cases hd : LuaText.step st d with
      | none => simp [hd] at h
      | some p =>
        rw [hd] at h
        obtain ⟨q, hq, e⟩ := Option.map_eq_some_iff.mp h
        simp only [Prod.mk.injEq] at e
        obtain ⟨rfl, rfl⟩ := e
        simp only
        rw [ih p.1 q.1 q.2 hq]
        cases lex q.1 b <;> simp
  rw [hs u (c :: r) _ _ _ h, lex]
  simp [LuaText.step, hc]

theorem cyrillic_start {c : Char} (h : 'А' ≤ c ∧ c ≤ 'я') : start c = none := by
  have h1 : 0x410 ≤ c.toNat := h.1
  have hne : ∀ d : Char, d.toNat < 0x410 → c ≠ d := by rintro d hd rfl; omega
  have hw : isWord c = false := by
    cases hb : isWord c with
    | false => rfl
    | true =>
      exfalso
      simp only [isWord, Char.isAlphanum, Char.isAlpha, Char.isUpper, Char.isLower, Char.isDigit, Bool.or_eq_true,
        Bool.and_eq_true, decide_eq_true_eq, beq_iff_eq, UInt32.le_iff_toNat_le] at hb
      have e : c.val.toNat = c.toNat := rfl
      rw [e] at hb
      rcases hb with ((⟨_, h⟩ | ⟨_, h⟩) | ⟨_, h⟩) | h
      · have : c.toNat ≤ 90 := h
        omega
      · have : c.toNat ≤ 122 := h
        omega
      · have : c.toNat ≤ 57 := h
        omega
      · exact hne '_' (by decide) h
  unfold start
  rw [if_neg, if_neg (by simp [hw]), if_neg, if_neg]
  · simp only [symbols, List.mem_cons, List.not_mem_nil, or_false, not_or]
    refine ⟨?_, ?_, ?_, ?_, ?_, ?_, ?_, ?_, ?_, ?_, ?_⟩ <;> exact hne _ (by decide)
  · rintro (h | h)
    · exact hne _ (by decide) h
    · exact hne _ (by decide) h
  · rintro (h | h | h)
    · exact hne _ (by decide) h
    · exact hne _ (by decide) h
    · exact hne _ (by decide) h

/-- **C131, violated.** One message in which a quotation mark is followed by a letter of the Russian alphabet, as in `Вода "А"`, makes the
whole list unreadable: the server gets nothing of it, whatever else is in alarm. -/
theorem C131_quotation_violated (x : Ctx) (p : Nat) (l l' : List Elem) (hl : ∀ e ∈ l, e.Clean) (a b : Txt) (ha : CleanQ a) (c : Char)
    (hc : 'А' ≤ c ∧ c ≤ 'я') (k : Nat) (n : Int) (ms : List Msg) (number type id : Nat) (env : Tables) :
    ∃ t, answer x p [] (l ++ .obj (⟨a ++ '"' :: c :: b, k, n⟩ :: ms) number type :: l') true id = some t ∧
      serverReads t env = none := by
  refine ⟨_, rfl, ?_⟩
  obtain ⟨ts, hs, _⟩ := flds_flatMap l _ _ fun e he => elem_flds e (hl e he)
  have e0 : scan .idle "alarms[ ".toList = some (.idle, [.name "alarms".toList, .sym '[']) := by decide +kernel
  have en : scan .idle (natText p ++ [' ']) = some (.idle, [.num p]) := by
    have ends : Ends ' ' [] := ⟨by decide, by decide, by decide⟩
    exact scan_app (scan_nat p) (scan_end (wordTok_nat p) ends)
  have e1 : scan .idle "] = \n  {}".toList = some (.idle, [.sym ']', .sym '=', .sym '{', .sym '}']) := by decide +kernel
  have e2 : scan .idle "] = \n  {".toList = some (.idle, [.sym ']', .sym '=', .sym '{']) := by decide +kernel
  have q1 : " ] = \n  {}".toList = ' ' :: "] = \n  {}".toList := by decide +kernel
  have q2 : " ] = \n  {".toList = ' ' :: "] = \n  {".toList := by decide +kernel
  have k0 : scan .idle "\t{\n".toList = some (.idle, [.sym '{']) := by decide +kernel
  have k1 : scan .idle "\tdescription=".toList = some (.idle, [.name "description".toList, .sym '=']) := by decide +kernel
  have s1 := scan_app (scan_app (scan_app e0 (scan_app en e1)) (scan_app e0 (scan_app en e2)))
    (scan_app hs (scan_app k0 (scan_app k1 (SysText.scan_quotedq a ha))))
  have hfail := fun r => lex_fail (r := r) s1 (cyrillic_start hc)
  unfold serverReads
  rw [q1, q2]
  simp only [critsText, List.nil_append, List.flatMap_append, List.flatMap_cons, elemText, msgText, quoted, and_self, if_true,
    List.append_assoc, List.cons_append] at hfail ⊢
  rw [hfail]

example : CleanQ "Вода ".toList ∧ ('А' ≤ 'А' ∧ 'А' ≤ 'я') ∧ (∀ e ∈ elems1.take 1, e.Clean) := by
  refine ⟨by decide +kernel, by decide +kernel, ?_⟩
  simp only [elems1, List.take_succ_cons, List.take_zero, List.mem_singleton]
  rintro e rfl
  exact ⟨by decide +kernel, by decide +kernel⟩

theorem int32 (z : Int) (h0 : 0 ≤ z) (h : z < 2 ^ 31) : (BitVec.ofInt 32 z).toInt = z := by
  rw [BitVec.toInt_ofInt, Int.bmod_eq_of_le] <;> omega

theorem node_numbered {x : Ctx} (hx : x.Numbered) {n : Node} (hn : n ∈ x.nodes) (hs : n.number < 2 ^ 31) :
    x.node (BitVec.ofInt 32 n.number).toInt = some n := by
  obtain ⟨i, hi⟩ := List.mem_iff_getElem?.mp hn
  have := hx i n hi
  rw [int32 _ (by omega) hs, Ctx.node, if_neg (by omega), this]
  simpa using hi

/-- **C132.** With nodes numbered in the order of the project the description of a lost node carries the name and the address of that
node, and so does the description of a node which is off for service, when these texts have less than 200 bytes; otherwise the
memory behind the text is overwritten. Missing: other numbers and longer names (see below). -/
theorem C132_node_named_partial (x : Ctx) (hx : x.Numbered) (n : Node) (hn : n ∈ x.nodes) (hs : n.number < 2 ^ 31) :
    descr x (lost n.number) true = (if bytes (lostText x n) < 200 then some (lostText x n) else none) ∧
    descr x (serviced n.number) true = (if bytes (servicedText n) < 200 then some (servicedText n) else none) := by
  have hnode := node_numbered hx hn hs
  have h0 : 0 ≤ n.number := by
    obtain ⟨i, hi⟩ := List.mem_iff_getElem?.mp hn
    have := hx i n hi
    omega
  have hz := int32 n.number h0 hs
  have c1 : (1 : BitVec 32).toInt = 1 := by decide
  have c5 : (5 : BitVec 32).toInt = 5 := by decide
  have t1 : intText 1 = ['1'] := by decide +kernel
  have t5 : intText 5 = ['5'] := by decide +kernel
  constructor
  · have e : numbers (lost n.number) ++ "Нет связи с ".toList ++ ("узлом I/O '".toList ++ n.name ++ "' ('".toList ++ n.ip ++
        "', '".toList ++ x.host ++ "')".toList) = lostText x n := by
      have a : "1-1-".toList = '1' :: '-' :: '1' :: ['-'] := by decide +kernel
      have b : " : Нет связи с узлом I/O '".toList = " : ".toList ++ ("Нет связи с ".toList ++ "узлом I/O '".toList) := by
        decide +kernel
      unfold numbers lostText lost
      rw [a, b, c1, t1, hz]
      simp only [List.append_assoc, List.cons_append, List.nil_append]
    unfold descr partner
    have d1 : (lost n.number).cls.toInt = 1 := c1
    have d2 : (lost n.number).sub.toInt = 1 := c1
    have d3 : (lost n.number).param.toInt = (BitVec.ofInt 32 n.number).toInt := rfl
    simp only [d1, d2, d3, hnode, if_true, one_ne_zero, if_false, Option.map_some, Option.bind_some]
    rw [e, fit]
  · have e : numbers (serviced n.number) ++ ("Узел ввода/вывода '".toList ++ n.name ++ "' ('".toList ++ n.ip ++
        "') - ".toList) ++ "отключен для обслуживания".toList = servicedText n := by
      have a : "5-1-".toList = '5' :: '-' :: '1' :: ['-'] := by decide +kernel
      have b : " : Узел ввода/вывода '".toList = " : ".toList ++ "Узел ввода/вывода '".toList := by decide +kernel
      have c : "') - отключен для обслуживания".toList = "') - ".toList ++ "отключен для обслуживания".toList := by decide +kernel
      unfold numbers servicedText serviced
      rw [a, b, c, c1, c5, t1, t5, hz]
      simp only [List.append_assoc, List.cons_append, List.nil_append]
    unfold descr
    have d1 : (serviced n.number).cls.toInt = 5 := c5
    have d2 : (serviced n.number).sub.toInt = 1 := c1
    have d3 : (serviced n.number).param.toInt = (BitVec.ofInt 32 n.number).toInt := rfl
    have n1 : ¬(5 : Int) = 0 := by decide
    have n2 : ¬(5 : Int) = 1 := by decide
    have n3 : ¬(5 : Int) = 2 := by decide
    have n4 : ¬(5 : Int) = 4 := by decide
    simp only [d1, d2, d3, hnode, if_true, n1, n2, n3, n4, if_false, Option.map_some, Option.bind_some]
    rw [e, fit]

/-- Three nodes. -/
def ctx3 : Ctx := ⟨[⟨1, "A1".toList, "10.0.0.2".toList⟩, ⟨2, "A100".toList, "10.0.0.3".toList⟩,
  ⟨3, "A200".toList, "10.0.0.4".toList⟩], "Танк".toList, "Success".toList⟩

example : ctx3.Numbered ∧ descr ctx3 (lost 2) true =
    some "1-1-2 : Нет связи с узлом I/O 'A100' ('10.0.0.3', 'Танк')".toList := by
  constructor
  · intro i n h
    match i with
    | 0 => simp [ctx3] at h; subst h; rfl
    | 1 => simp [ctx3] at h; subst h; rfl
    | 2 => simp [ctx3] at h; subst h; rfl
    | i + 3 => simp [ctx3] at h
  · decide +kernel

/-- **C132, violated.** Two nodes whose numbers are not their positions: the loss of one is reported with the name and the address of the
other, whatever they are. -/
theorem C132_other_node_violated (na nb ia ib h r d : Txt)
    (hd : descr ⟨[⟨2, na, ia⟩, ⟨1, nb, ib⟩], h, r⟩ (lost 2) true = some d) :
    d = lostText ⟨[], h, r⟩ ⟨2, nb, ib⟩ := by
  have := (C132_node_named_partial ⟨[⟨1, na, ia⟩, ⟨2, nb, ib⟩], h, r⟩ (by
    intro i n hi
    match i with
    | 0 => simp at hi; subst hi; rfl
    | 1 => simp at hi; subst hi; rfl
    | i + 2 => simp at hi) ⟨2, nb, ib⟩ (by simp) (by simp)).1
  have e : descr ⟨[⟨2, na, ia⟩, ⟨1, nb, ib⟩], h, r⟩ (lost 2) true = descr ⟨[⟨1, na, ia⟩, ⟨2, nb, ib⟩], h, r⟩ (lost 2) true := rfl
  rw [e, this] at hd
  split at hd
  · exact (Option.some.inj hd).symm
  · simp at hd

example : descr ⟨[⟨2, "A200".toList, "10.0.0.3".toList⟩, ⟨1, "A100".toList, "10.0.0.2".toList⟩], "Танк".toList, []⟩ (lost 2) true =
    some "1-1-2 : Нет связи с узлом I/O 'A100' ('10.0.0.2', 'Танк')".toList := by decide +kernel

/-- **C132, violated.** The loss of a node whose number is greater than the count of the nodes, or is zero, has no defined description: memory
outside of the list of nodes is read. -/
theorem C132_number_violated (x : Ctx) (number : Int) (h : number ≤ 0 ∨ x.nodes.length < number) (h0 : -2 ^ 31 ≤ number)
    (hs : number < 2 ^ 31) : descr x (lost number) true = none ∧ ∀ p l ready id, answer x p [lost number] l ready id = none := by
  have hz : (BitVec.ofInt 32 number).toInt = number := by
    rw [BitVec.toInt_ofInt, Int.bmod_eq_of_le] <;> omega
  have hn : x.node number = none := by
    unfold Ctx.node
    split
    · rfl
    · rw [List.getElem?_eq_none_iff]; omega
  have hd : descr x (lost number) true = none := by
    have c1 : (1 : BitVec 32).toInt = 1 := by decide
    unfold descr partner
    have d1 : (lost number).cls.toInt = 1 := c1
    have d2 : (lost number).sub.toInt = 1 := c1
    have d3 : (lost number).param.toInt = number := hz
    simp only [d1, d2, d3, hn, if_true, one_ne_zero, if_false, Option.map_none, Option.bind_none]
  exact ⟨hd, fun p l ready id => by simp [answer, critsText, critText, hd]⟩

example : (5 : Int) ≤ 0 ∨ ctx3.nodes.length < (5 : Int) := by decide

theorem bytes_append (a b : Txt) : bytes (a ++ b) = bytes a + bytes b := by simp [bytes]

/-- **C132, violated.** A name, an address or a name of the controller of 200 bytes (one hundred Russian letters) overflows the text. -/
theorem C132_length_violated (x : Ctx) (hx : x.Numbered) (n : Node) (hn : n ∈ x.nodes) (hs : n.number < 2 ^ 31)
    (hb : 200 ≤ bytes n.name ∨ 200 ≤ bytes n.ip ∨ 200 ≤ bytes x.host) :
    descr x (lost n.number) true = none := by
  rw [(C132_node_named_partial x hx n hn hs).1, if_neg]
  unfold lostText
  simp only [bytes_append]
  omega

example : bytes (List.replicate 100 'Я') = 200 := by decide +kernel

theorem nat_split {a b : Nat} {c c' : Char} {r r' : Txt} (hc : c.isDigit = false) (hc' : c'.isDigit = false)
    (h : natText a ++ c :: r = natText b ++ c' :: r') : a = b ∧ c :: r = c' :: r' := by
  have ht : ∀ (n : Nat) (c : Char) (r : Txt), c.isDigit = false → (natText n ++ c :: r).takeWhile Char.isDigit = natText n := by
    intro n c r hc
    rw [List.takeWhile_append_of_pos (natText_digits n), List.takeWhile_cons_of_neg (by simp [hc]), List.append_nil]
  have e : natText a = natText b := by rw [← ht a c r hc, h, ht b c' r' hc']
  refine ⟨natText_inj e, ?_⟩
  rw [e] at h
  exact List.append_cancel_left h

theorem int_split {a b : Int} {c c' : Char} {r r' : Txt} (hc : c.isDigit = false) (hc' : c'.isDigit = false)
    (h : intText a ++ c :: r = intText b ++ c' :: r') : a = b ∧ c :: r = c' :: r' := by
  unfold intText at h
  split at h <;> split at h
  · rw [List.cons_append, List.cons_append, List.cons.injEq] at h
    have := nat_split hc hc' h.2
    exact ⟨by omega, this.2⟩
  · exact absurd h.symm (natText_head _ _ _)
  · exact absurd h (natText_head _ _ _)
  · have := nat_split hc hc' h
    exact ⟨by omega, this.2⟩

theorem numbers_split {e e' : Err} {r r' : Txt} (h : numbers e ++ r = numbers e' ++ r') : e = e' := by
  have q : " : ".toList = ' ' :: ": ".toList := by decide +kernel
  have m : '-'.isDigit = false := by decide
  have b : ' '.isDigit = false := by decide
  unfold numbers at h
  rw [q] at h
  simp only [List.append_assoc, List.cons_append] at h
  obtain ⟨h1, h⟩ := int_split m m h
  rw [List.cons.injEq] at h
  obtain ⟨h2, h⟩ := int_split m m h.2
  rw [List.cons.injEq] at h
  obtain ⟨h3, _⟩ := int_split b b h.2
  cases e
  cases e'
  simp only [Err.mk.injEq]
  exact ⟨BitVec.toInt_inj.mp h1, BitVec.toInt_inj.mp h2, BitVec.toInt_inj.mp h3⟩

theorem descr_numbers {x : Ctx} {e : Err} {d : Txt} (h : descr x e true = some d) (hc : e.cls ≠ 2) : ∃ r, d = numbers e ++ r := by
  have hc2 : ¬ e.cls.toInt = 2 := by
    intro h2
    apply hc
    exact BitVec.toInt_inj.mp (h2.trans (by decide))
  unfold descr at h
  simp only [if_true, if_neg hc2] at h
  split at h
  · exact ⟨_, (fit_some h).1⟩
  split at h
  · obtain ⟨p, hp, hf⟩ := Option.bind_eq_some_iff.mp h
    rw [(fit_some hf).1, List.append_assoc]
    exact ⟨_, rfl⟩
  split at h
  · obtain ⟨t, ht, hf⟩ := Option.bind_eq_some_iff.mp h
    rw [(fit_some hf).1, (fit_some ht).1]
    simp only [List.append_assoc]
    exact ⟨_, rfl⟩
  split at h
  · obtain ⟨p, hp, hf⟩ := Option.bind_eq_some_iff.mp h
    rw [(fit_some hf).1, List.append_assoc]
    exact ⟨_, rfl⟩
  · exact ⟨[], by rw [(fit_some h).1, List.append_nil]⟩

/-- **C132.** Two different critical errors never have the same description (class 2, which the controller never sets, has none). -/
theorem C132_descriptions_differ (x : Ctx) (e e' : Err) (d : Txt) (h : descr x e true = some d) (h' : descr x e' true = some d)
    (hc : e.cls ≠ 2) (hc' : e'.cls ≠ 2) : e = e' := by
  obtain ⟨r, hr⟩ := descr_numbers h hc
  obtain ⟨r', hr'⟩ := descr_numbers h' hc'
  exact numbers_split (hr.symm.trans hr')

example : (descr ctx3 (lost 2) true).isSome ∧ (descr ctx3 (lost 3) true).isSome ∧ (descr ctx3 ⟨4, 2, 1⟩ true).isSome ∧
    (lost 2).cls ≠ 2 := by decide +kernel

/-- **C132.** The description of a lost connection names the partner. -/
theorem C132_partner (x : Ctx) (k : Nat) (name : Int → Txt) (hk : (k, name) ∈ partners) (p : BitVec 32) (d : Txt)
    (h : descr x ⟨1, BitVec.ofNat 32 k, p⟩ true = some d) : ∃ pre, d = pre ++ "Нет связи с ".toList ++ name p.toInt := by
  have c1 : (1 : BitVec 32).toInt = 1 := by decide
  unfold descr at h
  simp only [c1, one_ne_zero, if_false, if_true] at h
  obtain ⟨q, hq, hf⟩ := Option.bind_eq_some_iff.mp h
  have hd := (fit_some hf).1
  have e : q = name p.toInt := by
    simp only [partners, List.mem_cons, Prod.mk.injEq, List.not_mem_nil, or_false] at hk
    have t2 : (BitVec.ofNat 32 2).toInt = 2 := by decide
    have t3 : (BitVec.ofNat 32 3).toInt = 3 := by decide
    have t4 : (BitVec.ofNat 32 4).toInt = 4 := by decide
    have t5 : (BitVec.ofNat 32 5).toInt = 5 := by decide
    have t6 : (BitVec.ofNat 32 6).toInt = 6 := by decide
    rcases hk with ⟨rfl, rfl⟩ | ⟨rfl, rfl⟩ | ⟨rfl, rfl⟩ | ⟨rfl, rfl⟩ | ⟨rfl, rfl⟩
    · rw [t2] at hq; exact (Option.some.inj hq).symm
    · rw [t3] at hq; exact (Option.some.inj hq).symm
    · rw [t4] at hq; exact (Option.some.inj hq).symm
    · rw [t5] at hq; exact (Option.some.inj hq).symm
    · rw [t6] at hq; exact (Option.some.inj hq).symm
  rw [hd, e]
  exact ⟨_, rfl⟩

example : descr ctx3 ⟨1, 3, 12⟩ true = some "1-3-12 : Нет связи с Modbus-device №12.".toList ∧
    descr ctx3 ⟨1, 5, 1⟩ true = some "1-5-1 : Нет связи с EasyServer.".toList := by decide +kernel

/-- **C132.** The description of an error of the network names the function that failed and the reason the system gives. -/
theorem C132_function (x : Ctx) (k : Nat) (f : Txt) (hk : (k, f) ∈ functions) (p : BitVec 32) (d : Txt)
    (h : descr x ⟨4, BitVec.ofNat 32 k, p⟩ true = some d) :
    ∃ pre, d = pre ++ ("calling function ".toList ++ f ++ "(...) : ".toList) ++ x.errno ++ ['.'] := by
  have c4 : (4 : BitVec 32).toInt = 4 := by decide
  have n0 : ¬(4 : Int) = 0 := by decide
  have n1 : ¬(4 : Int) = 1 := by decide
  have n2 : ¬(4 : Int) = 2 := by decide
  unfold descr at h
  simp only [c4, n0, n1, n2, if_false, if_true] at h
  obtain ⟨q, hq, hf⟩ := Option.bind_eq_some_iff.mp h
  have e : netText (BitVec.ofNat 32 k).toInt = "calling function ".toList ++ f ++ "(...) : ".toList := by
    simp only [functions, List.mem_cons, Prod.mk.injEq, List.not_mem_nil, or_false] at hk
    rcases hk with ⟨rfl, rfl⟩ | ⟨rfl, rfl⟩ | ⟨rfl, rfl⟩ | ⟨rfl, rfl⟩ <;> decide +kernel
  rw [(fit_some hf).1, (fit_some hq).1, e]
  exact ⟨_, rfl⟩

example : descr ctx3 ⟨4, 2, 1⟩ true =
    some "4-2-1 : Network communication error : modbus : calling function bind(...) : Success.".toList := by decide +kernel

end Ptusa.AlarmText
