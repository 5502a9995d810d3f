import Verif.Rfid.Spec

/-!
# Lemmas
-/
namespace Ptusa.Rfid

theorem hexDigit_inj : ∀ a < 16, ∀ b < 16, hexDigit a = hexDigit b → a = b := by decide

theorem hexDigit_eq : ∀ n, n < 16 → hexDigit n = "0123456789ABCDEF".toList.getD n '?' := by decide

theorem hex4_eq : hex4 = wordText := by
  funext w
  simp only [hex4, wordText, List.map_cons, List.map_nil, hexDigit_eq _ (Nat.mod_lt _ (by decide : 0 < 16))]
  simp

theorem hex4_inj (a b : Nat) (ha : a < 65536) (hb : b < 65536) (h : hex4 a = hex4 b) : a = b := by
  simp only [hex4, List.cons.injEq, and_true] at h
  obtain ⟨h1, h2, h3, h4⟩ := h
  have e1 := hexDigit_inj _ (by omega) _ (by omega) h1
  have e2 := hexDigit_inj _ (by omega) _ (by omega) h2
  have e3 := hexDigit_inj _ (by omega) _ (by omega) h3
  have e4 := hexDigit_inj _ (by omega) _ (by omega) h4
  omega

theorem flat_inj (a : List Nat) : ∀ b : List Nat, (∀ w ∈ a, w < 65536) → (∀ w ∈ b, w < 65536) → a.flatMap hex4 = b.flatMap hex4 → a = b := by
  induction a with
  | nil =>
    intro b _ _ h
    cases b with
    | nil => rfl
    | cons y b => simp [hex4] at h
  | cons x a ih =>
    intro b ha hb h
    cases b with
    | nil => simp [hex4] at h
    | cons y b =>
      simp only [List.flatMap_cons] at h
      have hl : (hex4 x).length = (hex4 y).length := rfl
      have := List.append_inj h hl
      rw [hex4_inj x y (ha x (by simp)) (hb y (by simp)) this.1, ih b (fun w hw => ha w (by simp [hw])) (fun w hw => hb w (by simp [hw])) this.2]

theorem text_inj (a b : List Nat) (ha : ∀ w ∈ a, w < 65536) (hb : ∀ w ∈ b, w < 65536) (h : a.reverse.flatMap wordText = b.reverse.flatMap wordText) :
    a = b := by
  rw [← hex4_eq] at h
  have := flat_inj _ _ (by simpa using ha) (by simpa using hb) h
  simpa using this

theorem flat_length (l : List Nat) : (l.flatMap hex4).length = 4 * l.length := by
  induction l with
  | nil => rfl
  | cons x l ih => simp only [List.flatMap_cons, List.length_append, ih, List.length_cons]; simp [hex4]; omega

theorem epcText_ok (words : List Nat) (h : words.length ≤ 9) : epcText words = some (words.reverse.flatMap wordText) := by
  rw [← hex4_eq]
  simp only [epcText]
  rw [if_pos]
  rw [flat_length, List.length_reverse]
  omega

theorem epcText_long (words : List Nat) (h : 10 ≤ words.length) : epcText words = none := by
  simp only [epcText]
  rw [if_neg]
  rw [flat_length, List.length_reverse]
  omega

/-- The loop of deletion, without indices: what follows a deleted entry is kept unseen. -/
def sweep (x : List Char) (port : Nat) : List Entry → List Entry
  | [] => []
  | [e] => if port = e.antenna ∧ x = e.text then [] else [e]
  | e :: e' :: es => if port = e.antenna ∧ x = e.text then e' :: sweep x port es else e :: sweep x port (e' :: es)

theorem deleteFrom_eq (x : List Char) (port : Nat) (l : List Entry) : ∀ pre : List Entry,
    deleteFrom x port (pre ++ l) pre.length = pre ++ sweep x port l := by
  fun_induction sweep x port l with
  | case1 => intro pre; rw [deleteFrom, dif_neg (by simp)]
  | case2 e h =>
    intro pre
    rw [deleteFrom, dif_pos (by simp)]
    simp only [List.getElem_append_right (Nat.le_refl _), Nat.sub_self, List.getElem_cons_zero]
    rw [if_pos h, List.eraseIdx_append_of_length_le (Nat.le_refl _)]
    simp only [Nat.sub_self, List.eraseIdx_cons_zero, List.append_nil]
    rw [deleteFrom, dif_neg (by omega)]
  | case3 e h =>
    intro pre
    rw [deleteFrom, dif_pos (by simp)]
    simp only [List.getElem_append_right (Nat.le_refl _), Nat.sub_self, List.getElem_cons_zero]
    rw [if_neg h, deleteFrom, dif_neg (by simp)]
  | case4 e e' es h ih =>
    intro pre
    rw [deleteFrom, dif_pos (by simp)]
    simp only [List.getElem_append_right (Nat.le_refl _), Nat.sub_self, List.getElem_cons_zero]
    rw [if_pos h, List.eraseIdx_append_of_length_le (Nat.le_refl _)]
    simp only [Nat.sub_self, List.eraseIdx_cons_zero]
    have := ih (pre ++ [e'])
    simp only [List.append_assoc, List.cons_append, List.nil_append, List.length_append, List.length_cons, List.length_nil] at this
    simpa using this
  | case5 e e' es h ih =>
    intro pre
    rw [deleteFrom, dif_pos (by simp)]
    simp only [List.getElem_append_right (Nat.le_refl _), Nat.sub_self, List.getElem_cons_zero]
    rw [if_neg h]
    have := ih (pre ++ [e])
    simp only [List.append_assoc, List.cons_append, List.nil_append, List.length_append, List.length_cons, List.length_nil] at this
    simpa using this

theorem sweep_none (x : List Char) (port : Nat) (l : List Entry) (h : ∀ e ∈ l, ¬ (port = e.antenna ∧ x = e.text)) : sweep x port l = l := by
  fun_induction sweep x port l with
  | case1 => rfl
  | case2 e he => exact absurd he (h e (by simp))
  | case3 e he => rfl
  | case4 e e' es he ih => exact absurd he (h e (by simp))
  | case5 e e' es he ih => rw [ih fun e he => h e (List.mem_cons_of_mem _ he)]

/-- Without repetitions all entries that match are deleted. -/
theorem sweep_filter (x : List Char) (port : Nat) (l : List Entry)
    (hp : l.Pairwise fun a b => ¬ (a.antenna = b.antenna ∧ a.text = b.text)) :
    sweep x port l = l.filter fun e => ¬ (port = e.antenna ∧ x = e.text) := by
  have none : ∀ (e : Entry) (es : List Entry), (∀ a ∈ es, ¬ (e.antenna = a.antenna ∧ e.text = a.text)) → port = e.antenna ∧ x = e.text →
      ∀ a ∈ es, ¬ (port = a.antenna ∧ x = a.text) := by
    intro e es h1 h2 a ha h3
    exact h1 a ha ⟨by rw [← h2.1, h3.1], by rw [← h2.2, h3.2]⟩
  fun_induction sweep x port l with
  | case1 => rfl
  | case2 e h => rw [List.filter_cons_of_neg (by simpa using h)]; rfl
  | case3 e h => rw [List.filter_cons_of_pos (a := e) (decide_eq_true h)]; rfl
  | case4 e e' es h ih =>
    rw [List.pairwise_cons] at hp
    have hn := none e _ hp.1 h
    rw [sweep_none x port es fun a ha => hn a (by simp [ha]), List.filter_cons_of_neg (by simpa using h), List.filter_eq_self.mpr]
    intro a ha
    exact decide_eq_true (hn a ha)
  | case5 e e' es h ih =>
    rw [List.pairwise_cons] at hp
    rw [ih hp.2, List.filter_cons_of_pos (a := e) (decide_eq_true h)]

/-- Tags that can be told apart by their texts. -/
def Good (l : List Tag) : Prop := (∀ t ∈ l, ∀ w ∈ t.words, w < 65536) ∧ l.Pairwise fun a b => ¬ Same a b

theorem shown_same (a b : Tag) (ha : ∀ w ∈ a.words, w < 65536) (hb : ∀ w ∈ b.words, w < 65536) :
    (a.port = (shown b).antenna ∧ a.words.reverse.flatMap wordText = (shown b).text) ↔ Same a b := by
  constructor
  · intro h; exact ⟨text_inj _ _ ha hb h.2, h.1⟩
  · intro h; exact ⟨h.2, by rw [h.1]; rfl⟩

theorem going_ok (l : List Tag) (t : Tag) (hl : Good l) (h9 : t.words.length ≤ 9) (hw : ∀ w ∈ t.words, w < 65536) :
    going (l.map shown) t = some ((l.filter fun u => ¬ Same t u).map shown) := by
  simp only [going, epcText_ok _ h9, Option.map_some, Option.some.injEq]
  have h0 := deleteFrom_eq (t.words.reverse.flatMap wordText) t.port (l.map shown) []
  simp only [List.nil_append, List.length_nil] at h0
  rw [h0, sweep_filter, List.filter_map]
  · congr 1
    apply List.filter_congr
    intro u hu
    simp only [Function.comp]
    rw [decide_eq_decide, shown_same t u hw (hl.1 u hu)]
  · rw [List.pairwise_map]
    refine List.Pairwise.imp_of_mem ?_ hl.2
    intro a b ha hb hs h
    exact hs ((shown_same a b (hl.1 a ha) (hl.1 b hb)).1 h)

theorem good_after (flag : Flag) (l : List Tag) (t : Tag) (hl : Good l) (hf : FitsTag flag l t) : Good (after flag l t) := by
  cases flag with
  | coming =>
    refine ⟨?_, ?_⟩
    · intro u hu
      simp only [after, List.mem_append, List.mem_singleton] at hu
      rcases hu with hu | rfl
      · exact hl.1 u hu
      · exact hf.2.1
    · simp only [after]
      rw [List.pairwise_append]
      refine ⟨hl.2, List.pairwise_singleton _ _, ?_⟩
      intro a ha b hb h
      simp only [List.mem_singleton] at hb
      subst hb
      exact (hf.2.2 rfl).2 a ha ⟨h.1.symm, h.2.symm⟩
  | going => exact ⟨fun u hu => hl.1 u (List.mem_filter.mp hu).1, hl.2.filter _⟩
  | changing => exact hl

theorem report_ok (flag : Flag) (ts : List Tag) : ∀ l, Good l → FitsReport flag l ts →
    report flag (l.map shown) ts = some ((ts.foldl (after flag) l).map shown) ∧ Good (ts.foldl (after flag) l) := by
  induction ts with
  | nil => intro l hl _; exact ⟨rfl, hl⟩
  | cons t ts ih =>
    intro l hl hf
    have hg := good_after flag l t hl hf.1
    have hi := ih _ hg hf.2
    refine ⟨?_, hi.2⟩
    rw [List.foldl_cons, ← hi.1]
    cases flag with
    | coming =>
      have := (hf.1.2.2 rfl).1
      simp only [report, coming, List.length_map, this, if_true, epcText_ok _ hf.1.1, Option.map_some, Option.bind_some, after, List.map_append,
        List.map_cons, List.map_nil, shown]
    | going => simp only [report, going_ok l t hl hf.1.1 hf.1.2.1, Option.bind_some, after]
    | changing => rfl

/-- The reader agrees with the field. -/
def Agree (r : Reader) (f : Field) : Prop := r.handle = f.handle ∧ r.retr = f.failures ∧ r.tags = f.tags.map shown ∧ Good f.tags

theorem readAny_ok (r : Reader) (read : Cmd) :
    (readAny r .ok read).handle = r.handle ∧ (readAny r .ok read).retr = 0 ∧ (readAny r .ok read).tags = r.tags := by
  obtain ⟨a, b, c, d, e⟩ := r
  cases d <;> cases read <;> simp [readAny, setFlag]

theorem evaluate_agree (r : Reader) (f : Field) (h : Agree r f) (reachable : Bool) (n : Nat) (flag read : Cmd) :
    Agree (evaluate r reachable n flag read).1 (f.next (.evaluate reachable n flag read)) := by
  obtain ⟨h1, h2, h3, h4⟩ := h
  -- after the attempt to connect
  have hc : ∃ r1, (if r.handle = 0 then if reachable then { r with handle := n } else r else r) = r1 ∧ Agree r1 (f.connect reachable n) := by
    refine ⟨_, rfl, ?_⟩
    simp only [Field.connect, h1]
    by_cases e : f.handle = 0
    · cases reachable
      · simp [e]; exact ⟨h1.trans rfl, h2, h3, h4⟩
      · simp [e]; exact ⟨rfl, h2, h3, h4⟩
    · simp [e]; exact ⟨h1, h2, h3, h4⟩
  obtain ⟨r1, e1, a1⟩ := hc
  have hd : ∃ r2, (if r1.handle ≠ 0 then readAny r1 flag read else r1) = r2 ∧ Agree r2 ((f.connect reachable n).command flag) := by
    refine ⟨_, rfl, ?_⟩
    generalize f.connect reachable n = g at a1
    obtain ⟨b1, b2, b3, b4⟩ := a1
    by_cases e : g.handle = 0
    · simp only [Field.command, e, if_true, b1, ne_eq, not_true, if_false]
      exact ⟨b1, b2, b3, b4⟩
    · simp only [Field.command, e, if_false, b1, ne_eq, not_false_eq_true, if_true]
      cases flag with
      | ok =>
        have hk := readAny_ok r1 read
        exact ⟨hk.1.trans b1, hk.2.1, hk.2.2.trans b3, b4⟩
      | badFlag =>
        simp only [readAny, setFlag, reduceCtorEq, if_false, Failed, or_self, Bool.false_eq_true]
        exact ⟨b1, b2, b3, b4⟩
      | timeout =>
        simp only [readAny, setFlag, reduceCtorEq, if_false, Failed, true_or, if_true, failed, b2, Bool.false_eq_true]
        by_cases h : g.failures < 3
        · rw [if_pos h, if_neg (by omega)]; exact ⟨b1, rfl, b3, b4⟩
        · rw [if_neg h, if_pos (by omega)]
          simp only [disconnect, b1, ne_eq, e, not_false_eq_true, if_true]
          exact ⟨rfl, rfl, rfl, ⟨by simp, List.Pairwise.nil⟩⟩
      | sendFailed =>
        simp only [readAny, setFlag, reduceCtorEq, if_false, Failed, or_true, if_true, failed, b2, Bool.false_eq_true]
        by_cases h : g.failures < 3
        · rw [if_pos h, if_neg (by omega)]; exact ⟨b1, rfl, b3, b4⟩
        · rw [if_neg h, if_pos (by omega)]
          simp only [disconnect, b1, ne_eq, e, not_false_eq_true, if_true]
          exact ⟨rfl, rfl, rfl, ⟨by simp, List.Pairwise.nil⟩⟩
  obtain ⟨r2, e2, a2⟩ := hd
  have e3 : link r reachable n flag read = r2 := by simp only [link, e1, e2]
  simp only [evaluate, supervise, e3, Field.next]
  (repeat' split) <;> exact a2

theorem supervise_err (q : Reader) : (supervise q).1.err = decide ((supervise q).1.handle = 0) := by
  obtain ⟨a, b, c, d, e⟩ := q
  by_cases h : a = 0 <;> cases e <;> simp [supervise, h]

theorem readAny_err (r : Reader) (flag read : Cmd) : (readAny r flag read).err = r.err := by
  obtain ⟨a, b, c, d, e⟩ := r
  cases flag with
  | ok => cases d <;> cases read <;> simp [readAny, setFlag]
  | badFlag => simp [readAny, setFlag]
  | timeout => by_cases h : 3 < c + 1 <;> by_cases h2 : a = 0 <;> simp [readAny, setFlag, failed, h, h2, disconnect]
  | sendFailed => by_cases h : 3 < c + 1 <;> by_cases h2 : a = 0 <;> simp [readAny, setFlag, failed, h, h2, disconnect]

theorem link_err (r : Reader) (reachable : Bool) (n : Nat) (flag read : Cmd) : (link r reachable n flag read).err = r.err := by
  simp only [link]
  (repeat' split) <;> simp only [readAny_err]

theorem evaluate_outs (r : Reader) (reachable : Bool) (n : Nat) (flag read : Cmd) :
    Alternate r.err (evaluate r reachable n flag read).2 ∧
    (evaluate r reachable n flag read).1.err =
      ((evaluate r reachable n flag read).2.getLast?.map fun o => decide (o = Out.setError)).getD r.err := by
  simp only [evaluate]
  have he := link_err r reachable n flag read
  generalize link r reachable n flag read = q at he
  rw [← he]
  obtain ⟨a, b, c, d, e⟩ := q
  by_cases h : a = 0 <;> cases e <;> simp [supervise, h, Alternate]

/-- State of the error after calls. -/
def last (b : Bool) (o : List Out) : Bool := (o.getLast?.map fun x => decide (x = Out.setError)).getD b

theorem last_append (b : Bool) (a c : List Out) : last b (a ++ c) = last (last b a) c := by
  simp only [last, List.getLast?_append]
  cases c.getLast? <;> simp

theorem alternate_append (a : List Out) : ∀ (b : Bool) (c : List Out), Alternate b a → Alternate (last b a) c → Alternate b (a ++ c) := by
  induction a with
  | nil => intro b c _ h; exact h
  | cons x a ih =>
    intro b c h1 h2
    have hl : ∀ b', last b' a = last b' a := fun _ => rfl
    rw [show x :: a = [x] ++ a from rfl, last_append] at h2
    cases x with
    | setError => exact ⟨h1.1, ih true c h1.2 h2⟩
    | resetError => exact ⟨h1.1, ih false c h1.2 h2⟩

theorem run_outs (h : List Ev) : ∀ r r' o, run r h = some (r', o) → Alternate r.err o ∧ r'.err = last r.err o := by
  induction h with
  | nil =>
    intro r r' o hr
    simp only [run, Option.some.injEq, Prod.mk.injEq] at hr
    obtain ⟨rfl, rfl⟩ := hr
    exact ⟨trivial, rfl⟩
  | cons e h ih =>
    intro r r' o hr
    simp only [run, Option.bind_eq_some_iff, Option.map_eq_some_iff] at hr
    obtain ⟨⟨r1, o1⟩, h1, ⟨r2, o2⟩, h2, h3⟩ := hr
    simp only [Prod.mk.injEq] at h3
    obtain ⟨rfl, rfl⟩ := h3
    have hi := ih r1 r2 o2 h2
    have hs : Alternate r.err o1 ∧ r1.err = last r.err o1 := by
      cases e with
      | evaluate a b c d =>
        simp only [step, Option.some.injEq] at h1
        have := evaluate_outs r a b c d
        rw [h1] at this
        exact this
      | report n flag ts =>
        simp only [step] at h1
        split at h1
        · simp only [Option.map_eq_some_iff, Prod.mk.injEq] at h1
          obtain ⟨l, _, rfl, rfl⟩ := h1
          exact ⟨trivial, rfl⟩
        · simp only [Option.some.injEq, Prod.mk.injEq] at h1
          obtain ⟨rfl, rfl⟩ := h1
          exact ⟨trivial, rfl⟩
    refine ⟨alternate_append _ _ _ hs.1 ?_, ?_⟩
    · rw [← hs.2]; exact hi.1
    · rw [last_append, ← hs.2]; exact hi.2

theorem run_agree (h : List Ev) : ∀ r f, Agree r f → Fits f h → ∃ r' o, run r h = some (r', o) ∧ Agree r' (h.foldl Field.next f) := by
  induction h with
  | nil => intro r f ha _; exact ⟨r, [], rfl, ha⟩
  | cons e h ih =>
    intro r f ha hf
    have hs : ∃ r1 o1, step r e = some (r1, o1) ∧ Agree r1 (f.next e) := by
      cases e with
      | evaluate a b c d => exact ⟨_, _, rfl, evaluate_agree r f ha a b c d⟩
      | report n flag ts =>
        have h1 := hf.1
        simp only at h1
        obtain ⟨a1, a2, a3, a4⟩ := ha
        simp only [step, Field.next, a1]
        by_cases e : f.handle = n
        · have := report_ok flag ts f.tags a4 (h1 e)
          simp only [e, if_true, a3, this.1, Option.map_some]
          exact ⟨_, _, rfl, rfl, a2, rfl, this.2⟩
        · simp only [e, if_false]
          exact ⟨_, _, rfl, a1, a2, a3, a4⟩
    obtain ⟨r1, o1, h1, a1⟩ := hs
    obtain ⟨r2, o2, h2, a2⟩ := ih r1 _ a1 hf.2
    exact ⟨r2, o1 ++ o2, by simp [run, h1, h2], a2⟩

end Ptusa.Rfid
