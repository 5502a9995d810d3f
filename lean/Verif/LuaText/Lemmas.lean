import Verif.LuaText.Spec
import Verif.SaveDev.Lemmas

/-!
# Lemmas about the reader of Lua texts
-/
namespace Ptusa.LuaText
open SaveDev

/-- The state of the reader and the tokens after a piece of a text. -/
def scan : St → Txt → Option (St × List Tok)
  | st, [] => some (st, [])
  | st, c :: s => match step st c with
    | none => none
    | some p => (scan p.1 s).map fun q => (q.1, p.2 ++ q.2)

theorem lex_scan (st : St) (a : Txt) :
    lex st a = (scan st a).bind fun p => (flush p.1).map fun l => p.2 ++ l := by
  induction a generalizing st with
  | nil => simp [lex, scan]
  | cons c a ih =>
    unfold lex scan
    cases h : step st c with
    | none => simp
    | some p =>
      simp only [ih]
      cases h2 : scan p.1 a with
      | none => simp
      | some q => cases h3 : flush q.1 <;> simp [h3]

theorem scan_append (st : St) (a b : Txt) :
    scan st (a ++ b) = (scan st a).bind fun p => (scan p.1 b).map fun q => (q.1, p.2 ++ q.2) := by
  induction a generalizing st with
  | nil => simp [scan]
  | cons c a ih =>
    simp only [List.cons_append, scan]
    cases h : step st c with
    | none => simp
    | some p =>
      simp only [ih]
      cases h2 : scan p.1 a with
      | none => simp
      | some q => cases h3 : scan q.1 b <;> simp [h3]

theorem scan_app {st st' st'' : St} {a b : Txt} {ts us : List Tok} (h : scan st a = some (st', ts))
    (h2 : scan st' b = some (st'', us)) : scan st (a ++ b) = some (st'', ts ++ us) := by
  simp [scan_append, h, h2]

theorem scan_none_app {st : St} {a : Txt} (b : Txt) (h : scan st a = none) : scan st (a ++ b) = none := by
  simp [scan_append, h]

theorem scan_app_none {st st' : St} {a b : Txt} {ts : List Tok} (h : scan st a = some (st', ts))
    (h2 : scan st' b = none) : scan st (a ++ b) = none := by
  simp [scan_append, h, h2]

theorem lex_of_scan {a : Txt} {ts : List Tok} (h : scan .idle a = some (.idle, ts)) : lex .idle a = some ts := by
  simp [lex_scan, h, flush]

theorem startsDigit_app (a b : Txt) (h : a ≠ []) : startsDigit (a ++ b) = startsDigit a := by
  cases a with
  | nil => exact absurd rfl h
  | cons c a => rfl

/-- Further characters of a word. -/
theorem scan_more (acc w : Txt) (hn : acc ≠ []) (h : ∀ c ∈ w, (isWord c || (c == '.' && startsDigit acc)) = true) :
    scan (.word acc) w = some (.word (acc ++ w), []) := by
  induction w generalizing acc with
  | nil => simp [scan]
  | cons c w ih =>
    have hc := h c (by simp)
    have := ih (acc ++ [c]) (by simp) (by
      intro d hd
      rw [startsDigit_app _ _ hn]
      exact h d (by simp [hd]))
    simp only [scan, step]
    rw [if_pos hc]
    simp [this]

theorem space_not_word {c : Char} (h : c = ' ' ∨ c = '\n' ∨ c = '\t') : isWord c = false := by
  rcases h with h | h | h <;> subst h <;> decide

theorem start_word {c : Char} (h : isWord c = true) : start c = some (.word [c], []) := by
  unfold start
  rw [if_neg, if_pos h]
  intro e
  rw [space_not_word e] at h
  exact absurd h (by decide)

/-- A word from its first character. -/
theorem scan_word (c : Char) (w : Txt) (hc : isWord c = true)
    (h : ∀ d ∈ w, (isWord d || (d == '.' && c.isDigit)) = true) :
    scan .idle (c :: w) = some (.word (c :: w), []) := by
  have := scan_more [c] w (by simp) h
  simp only [scan, step, start_word hc, this]
  simp

/-- A character which ends a word without beginning anything. -/
def Ends (c : Char) (us : List Tok) : Prop := start c = some (.idle, us) ∧ isWord c = false ∧ c ≠ '.'

theorem scan_end {w : Txt} {t : Tok} {c : Char} {us : List Tok} (hw : wordTok w = some t) (hc : Ends c us) :
    scan (.word w) [c] = some (.idle, t :: us) := by
  obtain ⟨h1, h2, h3⟩ := hc
  simp [scan, step, h2, h3, hw, h1]

/-- The same with a point, which ends a name. -/
theorem scan_dot {w : Txt} {t : Tok} (hw : wordTok w = some t) (hd : startsDigit w = false) :
    scan (.word w) ['.'] = some (.idle, [t, .sym '.']) := by
  have e : start '.' = some (.idle, [.sym '.']) := by decide
  have e2 : isWord '.' = false := by decide
  simp [scan, step, hd, hw, e, e2]

/-! ## Names and numbers -/

theorem isDigit_isWord {c : Char} (h : c.isDigit = true) : isWord c = true := by
  simp [isWord, Char.isAlphanum, h]

theorem name_parts {w : Txt} (h : isName w = true) : ∃ c r, w = c :: r ∧ c.isDigit = false ∧ ∀ d ∈ w, isWord d = true := by
  cases w with
  | nil => simp [isName] at h
  | cons c r =>
    simp only [isName, Bool.and_eq_true, List.all_eq_true] at h
    exact ⟨c, r, rfl, by simpa using h.2, h.1⟩

theorem luaName_isName {w : Txt} (h : luaName w = true) : isName w = true := by
  simp only [luaName, Bool.and_eq_true] at h
  exact h.1.1

theorem wordTok_name {w : Txt} (h : luaName w = true) : wordTok w = some (.name w) := by
  obtain ⟨c, r, e, hd, _⟩ := name_parts (luaName_isName h)
  have hp : readPos w = none := by simp [readPos, e, hd]
  have ho : w ≠ ['o', 'r'] := by
    simp only [luaName, Bool.and_eq_true, bne_iff_ne] at h
    exact h.2
  have ht : w ≠ "true".toList := by rintro rfl; exact absurd h (by decide +kernel)
  have hf : w ≠ "false".toList := by rintro rfl; exact absurd h (by decide +kernel)
  unfold wordTok
  rw [hp]
  simp only [if_neg ho, if_neg ht, if_neg hf, if_pos h]

theorem scan_name {w : Txt} (h : luaName w = true) : scan .idle w = some (.word w, []) := by
  obtain ⟨c, r, e, _, hw⟩ := name_parts (luaName_isName h)
  subst e
  exact scan_word c r (hw c (by simp)) (fun d hd => by simp [hw d (by simp [hd])])

theorem name_startsDigit {w : Txt} (h : luaName w = true) : startsDigit w = false := by
  obtain ⟨c, r, e, hd, _⟩ := name_parts (luaName_isName h)
  subst e
  exact hd

theorem take_all (p : Char → Bool) (a : Txt) (h : ∀ x ∈ a, p x = true) : a.takeWhile p = a ∧ a.dropWhile p = [] := by
  induction a with
  | nil => simp
  | cons x a ih =>
    obtain ⟨i, j⟩ := ih (fun y hy => h y (by simp [hy]))
    simp [h x (by simp), i, j]

theorem readPos_nat_end (n : Nat) : readPos (natText n) = some ((n : Rat), []) := by
  obtain ⟨i, j⟩ := take_all Char.isDigit (natText n) (natText_digits n)
  have : (natText n).isEmpty = false := by simp [natText_ne]
  simp [readPos, i, j, this, natText_val]

theorem readPos_frac_end (n k m : Nat) (hm : m < 10 ^ k) :
    readPos (natText n ++ '.' :: padded k m) = some ((n : Rat) + m / 10 ^ k, []) := by
  obtain ⟨i, j⟩ := take_run Char.isDigit (natText n) '.' (padded k m) (natText_digits n) (by decide)
  obtain ⟨i', j'⟩ := take_all Char.isDigit (padded k m) (padded_digits k m)
  have : (natText n).isEmpty = false := by simp [natText_ne]
  unfold readPos
  simp only [i, j, i', j', this]
  simp [natText_val, padded_val k m hm, padded_len]

theorem natText_cons (n : Nat) : ∃ c r, natText n = c :: r ∧ c.isDigit = true ∧ ∀ d ∈ r, isWord d = true := by
  cases h : natText n with
  | nil => exact absurd h (natText_ne n)
  | cons c r =>
    refine ⟨c, r, rfl, natText_digits n c (by simp [h]), fun d hd => ?_⟩
    exact isDigit_isWord (natText_digits n d (by simp [h, hd]))

theorem scan_nat (n : Nat) : scan .idle (natText n) = some (.word (natText n), []) := by
  obtain ⟨c, r, e, hc, hr⟩ := natText_cons n
  rw [e]
  exact scan_word c r (isDigit_isWord hc) (fun d hd => by simp [hr d hd])

theorem wordTok_nat (n : Nat) : wordTok (natText n) = some (.num n) := by
  simp [wordTok, readPos_nat_end]

theorem scan_frac (n k m : Nat) :
    scan .idle (natText n ++ '.' :: padded k m) = some (.word (natText n ++ '.' :: padded k m), []) := by
  obtain ⟨c, r, e, hc, hr⟩ := natText_cons n
  rw [e, List.cons_append]
  refine scan_word c _ (isDigit_isWord hc) fun d hd => ?_
  rcases List.mem_append.1 hd with hd | hd
  · simp [hr d hd]
  · rcases List.mem_cons.1 hd with hd | hd
    · simp [hd, hc]
    · simp [isDigit_isWord (padded_digits k m d hd)]

theorem wordTok_frac (n k m : Nat) (hm : m < 10 ^ k) :
    wordTok (natText n ++ '.' :: padded k m) = some (.num ((n : Rat) + m / 10 ^ k)) := by
  simp [wordTok, readPos_frac_end n k m hm]

/-! ## The parser -/

/-- The tokens are a value, whatever follows. -/
def PV (ts : List Tok) (v : Lv) : Prop := ∀ n r, ts.length ≤ n → pVal n (ts ++ r) = some (v, r)

/-- The tokens are the rest of a table, its closing brace included. -/
def PF (ts : List Tok) (fs : List (Option Txt × Lv)) : Prop := ∀ n r, ts.length ≤ n → pFields n (ts ++ r) = some (fs, r)

/-- The tokens do not begin like `key =`. -/
def NotKey (ts : List Tok) : Prop := ts ≠ [] ∧ ∀ k t r, ts = .name k :: t :: r → t ≠ .sym '='

theorem PV_num (q : Rat) : PV [.num q] (.num q) := by
  intro n r h
  cases n with
  | zero => simp at h
  | succ n => simp [pVal]

theorem PV_neg (q : Rat) : PV [.sym '-', .num q] (.num (-q)) := by
  intro n r h
  cases n with
  | zero => simp at h
  | succ n => simp [pVal]

theorem PV_str (s : Txt) : PV [.str s] (.str s) := by
  intro n r h
  cases n with
  | zero => simp at h
  | succ n => simp [pVal]

theorem PV_bool (b : Bool) : PV [.bool b] (.bool b) := by
  intro n r h
  cases n with
  | zero => simp at h
  | succ n => simp [pVal]

theorem PV_glob (s : Txt) : PV [.name s] (.glob s) := by
  intro n r h
  cases n with
  | zero => simp at h
  | succ n => simp [pVal]

theorem PV_table {ts : List Tok} {fs : List (Option Txt × Lv)} (h : PF ts fs) : PV (.sym '{' :: ts) (.table fs) := by
  intro n r hn
  cases n with
  | zero => simp at hn
  | succ n =>
    have := h n r (by simpa using hn)
    simp [pVal, this]

theorem PF_close : PF [.sym '}'] [] := by
  intro n r h
  cases n with
  | zero => simp at h
  | succ n => simp [pFields]

theorem PF_key {a ts : List Tok} {v : Lv} {fs : List (Option Txt × Lv)} (k : Txt) (ha : PV a v) (h : PF ts fs) :
    PF (.name k :: .sym '=' :: a ++ .sym ',' :: ts) ((some k, v) :: fs) := by
  intro n r hn
  cases n with
  | zero => simp at hn
  | succ n =>
    simp only [List.length_cons, List.length_append] at hn
    have e1 := ha n (.sym ',' :: ts ++ r) (by omega)
    have e2 := h n r (by omega)
    simp only [List.cons_append, List.append_assoc] at *
    simp [pFields, e1, e2]

theorem PF_keylast {a : List Tok} {v : Lv} (k : Txt) (ha : PV a v) :
    PF (.name k :: .sym '=' :: a ++ [.sym '}']) [(some k, v)] := by
  intro n r hn
  cases n with
  | zero => simp at hn
  | succ n =>
    simp only [List.length_cons, List.length_append] at hn
    have e1 := ha n (.sym '}' :: r) (by omega)
    simp only [List.cons_append, List.append_assoc] at *
    simp [pFields, e1]

theorem PF_item {a ts : List Tok} {v : Lv} {fs : List (Option Txt × Lv)} (ha : PV a v) (hk : NotKey a) (h : PF ts fs) :
    PF (a ++ .sym ',' :: ts) ((none, v) :: fs) := by
  intro n r hn
  cases n with
  | zero => simp at hn
  | succ n =>
    simp only [List.length_cons, List.length_append] at hn
    have hb : a ≠ .sym '}' :: a.tail := by
      intro e
      have := ha (a.length) [] (le_refl _)
      rw [e] at this
      cases hl : (Tok.sym '}' :: a.tail).length with
      | zero => simp at hl
      | succ m => rw [hl] at this; simp [pVal] at this
    have e1 := ha n (.sym ',' :: ts ++ r) (by omega)
    have e2 := h n r (by omega)
    simp only [List.append_assoc, List.cons_append] at *
    cases a with
    | nil => exact absurd rfl hk.1
    | cons x a =>
      unfold pFields
      split
      · rename_i heq
        simp only [List.cons_append, List.cons.injEq] at heq
        exact absurd (by rw [heq.1]; rfl) hb
      · rename_i k r' heq
        cases a with
        | nil => simp at heq
        | cons y a =>
          simp only [List.cons_append, List.cons.injEq] at heq
          exact absurd heq.2.1 (hk.2 k y a (by rw [heq.1]))
      · rw [e1]
        simp [e2]

/-- The text is a value, when a character follows which ends it. -/
def Item (t : Txt) (v : Lv) : Prop := ∃ ts, PV ts v ∧ NotKey ts ∧
  ∀ c us, Ends c us → scan .idle (t ++ [c]) = some (.idle, ts ++ us)

theorem notKey_one (t : Tok) : NotKey [t] := ⟨by simp, by simp⟩

theorem notKey_neg (q : Rat) : NotKey [.sym '-', .num q] := ⟨by simp, by simp⟩

theorem item_word {w : Txt} {q : Rat} (h : scan .idle w = some (.word w, [])) (ht : wordTok w = some (.num q)) :
    Item w (.num q) :=
  ⟨[.num q], PV_num q, notKey_one _, fun c us hc => by
    have := scan_app h (scan_end ht hc)
    simpa using this⟩

theorem scan_minus : scan .idle ['-'] = some (.idle, [.sym '-']) := by decide +kernel

theorem item_neg {w : Txt} {q : Rat} (h : scan .idle w = some (.word w, [])) (ht : wordTok w = some (.num q)) :
    Item ('-' :: w) (.num (-q)) :=
  ⟨[.sym '-', .num q], PV_neg q, notKey_neg _, fun c us hc => by
    have := scan_app scan_minus (scan_app h (scan_end ht hc))
    simpa using this⟩

theorem item_nat (n : Nat) : Item (natText n) (.num n) := item_word (scan_nat n) (wordTok_nat n)

theorem item_int (z : Int) : Item (intText z) (.num z) := by
  unfold intText
  split
  · have := item_neg (scan_nat z.natAbs) (wordTok_nat z.natAbs)
    have e : -((z.natAbs : Nat) : Rat) = z := by
      have h2 : ((z.natAbs : Int) : Rat) = ((-z : Int) : Rat) := by rw [show (z.natAbs : Int) = -z by omega]
      rw [← Int.cast_natCast, h2]
      simp
    rwa [e] at this
  · have := item_nat z.natAbs
    have e : ((z.natAbs : Nat) : Rat) = z := by
      have h2 : ((z.natAbs : Int) : Rat) = ((z : Int) : Rat) := by rw [show (z.natAbs : Int) = z by omega]
      rw [← Int.cast_natCast, h2]
    rwa [e] at this

theorem item_rat (k : Nat) (hk : k ≠ 0) (q : Rat) : Item (ratText k q) (.num (ratVal k q)) := by
  unfold ratText ratVal
  simp only [if_neg hk]
  have hm : roundEven (|q| * 10 ^ k) % 10 ^ k < 10 ^ k := Nat.mod_lt _ (by positivity)
  have h1 := scan_frac (roundEven (|q| * 10 ^ k) / 10 ^ k) k (roundEven (|q| * 10 ^ k) % 10 ^ k)
  have h2 := wordTok_frac (roundEven (|q| * 10 ^ k) / 10 ^ k) k _ hm
  rw [split_val] at h2
  split
  · have := item_neg h1 h2
    simpa using this
  · have := item_word h1 h2
    simpa using this

theorem item_name {w : Txt} (h : luaName w = true) : Item w (.glob w) :=
  ⟨[.name w], PV_glob w, notKey_one _, fun c us hc => by
    have := scan_app (scan_name h) (scan_end (wordTok_name h) hc)
    simpa using this⟩

theorem scan_str (acc s : Txt) (h : Clean s) : scan (.str '\'' acc) s = some (.str '\'' (acc ++ s), []) := by
  induction s generalizing acc with
  | nil => simp [scan]
  | cons c s ih =>
    obtain ⟨h1, h2, h3⟩ := h c (by simp)
    have := ih (acc ++ [c]) (fun d hd => h d (by simp [hd]))
    simp [scan, step, h1, h2, h3, this]

theorem scan_quoted (s : Txt) (h : Clean s) : scan .idle ('\'' :: s ++ ['\'']) = some (.idle, [.str s]) := by
  have e : scan .idle ['\''] = some (.str '\'' [], []) := by decide +kernel
  have e2 : scan (.str '\'' s) ['\''] = some (.idle, [.str s]) := by simp [scan, step]
  have := scan_app e (scan_app (scan_str [] s h) e2)
  simpa using this

theorem item_str (s : Txt) (h : Clean s) : Item ('\'' :: s ++ ['\'']) (.str s) :=
  ⟨[.str s], PV_str s, notKey_one _, fun c us hc => by
    have e : scan .idle [c] = some (.idle, us) := by simp [scan, step, hc.1]
    have := scan_app (scan_quoted s h) e
    simpa using this⟩

/-! ## Fields -/

/-- The text is a sequence of fields, each with its comma. -/
def Flds (t : Txt) (fs : List (Option Txt × Lv)) : Prop := ∃ toks, scan .idle t = some (.idle, toks) ∧
  ∀ ts gs, PF ts gs → PF (toks ++ ts) (fs ++ gs)

theorem flds_nil : Flds [] [] := ⟨[], rfl, fun _ _ h => h⟩

theorem flds_append {a b : Txt} {fs gs : List (Option Txt × Lv)} (ha : Flds a fs) (hb : Flds b gs) :
    Flds (a ++ b) (fs ++ gs) := by
  obtain ⟨ta, sa, pa⟩ := ha
  obtain ⟨tb, sb, pb⟩ := hb
  refine ⟨ta ++ tb, scan_app sa sb, fun ts hs h => ?_⟩
  rw [List.append_assoc, List.append_assoc]
  exact pa _ _ (pb _ _ h)

theorem flds_flatMap {α : Type} (l : List α) (f : α → Txt) (g : α → List (Option Txt × Lv)) (h : ∀ x ∈ l, Flds (f x) (g x)) :
    Flds (l.flatMap f) (l.flatMap g) := by
  induction l with
  | nil => exact flds_nil
  | cons x l ih =>
    simp only [List.flatMap_cons]
    exact flds_append (h x (by simp)) (ih fun y hy => h y (by simp [hy]))

theorem scan_comma_space : scan .idle [' '] = some (.idle, []) := by decide +kernel

theorem ends_comma : Ends ',' [.sym ','] := ⟨by decide, by decide, by decide⟩

/-- A numbered field. -/
theorem flds_item {t : Txt} {v : Lv} (h : Item t v) : Flds (t ++ [',', ' ']) [(none, v)] := by
  obtain ⟨ts, hv, hk, hs⟩ := h
  refine ⟨ts ++ [.sym ','], ?_, fun us gs hg => ?_⟩
  · have := scan_app (hs ',' _ ends_comma) scan_comma_space
    simpa using this
  · have := PF_item hv hk hg
    simpa using this

/-- Blanks. -/
def Blank (t : Txt) : Prop := ∀ c ∈ t, c = ' ' ∨ c = '\n' ∨ c = '\t'

instance (t : Txt) : Decidable (Blank t) := by
  unfold Blank
  infer_instance

theorem scan_blank (t : Txt) (h : Blank t) : scan .idle t = some (.idle, []) := by
  induction t with
  | nil => rfl
  | cons c t ih =>
    have hc := h c (by simp)
    have := ih (fun d hd => h d (by simp [hd]))
    simp [scan, step, start, hc, this]

theorem flds_blank (t : Txt) (h : Blank t) : Flds t [] := ⟨[], scan_blank t h, fun _ _ h => h⟩

theorem ends_eq : Ends '=' [.sym '='] := ⟨by decide, by decide, by decide⟩

theorem scan_key {k : Txt} (h : luaName k = true) : scan .idle (k ++ ['=']) = some (.idle, [.name k, .sym '=']) := by
  have := scan_app (scan_name h) (scan_end (wordTok_name h) ends_eq)
  simpa using this

/-- A field with a key and a value which is not a table. -/
theorem flds_key {k t : Txt} {v : Lv} (hk : luaName k = true) (h : Item t v) : Flds (k ++ '=' :: t ++ [',']) [(some k, v)] := by
  obtain ⟨ts, hv, _, hs⟩ := h
  refine ⟨.name k :: .sym '=' :: ts ++ [.sym ','], ?_, fun us gs hg => ?_⟩
  · have := scan_app (scan_key hk) (hs ',' _ ends_comma)
    simpa using this
  · have := PF_key k hv hg
    simpa using this

theorem scan_open : scan .idle ['{'] = some (.idle, [.sym '{']) := by decide +kernel

theorem scan_close : scan .idle ['}'] = some (.idle, [.sym '}']) := by decide +kernel

theorem scan_comma : scan .idle [','] = some (.idle, [.sym ',']) := by decide +kernel

/-- A field with a key and a table. -/
theorem flds_table {k b1 body : Txt} {fs : List (Option Txt × Lv)} (hk : luaName k = true) (h1 : Blank b1) (h : Flds body fs) :
    Flds (k ++ '=' :: b1 ++ '{' :: body ++ ['}', ',']) [(some k, .table fs)] := by
  obtain ⟨ts, hs, hf⟩ := h
  refine ⟨.name k :: .sym '=' :: (.sym '{' :: ts ++ [.sym '}']) ++ [.sym ','], ?_, fun us gs hg => ?_⟩
  · have := scan_app (scan_key hk) (scan_app (scan_blank b1 h1) (scan_app scan_open (scan_app hs (scan_app scan_close scan_comma))))
    simpa using this
  · have hp := hf _ _ PF_close
    have := PF_key k (PV_table hp) hg
    simpa using this

/-- The last field of a table, with the brace after it. -/
theorem last_table {k b1 body b2 : Txt} {fs : List (Option Txt × Lv)} (hk : luaName k = true) (h1 : Blank b1) (h : Flds body fs)
    (h2 : Blank b2) : ∃ toks, scan .idle (k ++ '=' :: b1 ++ '{' :: body ++ '}' :: b2 ++ ['}']) = some (.idle, toks) ∧
      PF toks [(some k, .table fs)] := by
  obtain ⟨ts, hs, hf⟩ := h
  refine ⟨.name k :: .sym '=' :: (.sym '{' :: ts ++ [.sym '}']) ++ [.sym '}'], ?_, ?_⟩
  · have := scan_app (scan_key hk) (scan_app (scan_blank b1 h1) (scan_app scan_open (scan_app hs (scan_app scan_close
      (scan_app (scan_blank b2 h2) scan_close)))))
    simpa using this
  · have hp := hf _ _ PF_close
    simpa using PF_keylast k (PV_table hp)

end Ptusa.LuaText
