import Verif.SaveDev.Spec
import Mathlib.Tactic.Linarith
import Mathlib.Tactic.FieldSimp
import Mathlib.Tactic.Ring
import Mathlib.Tactic.NormNum
import Mathlib.Tactic.Positivity
import Mathlib.Tactic.IntervalCases

/-!
# Lemmas about the text and its reader
-/
namespace Ptusa.SaveDev

theorem digit_isDigit (n : Nat) (h : n < 10) : (digit n).isDigit = true := by
  interval_cases n <;> decide

theorem digit_val (n : Nat) (h : n < 10) : (digit n).toNat - 48 = n := by
  interval_cases n <;> decide

theorem digitsVal_snoc (l : Txt) (c : Char) : digitsVal (l ++ [c]) = 10 * digitsVal l + (c.toNat - 48) := by
  simp [digitsVal, List.foldl_append]

theorem natText_digits (n : Nat) : ∀ c ∈ natText n, c.isDigit = true := by
  induction n using Nat.strongRecOn with
  | ind n ih =>
    rw [natText]
    split
    · rename_i h
      simpa using digit_isDigit n h
    · rename_i h
      intro c hc
      rcases List.mem_append.1 hc with hc | hc
      · exact ih (n / 10) (by omega) c hc
      · rw [List.mem_singleton.1 hc]
        exact digit_isDigit _ (by omega)

theorem natText_ne (n : Nat) : natText n ≠ [] := by
  rw [natText]
  split <;> simp

theorem natText_val (n : Nat) : digitsVal (natText n) = n := by
  induction n using Nat.strongRecOn with
  | ind n ih =>
    rw [natText]
    split
    · rename_i h
      have := digit_val n h
      simp only [digitsVal, List.foldl_cons, List.foldl_nil]
      omega
    · rename_i h
      rw [digitsVal_snoc, ih (n / 10) (by omega), digit_val _ (by omega)]
      omega

theorem padded_digits (k m : Nat) : ∀ c ∈ padded k m, c.isDigit = true := by
  induction k generalizing m with
  | zero => simp [padded]
  | succ k ih =>
    intro c hc
    rcases List.mem_append.1 hc with hc | hc
    · exact ih _ c hc
    · rw [List.mem_singleton.1 hc]
      exact digit_isDigit _ (by omega)

theorem padded_len (k m : Nat) : (padded k m).length = k := by
  induction k generalizing m with
  | zero => rfl
  | succ k ih => simp [padded, ih]

theorem padded_val (k m : Nat) (h : m < 10 ^ k) : digitsVal (padded k m) = m := by
  induction k generalizing m with
  | zero => simp at h; simp [padded, digitsVal, h]
  | succ k ih =>
    rw [padded, digitsVal_snoc, ih (m / 10) (by rw [pow_succ] at h; omega), digit_val _ (by omega)]
    omega

theorem take_run (p : Char → Bool) (a : Txt) (c : Char) (r : Txt) (h : ∀ x ∈ a, p x = true) (hc : p c = false) :
    (a ++ c :: r).takeWhile p = a ∧ (a ++ c :: r).dropWhile p = c :: r := by
  induction a with
  | nil => simp [hc]
  | cons x a ih =>
    have hx : p x = true := h x (by simp)
    obtain ⟨i, j⟩ := ih (fun y hy => h y (by simp [hy]))
    simp [hx, i, j]

/-- A character which ends a number or a word. -/
def stops (c : Char) : Prop := c = ',' ∨ c = '}'

theorem stops_digit {c : Char} (h : stops c) : c.isDigit = false := by
  rcases h with h | h <;> subst h <;> decide

theorem stops_word {c : Char} (h : stops c) : isWord c = false := by
  rcases h with h | h <;> subst h <;> decide

theorem readPos_nat (n : Nat) (c : Char) (r : Txt) (h : stops c) :
    readPos (natText n ++ c :: r) = some ((n : Rat), c :: r) := by
  obtain ⟨i, j⟩ := take_run Char.isDigit (natText n) c r (natText_digits n) (stops_digit h)
  unfold readPos
  simp only [i, j]
  have : (natText n).isEmpty = false := by simp [natText_ne]
  rw [this]
  simp only [Bool.false_eq_true, if_false]
  rcases h with h | h <;> subst h <;> simp [natText_val]

theorem readPos_frac (n k m : Nat) (hm : m < 10 ^ k) (c : Char) (r : Txt) (h : stops c) :
    readPos (natText n ++ '.' :: padded k m ++ c :: r) = some ((n : Rat) + m / 10 ^ k, c :: r) := by
  obtain ⟨i, j⟩ := take_run Char.isDigit (natText n) '.' (padded k m ++ c :: r) (natText_digits n) (by decide)
  obtain ⟨i', j'⟩ := take_run Char.isDigit (padded k m) c r (padded_digits k m) (stops_digit h)
  unfold readPos
  have e : natText n ++ '.' :: padded k m ++ c :: r = natText n ++ '.' :: (padded k m ++ c :: r) := by simp
  rw [e]
  simp only [i, j, i', j']
  have : (natText n).isEmpty = false := by simp [natText_ne]
  rw [this]
  simp [natText_val, padded_val k m hm, padded_len]

/-- The text is read as this value, whatever follows. -/
def Reads (t : Txt) (v : Val) : Prop := ∀ c r, stops c → readItem (t ++ c :: r) = some (v, c :: r)

theorem readItem_pos (s : Txt) (h : ∀ r, s ≠ '-' :: r) (q : Rat) (r : Txt) (e : readPos s = some (q, r)) :
    readItem s = some (.num q, r) := by
  unfold readItem
  split
  · exact absurd rfl (h _)
  · rw [e]

theorem natText_head (n : Nat) (t : Txt) : ∀ r, natText n ++ t ≠ '-' :: r := by
  intro r e
  cases hn : natText n with
  | nil => exact natText_ne n hn
  | cons a l =>
    rw [hn] at e
    have h := natText_digits n a (by simp [hn])
    have ha : a = '-' := by simpa using (List.cons.inj e).1
    rw [ha] at h
    exact absurd h (by decide)

theorem readItem_neg (s : Txt) (q : Rat) (r : Txt) (e : readPos s = some (q, r)) :
    readItem ('-' :: s) = some (.num (-q), r) := by
  simp [readItem, e]

theorem reads_int (z : Int) : Reads (intText z) (.num z) := by
  intro c r h
  unfold intText
  split
  · rename_i hz
    have e := readItem_neg _ _ _ (readPos_nat z.natAbs c r h)
    rw [List.cons_append, e]
    have : (-(z.natAbs : Rat)) = z := by
      have : (z.natAbs : Rat) = ((z.natAbs : Int) : Rat) := by rw [Int.cast_natCast]
      have h2 : (z.natAbs : Int) = -z := by omega
      rw [this, h2]
      simp
    rw [this]
  · rename_i hz
    have e := readItem_pos _ (natText_head _ _) _ _ (readPos_nat z.natAbs c r h)
    rw [e]
    have : ((z.natAbs : Nat) : Rat) = z := by
      have : (z.natAbs : Rat) = ((z.natAbs : Int) : Rat) := by rw [Int.cast_natCast]
      have h2 : (z.natAbs : Int) = z := by omega
      rw [this, h2]
    rw [this]

theorem reads_bool (b : Bool) : Reads (boolText b) (.num ((if b then 1 else 0 : Int) : Rat)) := by
  have := reads_int (if b then 1 else 0)
  cases b
  · have e : intText 0 = ['0'] := by
      rw [intText, natText]; decide
    simpa [boolText, e] using this
  · have e : intText 1 = ['1'] := by
      rw [intText, natText]; decide
    simpa [boolText, e] using this

theorem roundEven_near (x : Rat) (h : 0 ≤ x) : |(roundEven x : Rat) - x| ≤ 1 / 2 := by
  have h1 : ((⌊x⌋₊ : Nat) : Rat) ≤ x := Nat.floor_le h
  have h2 : x < (⌊x⌋₊ : Nat) + 1 := Nat.lt_floor_add_one x
  unfold roundEven
  simp only
  rw [abs_le]
  split
  · constructor <;> linarith
  · split
    · push_cast
      constructor <;> linarith
    · split <;> (try push_cast) <;> constructor <;> linarith

/-- The value of the text of a rational number. -/
def ratVal (k : Nat) (q : Rat) : Rat :=
  (if q < 0 then -1 else 1) * ((roundEven (|q| * 10 ^ k) : Nat) / 10 ^ k)

theorem split_val (n k : Nat) : ((n / 10 ^ k : Nat) : Rat) + ((n % 10 ^ k : Nat) : Rat) / 10 ^ k = (n : Rat) / 10 ^ k := by
  have h : (n : Rat) = ((10 ^ k : Nat) : Rat) * ((n / 10 ^ k : Nat) : Rat) + ((n % 10 ^ k : Nat) : Rat) := by
    exact_mod_cast (Nat.div_add_mod n (10 ^ k)).symm
  have hp : (0 : Rat) < 10 ^ k := by positivity
  rw [h]
  push_cast
  field_simp

theorem reads_rat (k : Nat) (q : Rat) : Reads (ratText k q) (.num (ratVal k q)) := by
  intro c r h
  unfold ratText ratVal
  simp only
  have e : readPos (natText (roundEven (|q| * 10 ^ k) / 10 ^ k) ++
      (if k = 0 then [] else '.' :: padded k (roundEven (|q| * 10 ^ k) % 10 ^ k)) ++ c :: r) =
      some (((roundEven (|q| * 10 ^ k) : Nat) : Rat) / 10 ^ k, c :: r) := by
    by_cases hk : k = 0
    · subst hk
      simpa using readPos_nat (roundEven |q|) c r h
    · rw [if_neg hk, readPos_frac _ _ _ (Nat.mod_lt _ (by positivity)) c r h, split_val]
  split
  · rw [List.append_assoc, List.append_assoc, List.singleton_append, ← List.append_assoc, readItem_neg _ _ _ e]
    simp
  · rw [List.nil_append, readItem_pos _ _ _ _ e]
    · simp
    · rw [List.append_assoc]
      exact natText_head _ _

theorem ratVal_near (k : Nat) (q : Rat) : |ratVal k q - q| ≤ 1 / (2 * 10 ^ k) := by
  have hp : (0 : Rat) < 10 ^ k := by positivity
  have h := roundEven_near (|q| * 10 ^ k) (by positivity)
  have e : (ratVal k q - q) = (if q < 0 then -1 else 1) * (((roundEven (|q| * 10 ^ k) : Nat) - |q| * 10 ^ k) / 10 ^ k) := by
    unfold ratVal
    split
    · rename_i hq
      rw [abs_of_neg hq]
      field_simp
      ring
    · rename_i hq
      rw [abs_of_nonneg (not_lt.1 hq)]
      field_simp
  rw [e, abs_mul, abs_div, abs_of_pos hp]
  have hs : |(if q < 0 then (-1 : Rat) else 1)| = 1 := by split <;> simp
  rw [hs, one_mul, div_le_div_iff₀ hp (by positivity)]
  nlinarith

theorem roundEven_int (n : Nat) : roundEven (n : Rat) = n := by
  unfold roundEven
  simp

theorem ratVal_int (q : Rat) (h : q.den = 1) : ratVal 0 q = q := by
  have e : q = (q.num : Rat) := by
    conv_lhs => rw [← Rat.num_div_den q, h]
    simp
  have e2 : |q| = ((q.num.natAbs : Nat) : Rat) := by
    rw [Nat.cast_natAbs]
    conv_lhs => rw [e]
    simp
  unfold ratVal
  rw [pow_zero, mul_one, div_one, e2, roundEven_int, ← e2]
  split
  · rename_i hq
    rw [abs_of_neg hq]
    simp
  · rename_i hq
    rw [abs_of_nonneg (not_lt.1 hq)]
    simp

/-- A value is read, whatever follows. -/
def ReadsVal (t : Txt) (v : Val) : Prop := ∀ c r, stops c → readVal (t ++ c :: r) = some (v, c :: r)

theorem Reads.val {t : Txt} {v : Val} (h : Reads t v) : ReadsVal t v := by
  intro c r hc
  have e := h c r hc
  unfold readVal
  split
  · rename_i r' hr
    rw [hr] at e
    exact absurd e (by simp [readItem, readPos, readName, isName, isWord])
  · exact e

theorem reads_inf (k : Nat) : Reads (fixed k (.inf false)) .nil := by
  intro c r h
  obtain ⟨i, j⟩ := take_run isWord "inf".toList c r (by decide) (stops_word h)
  have e : readPos ("inf".toList ++ c :: r) = none := by simp [readPos]
  have e2 : fixed k (.inf false) = "inf".toList := rfl
  rw [e2]
  have : readItem ("inf".toList ++ c :: r) =
      match readPos ("inf".toList ++ c :: r) with
      | some p => some (.num p.1, p.2)
      | none => (readName ("inf".toList ++ c :: r)).map fun p => (.nil, p.2) := rfl
  rw [this, e]
  simp only [readName, i, j]
  rfl

theorem reads_nan (k : Nat) : Reads (fixed k (.nan false)) .nil := by
  intro c r h
  obtain ⟨i, j⟩ := take_run isWord "nan".toList c r (by decide) (stops_word h)
  have e : readPos ("nan".toList ++ c :: r) = none := by simp [readPos]
  have e2 : fixed k (.nan false) = "nan".toList := rfl
  rw [e2]
  have : readItem ("nan".toList ++ c :: r) =
      match readPos ("nan".toList ++ c :: r) with
      | some p => some (.num p.1, p.2)
      | none => (readName ("nan".toList ++ c :: r)).map fun p => (.nil, p.2) := rfl
  rw [this, e]
  simp only [readName, i, j]
  rfl

/-- Lists of texts and what is read from them. -/
theorem readList_ok (ts : List Txt) (vs : List Val) (h : List.Forall₂ Reads ts vs) (hne : ts ≠ []) (n : Nat)
    (hn : ts.length ≤ n) (r : Txt) : readList n (commas ts ++ '}' :: r) = some (vs, r) := by
  induction h generalizing n with
  | nil => exact absurd rfl hne
  | @cons t v ts vs hd tl ih =>
    cases n with
    | zero => simp at hn
    | succ n =>
      cases ts with
      | nil =>
        cases tl
        simp only [commas, readList, hd '}' r (Or.inr rfl)]
      | cons t' ts =>
        have hn' : (t' :: ts).length ≤ n := by simpa using hn
        have e : commas (t :: t' :: ts) ++ '}' :: r = t ++ ',' :: (commas (t' :: ts) ++ '}' :: r) := by
          simp [commas]
        rw [e]
        simp only [readList, hd ',' _ (Or.inl rfl), ih (by simp) n hn', Option.map_some]

theorem Reads.ne {t : Txt} {v : Val} (h : Reads t v) : t ≠ [] := by
  intro e
  subst e
  exact absurd (h ',' [] (Or.inl rfl)) (by simp [readItem, readPos, readName, isName, isWord])

theorem commas_len (ts : List Txt) (h : ∀ t ∈ ts, t ≠ []) : ts.length ≤ (commas ts).length := by
  induction ts with
  | nil => simp
  | cons t ts ih =>
    have ht : 0 < t.length := List.length_pos_iff.2 (h t (by simp))
    have := ih (fun x hx => h x (by simp [hx]))
    cases ts with
    | nil => simp [commas]; omega
    | cons t' ts => simp [commas] at *; omega

theorem reads_list (ts : List Txt) (vs : List Val) (h : List.Forall₂ Reads ts vs) (hne : ts ≠ []) :
    ReadsVal ('{' :: commas ts ++ ['}']) (.list vs) := by
  intro c r hc
  have hts : ∀ t ∈ ts, t ≠ [] := by
    intro t ht
    obtain ⟨i, hi, rfl⟩ := List.getElem_of_mem ht
    exact (List.Forall₂.get h hi (h.length_eq ▸ hi)).ne
  have hl := commas_len ts hts
  have e : '{' :: commas ts ++ ['}'] ++ c :: r = '{' :: (commas ts ++ '}' :: c :: r) := by simp
  rw [e]
  simp only [readVal]
  rw [readList_ok ts vs h hne _ (by simp; omega)]
  rfl

/-- The fields without the last separator. -/
def joined : List (String × Txt) → Txt
  | [] => []
  | [p] => p.1.toList ++ '=' :: p.2
  | p :: l => p.1.toList ++ '=' :: p.2 ++ ',' :: ' ' :: joined l

theorem flds_joined (l : List (String × Txt)) (h : l ≠ []) :
    (l.flatMap fun p => fld p.1 p.2) = joined l ++ [',', ' '] := by
  induction l with
  | nil => exact absurd rfl h
  | cons p l ih =>
    cases l with
    | nil => simp [fld, joined]
    | cons q l => rw [List.flatMap_cons, ih (by simp)]; simp [fld, joined]

theorem readName_ok (k : Txt) (c : Char) (r : Txt) (h : isName k = true) (hc : isWord c = false) :
    readName (k ++ c :: r) = some (k, c :: r) := by
  have hw : ∀ x ∈ k, isWord x = true := by
    unfold isName at h
    rw [Bool.and_eq_true] at h
    exact List.all_eq_true.1 h.1
  obtain ⟨i, j⟩ := take_run isWord k c r hw hc
  simp [readName, i, j, h]

theorem readFields_ok (l : List (String × Txt)) (vs : List Val) (h : List.Forall₂ (fun p v => ReadsVal p.2 v) l vs)
    (hk : ∀ p ∈ l, isName p.1.toList = true) (hne : l ≠ []) (n : Nat) (hn : l.length ≤ n) (r : Txt) :
    readFields n (joined l ++ '}' :: r) = some ((l.map fun p => p.1.toList).zip vs, r) := by
  induction h generalizing n with
  | nil => exact absurd rfl hne
  | @cons p v l vs hd tl ih =>
    have hp : isName p.1.toList = true := hk p (by simp)
    cases n with
    | zero => simp at hn
    | succ n =>
      cases l with
      | nil =>
        cases tl
        have e : joined [p] ++ '}' :: r = p.1.toList ++ '=' :: (p.2 ++ '}' :: r) := by simp [joined]
        rw [e]
        simp only [readFields, readName_ok p.1.toList '=' _ hp (by decide), hd '}' r (Or.inr rfl)]
        simp
      | cons q l =>
        have hn' : (q :: l).length ≤ n := by simpa using hn
        have e : joined (p :: q :: l) ++ '}' :: r =
            p.1.toList ++ '=' :: (p.2 ++ ',' :: ' ' :: (joined (q :: l) ++ '}' :: r)) := by simp [joined]
        rw [e]
        simp only [readFields, readName_ok p.1.toList '=' _ hp (by decide), hd ',' _ (Or.inl rfl)]
        rw [ih (fun x hx => hk x (by simp [hx])) (by simp) n hn']
        simp

theorem joined_len (l : List (String × Txt)) : l.length ≤ (joined l).length := by
  induction l with
  | nil => simp
  | cons p l ih =>
    cases l with
    | nil => simp [joined]; omega
    | cons q l => simp [joined] at *; omega

/-- One device. -/
theorem readDev_ok (name : Txt) (l : List (String × Txt)) (vs : List Val) (hname : isName name = true)
    (h : List.Forall₂ (fun p v => ReadsVal p.2 v) l vs) (hk : ∀ p ∈ l, isName p.1.toList = true) (hne : l ≠ []) (n : Nat)
    (r : Txt) : readDevs (n + 1) ('\t' :: name ++ '=' :: '{' :: joined l ++ '}' :: ',' :: '\n' :: r) =
      (readDevs n r).map fun ds => (name, (l.map fun p => p.1.toList).zip vs) :: ds := by
  have e : '\t' :: name ++ '=' :: '{' :: joined l ++ '}' :: ',' :: '\n' :: r =
      '\t' :: (name ++ '=' :: '{' :: (joined l ++ '}' :: ',' :: '\n' :: r)) := by simp
  rw [e, readDevs]
  · rw [readName_ok name '=' _ hname (by decide)]
    simp only
    rw [readFields_ok l vs h hk hne _ (by have := joined_len l; simp; omega)]
    rfl
  · intro this
    cases name with
    | nil => exact absurd hname (by decide)
    | cons c m =>
      have hc : c = '}' := by simpa using (List.cons.inj this).1
      subst hc
      exact absurd hname (by simp [isName, isWord])

/-- The text of a value which should be found. -/
def Want.text : Want → Txt
  | .int z => intText z
  | .real k x => fixed k x
  | .short x => fixed (precision x) x
  | .list l => '{' :: commas (l.map fun w => match w with | .int z => intText z | .real k x => fixed k x | _ => []) ++ ['}']

theorem boolText_int (b : Bool) : boolText b = intText (if b then 1 else 0) := by
  cases b
  · rw [intText, natText]; decide
  · rw [intText, natText]; decide

theorem fb_text (a b : Option Int) : fbText a b = (fbWant a b).flatMap fun p => fld p.1 p.2.text := by
  cases a <;> cases b <;> simp [fbText, fbWant, fldI, Want.text]

theorem counter_text (a t1 p1 t2 p2 : Int) :
    counterText a t1 p1 t2 p2 = (counterWant a t1 p1 t2 p2).flatMap fun p => fld p.1 p.2.text := by
  simp [counterText, counterWant, fldI, Want.text]

theorem ex_text (k : Kind) (h : k.sound = true) : k.ex = some (k.want.flatMap fun p => fld p.1 p.2.text) := by
  cases k <;> simp only [Kind.ex, Kind.want, Option.some.injEq]
  case motor r e => cases r <;> cases e <;> simp [fldI, Want.text]
  case concOk e o =>
    have : e = false := by simpa [Kind.sound] using h
    subst this
    simp [fldI, Want.text]
  case camera => simp [Kind.sound] at h
  all_goals
    simp [fldI, fldF, fldL, flag, Want.text, fb_text, counter_text, boolText_int, List.map_map, Function.comp_def]

/-- A scalar value which is finite. -/
theorem scalar_reads (w : Want) (hf : w.finite = true) (hs : ∀ l, w ≠ .list l) : ∃ v, Reads w.text v ∧ w.found v := by
  match w, hf, hs with
  | .int z, _, _ => exact ⟨_, reads_int z, by simp [Want.found]⟩
  | .real k (.num q), _, _ =>
    exact ⟨_, reads_rat k q, by simpa [Want.found] using ⟨_, rfl, ratVal_near k q⟩⟩
  | .real k (.inf b), hf, _ => simp [Want.finite] at hf
  | .real k (.nan b), hf, _ => simp [Want.finite] at hf
  | .short (.num q), _, _ =>
    refine ⟨_, reads_rat (precision (.num q)) q, ?_⟩
    simp only [Want.found, precision]
    by_cases hq : q.den = 1
    · rw [if_pos hq, ratVal_int q hq]
      exact ⟨⟨q, rfl, by simp⟩, fun _ => rfl⟩
    · rw [if_neg hq]
      exact ⟨⟨_, rfl, ratVal_near 2 q⟩, fun h => absurd h hq⟩
  | .short (.inf b), hf, _ => simp [Want.finite] at hf
  | .short (.nan b), hf, _ => simp [Want.finite] at hf
  | .list l, _, hs => exact absurd rfl (hs l)

/-- The values of the lists: integers and floats. -/
def Want.flat : Want → Bool
  | .list l => l.all fun w => match w with | .int _ => true | .real _ _ => true | _ => false
  | _ => true

theorem want_flat (k : Kind) : ∀ p ∈ k.want, p.2.flat = true := by
  cases k <;> simp [Kind.want, fbWant, counterWant, flag, Want.flat]
  all_goals grind [Want.flat]

theorem list_reads (l : List Want) (hf : ∀ w ∈ l, w.finite = true)
    (hs : (l.all fun w => match w with | .int _ => true | .real _ _ => true | _ => false) = true) :
    ∃ vs, List.Forall₂ Reads (l.map fun w => match w with | .int z => intText z | .real k x => fixed k x | _ => []) vs ∧
      foundAll l vs := by
  induction l with
  | nil => exact ⟨[], .nil, by simp [foundAll]⟩
  | cons w l ih =>
    rw [List.all_cons, Bool.and_eq_true] at hs
    obtain ⟨vs, h1, h2⟩ := ih (fun x hx => hf x (by simp [hx])) hs.2
    have hw := hf w (by simp)
    obtain ⟨v, h3, h4⟩ := scalar_reads w hw (by intro m hm; subst hm; exact absurd hs.1 (by simp))
    refine ⟨v :: vs, ?_, by simpa [foundAll] using ⟨h4, h2⟩⟩
    rw [List.map_cons]
    refine .cons ?_ h1
    match w, hs.1, h3 with
    | .int z, _, h3 => exact h3
    | .real k x, _, h3 => exact h3

theorem finite_list (l : List Want) : (Want.list l).finite = true ↔ l ≠ [] ∧ ∀ w ∈ l, w.finite = true := by
  rw [Want.finite]
  simp

theorem want_reads (w : Want) (hf : w.finite = true) (hs : w.flat = true) : ∃ v, ReadsVal w.text v ∧ w.found v := by
  by_cases hl : ∃ l, w = .list l
  · obtain ⟨l, rfl⟩ := hl
    obtain ⟨h1, h2⟩ := (finite_list l).1 hf
    obtain ⟨vs, h3, h4⟩ := list_reads l h2 (by simpa [Want.flat] using hs)
    exact ⟨.list vs, reads_list _ _ h3 (by simpa using h1), by simpa [Want.found] using h4⟩
  · obtain ⟨v, h1, h2⟩ := scalar_reads w hf (fun l e => hl ⟨l, e⟩)
    exact ⟨v, h1.val, h2⟩

/-- The text of a device. -/
theorem save_text (d : Dev) (h : d.kind.sound = true) (pre : Txt) : d.save pre =
    some (pre ++ d.name.toList ++ '=' :: '{' :: joined (d.want.map fun p => (p.1, p.2.text)) ++ "},\n".toList) := by
  have hne : (d.want.map fun p => (p.1, p.2.text)) ≠ [] := by simp [Dev.want]
  have hj := flds_joined _ hne
  have e : pre ++ d.name.toList ++ "={".toList ++ fld "M" (boolText d.manual) ++
      stText d.state ++
      valueText d.value ++
      (d.kind.want.flatMap fun p => fld p.1 p.2.text) ++ parsText d.pars =
      pre ++ d.name.toList ++ '=' :: '{' :: joined (d.want.map fun p => (p.1, p.2.text)) ++ [',', ' '] := by
    have : (d.want.map fun p => (p.1, p.2.text)).flatMap (fun p => fld p.1 p.2) =
        fld "M" (boolText d.manual) ++ stText d.state ++
        valueText d.value ++
        (d.kind.want.flatMap fun p => fld p.1 p.2.text) ++ parsText d.pars := by
      cases hs : d.state <;> cases hv : d.value <;>
        simp [Dev.want, hs, hv, stText, valueText, flag, boolText_int, Want.text, fldI, fldF, parsText, List.flatMap_map, List.flatMap_append]
    rw [List.append_assoc, List.append_assoc, List.append_assoc, List.append_assoc, ← List.append_assoc (fld _ _),
      ← List.append_assoc (fld _ _ ++ _), ← List.append_assoc (fld _ _ ++ _ ++ _), ← this, hj]
    simp
  unfold Dev.save
  rw [ex_text d.kind h]
  simp only
  rw [e]
  rw [if_pos (by simp; omega)]
  congr 2
  rw [List.take_append_of_le_length (by simp; omega), List.take_of_length_le (by simp; omega)]

/-- All keys of the additional fields. -/
def allKeys : List String := ["E", "M_EXP", "S_DEV", "FB_ON_ST", "FB_OFF_ST", "BLINK", "CS", "ERR", "V", "SUP", "NAMUR_ST",
  "OPENED", "CLOSED", "ABS_V", "DAY_T1", "PREV_DAY_T1", "DAY_T2", "PREV_DAY_T2", "F", "T", "CLEVEL", "W", "R", "ERRT", "FRQ",
  "RPM", "EST", "AMP", "MAX_FRQ", "L_GREEN", "L_YELLOW", "L_RED", "L_BLUE", "L_SIREN", "OK", "NOMINAL_CURRENT_CH",
  "LOAD_CURRENT_CH", "ST_CH", "SUM_CURRENTS", "VOLTAGE", "OUT_POWER_90", "M", "ERR_CH", "RESULT", "READY"]

theorem allKeys_names : ∀ k ∈ allKeys, isName k.toList = true := by decide +kernel

theorem want_keys (k : Kind) : ∀ p ∈ k.want, p.1 ∈ allKeys := by
  cases k
  case valve a b => cases a <;> cases b <;> simp [Kind.want, fbWant, allKeys]
  case mixProof a b _ _ _ _ => cases a <;> cases b <;> simp [Kind.want, fbWant, allKeys]
  case tvis a b _ _ _ _ => cases a <;> cases b <;> simp [Kind.want, fbWant, allKeys]
  case motor a b => cases a <;> cases b <;> simp [Kind.want, allKeys]
  all_goals simp [Kind.want, counterWant, allKeys]

theorem want_names (d : Dev) (h : ∀ p ∈ d.pars, isName p.1.toList = true) : ∀ p ∈ d.want, isName p.1.toList = true := by
  intro p hp
  simp only [Dev.want, List.mem_append, List.mem_singleton, List.mem_map, Option.mem_toList, Option.mem_def,
    Option.map_eq_some_iff] at hp
  rcases hp with (((hp | ⟨z, _, hp⟩) | ⟨x, _, hp⟩) | hp) | ⟨q, hq, hp⟩
  · subst hp; exact (by decide +kernel : isName "M".toList = true)
  · subst hp; exact (by decide +kernel : isName "ST".toList = true)
  · subst hp; exact (by decide +kernel : isName "V".toList = true)
  · exact allKeys_names _ (want_keys _ p hp)
  · subst hp; exact h q hq

theorem dev_flat (d : Dev) : ∀ p ∈ d.want, p.2.flat = true := by
  intro p hp
  simp only [Dev.want, List.mem_append, List.mem_singleton, List.mem_map, Option.mem_toList, Option.mem_def,
    Option.map_eq_some_iff] at hp
  rcases hp with (((hp | ⟨z, _, hp⟩) | ⟨x, _, hp⟩) | hp) | ⟨q, hq, hp⟩
  · subst hp; rfl
  · subst hp; rfl
  · subst hp; rfl
  · exact want_flat _ p hp
  · subst hp; rfl

/-- The values of a list of fields. -/
theorem fields_read (l : List (String × Want)) (hf : ∀ p ∈ l, p.2.finite = true) (hs : ∀ p ∈ l, p.2.flat = true) :
    ∃ vs, List.Forall₂ (fun p v => ReadsVal p.2 v) (l.map fun p => (p.1, p.2.text)) vs ∧
      List.Forall₂ (fun w p => p.1 = w.1.toList ∧ w.2.found p.2) l
        (((l.map fun p => (p.1, p.2.text)).map fun p : String × Txt => p.1.toList).zip vs) := by
  induction l with
  | nil => exact ⟨[], .nil, .nil⟩
  | cons p l ih =>
    obtain ⟨vs, h1, h2⟩ := ih (fun x hx => hf x (by simp [hx])) (fun x hx => hs x (by simp [hx]))
    obtain ⟨v, h3, h4⟩ := want_reads p.2 (hf p (by simp)) (hs p (by simp))
    exact ⟨v :: vs, .cons h3 h1, .cons ⟨rfl, h4⟩ h2⟩

/-- A good device in front of other ones. -/
theorem dev_read (d : Dev) (hg : d.Good) (hs : d.kind.sound = true) : ∃ a t, d.save "\t".toList = some a ∧ d.found t ∧
    2 ≤ a.length ∧ ∀ n r, readDevs (n + 1) (a ++ r) = (readDevs n r).map fun ts => t :: ts := by
  obtain ⟨vs, h1, h2⟩ := fields_read d.want hg.2.2 (dev_flat d)
  refine ⟨_, (d.name.toList, _), save_text d hs _, ⟨rfl, h2⟩, ?_, ?_⟩
  · simp
    omega
  · intro n r
    have h := readDev_ok d.name.toList _ vs hg.1 h1 (by
      intro p hp
      obtain ⟨q, hq, rfl⟩ := List.mem_map.1 hp
      exact want_names d hg.2.1 q hq) (by simp [Dev.want]) n r
    refine Eq.trans ?_ h
    congr 1
    simp

theorem devs_read (ds : List Dev) (h : ∀ d ∈ ds, d.Good ∧ d.kind.sound = true) : ∃ a ts, saveDevs ds = some a ∧
    List.Forall₂ Dev.found ds ts ∧ ds.length ≤ a.length ∧
    ∀ n r, readDevs (n + ds.length) (a ++ r) = (readDevs n r).map fun us => ts ++ us := by
  induction ds with
  | nil => exact ⟨[], [], rfl, .nil, by simp, fun n r => by simp⟩
  | cons d ds ih =>
    obtain ⟨a, ts, h1, h2, h3, h4⟩ := ih (fun x hx => h x (by simp [hx]))
    obtain ⟨b, t, g1, g2, g3, g4⟩ := dev_read d (h d (by simp)).1 (h d (by simp)).2
    refine ⟨b ++ a, t :: ts, by simp only [saveDevs, g1, h1], .cons g2 h2, by simp; omega, fun n r => ?_⟩
    have e : n + (d :: ds).length = (n + ds.length) + 1 := by simp; omega
    rw [e, List.append_assoc, g4, h4]
    cases readDevs n r <;> simp

theorem saveDevs_append (l m : List Dev) : saveDevs (l ++ m) =
    match saveDevs l with
    | none => none
    | some a => match saveDevs m with
      | none => none
      | some b => some (a ++ b) := by
  induction l with
  | nil => simp only [List.nil_append, saveDevs]; cases saveDevs m <;> simp
  | cons d l ih =>
    simp only [List.cons_append, saveDevs, ih]
    cases d.save "\t".toList <;> cases saveDevs l <;> cases saveDevs m <;> simp

/-- Fields in front of a text which cannot be read. -/
theorem readFields_bad (l : List (String × Txt)) (vs : List Val) (h : List.Forall₂ (fun p v => ReadsVal p.2 v) l vs)
    (hk : ∀ p ∈ l, isName p.1.toList = true) (b : Txt) (hb : ∀ n, readFields n b = none) (n : Nat) :
    readFields n ((l.flatMap fun p => fld p.1 p.2) ++ b) = none := by
  induction h generalizing n with
  | nil => simpa using hb n
  | @cons p v l vs hd tl ih =>
    cases n with
    | zero => rfl
    | succ n =>
      have e : ((p :: l).flatMap fun p => fld p.1 p.2) ++ b =
          p.1.toList ++ '=' :: (p.2 ++ ',' :: ' ' :: ((l.flatMap fun p => fld p.1 p.2) ++ b)) := by
        simp [fld]
      rw [e]
      simp only [readFields, readName_ok p.1.toList '=' _ (hk p (by simp)) (by decide), hd ',' _ (Or.inl rfl)]
      rw [ih (fun x hx => hk x (by simp [hx])) n]
      rfl

/-- A device whose fields cannot be read makes the whole text unreadable. -/
theorem readDevs_bad (name : Txt) (hname : isName name = true) (b : Txt) (hb : ∀ n, readFields n b = none) (n : Nat) :
    readDevs n ('\t' :: name ++ '=' :: '{' :: b) = none := by
  cases n with
  | zero => rfl
  | succ n =>
    have e : '\t' :: name ++ '=' :: '{' :: b = '\t' :: (name ++ '=' :: '{' :: b) := by simp
    rw [e, readDevs]
    · rw [readName_ok name '=' _ hname (by decide)]
      simp only
      rw [hb]
    · intro this
      cases name with
      | nil => exact absurd hname (by decide)
      | cons c m =>
        have hc : c = '}' := by simpa using (List.cons.inj this).1
        subst hc
        exact absurd hname (by simp [isName, isWord])

theorem readAll_bad (pre post : List Dev) (d : Dev) (hp : ∀ x ∈ pre, x.Good ∧ x.kind.sound = true)
    (hd : isName d.name.toList = true)
    (hb : ∀ a r, d.save "\t".toList = some a → ∃ b, a ++ r = '\t' :: d.name.toList ++ '=' :: '{' :: b ∧ ∀ n, readFields n b = none)
    (txt : Txt) (h : saveAll (pre ++ d :: post) = some txt) : readAll txt = none := by
  obtain ⟨a, ts, h1, h2, h3, h4⟩ := devs_read pre hp
  unfold saveAll at h
  rw [saveDevs_append, h1] at h
  simp only [saveDevs] at h
  cases hs : d.save "\t".toList with
  | none => rw [hs] at h; simp at h
  | some c =>
    rw [hs] at h
    cases hq : saveDevs post with
    | none => rw [hq] at h; simp at h
    | some e =>
      rw [hq] at h
      simp only [Option.some.injEq] at h
      obtain ⟨b, hb1, hb2⟩ := hb c (e ++ "\t}\n".toList) hs
      have ht : txt = 't' :: '=' :: '\n' :: '\t' :: '{' :: '\n' :: (a ++ ('\t' :: d.name.toList ++ '=' :: '{' :: b)) := by
        rw [← h, ← hb1]
        simp
      have hl : txt.length = (txt.length - pre.length) + pre.length := by
        have : pre.length ≤ txt.length := by rw [ht]; simp; omega
        omega
      have : readAll txt = readDevs txt.length (a ++ ('\t' :: d.name.toList ++ '=' :: '{' :: b)) := by
        rw [ht]
        rfl
      rw [this, hl, h4, readDevs_bad _ hd b hb2]
      rfl

theorem readAll_ok (ds : List Dev) (a : Txt) (ts : List (Txt × List (Txt × Val))) (hl : ds.length ≤ a.length)
    (hr : ∀ n r, readDevs (n + ds.length) (a ++ r) = (readDevs n r).map fun us => ts ++ us) (hs : saveDevs ds = some a) :
    ∃ txt, saveAll ds = some txt ∧ readAll txt = some ts := by
  refine ⟨"t=\n\t{\n".toList ++ a ++ "\t}\n".toList, by simp [saveAll, hs], ?_⟩
  have e : "t=\n\t{\n".toList ++ a ++ "\t}\n".toList =
      't' :: '=' :: '\n' :: '\t' :: '{' :: '\n' :: (a ++ ['\t', '}', '\n']) := by simp
  rw [e]
  have : readAll ('t' :: '=' :: '\n' :: '\t' :: '{' :: '\n' :: (a ++ ['\t', '}', '\n'])) =
      readDevs (a.length + 9) (a ++ ['\t', '}', '\n']) := by
    simp [readAll]
  have hn : a.length + 9 = (a.length + 8 - ds.length + 1) + ds.length := by omega
  rw [this, hn, hr]
  simp [readDevs]

theorem forall₂_split {α β : Type} {R : α → β → Prop} (a b : List α) (t : List β) (h : List.Forall₂ R (a ++ b) t) :
    ∃ u v, List.Forall₂ R a u ∧ List.Forall₂ R b v ∧ t = u ++ v := by
  induction a generalizing t with
  | nil => exact ⟨[], t, .nil, h, rfl⟩
  | cons x a ih =>
    cases h with
    | @cons _ y _ t hd tl =>
      obtain ⟨u, v, h1, h2, rfl⟩ := ih t tl
      exact ⟨y :: u, v, .cons hd h1, h2, rfl⟩

/-- When the keys differ, every field is found under its key. -/
theorem lookup_found (l : List (String × Want)) (t : List (Txt × Val))
    (h : List.Forall₂ (fun w p => p.1 = w.1.toList ∧ w.2.found p.2) l t) (hn : (l.map (·.1)).Nodup) (p : String × Want)
    (hp : p ∈ l) : ∃ v, lookup t p.1 = some v ∧ p.2.found v := by
  have key : ∀ (l : List (String × Want)) (t : List (Txt × Val)),
      List.Forall₂ (fun w p => p.1 = w.1.toList ∧ w.2.found p.2) l t → p.1 ∉ l.map (·.1) →
      (t.filter fun q => q.1 == p.1.toList) = [] := by
    intro l t h hm
    induction h with
    | nil => rfl
    | @cons w q l t hd tl ih =>
      simp only [List.map_cons, List.mem_cons, not_or] at hm
      have : (q.1 == p.1.toList) = false := by
        rw [hd.1]
        simp only [beq_eq_false_iff_ne, ne_eq]
        intro e
        exact hm.1 (String.toList_inj.1 e).symm
      rw [List.filter_cons, this]
      simpa using ih hm.2
  induction h with
  | nil => simp at hp
  | @cons w q l t hd tl ih =>
    simp only [List.map_cons, List.nodup_cons] at hn
    by_cases e : p = w
    · subst e
      refine ⟨q.2, ?_, hd.2⟩
      have h0 := key l t tl hn.1
      have : (q.1 == p.1.toList) = true := by simp [hd.1]
      simp [lookup, List.filter_cons, this, h0]
    · have hm : p ∈ l := by simpa [e] using hp
      obtain ⟨v, h1, h2⟩ := ih hn.2 hm
      refine ⟨v, ?_, h2⟩
      have hne : w.1 ≠ p.1 := by
        intro e2
        exact hn.1 (by rw [e2]; exact List.mem_map.2 ⟨p, hm, rfl⟩)
      have : (q.1 == p.1.toList) = false := by
        rw [hd.1]
        simp only [beq_eq_false_iff_ne, ne_eq]
        intro e3
        exact hne (String.toList_inj.1 e3)
      simpa [lookup, List.filter_cons, this] using h1

end Ptusa.SaveDev
