import Verif.RecFile.Spec

/-! # Lemmas about the file with the recipes loaded last -/
namespace Ptusa.RecFile

open Spec SaveDev

theorem natText_takeWhile (n : Nat) (c : Char) (hc : c.isDigit = false) (r : Txt) :
    (natText n ++ c :: r).takeWhile Char.isDigit = natText n ∧ (natText n ++ c :: r).dropWhile Char.isDigit = c :: r := by
  constructor
  · rw [List.takeWhile_append_of_pos (natText_digits n), List.takeWhile_cons_of_neg (by simp [hc]), List.append_nil]
  · rw [List.dropWhile_append_of_pos (natText_digits n), List.dropWhile_cons_of_neg (by simp [hc])]

theorem digit_not_space (c : Char) (h : c.isDigit = true) : isSpace c = false ∧ c ≠ '-' ∧ c ≠ '+' := by
  have h' : 48 ≤ c.toNat ∧ c.toNat ≤ 57 := by
    simp only [Char.isDigit, Bool.and_eq_true, decide_eq_true_eq] at h
    exact ⟨h.1, h.2⟩
  refine ⟨?_, ?_, ?_⟩
  · unfold isSpace
    have h1 : (c == ' ') = false := by
      rw [beq_eq_false_iff_ne]
      rintro rfl
      exact absurd h'.1 (by decide)
    rw [h1, Bool.false_or, Bool.and_eq_false_iff]
    right
    simp only [decide_eq_false_iff_not]
    omega
  · rintro rfl
    exact absurd h'.1 (by decide)
  · rintro rfl
    exact absurd h'.1 (by decide)

theorem natText_cons' (n : Nat) : ∃ c r, natText n = c :: r ∧ c.isDigit = true := by
  have h := natText_digits n
  cases e : natText n with
  | nil => exact absurd e (natText_ne n)
  | cons c r =>
    rw [e] at h
    exact ⟨c, r, rfl, h c List.mem_cons_self⟩

/-- A number and a line feed are read back. -/
theorem readInt_intText (z : Int) (h : -2147483648 ≤ z ∧ z ≤ 2147483647) (r : Txt) :
    readInt ⟨intText z ++ '\n' :: r, true⟩ = (z, ⟨'\n' :: r, true⟩) := by
  obtain ⟨c, t, hc, hd⟩ := natText_cons' z.natAbs
  obtain ⟨hs, hm, hp⟩ := digit_not_space c hd
  obtain ⟨h1, h2⟩ := natText_takeWhile z.natAbs '\n' (by decide) r
  have hne := natText_ne z.natAbs
  have hv := natText_val z.natAbs
  unfold readInt
  rw [if_pos rfl]
  by_cases e : z < 0
  · have e1 : (intText z ++ '\n' :: r) = '-' :: (natText z.natAbs ++ '\n' :: r) := by
      unfold intText
      rw [if_pos e]
      rfl
    have e2 : ('-' :: (natText z.natAbs ++ '\n' :: r)).dropWhile isSpace = '-' :: (natText z.natAbs ++ '\n' :: r) :=
      List.dropWhile_cons_of_neg (by decide)
    simp only [e1, e2, List.head?_cons, true_or, if_true, List.tail_cons, h1, h2]
    rw [if_neg hne]
    have e3 : toInt (some '-' == some '-') (natText z.natAbs) = (z, true) := by
      unfold toInt
      have e4 : (some '-' == some '-') = true := rfl
      simp only [e4, if_true, hv]
      have e5 : -((z.natAbs : Nat) : Int) = z := by omega
      rw [e5, if_neg (by omega), if_neg (by omega)]
    rw [e3]
    rfl
  · have e1 : (intText z ++ '\n' :: r) = natText z.natAbs ++ '\n' :: r := by
      unfold intText
      rw [if_neg e]
    have e2 : (natText z.natAbs ++ '\n' :: r).dropWhile isSpace = natText z.natAbs ++ '\n' :: r := by
      rw [hc]
      exact List.dropWhile_cons_of_neg (by simp [hs])
    have e3 : (natText z.natAbs ++ '\n' :: r).head? = some c := by rw [hc]; rfl
    have e4 : ¬ (some c = some '-' ∨ some c = some '+') := by
      rintro (e | e)
      · exact hm (Option.some.inj e)
      · exact hp (Option.some.inj e)
    simp only [e1, e2, e3]
    rw [if_neg e4, h1, h2, if_neg hne]
    have e5 : toInt (some c == some '-') (natText z.natAbs) = (z, true) := by
      unfold toInt
      have e6 : (some c == some '-') = false := by
        rw [beq_eq_false_iff_ne]
        intro e
        exact hm (Option.some.inj e)
      simp only [e6, Bool.false_eq_true, if_false, hv]
      have e7 : ((z.natAbs : Nat) : Int) = z := by omega
      rw [e7, if_neg (by omega), if_neg (by omega)]
    rw [e5]
    rfl

theorem takeWhile_line (l r : Txt) (h : '\n' ∉ l) :
    (l ++ '\n' :: r).takeWhile (· != '\n') = l ∧ (l ++ '\n' :: r).dropWhile (· != '\n') = '\n' :: r := by
  have hl : ∀ c ∈ l, (c != '\n') = true := by
    intro c hc
    rw [bne_iff_ne]
    rintro rfl
    exact h hc
  constructor
  · rw [List.takeWhile_append_of_pos hl, List.takeWhile_cons_of_neg (by decide), List.append_nil]
  · rw [List.dropWhile_append_of_pos hl, List.dropWhile_cons_of_neg (by decide)]

theorem getLine_line (l r : Txt) (h : '\n' ∉ l) : getLine ⟨l ++ '\n' :: r, true⟩ = (l, ⟨r, true⟩) := by
  unfold getLine
  rw [if_pos rfl]
  simp only [takeWhile_line l r h]

/-- A record is read back. -/
theorem readObj_text (o : Obj) (h : Good o) (r : Txt) :
    readObj ⟨'\n' :: (o.name ++ '\n' :: (intText o.nmr ++ '\n' :: r)), true⟩ = (o, ⟨'\n' :: r, true⟩) := by
  unfold readObj ignore1
  rw [if_pos rfl]
  simp only [getLine_line _ _ h.1, readInt_intText o.nmr h.2]

theorem readObjs_text (objs : List Obj) (h : ∀ o ∈ objs, Good o) :
    readObjs objs.length ⟨'\n' :: objs.flatMap objText, true⟩ = objs := by
  induction objs with
  | nil => rfl
  | cons o os ih =>
    have e : (o :: os).flatMap objText = o.name ++ '\n' :: (intText o.nmr ++ '\n' :: os.flatMap objText) := by
      rw [List.flatMap_cons]
      unfold objText
      simp
    rw [e, List.length_cons]
    unfold readObjs
    rw [readObj_text o (h o List.mem_cons_self), ih fun x hx => h x (List.mem_cons_of_mem _ hx)]

theorem records_saveText (objs : List Obj) (h : ∀ o ∈ objs, Good o) (hn : objs.length ≤ 2147483647) :
    records (saveText objs) = objs := by
  have e : saveText objs = intText objs.length ++ '\n' :: objs.flatMap objText := by
    unfold saveText intText
    rw [if_neg (by omega), Int.natAbs_natCast]
  unfold records
  rw [e, readInt_intText _ ⟨by omega, by omega⟩]
  simp only [Int.toNat_natCast]
  exact readObjs_text objs h

theorem getElem?_append_drop {α : Type} (l d : List α) (i : Nat) :
    (l ++ d.drop l.length)[i]? = if i < l.length then l[i]? else d[i]? := by
  by_cases e : i < l.length
  · rw [if_pos e, List.getElem?_append_left e]
  · rw [if_neg e, List.getElem?_append_right (by omega), List.getElem?_drop]
    congr 1
    omega

/-- Loading gives each object its record, if there is one. -/
theorem loadFile_get (objs : List Obj) (f : Txt) (i : Nat) (hi : i < objs.length) :
    (loadFile objs (some f))[i]? = if i < (records f).length then (records f)[i]? else objs[i]? := by
  unfold loadFile
  by_cases e : i < (records f).length
  · rw [if_pos e, List.getElem?_append_left (by rw [List.length_take]; omega), List.getElem?_take, if_pos hi]
  · rw [if_neg e, List.getElem?_append_right (by rw [List.length_take]; omega), List.length_take, List.getElem?_drop]
    congr 1
    omega

theorem loadFile_length (objs : List Obj) (f : Option Txt) : (loadFile objs f).length = objs.length := by
  cases f with
  | none => rfl
  | some f =>
    unfold loadFile
    rw [List.length_append, List.length_take, List.length_drop]
    omega

theorem loadFile_shown (n : Nat) (f : Txt) :
    loadFile (List.replicate n noRecipe) (some f) = shown n (records f) := by
  apply List.ext_getElem?
  intro i
  by_cases hi : i < n
  · rw [loadFile_get _ _ _ (by rw [List.length_replicate]; exact hi)]
    unfold shown
    rw [List.getElem?_map, List.getElem?_range hi]
    by_cases e : i < (records f).length
    · rw [if_pos e, Option.map_some, List.getElem?_eq_getElem e]
      rfl
    · have e' : (records f)[i]? = none := List.getElem?_eq_none (by omega)
      rw [if_neg e, Option.map_some, e', List.getElem?_replicate, if_pos hi]
      rfl
  · rw [List.getElem?_eq_none (by rw [loadFile_length, List.length_replicate]; omega)]
    unfold shown
    rw [List.getElem?_eq_none (by rw [List.length_map, List.length_range]; omega)]

theorem shown_self (objs : List Obj) : shown objs.length objs = objs := by
  apply List.ext_getElem?
  intro i
  unfold shown
  by_cases hi : i < objs.length
  · rw [List.getElem?_map, List.getElem?_range hi, Option.map_some, List.getElem?_eq_getElem hi]
    rfl
  · rw [List.getElem?_eq_none (by rw [List.length_map, List.length_range]; omega), List.getElem?_eq_none (by omega)]

/-- What is saved is shown after a restart with the same number of objects. -/
theorem load_save (objs : List Obj) (h : ∀ o ∈ objs, Good o) (hn : objs.length ≤ 2147483647) :
    loadFile (List.replicate objs.length noRecipe) (some (saveText objs)) = objs := by
  rw [loadFile_shown, records_saveText objs h hn, shown_self]

/-! ### What is read can be stored again -/

theorem toInt_range (neg : Bool) (ds : Txt) : -2147483648 ≤ (toInt neg ds).1 ∧ (toInt neg ds).1 ≤ 2147483647 := by
  unfold toInt
  by_cases h1 : (if neg = true then -((digitsVal ds : Nat) : Int) else (digitsVal ds : Int)) < -2147483648
  · simp only [h1, if_true]
    omega
  · by_cases h2 : 2147483647 < (if neg = true then -((digitsVal ds : Nat) : Int) else (digitsVal ds : Int))
    · simp only [h1, h2, if_true, if_false]
      omega
    · simp only [h1, h2, if_false]
      omega

theorem readInt_range (s : Stream) : -2147483648 ≤ (readInt s).1 ∧ (readInt s).1 ≤ 2147483647 := by
  unfold readInt
  by_cases e : s.good = true
  · rw [if_pos e]
    dsimp only
    generalize (if (s.rest.dropWhile isSpace).head? = some '-' ∨ (s.rest.dropWhile isSpace).head? = some '+'
      then (s.rest.dropWhile isSpace).tail else s.rest.dropWhile isSpace) = r1
    by_cases e2 : r1.takeWhile Char.isDigit = []
    · rw [if_pos e2]
      exact ⟨show (-2147483648 : Int) ≤ 0 by decide, show (0 : Int) ≤ 2147483647 by decide⟩
    · rw [if_neg e2]
      exact toInt_range _ _
  · rw [if_neg e]
    exact ⟨show (-2147483648 : Int) ≤ 0 by decide, show (0 : Int) ≤ 2147483647 by decide⟩

theorem takeWhile_noLf (l : Txt) : '\n' ∉ l.takeWhile (· != '\n') := by
  intro h
  induction l with
  | nil => exact absurd h List.not_mem_nil
  | cons c r ih =>
    by_cases e : (c != '\n') = true
    · rw [List.takeWhile_cons_of_pos (p := fun x => x != '\n') e] at h
      rcases List.mem_cons.mp h with h | h
      · rw [← h] at e
        exact absurd e (by decide)
      · exact ih h
    · rw [List.takeWhile_cons_of_neg (p := fun x => x != '\n') e] at h
      exact absurd h List.not_mem_nil

theorem dropWhile_nil_noLf (l : Txt) (h : l.dropWhile (· != '\n') = []) : '\n' ∉ l := by
  intro hm
  induction l with
  | nil => exact absurd hm List.not_mem_nil
  | cons c r ih =>
    by_cases e : (c != '\n') = true
    · rw [List.dropWhile_cons_of_pos (p := fun x => x != '\n') e] at h
      rcases List.mem_cons.mp hm with hm | hm
      · rw [← hm] at e
        exact absurd e (by decide)
      · exact ih h hm
    · rw [List.dropWhile_cons_of_neg (p := fun x => x != '\n') e] at h
      exact nomatch h

theorem getLine_noLf (s : Stream) : '\n' ∉ (getLine s).1 := by
  unfold getLine
  by_cases e : s.good = true
  · rw [if_pos e]
    cases h : s.rest.dropWhile (· != '\n') with
    | nil => exact dropWhile_nil_noLf _ h
    | cons c r => exact takeWhile_noLf _
  · rw [if_neg e]
    exact List.not_mem_nil

theorem readObj_good (s : Stream) : Good (readObj s).1 := ⟨getLine_noLf _, readInt_range _⟩

theorem readObjs_good (n : Nat) (s : Stream) : ∀ o ∈ readObjs n s, Good o := by
  induction n generalizing s with
  | zero => intro o h; exact absurd h List.not_mem_nil
  | succ n ih =>
    intro o h
    unfold readObjs at h
    rcases List.mem_cons.mp h with h | h
    · rw [h]; exact readObj_good s
    · exact ih _ o h

theorem noRecipe_good : Good noRecipe := ⟨by decide, by decide, by decide⟩

theorem loadFile_good (n : Nat) (f : Option Txt) : ∀ o ∈ loadFile (List.replicate n noRecipe) f, Good o := by
  intro o h
  cases f with
  | none =>
    rw [(List.mem_replicate.mp h).2]
    exact noRecipe_good
  | some f =>
    rcases List.mem_append.mp h with h | h
    · exact readObjs_good _ _ o (List.mem_of_mem_take h)
    · rw [(List.mem_replicate.mp (List.mem_of_mem_drop h)).2]
      exact noRecipe_good

/-! ### The adapters -/

/-- Some adapter has loaded a recipe which is not saved yet. -/
def Pending (ads : List Ad) : Prop := ∃ a ∈ ads, a.loaded = true

theorem evalAds_length (dA dT : Bool) (as : List Ad) : (evalAds dA dT as).1.length = as.length := by
  induction as with
  | nil => rfl
  | cons a as ih =>
    unfold evalAds
    by_cases e : (a.changed && dA) = true
    · rw [if_pos e]; rfl
    · rw [if_neg e]
      dsimp only
      by_cases e2 : (a.loaded && dT) = true
      · rw [if_pos e2]
        simp [ih]
      · rw [if_neg e2]
        simp [ih]

/-- Without saving the objects no flag of a loaded recipe is lost. -/
theorem evalAds_pending (dA dT : Bool) (as : List Ad) (h : Pending as) (hw : (evalAds dA dT as).2.2 = false) :
    Pending (evalAds dA dT as).1 := by
  induction as with
  | nil => exact h
  | cons a as ih =>
    unfold evalAds at hw ⊢
    by_cases e : (a.changed && dA) = true
    · rw [if_pos e]
      obtain ⟨b, hb, hl⟩ := h
      rcases List.mem_cons.mp hb with hb | hb
      · exact ⟨_, List.mem_cons_self, by rw [← hb]; exact hl⟩
      · exact ⟨b, List.mem_cons_of_mem _ hb, hl⟩
    · rw [if_neg e] at hw ⊢
      dsimp only at hw ⊢
      by_cases e2 : (a.loaded && dT) = true
      · rw [if_pos e2] at hw
        exact nomatch hw
      · rw [if_neg e2] at hw ⊢
        obtain ⟨b, hb, hl⟩ := h
        rcases List.mem_cons.mp hb with hb | hb
        · exact ⟨a, List.mem_cons_self, by rw [← hb]; exact hl⟩
        · obtain ⟨c, hc, hc'⟩ := ih ⟨b, hb, hl⟩ hw
          exact ⟨c, List.mem_cons_of_mem _ hc, hc'⟩

/-- A pending recipe is saved when it is due, unless an adapter is saved. -/
theorem evalAds_due (dA : Bool) (as : List Ad) (h : Pending as) :
    (evalAds dA true as).2.2 = true ∨ (dA = true ∧ (evalAds dA true as).2.1 = true) := by
  induction as with
  | nil =>
    obtain ⟨b, hb, -⟩ := h
    exact absurd hb List.not_mem_nil
  | cons a as ih =>
    unfold evalAds
    by_cases e : (a.changed && dA) = true
    · rw [if_pos e]
      exact Or.inr ⟨(Bool.and_eq_true _ _ ▸ e).2, rfl⟩
    · rw [if_neg e]
      dsimp only
      by_cases e2 : (a.loaded && true) = true
      · rw [if_pos e2]
        exact Or.inl rfl
      · rw [if_neg e2]
        obtain ⟨b, hb, hl⟩ := h
        rcases List.mem_cons.mp hb with hb | hb
        · rw [← hb, hl] at e2
          exact absurd rfl e2
        · exact ih ⟨b, hb, hl⟩

theorem evalAds_saved (dT : Bool) (as : List Ad) : (evalAds false dT as).2.1 = false := by
  induction as with
  | nil => rfl
  | cons a as ih =>
    unfold evalAds
    rw [Bool.and_false, if_neg Bool.false_ne_true]
    dsimp only
    by_cases e2 : (a.loaded && dT) = true
    · rw [if_pos e2]; exact ih
    · rw [if_neg e2]; exact ih

theorem modify_pending (as : List Ad) (k : Nat) : Pending as → Pending (as.modify k fun a => { a with changed := true }) := by
  rintro ⟨a, ha, hl⟩
  obtain ⟨i, hi, rfl⟩ := List.mem_iff_getElem.mp ha
  refine ⟨(as.modify k fun a => { a with changed := true })[i]'(by rw [List.length_modify]; exact hi), List.getElem_mem _, ?_⟩
  rw [List.getElem_modify]
  by_cases e : k = i
  · rw [if_pos e]; exact hl
  · rw [if_neg e]; exact hl

theorem load_pending (as : List Ad) (k : Nat) (hk : k < as.length) : Pending (as.modify k fun a => { a with loaded := true }) := by
  refine ⟨(as.modify k fun a => { a with loaded := true })[k]'(by rw [List.length_modify]; exact hk), List.getElem_mem _, ?_⟩
  rw [List.getElem_modify, if_pos rfl]

/-! ### Histories -/

/-- What holds after a history: `t` is a time not before any event, `L` a time not before the last loading. -/
structure Inv (n k : Nat) (L t : Nat) (m : M) : Prop where
  objs : m.objs.length = n
  ads : m.ads.length = k
  good : ∀ o ∈ m.objs, Good o
  tT : m.tT ≤ t
  tA : m.tA ≤ t
  saved : loadFile (List.replicate n noRecipe) m.file = m.objs ∨ (Pending m.ads ∧ m.tT ≤ L)

theorem Inv.start (n k : Nat) (f : Option Txt) (t L : Nat) : Inv n k L t (start n k f t) where
  objs := by rw [RecFile.start, loadFile_length, List.length_replicate]
  ads := by rw [RecFile.start, List.length_replicate]
  good := loadFile_good n f
  tT := Nat.le_refl _
  tA := Nat.le_refl _
  saved := Or.inl rfl

theorem Inv.eval {n k L t : Nat} {m : M} (h : Inv n k L t m) (hn : n ≤ 2147483647) (now : Nat) (ht : t ≤ now) :
    Inv n k L now (m.eval now true) where
  objs := h.objs
  ads := by
    show (evalAds _ _ m.ads).1.length = k
    rw [evalAds_length, h.ads]
  good := h.good
  tT := by
    show (if _ then now else m.tT) ≤ now
    split
    · exact Nat.le_refl _
    · exact Nat.le_trans h.tT ht
  tA := by
    show (if _ then now else m.tA) ≤ now
    split
    · exact Nat.le_refl _
    · exact Nat.le_trans h.tA ht
  saved := by
    unfold M.eval
    dsimp only
    cases e : (evalAds (decide (interval < now - m.tA)) (decide (interval < now - m.tT)) m.ads).2.2 with
    | true =>
      left
      have hl := load_save m.objs h.good (by rw [h.objs]; exact hn)
      rw [h.objs] at hl
      exact hl
    | false =>
      rcases h.saved with hs | ⟨hp, hL⟩
      · exact Or.inl hs
      · exact Or.inr ⟨evalAds_pending _ _ _ hp e, hL⟩

theorem set_mem {α : Type} {l : List α} {i : Nat} {x y : α} (h : y ∈ l.set i x) : y ∈ l ∨ y = x := List.mem_or_eq_of_mem_set h

theorem Inv.step {n k L t : Nat} {m : M} (h : Inv n k L t m) (hn : n ≤ 2147483647) (e : Ev) (ht : t ≤ time e)
    (hg : ∀ a o x now, e = .load a o x now → Good x ∧ now ≤ L) (ho : ∀ now ok, e = .eval now ok → ok = true) :
    Inv n k L (time e) (m.step e) := by
  cases e with
  | load a o x now =>
    obtain ⟨hx, hl⟩ := hg a o x now rfl
    have ht : t ≤ now := ht
    show Inv n k L now (m.load a o x)
    unfold M.load
    by_cases c : a < m.ads.length ∧ o < m.objs.length
    · rw [if_pos c]
      refine ⟨by show (m.objs.set o x).length = n; rw [List.length_set, h.objs],
        by show (List.modify _ _ _).length = k; rw [List.length_modify, h.ads], ?_, Nat.le_trans h.tT ht, Nat.le_trans h.tA ht,
        Or.inr ⟨load_pending m.ads a c.1, Nat.le_trans h.tT (Nat.le_trans ht hl)⟩⟩
      intro y hy
      rcases set_mem hy with hy | hy
      · exact h.good y hy
      · rw [hy]; exact hx
    · rw [if_neg c]
      exact ⟨h.objs, h.ads, h.good, Nat.le_trans h.tT ht, Nat.le_trans h.tA ht, h.saved⟩
  | enable a now =>
    have ht : t ≤ now := ht
    refine ⟨h.objs, by show (List.modify _ _ _).length = k; rw [List.length_modify, h.ads], h.good, Nat.le_trans h.tT ht,
      Nat.le_trans h.tA ht, ?_⟩
    rcases h.saved with hs | ⟨hp, hL⟩
    · exact Or.inl hs
    · exact Or.inr ⟨modify_pending m.ads a hp, hL⟩
  | eval now ok =>
    rw [ho now ok rfl]
    exact h.eval hn now ht

theorem Inv.run {n k L : Nat} (hn : n ≤ 2147483647) (es : List Ev) : ∀ (t : Nat) (m : M), Inv n k L t m → Forward t es →
    GoodLoads es → Opens es → NoLoadAfter L es → ∃ t', Inv n k L t' (m.run es) ∧ ∀ u, Forward t (es ++ u) → Forward t' u := by
  induction es with
  | nil => intro t m h _ _ _ _; exact ⟨t, h, fun u hu => hu⟩
  | cons e es ih =>
    intro t m h hf hg ho hl
    obtain ⟨t', h', hu⟩ := ih (time e) (m.step e)
      (h.step hn e hf.1 (fun a o x now he => ⟨hg a o x now (by rw [he]; exact List.mem_cons_self), hl a o x now (by rw [he]; exact List.mem_cons_self)⟩)
        (fun now ok he => ho now ok (by rw [he]; exact List.mem_cons_self)))
      hf.2 (fun a o x now he => hg a o x now (List.mem_cons_of_mem _ he)) (fun now ok he => ho now ok (List.mem_cons_of_mem _ he))
      (fun a o x now he => hl a o x now (List.mem_cons_of_mem _ he))
    exact ⟨t', h', fun u hw => hu u hw.2⟩

theorem forward_append {t : Nat} {a b : List Ev} (h : Forward t (a ++ b)) : Forward t a := by
  induction a generalizing t with
  | nil => exact True.intro
  | cons e a ih => exact ⟨h.1, ih h.2⟩

/-- Two evaluations: the second one saves if the first did not. -/
theorem Inv.two {n k L t : Nat} {m : M} (h : Inv n k L t m) (hn : n ≤ 2147483647) (a b : Nat) (ht : t ≤ a) (hab : a ≤ b)
    (ha : L + interval < a) (hb : b ≤ a + interval) :
    loadFile (List.replicate n noRecipe) ((m.eval a true).eval b true).file = m.objs := by
  have h1 := h.eval hn a ht
  have h2 := h1.eval hn b hab
  rcases h2.saved with hs | ⟨hp2, -⟩
  · exact hs
  · -- nothing has been saved so far
    cases e1 : (evalAds (decide (interval < a - m.tA)) (decide (interval < a - m.tT)) m.ads).2.2 with
    | true =>
      -- the first evaluation saved the objects, the second keeps that
      have hf : (m.eval a true).file = some (saveText m.objs) := by
        unfold M.eval
        simp only [e1, Bool.and_self, if_true]
      have hl := load_save m.objs h.good (by rw [h.objs]; exact hn)
      rw [h.objs] at hl
      have hf2 : ((m.eval a true).eval b true).file = some (saveText m.objs) := by
        show (if _ then some (saveText m.objs) else (m.eval a true).file) = _
        rw [hf]
        split <;> rfl
      rw [hf2]
      exact hl
    | false =>
      rcases h.saved with hs | ⟨hp, hL⟩
      · -- the file was up to date
        have hl := load_save m.objs h.good (by rw [h.objs]; exact hn)
        rw [h.objs] at hl
        have hf : (m.eval a true).file = m.file := by
          unfold M.eval
          simp only [e1, Bool.false_and, Bool.false_eq_true, if_false]
        show loadFile _ (if _ then some (saveText m.objs) else (m.eval a true).file) = _
        rw [hf]
        split
        · exact hl
        · exact hs
      · -- the first evaluation saved an adapter
        have hdT : decide (interval < a - m.tT) = true := by
          rw [decide_eq_true_eq]
          omega
        have htT : (m.eval a true).tT = m.tT := by
          show (if _ then a else m.tT) = _
          rw [e1]
          rfl
        have hp1 : Pending (m.eval a true).ads := evalAds_pending _ _ _ hp e1
        rw [hdT] at e1
        rcases evalAds_due (decide (interval < a - m.tA)) m.ads hp with hd | ⟨-, hd⟩
        · rw [e1] at hd
          exact nomatch hd
        · have htA : (m.eval a true).tA = a := by
            show (if _ then a else m.tA) = _
            rw [hdT, hd]
            rfl
          have hdT2 : decide (interval < b - (m.eval a true).tT) = true := by
            rw [htT, decide_eq_true_eq]
            omega
          have hdA2 : decide (interval < b - (m.eval a true).tA) = false := by
            rw [htA, decide_eq_false_iff_not]
            omega
          rcases evalAds_due (decide (interval < b - (m.eval a true).tA)) (m.eval a true).ads hp1 with hd2 | ⟨hx, -⟩
          · have hl := load_save m.objs h.good (by rw [h.objs]; exact hn)
            rw [h.objs] at hl
            have hf2 : ((m.eval a true).eval b true).file = some (saveText m.objs) := by
              show (if _ then some (saveText m.objs) else (m.eval a true).file) = _
              rw [hdT2, hd2]
              rfl
            rw [hf2]
            exact hl
          · rw [hdA2] at hx
            exact nomatch hx

end Ptusa.RecFile
