import Verif.RecText.Spec
import Verif.ObjText.Lemmas

/-! Helper lemmas for the text of the recipes. -/
namespace Ptusa.RecText
open SaveDev LuaText

/-! ## The buffer -/

/-- What the buffer holds after pieces of text: the text begun, untouched behind. -/
theorem emit_all (ps : List Txt) (h : ∀ t ∈ ps, t.length ≤ 1000) : ∀ (b : Buf) (n : Nat),
    (ps.foldl emit (b, n)).2 = n + ps.flatten.length ∧
    ∀ i, (ps.foldl emit (b, n)).1 i = if n ≤ i ∧ i < n + ps.flatten.length then ps.flatten.getD (i - n) ' ' else b i := by
  induction ps with
  | nil => intro b n; exact ⟨rfl, fun i => by rw [if_neg (by simp only [List.flatten_nil, List.length_nil]; omega)]; rfl⟩
  | cons p ps ih =>
    intro b n
    have hp : p.length ≤ 1000 := h p List.mem_cons_self
    obtain ⟨h1, h2⟩ := ih (fun t ht => h t (List.mem_cons_of_mem _ ht)) (emit (b, n) p).1 (n + p.length)
    have hl : (p :: ps).flatten.length = p.length + ps.flatten.length := by simp
    rw [List.foldl_cons]
    show (ps.foldl emit ((emit (b, n) p).1, n + p.length)).2 = _ ∧ ∀ i, (ps.foldl emit ((emit (b, n) p).1, n + p.length)).1 i = _
    refine ⟨by rw [h1, hl]; omega, fun i => ?_⟩
    rw [h2 i, hl, List.flatten_cons]
    have hb : (emit (b, n) p).1 i = if n ≤ i ∧ i < n + p.length then p.getD (i - n) ' ' else b i := by
      show (if n ≤ i ∧ i < n + min p.length 1000 then _ else _) = _
      rw [Nat.min_eq_left hp]
    rw [hb]
    by_cases c1 : n + p.length ≤ i ∧ i < n + p.length + ps.flatten.length
    · rw [if_pos c1, if_pos (by omega)]
      rw [List.getD_eq_getElem?_getD, List.getD_eq_getElem?_getD, List.getElem?_append_right (by omega)]
      congr 2; omega
    · rw [if_neg c1]
      by_cases c2 : n ≤ i ∧ i < n + p.length
      · rw [if_pos c2, if_pos (by omega), List.getD_eq_getElem?_getD, List.getD_eq_getElem?_getD, List.getElem?_append_left (by omega)]
      · rw [if_neg c2, if_neg (by omega)]

theorem save_eq (b : Buf) (l : List Adapter) (h : ∀ t ∈ pieces l, t.length ≤ 1000) : save b l = (pieces l).flatten := by
  obtain ⟨h1, h2⟩ := emit_all (pieces l) h b 0
  unfold save
  simp only [h1]
  apply List.ext_getElem
  · simp
  · intro i hi hj
    rw [List.getElem_map, List.getElem_range, h2 i, if_pos (by omega)]
    rw [List.getD_eq_getElem?_getD, Nat.sub_zero, List.getElem?_eq_getElem hj]; rfl

theorem emit_size (ps : List Txt) : ∀ s : Buf × Nat, (ps.foldl emit s).2 = s.2 + ps.flatten.length := by
  induction ps with
  | nil => intro s; rfl
  | cons p ps ih =>
    intro s
    rw [List.foldl_cons, ih, List.flatten_cons, List.length_append]
    show s.2 + p.length + _ = _
    omega

theorem emit_low (ps : List Txt) (i : Nat) : ∀ s : Buf × Nat, i < s.2 → (ps.foldl emit s).1 i = s.1 i := by
  induction ps with
  | nil => intro s _; rfl
  | cons p ps ih =>
    intro s h
    rw [List.foldl_cons, ih _ (by show i < s.2 + p.length; omega)]
    exact if_neg (by omega)

theorem emit_high (ps : List Txt) (i : Nat) : ∀ s : Buf × Nat, s.2 + ps.flatten.length ≤ i → (ps.foldl emit s).1 i = s.1 i := by
  induction ps with
  | nil => intro s _; rfl
  | cons p ps ih =>
    intro s h
    rw [List.flatten_cons, List.length_append] at h
    rw [List.foldl_cons, ih _ (by show s.2 + p.length + _ ≤ i; omega)]
    exact if_neg (by omega)

/-- A piece that is too long after others: its end is what the buffer held. -/
theorem emit_long (pre post : List Txt) (t : Txt) (ht : 1000 < t.length) (b : Buf) :
    ((pre ++ t :: post).foldl emit (b, 0)).1 (pre.flatten.length + 1000) = b (pre.flatten.length + 1000) ∧
    pre.flatten.length + 1000 < ((pre ++ t :: post).foldl emit (b, 0)).2 := by
  have hs : (pre.foldl emit (b, 0)).2 = pre.flatten.length := by rw [emit_size]; simp
  constructor
  · rw [List.foldl_append, List.foldl_cons, emit_low _ _ _ (by show _ < (pre.foldl emit (b, 0)).2 + t.length; rw [hs]; omega)]
    have : (emit (pre.foldl emit (b, 0)) t).1 (pre.flatten.length + 1000) = (pre.foldl emit (b, 0)).1 (pre.flatten.length + 1000) :=
      if_neg (by rw [hs]; show ¬ (_ ∧ _ < _ + min _ 1000); omega)
    rw [this, emit_high _ _ _ (by simp)]
  · rw [emit_size]
    simp only [List.flatten_append, List.flatten_cons, List.length_append]
    omega

/-- The beginning of the text up to that place. -/
theorem save_long (b : Buf) (l : List Adapter) (pre post : List Txt) (t : Txt) (hp : pieces l = pre ++ t :: post)
    (hs : ∀ x ∈ pre, x.length ≤ 1000) (ht : 1000 < t.length) :
    ∃ r, save b l = (pre.flatten ++ t.take 1000) ++ (b (pre.flatten.length + 1000) :: r) := by
  obtain ⟨h1, h2⟩ := emit_long pre post t ht b
  have hsz : (pre.foldl emit (b, 0)).2 = pre.flatten.length := by rw [emit_size]; simp
  have key : ∀ i, i < pre.flatten.length + 1000 →
      ((pre ++ t :: post).foldl emit (b, 0)).1 i = (pre.flatten ++ t.take 1000).getD i ' ' := by
    intro i hi
    rw [List.foldl_append, List.foldl_cons, emit_low _ _ _ (by show _ < (pre.foldl emit (b, 0)).2 + t.length; rw [hsz]; omega)]
    rw [List.getD_eq_getElem?_getD]
    by_cases c : i < pre.flatten.length
    · have e1 : (emit (pre.foldl emit (b, 0)) t).1 i = (pre.foldl emit (b, 0)).1 i := if_neg (by rw [hsz]; omega)
      rw [e1, (emit_all pre hs b 0).2 i, if_pos (by omega), List.getElem?_append_left c, List.getD_eq_getElem?_getD]
      rfl
    · have e1 : (emit (pre.foldl emit (b, 0)) t).1 i = t.getD (i - (pre.foldl emit (b, 0)).2) ' ' :=
        if_pos (by rw [hsz]; show _ ∧ _ < _ + min _ 1000; omega)
      rw [e1, hsz, List.getElem?_append_right (by omega), List.getElem?_take, if_pos (by omega), List.getD_eq_getElem?_getD]
  have hlen : (pre.flatten ++ t.take 1000).length = pre.flatten.length + 1000 := by
    rw [List.length_append, List.length_take]; omega
  refine ⟨(save b l).drop (pre.flatten.length + 1001), ?_⟩
  have hsv : save b l = (List.range ((pre ++ t :: post).foldl emit (b, 0)).2).map ((pre ++ t :: post).foldl emit (b, 0)).1 := by
    unfold save; rw [hp]
  apply List.ext_getElem?
  intro i
  have hi : ∀ i, i < pre.flatten.length + 1001 → (save b l)[i]? = some (((pre ++ t :: post).foldl emit (b, 0)).1 i) := by
    intro i hi
    rw [hsv, List.getElem?_map, List.getElem?_range (by omega)]; rfl
  by_cases c1 : i < pre.flatten.length + 1000
  · rw [hi i (by omega), key i c1, List.getElem?_append_left (by omega), List.getD_eq_getElem?_getD,
      List.getElem?_eq_getElem (by omega)]
    rfl
  · rw [List.getElem?_append_right (by omega), hlen]
    by_cases c2 : i = pre.flatten.length + 1000
    · subst c2
      rw [hi _ (by omega), h1, Nat.sub_self]; rfl
    · obtain ⟨j, rfl⟩ : ∃ j, i = pre.flatten.length + 1001 + j := ⟨i - (pre.flatten.length + 1001), by omega⟩
      rw [show pre.flatten.length + 1001 + j - (pre.flatten.length + 1000) = j + 1 by omega, List.getElem?_cons_succ, List.getElem?_drop]

/-! ## The pieces -/

theorem blank3 : Blank "\n\t\t\t".toList := by decide +kernel

theorem flds_field {k t : Txt} {v : Lv} (hk : luaName k = true) (h : Item t v) : Flds (fieldText k t) [(some k, v)] := by
  have := flds_append (flds_blank _ blank3) (flds_key hk h)
  unfold fieldText
  simpa using this

theorem flds_comma {t : Txt} {v : Lv} (h : Item t v) : Flds (t ++ [',']) [(none, v)] := by
  obtain ⟨ts, hv, hk, hs⟩ := h
  exact ⟨ts ++ [.sym ','], hs ',' _ ends_comma, fun us gs hg => by simpa using PF_item hv hk hg⟩

theorem list_key (n : Nat) : luaName ("LIST".toList ++ natText n) = true :=
  ObjText.luaName_prefix n (by decide +kernel)

theorem lists_flds (l : List Txt) (h : ∀ s ∈ l, Clean s) : ∀ i, Flds (listsText i l).flatten
    ((l.zipIdx i).map fun p => text ("LIST".toList ++ natText p.2) p.1) := by
  induction l with
  | nil => intro i; exact flds_nil
  | cons s l ih =>
    intro i
    have h1 := flds_field (list_key i) (item_str s (h s List.mem_cons_self))
    exact flds_append h1 (ih (fun x hx => h x (List.mem_cons_of_mem _ hx)) (i + 1))

theorem item_par (p : Par) (h : p.Fine) : Item p.text p.seen := by
  cases p with
  | dec neg n k m =>
    have h : m < 10 ^ k := h
    have key : ∃ w q, scan .idle w = some (.word w, []) ∧ wordTok w = some (.num q) ∧ q = (n : Rat) + m / 10 ^ k ∧
        w = natText n ++ (if k = 0 then [] else '.' :: padded k m) := by
      by_cases hk : k = 0
      · subst hk
        have : m = 0 := by simpa using h
        subst this
        exact ⟨natText n, n, scan_nat n, wordTok_nat n, by simp, by simp⟩
      · exact ⟨_, _, scan_frac n k m, wordTok_frac n k m h, rfl, by rw [if_neg hk]⟩
    obtain ⟨w, q, h1, h2, h3, h4⟩ := key
    cases neg with
    | false =>
      have := item_word h1 h2
      show Item ([] ++ natText n ++ _) (.num ((if false then -1 else 1) * _))
      rw [List.nil_append, ← h4, ← h3]
      simpa using this
    | true =>
      have := item_neg h1 h2
      show Item (['-'] ++ natText n ++ _) (.num ((if true then -1 else 1) * _))
      rw [List.append_assoc, ← h4, ← h3]
      simpa using this
  | nan neg =>
    have h : neg = false := h
    subst h
    exact ObjText.item_nan

theorem params_flds (l : List Par) (h : ∀ p ∈ l, p.Fine) :
    Flds (l.map fun p => p.text ++ [',']).flatten (l.map fun p => (none, p.seen)) := by
  induction l with
  | nil => exact flds_nil
  | cons p l ih =>
    exact flds_append (flds_comma (item_par p (h p List.mem_cons_self))) (ih fun x hx => h x (List.mem_cons_of_mem _ hx))

/-- A numbered field that is a table. -/
theorem flds_inner {body : Txt} {fs : List (Option Txt × Lv)} (h : Flds body fs) :
    Flds ('{' :: body ++ ['}', ',']) [(none, .table fs)] := by
  obtain ⟨ts, hs, hf⟩ := h
  refine ⟨(.sym '{' :: (ts ++ [.sym '}'])) ++ [.sym ','], ?_, fun us gs hg => ?_⟩
  · have := scan_app scan_open (scan_app hs (scan_app scan_close scan_comma))
    simpa using this
  · have hp := hf _ _ PF_close
    have := PF_item (PV_table hp) ⟨by simp, by simp⟩ hg
    simpa using this

/-- The fields of an adapter as one text. -/
def inner (a : Adapter) : Txt :=
  fieldText "CMD".toList ['0'] ++ fieldText "ACT".toList (natText a.act) ++ fieldText "NMR".toList (intText a.nmr) ++
  fieldText "NAME".toList (quoted a.name) ++ fieldText "LIST".toList (quoted a.list) ++ (listsText 1 a.lists).flatten ++
  ("\n\t\t\t".toList ++ ("PAR".toList ++ '=' :: "\n\t\t\t".toList ++
    '{' :: ("\n\t\t\t".toList ++ (a.params.map fun p => p.text ++ [',']).flatten ++ "\n\t\t\t".toList) ++ ['}', ',']))

theorem pieces_inner (a : Adapter) : a.pieces.flatten = "\n\t\t".toList ++ ('{' :: (inner a ++ "\n\t\t".toList) ++ ['}', ',']) := by
  have q1 : "\n\t\t{".toList = "\n\t\t".toList ++ ['{'] := by decide +kernel
  have q2 : "\n\t\t\tPAR=\n\t\t\t{\n\t\t\t".toList = "\n\t\t\t".toList ++ "PAR".toList ++ '=' :: "\n\t\t\t".toList ++ '{' :: "\n\t\t\t".toList := by
    decide +kernel
  have q3 : "\n\t\t\t},".toList = "\n\t\t\t".toList ++ ['}', ','] := by decide +kernel
  have q4 : "\n\t\t},".toList = "\n\t\t".toList ++ ['}', ','] := by decide +kernel
  unfold Adapter.pieces inner
  rw [q1, q2, q3, q4]
  simp only [List.flatten_append, List.flatten_cons, List.flatten_nil, List.append_assoc, List.cons_append, List.nil_append, List.append_nil]

theorem inner_flds {a : Adapter} (h : Readable a) : Flds (inner a) (want a) := by
  have k1 : luaName "CMD".toList = true := by decide +kernel
  have k2 : luaName "ACT".toList = true := by decide +kernel
  have k3 : luaName "NMR".toList = true := by decide +kernel
  have k4 : luaName "NAME".toList = true := by decide +kernel
  have k5 : luaName "LIST".toList = true := by decide +kernel
  have k6 : luaName "PAR".toList = true := by decide +kernel
  have n0 : Item ['0'] (.num ((0 : Nat) : Rat)) := by
    have e : natText 0 = ['0'] := by decide +kernel
    rw [← e]; exact item_nat 0
  have tab := flds_table k6 blank3 (flds_append (flds_append (flds_blank _ blank3) (params_flds a.params h.params)) (flds_blank _ blank3))
  have all := flds_append (flds_append (flds_append (flds_append (flds_append (flds_append (flds_field k1 n0)
    (flds_field k2 (item_nat a.act))) (flds_field k3 (item_int a.nmr))) (flds_field k4 (item_str a.name h.name)))
    (flds_field k5 (item_str a.list h.list))) (lists_flds a.lists h.lists 1)) (flds_append (flds_blank _ blank3) tab)
  have e : want a = [(some "CMD".toList, Lv.num ((0 : Nat) : Rat))] ++ [(some "ACT".toList, .num a.act)] ++ [(some "NMR".toList, .num a.nmr)] ++
      [(some "NAME".toList, .str a.name)] ++ [(some "LIST".toList, .str a.list)] ++
      ((a.lists.zipIdx 1).map fun p => text ("LIST".toList ++ natText p.2) p.1) ++
      ([] ++ [(some "PAR".toList, .table ([] ++ (a.params.map fun p => (none, p.seen)) ++ []))]) := by
    unfold want num text
    simp
  rw [e]
  exact all

theorem adapter_flds {a : Adapter} (h : Readable a) : Flds a.pieces.flatten [(none, .table (want a))] := by
  have b2 : Blank "\n\t\t".toList := by decide +kernel
  rw [pieces_inner]
  have := flds_append (flds_blank _ b2) (flds_inner (flds_append (inner_flds h) (flds_blank _ b2)))
  simpa using this

theorem all_flds (l : List Adapter) (h : ∀ a ∈ l, Readable a) :
    Flds (l.flatMap Adapter.pieces).flatten (l.map fun a => (none, .table (want a))) := by
  induction l with
  | nil => exact flds_nil
  | cons a l ih =>
    rw [List.flatMap_cons, List.flatten_append]
    exact flds_append (adapter_flds (h a List.mem_cons_self)) (ih fun x hx => h x (List.mem_cons_of_mem _ hx))

theorem short_pieces (l : List Adapter) (h : ∀ a ∈ l, ∀ t ∈ a.pieces, t.length ≤ 1000) : ∀ t ∈ pieces l, t.length ≤ 1000 := by
  intro t ht
  unfold pieces at ht
  rw [List.cons_append, List.mem_cons, List.mem_append, List.mem_singleton, List.mem_flatMap] at ht
  rcases ht with ht | ⟨a, ha, ht⟩ | ht
  · rw [ht]; decide +kernel
  · exact h a ha t ht
  · rw [ht]; decide +kernel

theorem head_scan : scan .idle "t.RECMAN = \n\t{".toList =
    some (.idle, [.name ['t'], .sym '.', .name "RECMAN".toList, .sym '=', .sym '{']) := by decide +kernel

theorem stmts_all (l : List Adapter) (h : ∀ a ∈ l, Readable a) : ObjText.Stmts (pieces l).flatten
    (fun env => Function.update env "RECMAN".toList (some (.table (l.map fun a => (none, .table (want a)))))) := by
  obtain ⟨ts, hs, hf⟩ := all_flds l h
  have tail : scan .idle "\n\t}\n".toList = some (.idle, [.sym '}']) := by decide +kernel
  refine ⟨.name ['t'] :: .sym '.' :: .name "RECMAN".toList :: .sym '=' :: (.sym '{' :: (ts ++ [.sym '}'])), ?_, ?_⟩
  · have := scan_app head_scan (scan_app hs tail)
    unfold pieces
    rw [List.cons_append, List.flatten_cons, List.flatten_append]
    simpa using this
  · intro n r env hn
    cases n with
    | zero => simp at hn
    | succ n =>
      refine ⟨n, by simp at hn; omega, ?_⟩
      have hp := PV_table (hf _ _ PF_close)
      have e := hp (Tok.sym '{' :: (ts ++ [.sym '}']) ++ r).length r (by simp)
      rw [List.append_nil] at e
      simp only [List.cons_append, exec, ne_eq, not_true_eq_false, if_false] at e ⊢
      rw [e]

end Ptusa.RecText
