import Verif.Recipe.Spec
import Mathlib.Tactic.Ring
import Mathlib.Tactic.Positivity
import Mathlib.Algebra.Order.Ring.Abs

/-!
# Lemmas about recipes
-/
namespace Ptusa.Recipe

theorem read_some (s : Storage) (h : WF s) (i j : Nat) (hi : i < s.count) (hj : j < s.pcount) :
    ∃ v, s.read i j = some v := by
  have hil : i < s.recipes.length := by rw [h.len]; exact hi
  have hjl : j < (s.recipes[i]).params.length := by
    rw [h.plen _ (List.getElem_mem hil)]; exact hj
  exact ⟨(s.recipes[i]).params[j], by
    simp [Storage.read, List.getElem?_eq_getElem hil, List.getElem?_eq_getElem hjl]⟩

theorem write_read (s : Storage) (i j i' j' : Nat) (v : Fl) :
    (s.write i j v).read i' j' =
      if i' = i ∧ j' = j then (s.read i j).map fun _ => v else s.read i' j' := by
  unfold Storage.write Storage.read
  dsimp only
  rw [List.getElem?_modify]
  by_cases hi : i' = i
  · subst hi
    cases hr : s.recipes[i']? with
    | none => simp
    | some r =>
      by_cases hj : j' = j
      · subst hj
        cases hp : r.params[j']? with
        | none =>
          have := List.getElem?_eq_none_iff.mp hp
          simp [this]
        | some w =>
          have := (List.getElem?_eq_some_iff.mp hp).1
          simp [this]
      · have hj2 : ¬ j = j' := fun h => hj h.symm
        simp [hj, hj2]
  · have hi2 : ¬ i = i' := fun h => hi h.symm
    simp [hi, hi2]

theorem write_wf (s : Storage) (h : WF s) (i j : Nat) (v : Fl) (b : Bool) :
    WF { s.write i j v with changed := b } := by
  refine ⟨by simp [Storage.write, h.len], ?_, h.small⟩
  intro r hr
  simp only [Storage.write] at hr
  obtain ⟨k, hk⟩ := List.getElem?_of_mem hr
  rw [List.getElem?_modify] at hk
  cases hr' : s.recipes[k]? with
  | none => simp [hr'] at hk
  | some r' =>
    have h2 := h.plen r' (List.mem_of_getElem? hr')
    rw [hr'] at hk
    simp only [Option.map_eq_map, Option.map_some, Option.some.injEq] at hk
    split at hk
    · rw [← hk]; simp [h2, Storage.write]
    · rw [← hk]; exact h2

theorem eq_of_fleq (a b : Fl) (h : Fl.eq a b = true) : a = b := by
  cases a with
  | nan => simp at h
  | num x =>
    cases b with
    | nan => simp at h
    | num y =>
      simp only [Fl.eq_num, decide_eq_true_eq] at h
      rw [h]

/-- A step of the table refinement. -/
theorem set_step (s : Storage) (t : Table) (h : WF s) (hs : Shows s t) (e : Int × Int × Fl) :
    ∃ s', setRecPar s e.1 e.2.1 e.2.2 = some s' ∧ WF s' ∧ s'.count = s.count ∧ s'.pcount = s.pcount ∧
      Shows s' (t.set s.count s.pcount e) := by
  obtain ⟨r0, p0, v⟩ := e
  obtain ⟨hc, hg⟩ := hs
  unfold setRecPar Table.set
  dsimp only
  by_cases hr : r0 ≤ s.count ∧ p0 ≤ s.pcount ∧ r0 > 0 ∧ p0 > 0
  · have hin : InRange s.count s.pcount r0 p0 := ⟨by omega, by omega, by omega, by omega⟩
    rw [if_pos hr, if_pos hin]
    have hsm := h.small
    -- the value there
    have hrt : (BitVec.ofInt 32 r0).toInt = r0 := by
      rw [BitVec.toInt_ofInt]; apply Int.bmod_eq_of_le <;> omega
    have hpt : (BitVec.ofInt 32 p0).toInt = p0 := by
      rw [BitVec.toInt_ofInt]; apply Int.bmod_eq_of_le <;> omega
    have htn : ∀ x : BitVec 32, x.toInt > 0 → (x.toNat : Int) = x.toInt := by
      intro x hx
      rw [BitVec.toInt_eq_toNat_cond] at hx ⊢
      split at hx <;> rename_i hlt
      · rw [if_pos hlt]
      · have := x.isLt; omega
    have hold := hg (BitVec.ofInt 32 r0) (BitVec.ofInt 32 p0)
    rw [hrt, hpt, if_pos hin] at hold
    unfold getRecPar at hold
    rw [hrt, hpt, if_pos hr] at hold
    have hrn := htn (BitVec.ofInt 32 r0) (by rw [hrt]; exact hr.2.2.1)
    have hpn := htn (BitVec.ofInt 32 p0) (by rw [hpt]; exact hr.2.2.2)
    rw [hrt] at hrn
    rw [hpt] at hpn
    have hread : s.read (r0 - 1).toNat (p0 - 1).toNat = some (t.val r0 p0) := by
      rw [← hold]
      congr 1 <;> omega
    rw [hread]
    by_cases heq : Fl.eq (t.val r0 p0) v = true
    · refine ⟨s, by simp [heq], h, rfl, rfl, ?_, ?_⟩
      · simp [heq, hc]
      · intro r p
        rw [hg r p]
        have hv := eq_of_fleq _ _ heq
        congr 1
        by_cases hrp : r.toInt = r0 ∧ p.toInt = p0
        · simp [hrp.1, hrp.2, hv]
        · simp [hrp]
    · refine ⟨{ s.write (r0 - 1).toNat (p0 - 1).toNat v with changed := true }, by simp [heq],
        write_wf s h _ _ v true, rfl, rfl, ?_, ?_⟩
      · simp [heq]
      · intro r p
        have hgrp := hg r p
        unfold getRecPar at hgrp ⊢
        have hcnt : ({ s.write (r0 - 1).toNat (p0 - 1).toNat v with changed := true } : Storage).count
          = s.count := rfl
        have hpc : ({ s.write (r0 - 1).toNat (p0 - 1).toNat v with changed := true } : Storage).pcount
          = s.pcount := rfl
        rw [hcnt, hpc]
        by_cases hrp : r.toInt ≤ s.count ∧ p.toInt ≤ s.pcount ∧ r.toInt > 0 ∧ p.toInt > 0
        · have hin2 : InRange s.count s.pcount r.toInt p.toInt :=
            ⟨by omega, by omega, by omega, by omega⟩
          rw [if_pos hrp, if_pos hin2] at hgrp
          rw [if_pos hrp, if_pos hin2]
          have e1 := htn r hrp.2.2.1
          have e2 := htn p hrp.2.2.2
          show (s.write (r0 - 1).toNat (p0 - 1).toNat v).read (r.toNat - 1) (p.toNat - 1) = _
          rw [write_read]
          by_cases hsame : r.toInt = r0 ∧ p.toInt = p0
          · rw [if_pos ⟨by omega, by omega⟩, hread]
            simp [hsame.1, hsame.2]
          · rw [if_neg (by intro hh; apply hsame; omega), hgrp]
            simp [hsame]
        · have hin2 : ¬ InRange s.count s.pcount r.toInt p.toInt := by
            unfold InRange; omega
          rw [if_neg hrp, if_neg hin2]
  · have hin : ¬ InRange s.count s.pcount r0 p0 := by unfold InRange; omega
    rw [if_neg hr, if_neg hin]
    exact ⟨s, rfl, h, rfl, rfl, hc, hg⟩

/-! ### Files -/

theorem readNum_num (q : Rat) (rest : File) :
    readNum ⟨.num (.num q) :: rest, true⟩ = (⟨rest, true⟩, some (.num q)) := by
  simp [readNum, isBlank]

theorem readNum_blank (c : Char) (h : isBlank (.ch c) = true) (rest : File) :
    readNum ⟨.ch c :: rest, true⟩ = readNum ⟨rest, true⟩ := by
  simp [readNum, h]

theorem readNum_sp (rest : File) : readNum ⟨.ch ' ' :: rest, true⟩ = readNum ⟨rest, true⟩ :=
  readNum_blank ' ' (by decide) rest

theorem lineOf_name (l : List Char) (h : '\n' ∉ l) (rest : File) :
    lineOf (l.map Item.ch ++ Item.ch '\n' :: rest) = (l, some rest) := by
  induction l with
  | nil => simp [lineOf]
  | cons c l ih =>
    have h1 : c ≠ '\n' := fun he => h (by simp [he])
    have h2 := ih fun hm => h (List.mem_cons_of_mem _ hm)
    simp [lineOf, h1, h2]

theorem getLine_name (n : String) (h : '\n' ∉ n.toList) (rest : File) :
    getLine ⟨n.toList.map Item.ch ++ Item.ch '\n' :: rest, true⟩ = (⟨rest, true⟩, n) := by
  unfold getLine
  have hl := lineOf_name n.toList h rest
  have hne : n.toList.map Item.ch ++ Item.ch '\n' :: rest ≠ [] := by simp
  generalize hf : n.toList.map Item.ch ++ Item.ch '\n' :: rest = f at hl hne
  cases f with
  | nil => exact absurd rfl hne
  | cons a as =>
    simp only [hl, Bool.true_eq_false, if_false, String.ofList_toList]

/-- The parameters of a recipe, followed by one blank before the next number. -/
theorem readPars_list (pr : Fl → Fl) (l : List Fl) (hl : ∀ v ∈ l, ∃ q, pr v = .num q) (rest : File) :
    readPars l.length ⟨l.flatMap (fun v => [Item.num (pr v), Item.ch ' ']) ++ rest, true⟩ =
      (⟨if l = [] then rest else .ch ' ' :: rest, true⟩, l.map fun v => some (pr v)) := by
  induction l with
  | nil => simp [readPars]
  | cons v l ih =>
    obtain ⟨q, hq⟩ := hl v (List.mem_cons_self ..)
    have ih' := ih fun x hx => hl x (List.mem_cons_of_mem _ hx)
    simp only [List.flatMap_cons, List.length_cons, readPars, hq, List.cons_append, List.nil_append,
      readNum_num]
    cases l with
    | nil => simp [readPars, hq]
    | cons w ws =>
      have hw : readPars (w :: ws).length
          ⟨Item.ch ' ' :: ((w :: ws).flatMap (fun v => [Item.num (pr v), Item.ch ' ']) ++ rest), true⟩
          = readPars (w :: ws).length
          ⟨(w :: ws).flatMap (fun v => [Item.num (pr v), Item.ch ' ']) ++ rest, true⟩ := by
        simp only [List.length_cons, readPars, readNum_sp]
      rw [hw, ih']
      simp [hq]

theorem mapM_some {α : Type} (l : List α) : (l.map some).mapM id = some l := by
  induction l with
  | nil => rfl
  | cons a l ih => simp [List.mapM_cons, ih]

theorem newPars_some (pcount : Nat) (l : List Fl) :
    newPars pcount (l.map some) = some (l.take pcount ++ List.replicate (pcount - l.length) 0) := by
  unfold newPars
  rw [← List.map_take, mapM_some]
  simp only [Option.map_some, List.length_take]
  congr 3
  omega

/-- What a recipe of the file becomes. -/
def restored (pcount : Nat) (pr : Fl → Fl) (r : Rec) : Rec :=
  ⟨r.name, (r.params.map pr).take pcount ++ List.replicate (pcount - r.params.length) 0⟩

/-- Reading the recipes of a complete file. -/
theorem readRecs_spec (pr : Fl → Fl) (pcount pc : Nat) (hpc : 0 < pc) (l : List Rec)
    (hname : ∀ r ∈ l, '\n' ∉ r.name.toList) (hlen : ∀ r ∈ l, r.params.length = pc)
    (hnum : ∀ r ∈ l, ∀ v ∈ r.params, ∃ q, pr v = .num q) (i : Nat) (rs : List Rec) :
    ∃ rs', readRecs pcount pc l.length i ⟨.ch '\n' :: l.flatMap (serRec pr), true⟩ rs = some rs' ∧
      rs'.length = rs.length ∧
      ∀ k, rs'[k]? = if i ≤ k ∧ k < i + l.length ∧ k < rs.length
        then l[k - i]?.map (restored pcount pr) else rs[k]? := by
  induction l generalizing i rs with
  | nil =>
    refine ⟨rs, rfl, rfl, fun k => ?_⟩
    rw [if_neg (by simp; omega)]
  | cons r l ih =>
    have h1 := hname r (List.mem_cons_self ..)
    have h2 := hlen r (List.mem_cons_self ..)
    have h3 := hnum r (List.mem_cons_self ..)
    have ih' := ih (fun x hx => hname x (List.mem_cons_of_mem _ hx))
      (fun x hx => hlen x (List.mem_cons_of_mem _ hx))
      (fun x hx => hnum x (List.mem_cons_of_mem _ hx))
    have hstream : (r :: l).flatMap (serRec pr) = r.name.toList.map Item.ch ++ Item.ch '\n' ::
        (r.params.flatMap (fun v => [Item.num (pr v), Item.ch ' ']) ++
          (Item.ch '\n' :: l.flatMap (serRec pr))) := by
      simp [serRec]
    have hne : r.params ≠ [] := by
      intro he
      rw [he] at h2
      simp at h2
      omega
    have hp := readPars_list pr r.params h3 (Item.ch '\n' :: l.flatMap (serRec pr))
    rw [h2] at hp
    simp only [hne, if_false] at hp
    rw [hstream]
    simp only [List.length_cons, readRecs, ignore1, Bool.true_eq_false, if_false]
    rw [getLine_name r.name h1]
    simp only
    rw [hp]
    simp only [Bool.true_eq_false, if_false]
    have hnp : newPars pcount (r.params.map fun v => some (pr v)) = some (restored pcount pr r).params := by
      have := newPars_some pcount (r.params.map pr)
      simp only [List.map_map, List.length_map] at this
      exact this
    rw [hnp]
    simp only [Option.bind_some]
    by_cases hi : i < rs.length
    · rw [if_pos hi]
      obtain ⟨rs', e1, e2, e3⟩ := ih' (i + 1) (rs.set i ⟨r.name, (restored pcount pr r).params⟩)
      refine ⟨rs', e1, by rw [e2]; simp, fun k => ?_⟩
      rw [e3 k]
      simp only [List.length_set]
      by_cases hk : k = i
      · subst hk
        rw [if_neg (by omega), if_pos (by omega)]
        simp [restored, hi]
      · by_cases hk2 : i + 1 ≤ k ∧ k < i + 1 + l.length ∧ k < rs.length
        · rw [if_pos hk2, if_pos (by omega), show k - i = (k - (i + 1)) + 1 by omega,
            List.getElem?_cons_succ]
        · rw [if_neg hk2, if_neg (by omega), List.getElem?_set]
          have : ¬ i = k := fun h => hk h.symm
          simp [this]
    · rw [if_neg hi]
      obtain ⟨rs', e1, e2, e3⟩ := ih' (i + 1) rs
      refine ⟨rs', e1, e2, fun k => ?_⟩
      rw [e3 k, if_neg (by omega), if_neg (by omega)]

/-! ### Printing -/

theorem pow10_pos (u : Rat) (h : Pow10 u) : 0 < u := by
  obtain ⟨n, h | h⟩ := h
  · rw [h]; positivity
  · by_contra hn
    have h10 : (0 : Rat) < 10 ^ n := by positivity
    have : u * 10 ^ n ≤ 0 := mul_nonpos_of_nonpos_of_nonneg (le_of_not_gt hn) h10.le
    linarith

/-- The relative error of printing. -/
theorem rounded6_error (q r : Rat) (h : Rounded6 q r) : |q - r| ≤ |q| / 200000 := by
  rcases h with ⟨h1, h2⟩ | ⟨u, _, h1, _, m, _, h4⟩
  · rw [h1, h2]; simp
  · linarith

/-- Multiples of the unit of the sixth digit are printed exactly. -/
theorem rounded6_exact (q u : Rat) (hu : Pow10 u) (m m0 : Int) (hq : q = m0 * u)
    (h : |q - m * u| ≤ u / 2) : (m : Rat) * u = q := by
  have hp := pow10_pos u hu
  have h1 : q - m * u = ((m0 - m : Int) : Rat) * u := by rw [hq]; push_cast; ring
  rw [h1, abs_mul, abs_of_pos hp] at h
  have h2 : |((m0 - m : Int) : Rat)| ≤ 1 / 2 := by
    by_contra hn
    rw [not_le] at hn
    have := mul_lt_mul_of_pos_right hn hp
    linarith
  have h3 : m0 - m = 0 := by
    rw [abs_le] at h2
    have e1 : (-1 : Rat) < ((m0 - m : Int) : Rat) := by linarith [h2.1]
    have e2 : ((m0 - m : Int) : Rat) < 1 := by linarith [h2.2]
    have e1' : (-1 : Int) < m0 - m := by exact_mod_cast e1
    have e2' : m0 - m < (1 : Int) := by exact_mod_cast e2
    omega
  have : m0 = m := by omega
  rw [hq, this]

/-- Whole numbers of at most six digits are printed exactly. -/
theorem rounded6_int (n : Int) (hn : |(n : Rat)| < 1000000) (r : Rat) (h : Rounded6 n r) : r = n := by
  rcases h with ⟨h1, h2⟩ | ⟨u, hu, h1, _, m, h3, h4⟩
  · rw [h1, h2]
  · rw [h3] at h4 ⊢
    have hu2 := hu
    obtain ⟨k, hk | hk⟩ := hu2
    · have h10 : u < 10 := by linarith
      have hk0 : k = 0 := by
        rcases Nat.eq_zero_or_pos k with h0 | h0
        · exact h0
        · exfalso
          have : (10 : Rat) ^ 1 ≤ 10 ^ k := pow_le_pow_right₀ (by norm_num) h0
          rw [hk] at h10
          linarith
      subst hk0
      simp only [pow_zero] at hk
      exact rounded6_exact n u hu m n (by rw [hk]; ring) h4
    · exact rounded6_exact n u hu m (n * 10 ^ k) (by push_cast; rw [mul_assoc, mul_comm _ u, hk]; ring) h4

/-! ### Loading -/

theorem copyMap_len (s : Storage) (recNo : Nat) (m : Map) (o : Obj) :
    (copyMap s recNo m o).par.length = o.par.length := by
  unfold copyMap
  generalize List.range m.quantity = l
  induction l generalizing o with
  | nil => rfl
  | cons i l ih =>
    rw [List.foldl_cons, ih]
    dsimp only
    split <;> simp

theorem copyMap_rest (s : Storage) (recNo : Nat) (m : Map) (o : Obj) :
    (copyMap s recNo m o).saved = o.saved ∧ (copyMap s recNo m o).recName = o.recName ∧
      (copyMap s recNo m o).recNo = o.recNo := by
  unfold copyMap
  generalize List.range m.quantity = l
  induction l generalizing o with
  | nil => exact ⟨rfl, rfl, rfl⟩
  | cons i l ih =>
    rw [List.foldl_cons]
    refine ⟨(ih _).1.trans ?_, (ih _).2.1.trans ?_, (ih _).2.2.trans ?_⟩ <;>
      (dsimp only; split <;> rfl)

/-- The parameters after one mapping. -/
theorem copyMap_get (s : Storage) (recNo : Nat) (m : Map) (o : Obj) (hm : 0 < m.startObj)
    (hfit : m.startObj + m.quantity ≤ o.par.length + 1) (k : Nat) (hk : 1 ≤ k) :
    (copyMap s recNo m o).par[k - 1]? =
      if m.startObj ≤ k ∧ k < m.startObj + m.quantity then
        some ((getRecPar s (BitVec.ofNat 32 recNo)
          (BitVec.ofNat 32 (m.startRec + (k - m.startObj)))).getD 0)
      else o.par[k - 1]? := by
  have key : ∀ n, n ≤ m.quantity → ∀ o' : Obj, o' = (List.range n).foldl (fun (o : Obj) i =>
      let v := (getRecPar s (BitVec.ofNat 32 recNo) (BitVec.ofNat 32 (m.startRec + i))).getD 0
      if 1 ≤ m.startObj + i then { o with par := o.par.set (m.startObj + i - 1) v } else o) o →
      o'.par.length = o.par.length ∧
      o'.par[k - 1]? = if m.startObj ≤ k ∧ k < m.startObj + n then
        some ((getRecPar s (BitVec.ofNat 32 recNo)
          (BitVec.ofNat 32 (m.startRec + (k - m.startObj)))).getD 0)
        else o.par[k - 1]? := by
    intro n
    induction n with
    | zero =>
      intro _ o' ho
      subst ho
      refine ⟨rfl, ?_⟩
      rw [if_neg (by omega)]
    | succ n ih =>
      intro hn o' ho
      rw [List.range_succ, List.foldl_append, List.foldl_cons, List.foldl_nil] at ho
      have ih' := ih (by omega) _ rfl
      generalize (List.range n).foldl (fun (o : Obj) i =>
        let v := (getRecPar s (BitVec.ofNat 32 recNo) (BitVec.ofNat 32 (m.startRec + i))).getD 0
        if 1 ≤ m.startObj + i then { o with par := o.par.set (m.startObj + i - 1) v } else o) o = o1
        at ho ih'
      simp only at ho
      rw [if_pos (by omega)] at ho
      subst ho
      refine ⟨by simp [ih'.1], ?_⟩
      simp only
      rw [List.getElem?_set]
      by_cases he : m.startObj + n - 1 = k - 1
      · have hkn : k = m.startObj + n := by omega
        rw [if_pos he, if_pos (by rw [ih'.1]; omega), if_pos (by omega)]
        rw [show k - m.startObj = n by omega]
      · rw [if_neg he, ih'.2]
        by_cases hc : m.startObj ≤ k ∧ k < m.startObj + n
        · rw [if_pos hc, if_pos (by omega)]
        · rw [if_neg hc, if_neg (by omega)]
  exact (key m.quantity (Nat.le_refl _) _ rfl).2

/-- All mappings that fit are copied; the last one that covers a parameter decides. -/
theorem copyMaps_spec (s : Storage) (recNo : Nat) (maps : List Map) (o : Obj)
    (hv : ∀ m ∈ maps, m.Valid) (hf : ∀ m ∈ maps, m.Fits s o) :
    (copyMaps s recNo maps o).1 = true ∧
    (copyMaps s recNo maps o).2.par.length = o.par.length ∧
    ∀ k, 1 ≤ k →
      (∀ j, Source maps k j → (copyMaps s recNo maps o).2.par[k - 1]? =
        some ((getRecPar s (BitVec.ofNat 32 recNo) (BitVec.ofNat 32 j)).getD 0)) ∧
      ((∀ j, ¬ Source maps k j) → (copyMaps s recNo maps o).2.par[k - 1]? = o.par[k - 1]?) := by
  induction maps generalizing o with
  | nil =>
    refine ⟨rfl, rfl, fun k _ => ⟨fun j ⟨n, m, hn, _⟩ => by simp at hn, fun _ => rfl⟩⟩
  | cons m ms ih =>
    have hm := hv m (List.mem_cons_self ..)
    have hfm := hf m (List.mem_cons_self ..)
    have hlen := copyMap_len s recNo m o
    unfold Map.Fits at hfm
    have hc : ¬ (m.startRec + m.quantity > s.pcount + 1 ∨ m.startObj + m.quantity > o.par.length) := by
      omega
    simp only [copyMaps]
    rw [if_neg hc]
    have ih' := ih (copyMap s recNo m o) (fun x hx => hv x (List.mem_cons_of_mem _ hx))
      (fun x hx => by
        have := hf x (List.mem_cons_of_mem _ hx)
        unfold Map.Fits at this ⊢
        rw [hlen]; exact this)
    refine ⟨ih'.1, by rw [ih'.2.1, hlen], fun k hk => ?_⟩
    have hget := copyMap_get s recNo m o hm.2.1 (by omega) k hk
    have ihk := ih'.2.2 k hk
    constructor
    · rintro j ⟨n, m', hn, h1, h2, h3, h4⟩
      cases n with
      | zero =>
        simp only [List.getElem?_cons_zero, Option.some.injEq] at hn
        subst hn
        have hno : ∀ j, ¬ Source ms k j := by
          rintro j' ⟨n', m', hn', e1, e2, _⟩
          exact h4 (n' + 1) m' (by omega) (by simpa using hn') ⟨e1, e2⟩
        rw [ihk.2 hno, hget, if_pos ⟨h1, h2⟩, h3]
      | succ n =>
        exact ihk.1 j ⟨n, m', by simpa using hn, h1, h2, h3, fun n' m'' hn' hm'' =>
          h4 (n' + 1) m'' (by omega) (by simpa using hm'')⟩
    · intro hno
      have hno2 : ∀ j, ¬ Source ms k j := by
        rintro j ⟨n, m', hn, h1, h2, h3, h4⟩
        refine hno j ⟨n + 1, m', by simpa using hn, h1, h2, h3, fun n' m'' hn' hm'' => ?_⟩
        cases n' with
        | zero => omega
        | succ n' => exact h4 n' m'' (by omega) (by simpa using hm'')
      rw [ihk.2 hno2, hget, if_neg]
      rintro ⟨h1, h2⟩
      by_cases hex : ∃ (n' : Nat) (m' : Map), ms[n']? = some m' ∧ m'.startObj ≤ k ∧
          k < m'.startObj + m'.quantity
      · -- the last covering mapping of `ms`
        obtain ⟨n', m', hn', hcov⟩ := hex
        have hlast : ∀ (d n' : Nat) (m' : Map), ms.length - n' ≤ d → ms[n']? = some m' →
            m'.startObj ≤ k ∧ k < m'.startObj + m'.quantity → ∃ j, Source ms k j := by
          intro d
          induction d with
          | zero =>
            intro n' m' hd hn' _
            have := (List.getElem?_eq_some_iff.mp hn').1
            omega
          | succ d ihd =>
            intro n' m' hd hn' hcov
            by_cases hl : ∃ (n2 : Nat) (m2 : Map), n' < n2 ∧ ms[n2]? = some m2 ∧
                m2.startObj ≤ k ∧ k < m2.startObj + m2.quantity
            · obtain ⟨n2, m2, hlt, hn2, hcov2⟩ := hl
              have := (List.getElem?_eq_some_iff.mp hn2).1
              exact ihd n2 m2 (by omega) hn2 hcov2
            · exact ⟨_, n', m', hn', hcov.1, hcov.2, rfl, fun n2 m2 hlt hn2 hcov2 =>
                hl ⟨n2, m2, hlt, hn2, hcov2⟩⟩
        obtain ⟨j, hj⟩ := hlast ms.length n' m' (by omega) hn' hcov
        exact hno2 j hj
      · refine hno _ ⟨0, m, rfl, h1, h2, rfl, fun n' m' hn' hm' hcov => ?_⟩
        cases n' with
        | zero => omega
        | succ n' => exact hex ⟨n', m', by simpa using hm', hcov⟩

theorem copyMaps_rest (s : Storage) (recNo : Nat) (maps : List Map) (o : Obj) :
    (copyMaps s recNo maps o).2.saved = o.saved ∧ (copyMaps s recNo maps o).2.recName = o.recName ∧
      (copyMaps s recNo maps o).2.recNo = o.recNo := by
  induction maps generalizing o with
  | nil => exact ⟨rfl, rfl, rfl⟩
  | cons m ms ih =>
    simp only [copyMaps]
    split
    · exact ⟨rfl, rfl, rfl⟩
    · have h1 := ih (copyMap s recNo m o)
      have h2 := copyMap_rest s recNo m o
      rw [h1.1, h1.2.1, h1.2.2]
      exact h2

/-! ### Lists -/

theorem entries_spec (i : Nat) (rs : List Rec) (bs : List Bool) :
    (∀ (n : Nat) (nm : String), (n, nm) ∈ entries i rs bs ↔ ∃ (k : Nat) (r : Rec), n = i + k + 1 ∧
      rs[k]? = some r ∧ r.name = nm ∧ bs[k]? = some true) ∧
    (entries i rs bs).Pairwise fun x y => x.1 < y.1 := by
  induction rs generalizing i bs with
  | nil =>
    refine ⟨fun n nm => ?_, by simp [entries]⟩
    simp [entries]
  | cons r rs ih =>
    cases bs with
    | nil => exact ⟨fun n nm => by simp [entries], by simp [entries]⟩
    | cons b bs =>
      have ih' := ih (i + 1) bs
      have hmem : ∀ (n : Nat) (nm : String), (n, nm) ∈ entries i (r :: rs) (b :: bs) ↔
          (b = true ∧ n = i + 1 ∧ nm = r.name) ∨ (n, nm) ∈ entries (i + 1) rs bs := by
        intro n nm
        simp only [entries]
        cases b with
        | true => simp
        | false => simp
      constructor
      · intro n nm
        rw [hmem, ih'.1]
        constructor
        · rintro (⟨h1, h2, h3⟩ | ⟨k, r', h1, h2, h3, h4⟩)
          · exact ⟨0, r, h2, rfl, h3.symm, by simp [h1]⟩
          · exact ⟨k + 1, r', by omega, by simpa using h2, h3, by simpa using h4⟩
        · rintro ⟨k, r', h1, h2, h3, h4⟩
          cases k with
          | zero =>
            simp only [List.getElem?_cons_zero, Option.some.injEq] at h2 h4
            subst h2
            exact .inl ⟨h4, h1, h3.symm⟩
          | succ k => exact .inr ⟨k, r', by omega, by simpa using h2, h3, by simpa using h4⟩
      · simp only [entries]
        split
        · rw [List.pairwise_cons]
          refine ⟨fun ⟨n, nm⟩ hx => ?_, ih'.2⟩
          obtain ⟨k, _, h1, _⟩ := (ih'.1 n nm).mp hx
          dsimp only
          omega
        · exact ih'.2

theorem publish_fold (l : List (Nat × String)) (a : Adapter) (h : a.separate = false) :
    l.foldl publish a = { a with list := a.list ++ l } := by
  induction l generalizing a with
  | nil => simp
  | cons x l ih =>
    rw [List.foldl_cons]
    have hp : publish a x = { a with list := a.list ++ [x] } := by simp [publish, h]
    rw [hp]
    exact (ih { a with list := a.list ++ [x] } h).trans (by simp)

theorem refresh_single (s : Storage) (a : Adapter) (h : a.separate = false) :
    refresh s a = { a with list := entries 0 s.recipes a.enabled } := by
  unfold refresh
  have := publish_fold (entries 0 s.recipes a.enabled) { a with list := [] } h
  rw [this]
  simp

/-- Filling the lists of ten appends to each list the entries that belong to it. -/
theorem publish_lists (es : List (Nat × String)) (a : Adapter) (h : a.separate = true) (k : Nat) :
    (es.foldl publish a).lists[k]? =
      a.lists[k]?.map (· ++ es.filter fun en => decide ((en.1 - 1) / 10 = k)) ∧
    (es.foldl publish a).lists.length = a.lists.length := by
  induction es generalizing a with
  | nil => simp
  | cons e es ih =>
    have hp : publish a e = { a with lists := a.lists.modify ((e.1 - 1) / 10) (· ++ [e]) } := by
      unfold publish
      rw [if_neg (by simp [h])]
    rw [List.foldl_cons, hp]
    have ih' := ih { a with lists := a.lists.modify ((e.1 - 1) / 10) (· ++ [e]) } h
    rw [ih'.1, ih'.2]
    refine ⟨?_, by simp⟩
    simp only [List.getElem?_modify, Option.map_eq_map]
    by_cases hk : (e.1 - 1) / 10 = k
    · cases a.lists[k]? <;> simp [hk]
    · cases a.lists[k]? <;> simp [hk]

theorem entries_current (s : Storage) (en : List Bool) : Current s en (entries 0 s.recipes en) := by
  have h := entries_spec 0 s.recipes en
  refine ⟨fun n nm => ?_, h.2⟩
  rw [h.1]
  simp

end Ptusa.Recipe
