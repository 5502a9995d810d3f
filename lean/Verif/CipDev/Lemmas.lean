import Verif.CipDev.Spec
import Verif.Registry.Lemmas

/-!
# Lemmas about the devices of an object
-/
namespace Ptusa.CipDev
open Ptusa.Registry

theorem make_stub (t s : Int) (a : Article) : make t s a ≠ some .stub := by
  intro h
  unfold make at h
  repeat' split at h
  all_goals cases h

/-- The manager behind a proper description. -/
structure Good (m : Mgr) (rs : List Reg) : Prop where
  known : Known m rs
  ordered : Ordered rs
  supported : ∀ r ∈ rs, Supported r

theorem good (b : Bool) (rs : List Reg) (m : Mgr) (hm : (fresh b).addAll rs = some m) (hp : Proper rs) : Good m rs :=
  ⟨(Registry.known b rs m hm).1, hp.1, hp.2⟩

theorem real_at {m : Mgr} {rs : List Reg} (h : Good m rs) {i : Nat} {r : Reg} (hr : rs[i]? = some r) :
    real m (.at i) = if i = 0 then none else some i := by
  obtain ⟨d, hd, hb⟩ := built h.known hr
  have hs := build_supported (h.supported r (List.mem_of_getElem? hr)) hb
  have hc : d.cls ≠ .stub := by
    intro hc
    exact make_stub _ _ _ (hc ▸ hs.2.2.2.1)
  have he : d.serial = i := by
    unfold Dev.serial
    rw [if_neg hc, hs.2.1]
  simp only [real, hd]
  rw [he]
  by_cases hi : i = 0
  · rw [if_neg (by omega), if_pos hi]
  · rw [if_pos (by omega), if_neg hi]

/-- What a way gives in the program. -/
def try1 (m : Mgr) : Way → Option (Option Nat)
  | .name t n => (m.getDevice t n).map (real m)
  | .place t n =>
    some (match real m (m.getByNumber n) with
      | none => none
      | some i =>
        match m.devs[i]? with
        | none => none
        | some d => if d.type = t then some i else none)

/-- The ways one after another. -/
def tryAll (m : Mgr) : List Way → Option Found
  | [] => some .missing
  | w :: ws =>
    match try1 m w with
    | none => none
    | some (some i) => some (.dev i)
    | some none => tryAll m ws

theorem name_none {m : Mgr} {rs : List Reg} (h : Good m rs) (t : Int) (ht : 0 ≤ t) (name : Name) (hn : ¬ ∃ j, IsNamed rs t name j) :
    m.getDevice t name = some .stub := by
  have : m.find t name = some none := by
    refine find_absent h.known h.ordered h.supported ?_
    intro r hr hrt hrn
    obtain ⟨j, hj⟩ := List.mem_iff_getElem?.1 hr
    exact hn ⟨j, r, hj, hrt, hrn⟩
  simp only [Mgr.getDevice, this]
  split
  · rfl
  · rw [if_neg (by omega)]

theorem name_some {m : Mgr} {rs : List Reg} (h : Good m rs) (t : Int) (name : Name) (i : Nat) (hn : IsNamed rs t name i) :
    m.getDevice t name = some (.at i) := by
  obtain ⟨r, hr, rfl, rfl⟩ := hn
  simp only [Mgr.getDevice, find_complete h.known h.ordered h.supported hr]

/-- The type of a way. -/
def Way.Typed : Way → Prop
  | .name t _ => 0 ≤ t
  | .place .. => True

theorem way_unique {m : Mgr} {rs : List Reg} (h : Good m rs) (w : Way) (i j : Nat) (hi : w.To rs i) (hj : w.To rs j) : i = j := by
  cases w with
  | name t n =>
    have h1 := name_some h t n i hi
    have h2 := name_some h t n j hj
    rw [h1] at h2
    cases h2
    rfl
  | place t p => rw [hi.1, hj.1]

theorem try1_some {m : Mgr} {rs : List Reg} (h : Good m rs) (w : Way) (i : Nat) (hi : w.To rs i) :
    try1 m w = some (if i = 0 then none else some i) := by
  cases w with
  | name t n =>
    simp only [try1, name_some h t n i hi, Option.map_some]
    obtain ⟨r, hr, _⟩ := hi
    rw [real_at h hr]
  | place t p =>
    obtain ⟨rfl, r, hr, ht⟩ := hi
    have hl : i < m.devs.length := by rw [h.known.len]; exact (List.getElem?_eq_some_iff.1 hr).1
    simp only [try1, Mgr.getByNumber]
    rw [if_pos hl, real_at h hr]
    by_cases h0 : i = 0
    · simp [h0]
    · obtain ⟨d, hd, hb⟩ := built h.known hr
      have hs := build_supported (h.supported r (List.mem_of_getElem? hr)) hb
      simp only [h0, if_false, hd]
      rw [if_pos (by rw [hs.2.2.1]; exact ht)]

theorem try1_none {m : Mgr} {rs : List Reg} (h : Good m rs) (w : Way) (hw : w.Typed) (hi : ¬ ∃ j, w.To rs j) : try1 m w = some none := by
  cases w with
  | name t n =>
    simp only [try1, name_none h t hw n hi, Option.map_some, real]
  | place t p =>
    simp only [try1, Mgr.getByNumber]
    by_cases hl : p < m.devs.length
    · rw [if_pos hl]
      have hl' : p < rs.length := by rw [← h.known.len]; exact hl
      obtain ⟨r, hr⟩ : ∃ r, rs[p]? = some r := ⟨rs[p], List.getElem?_eq_getElem hl'⟩
      rw [real_at h hr]
      by_cases h0 : p = 0
      · simp [h0]
      · obtain ⟨d, hd, hb⟩ := built h.known hr
        have hs := build_supported (h.supported r (List.mem_of_getElem? hr)) hb
        simp only [h0, if_false, hd]
        rw [if_neg]
        intro ht
        exact hi ⟨p, rfl, r, hr, by rw [← hs.2.2.1]; exact ht⟩
    · rw [if_neg hl]
      rfl

theorem tryAll_first {m : Mgr} {rs : List Reg} (h : Good m rs) (ws : List Way) (hw : ∀ w ∈ ws, w.Typed) (i : Nat) (h0 : i ≠ 0)
    (hi : First rs ws i) : tryAll m ws = some (.dev i) := by
  induction ws with
  | nil => exact hi.elim
  | cons w ws ih =>
    rcases hi with hi | ⟨hn, hi⟩
    · simp only [tryAll, try1_some h w i hi, if_neg h0]
    · simp only [tryAll, try1_none h w (hw w (by simp)) hn]
      exact ih (fun x hx => hw x (by simp [hx])) hi

theorem tryAll_missing {m : Mgr} {rs : List Reg} (h : Good m rs) (ws : List Way) (hw : ∀ w ∈ ws, w.Typed)
    (hi : ¬ ∃ i, First rs ws i) : tryAll m ws = some .missing := by
  induction ws with
  | nil => rfl
  | cons w ws ih =>
    have hn : ¬ ∃ j, w.To rs j := fun ⟨j, hj⟩ => hi ⟨j, Or.inl hj⟩
    simp only [tryAll, try1_none h w (hw w (by simp)) hn]
    exact ih (fun x hx => hw x (by simp [hx])) (fun ⟨i, hf⟩ => hi ⟨i, Or.inr ⟨hn, hf⟩⟩)

theorem try1_ok {m : Mgr} {rs : List Reg} (h : Good m rs) (w : Way) (hw : w.Typed) :
    try1 m w = some none ∨ ∃ i, i ≠ 0 ∧ w.To rs i ∧ try1 m w = some (some i) := by
  by_cases hi : ∃ j, w.To rs j
  · obtain ⟨j, hj⟩ := hi
    rw [try1_some h w j hj]
    by_cases h0 : j = 0
    · simp [h0]
    · exact Or.inr ⟨j, h0, hj, by simp [h0]⟩
  · exact Or.inl (try1_none h w hw hi)

theorem tryAll_ok {m : Mgr} {rs : List Reg} (h : Good m rs) (ws : List Way) (hw : ∀ w ∈ ws, w.Typed) :
    tryAll m ws = some .missing ∨ ∃ i w, i ≠ 0 ∧ w ∈ ws ∧ w.To rs i ∧ tryAll m ws = some (.dev i) := by
  induction ws with
  | nil => exact Or.inl rfl
  | cons w ws ih =>
    rcases try1_ok h w (hw w (by simp)) with e | ⟨i, h0, hi, e⟩
    · simp only [tryAll, e]
      rcases ih (fun x hx => hw x (by simp [hx])) with e | ⟨i, x, a1, a2, a3, a4⟩
      · exact Or.inl e
      · exact Or.inr ⟨i, x, a1, by simp [a2], a3, a4⟩
    · exact Or.inr ⟨i, w, h0, by simp, hi, by simp only [tryAll, e]⟩

theorem dec_small (v : Int) (h : Small v) : dec v = digits v.toNat := by
  unfold dec digits
  obtain ⟨h1, h2⟩ := h
  rw [if_pos h2, if_neg (by omega)]
  simp [toString, Nat.repr]

theorem ways_typed (line n : Nat) (k : Kind) : ∀ w ∈ ways line n k, w.Typed := by
  cases k <;> simp [ways, onLine, common, byPlace, Way.Typed, Kind.about]

theorem check_eq (m : Mgr) (nmr v : Int) (k : Kind) (hn : Small nmr) (hv : Small v) (h0 : 0 < v) :
    check m nmr k v = tryAll m (ways nmr.toNat v.toNat k) := by
  have hv1 := hv.1
  have hv2 := hv.2
  have hr : ¬ (v < 0 ∨ 2 ^ 32 ≤ v) := by omega
  have hp : ∀ k : Kind, placed m k v.toNat = (match try1 m (byPlace k v.toNat) with | some x => x | none => none) := by
    intro k
    cases k <;> rfl
  have hl : ∀ k : Kind, named m k (lineName nmr k v) = try1 m (onLine nmr.toNat k v.toNat) := by
    intro k
    unfold named lineName
    rw [dec_small nmr hn, dec_small v hv]
    cases k <;> rfl
  have hs : ∀ k : Kind, named m k (shortName k v) = try1 m (common k v.toNat) := by
    intro k
    unfold named shortName
    rw [dec_small v hv]
    cases k <;> rfl
  have hfull : ∀ k : Kind, checkFull m nmr k v =
      tryAll m [onLine nmr.toNat k v.toNat, common k v.toNat, byPlace k v.toNat] := by
    intro k
    simp only [checkFull, tryAll]
    rw [if_neg hr, if_pos h0, hl k, hs k, hp k]
    cases try1 m (onLine nmr.toNat k v.toNat) with
    | none => rfl
    | some o =>
      cases o with
      | some i => rfl
      | none =>
        cases try1 m (common k v.toNat) with
        | none => rfl
        | some o =>
          cases o with
          | some i => rfl
          | none =>
            simp only [try1, byPlace]
            split <;> rename_i e <;> simp only [e]
  cases k with
  | di => exact hfull .di
  | dout => exact hfull .dout
  | ao => exact hfull .ao
  | m => exact hfull .m
  | ai =>
    simp only [check, checkAi, tryAll, ways]
    rw [if_neg hr, if_pos h0, hl .ai, hp .ai]
    cases try1 m (onLine nmr.toNat .ai v.toNat) with
    | none => rfl
    | some o =>
      cases o with
      | some i => rfl
      | none =>
        simp only [try1, byPlace]
        split <;> rename_i e <;> simp only [e]
  | ls =>
    simp only [check, checkLs, tryAll, ways]
    rw [if_neg hr, if_pos h0, hl .ls, hl .di]
    rfl

theorem check_zero (m : Mgr) (nmr : Int) (k : Kind) : check m nmr k 0 = some .unused := by
  cases k <;> rfl

theorem kind_eq (s : Slot) : s.kind = kindOf s := by cases s <;> rfl

theorem order_all (s : Slot) : s ∈ order := by cases s <;> decide

theorem order_nodup : order.Nodup := by decide

/-- The checks up to the first that fails. -/
theorem assign_ok (m : Mgr) (nmr : Int) (par : Slot → Int) (res : Slot → Option Nat) (ss : List Slot) (d : Devs) (hn : ss.Nodup)
    (h : ∀ s ∈ ss, check m nmr s.kind (par s) = some (match res s with | none => .unused | some i => .dev i)) :
    assign m nmr par ss d = some (true, fun s => if s ∈ ss then res s else d s) := by
  induction ss generalizing d with
  | nil => simp [assign]
  | cons s ss ih =>
    have hs := h s (by simp)
    have hn' := List.nodup_cons.1 hn
    cases hr : res s with
    | none =>
      rw [hr] at hs
      simp only [assign, hs]
      rw [ih _ hn'.2 (fun x hx => h x (by simp [hx]))]
      congr 2
      funext x
      by_cases hx : x = s
      · subst hx; simp [hn'.1, Devs.set, hr]
      · simp [hx, Devs.set]
    | some i =>
      rw [hr] at hs
      simp only [assign, hs]
      rw [ih _ hn'.2 (fun x hx => h x (by simp [hx]))]
      congr 2
      funext x
      by_cases hx : x = s
      · subst hx; simp [hn'.1, Devs.set, hr]
      · simp [hx, Devs.set]

theorem assign_bad (m : Mgr) (nmr : Int) (par : Slot → Int) (ss : List Slot) (d : Devs)
    (hd : ∀ s ∈ ss, check m nmr s.kind (par s) ≠ none) (s : Slot) (hs : s ∈ ss) (hm : check m nmr s.kind (par s) = some .missing) :
    ∃ d', assign m nmr par ss d = some (false, d') := by
  induction ss generalizing d with
  | nil => cases hs
  | cons x ss ih =>
    simp only [assign]
    cases hc : check m nmr x.kind (par x) with
    | none => exact absurd hc (hd x (by simp))
    | some f =>
      have hin : f ≠ .missing → s ∈ ss := by
        intro hf
        rcases List.mem_cons.1 hs with rfl | hs
        · rw [hm] at hc; cases hc; exact absurd rfl hf
        · exact hs
      cases f with
      | missing => exact ⟨_, rfl⟩
      | unused => exact ih _ (fun y hy => hd y (by simp [hy])) (hin (by simp))
      | dev i => exact ih _ (fun y hy => hd y (by simp [hy])) (hin (by simp))

/-- What remains after a check that fails. -/
theorem assign_split (m : Mgr) (nmr : Int) (par : Slot → Int) (res : Slot → Option Nat) (p q : List Slot) (s : Slot) (d : Devs)
    (hn : (p ++ s :: q).Nodup)
    (h : ∀ x ∈ p, check m nmr x.kind (par x) = some (match res x with | none => .unused | some i => .dev i))
    (hm : check m nmr s.kind (par s) = some .missing) :
    assign m nmr par (p ++ s :: q) d = some (false, fun x => if x ∈ p then res x else if x = s then none else d x) := by
  induction p generalizing d with
  | nil =>
    simp only [List.nil_append, assign, hm]
    congr 2
  | cons y p ih =>
    have hy := h y (by simp)
    have hn' := List.nodup_cons.1 hn
    have hys : y ≠ s := fun e => hn'.1 (by simp [e])
    have hyp : y ∉ p := fun e => hn'.1 (by simp [e])
    simp only [List.cons_append, assign]
    cases hr : res y with
    | none =>
      rw [hr] at hy
      simp only [hy]
      rw [ih _ hn'.2 (fun x hx => h x (by simp [hx]))]
      congr 2
      funext x
      by_cases hx : x = y
      · subst hx; simp [hyp, hys, Devs.set, hr]
      · simp [hx, Devs.set]
    | some i =>
      rw [hr] at hy
      simp only [hy]
      rw [ih _ hn'.2 (fun x hx => h x (by simp [hx]))]
      congr 2
      funext x
      by_cases hx : x = y
      · subst hx; simp [hyp, hys, Devs.set, hr]
      · simp [hx, Devs.set]

/-- No check that succeeds assigns the first device. -/
theorem assign_zero (m : Mgr) (nmr : Int) (par : Slot → Int) (ss : List Slot) (d : Devs) (r : Bool × Devs)
    (hc : ∀ s i, check m nmr s.kind (par s) = some (.dev i) → i ≠ 0) (h : assign m nmr par ss d = some r) (s : Slot)
    (hs : r.2 s = some 0) : d s = some 0 := by
  induction ss generalizing d with
  | nil => cases h; exact hs
  | cons x ss ih =>
    simp only [assign] at h
    cases hx : check m nmr x.kind (par x) with
    | none => simp [hx] at h
    | some f =>
      rw [hx] at h
      cases f with
      | missing =>
        cases h
        simp only [Devs.set] at hs
        split at hs
        · cases hs
        · exact hs
      | unused =>
        have := ih _ h
        simp only [Devs.set] at this
        split at this
        · cases this
        · exact this
      | dev i =>
        have := ih _ h
        simp only [Devs.set] at this
        split at this
        · cases this; exact absurd rfl (hc x 0 hx)
        · exact this

theorem check_dev_ne {m : Mgr} {rs : List Reg} (h : Good m rs) (nmr v : Int) (hn : Small nmr) (hv : Small v) (k : Kind) (i : Nat)
    (hc : check m nmr k v = some (.dev i)) : i ≠ 0 := by
  by_cases h0 : 0 < v
  · rw [check_eq m nmr v k hn hv h0] at hc
    rcases tryAll_ok h _ (ways_typed nmr.toNat v.toNat k) with e | ⟨j, w, a1, _, _, a4⟩
    · rw [hc] at e; cases e
    · rw [hc] at a4; cases a4; exact a1
  · have : v = 0 := by have := hv.1; omega
    subst this
    rw [check_zero] at hc
    cases hc

theorem check_defined {m : Mgr} {rs : List Reg} (h : Good m rs) (nmr v : Int) (hn : Small nmr) (hv : Small v) (k : Kind) :
    check m nmr k v ≠ none := by
  by_cases h0 : 0 < v
  · rw [check_eq m nmr v k hn hv h0]
    rcases tryAll_ok h _ (ways_typed nmr.toNat v.toNat k) with e | ⟨j, w, a1, _, _, a4⟩
    · rw [e]; simp
    · rw [a4]; simp
  · have : v = 0 := by have := hv.1; omega
    subst this
    rw [check_zero]
    simp

theorem first_unique {m : Mgr} {rs : List Reg} (h : Good m rs) (ws : List Way) (i j : Nat) (hi : First rs ws i) (hj : First rs ws j) :
    i = j := by
  induction ws with
  | nil => exact hi.elim
  | cons w ws ih =>
    rcases hi with hi | ⟨ni, hi⟩ <;> rcases hj with hj | ⟨nj, hj⟩
    · exact way_unique h w i j hi hj
    · exact absurd ⟨i, hi⟩ nj
    · exact absurd ⟨j, hj⟩ ni
    · exact ih hi hj

theorem mask_bit (n b : Nat) (hn : n < 2 ^ 32) (hb : b < 32) (x : BitVec 32) (hx : x = BitVec.ofNat 32 (2 ^ b)) :
    (BitVec.ofNat 32 n &&& x != 0#32) = decide (n / 2 ^ b % 2 = 1) := by
  subst hx
  have hp : 2 ^ b < 2 ^ 32 := Nat.pow_lt_pow_right (by omega) hb
  have e : (BitVec.ofNat 32 n &&& BitVec.ofNat 32 (2 ^ b)).toNat = n &&& 2 ^ b := by
    rw [BitVec.toNat_and, BitVec.toNat_ofNat, BitVec.toNat_ofNat, Nat.mod_eq_of_lt hn, Nat.mod_eq_of_lt hp]
  rw [← Nat.testBit_eq_decide_div_mod_eq]
  cases hb : n.testBit b with
  | false =>
    have : BitVec.ofNat 32 n &&& BitVec.ofNat 32 (2 ^ b) = 0#32 := by
      apply BitVec.eq_of_toNat_eq
      rw [e]
      apply Nat.eq_of_testBit_eq
      intro i
      rw [Nat.testBit_and, Nat.testBit_two_pow]
      by_cases hi : b = i
      · subst hi; simp [hb]
      · simp [hi]
    rw [this]
    rfl
  | true =>
    rw [bne_iff_ne]
    intro hc
    rw [hc] at e
    have : (n &&& 2 ^ b).testBit b = true := by rw [Nat.testBit_and, Nat.testBit_two_pow]; simp [hb]
    rw [← e] at this
    simp at this

/-- The options, in arithmetic. -/
theorem circ_eq (v : Int) (h : 0 ≤ v) (h2 : v < 2 ^ 32) :
    circ v = some { tankS := bit v 6, tankK := bit v 5, feedWater := bit v 0, feedS := bit v 2, feedK := bit v 1,
                    count := if v.toNat / 4096 % 256 = 0 then 3 else v.toNat / 4096 % 256,
                    waterNoStop := bit v 8, mediumNoStop := bit v 7 } := by
  have hn : v.toNat < 2 ^ 32 := by omega
  have hc : ((BitVec.ofNat 32 v.toNat >>> 12) &&& 0xFF#32).toNat = v.toNat / 4096 % 256 := by
    rw [BitVec.toNat_and, BitVec.toNat_ushiftRight, BitVec.toNat_ofNat, Nat.mod_eq_of_lt hn, Nat.shiftRight_eq_div_pow]
    exact Nat.and_two_pow_sub_one_eq_mod _ 8
  unfold circ
  rw [if_neg (by omega)]
  dsimp only
  rw [hc, mask_bit _ 6 hn (by omega) 64#32 rfl, mask_bit _ 5 hn (by omega) 32#32 rfl, mask_bit _ 0 hn (by omega) 1#32 rfl,
    mask_bit _ 2 hn (by omega) 4#32 rfl, mask_bit _ 1 hn (by omega) 2#32 rfl, mask_bit _ 8 hn (by omega) 256#32 rfl,
    mask_bit _ 7 hn (by omega) 128#32 rfl]
  rfl

end Ptusa.CipDev
