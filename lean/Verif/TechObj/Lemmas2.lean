import Verif.TechObj.Lemmas

/-!
# Helper lemmas: restrictions and availability
-/
namespace Ptusa.TechObj
open Ptusa.Operation

/-! ### Bits after an event -/

theorem words_move (c : Cfg) (k : Cmd) (m : Nat) (o : Obj) : (o.move c k m).words = o.words := rfl

theorem words_switchOff (c : Cfg) (m : Nat) (o : Obj) :
    (o.switchOff c m).words = clearBit o.words (m - 1) := rfl

theorem isOn_nested {c : Cfg} {b o : Obj} (hok : Ok c o) (a : Ans) {m : Nat} (h1 : 1 ≤ m)
    (h2 : m ≤ c.n) {j : Nat} (h : isOn (Obj.nested c a m b o).words j = true) :
    isOn o.words j = true := by
  unfold Obj.nested at h
  split at h
  · rw [words_switchOff, isOn_clearBit _ _ _ (by rw [hok.words]; exact idx_lt (by omega))] at h
    simp only [ne_eq, Bool.and_eq_true] at h
    exact h.2
  · exact h

/-- The only operation that can come on is the addressed one. -/
theorem setMode_comes_on {c : Cfg} {o : Obj} (hok : Ok c o) (a : Ans) (ext : Option Nat) (m : Nat)
    (newm : Int) {j : Nat} (h : isOn (o.setMode c a ext m newm).1.words j = true) :
    isOn o.words j = true ∨ (1 ≤ m ∧ m ≤ c.n ∧ j = m - 1 ∧
      (newm = 2 ∨ newm = 3 ∨ o.checkOn c a ext m = 0)) := by
  rcases setMode_cases c a ext m newm o with e | ⟨h1, h2, ⟨hn, e⟩ | ⟨hn, e⟩ | ⟨_, _, hon, e⟩ |
    ⟨_, hon, e⟩ | ⟨_, _, _, _, hck, e⟩⟩
  · rw [e] at h; exact .inl h
  · have hlt : (m - 1) / 32 < o.words.length := by rw [hok.words]; exact idx_lt (by omega)
    rw [e] at h
    have hok1 := hok.on h1 h2
    have hok2 := hok1.move .pause h1 h2 (by rw [isOn_setBit _ _ _ hlt]; simp)
    have := isOn_nested hok2 a h1 h2 h
    rw [words_move, isOn_setBit _ _ _ hlt] at this
    by_cases hj : j = m - 1
    · exact .inr ⟨h1, h2, hj, .inl hn⟩
    · simp only [hj, decide_false, Bool.false_or] at this; exact .inl this
  · have hlt : (m - 1) / 32 < o.words.length := by rw [hok.words]; exact idx_lt (by omega)
    rw [e] at h
    have hok1 := hok.on h1 h2
    have hok2 := hok1.move .stop h1 h2 (by rw [isOn_setBit _ _ _ hlt]; simp)
    have := isOn_nested hok2 a h1 h2 h
    rw [words_move, isOn_setBit _ _ _ hlt] at this
    by_cases hj : j = m - 1
    · exact .inr ⟨h1, h2, hj, .inr (.inl hn)⟩
    · simp only [hj, decide_false, Bool.false_or] at this; exact .inl this
  · rw [e] at h
    exact .inl (isOn_nested (hok.move .start h1 h2 hon) a h1 h2 h)
  · rw [e, words_switchOff, isOn_clearBit _ _ _ (by rw [hok.words]; exact idx_lt (by omega))] at h
    simp only [ne_eq, Bool.and_eq_true] at h
    exact .inl h.2
  · have hlt : (m - 1) / 32 < o.words.length := by rw [hok.words]; exact idx_lt (by omega)
    rw [e] at h
    replace h : isOn (setBit o.words (m - 1)) j = true := h
    rw [isOn_setBit _ _ _ hlt] at h
    by_cases hj : j = m - 1
    · exact .inr ⟨h1, h2, hj, .inr (.inr hck)⟩
    · simp only [hj, decide_false, Bool.false_or] at h; exact .inl h

theorem failPause_comes_on {c : Cfg} {o : Obj} (hok : Ok c o) (a : Ans) (m : Nat) {j : Nat}
    (h : isOn (o.failPause c a m).words j = true) : isOn o.words j = true := by
  unfold Obj.failPause at h
  split at h
  · exact h
  · rename_i hn
    have h1 : 1 ≤ m ∧ m ≤ c.n := by
      constructor <;> (apply Classical.byContradiction; intro hc; apply hn; omega)
    have hr : o.opState c m = .run := by
      apply Classical.byContradiction; intro hc; apply hn; exact .inr (.inr hc)
    have hon : isOn o.words (m - 1) = true := by
      refine hok.run (m - 1) (by omega) ?_
      unfold Obj.opState at hr
      rw [if_neg (by omega)] at hr
      rw [hr]; simp
    exact isOn_nested (hok.move .pause h1.1 h1.2 hon) a h1.1 h1.2 h

/-! ### Restrictions -/

theorem firstOp_none {n : Nat} {p : Nat → Bool} :
    Obj.firstOp n p = none ↔ ∀ i, 1 ≤ i → i ≤ n → p i = false := by
  unfold Obj.firstOp
  simp only [List.find?_eq_none, List.mem_map, List.mem_range]
  constructor
  · intro h i h1 h2
    have := h i ⟨i - 1, by omega, by omega⟩
    simpa using this
  · rintro h i ⟨j, hj, rfl⟩
    simp [h (j + 1) (by omega) (by omega)]

theorem search_none {cs : List Cfg} {p : Plant} {k m l i : Nat} {ck cl : Cfg} {ol : Obj}
    (h : search cs p k m = none) (hl1 : 1 ≤ l) (hcl : cs[l - 1]? = some cl) (hol : p[l - 1]? = some ol)
    (hck : cs[k - 1]? = some ck) (hf : ck.foreign m l i = true) : ol.getMode cl i ≠ 1 := by
  unfold search at h
  rw [List.findSome?_eq_none_iff] at h
  have hlen : l - 1 < p.length := by
    rw [List.getElem?_eq_some_iff] at hol
    exact hol.1
  have := h l (List.mem_map.mpr ⟨l - 1, List.mem_range.mpr hlen, by omega⟩)
  rw [hcl, hol] at this
  simp only [hck, Option.map_some, Option.getD_some] at this
  intro hone
  have hv := (getMode_one cl ol i).mp hone
  have := firstOp_none.mp this i hv.1 hv.2.1
  simp [hf, hone] at this

theorem checkOn_zero {c : Cfg} {a : Ans} {ext : Option Nat} {m : Nat} {o : Obj}
    (hr : a.restrOn = true) (h : o.checkOn c a ext m = 0) :
    (∀ i, 1 ≤ i → i ≤ c.n → c.own m i = true → o.getMode c i ≠ 1) ∧ ext = none := by
  unfold Obj.checkOn at h
  simp only [hr, if_true] at h
  split at h
  · omega
  · rename_i hn
    split at h
    · omega
    · refine ⟨fun i h1 h2 ho hone => ?_, rfl⟩
      have := firstOp_none.mp hn i h1 h2
      simp [ho, hone] at this

/-- The invariant of all objects. -/
def PlantOk (cs : List Cfg) (p : Plant) : Prop :=
  p.length = cs.length ∧ ∀ (k : Nat) (c : Cfg) (o : Obj), cs[k]? = some c → p[k]? = some o → Ok c o

theorem plantOk_fresh (cs : List Cfg) : PlantOk cs (Plant.fresh cs) := by
  refine ⟨by simp [Plant.fresh], ?_⟩
  intro k c o hc ho
  simp only [Plant.fresh, List.getElem?_map, hc, Option.map_some, Option.some.injEq] at ho
  rw [← ho]; exact ok_fresh c

theorem PlantOk.set {cs : List Cfg} {p : Plant} (h : PlantOk cs p) {k : Nat} {c : Cfg} {o : Obj}
    (hc : cs[k]? = some c) (ho : Ok c o) : PlantOk cs (p.set k o) := by
  refine ⟨by simp [h.1], ?_⟩
  intro k' c' o' hc' ho'
  rw [List.getElem?_set] at ho'
  split at ho'
  · rename_i hk
    subst hk
    split at ho'
    · simp only [Option.some.injEq] at ho'
      rw [hc] at hc'
      simp only [Option.some.injEq] at hc'
      rw [← ho', ← hc']; exact ho
    · cases ho'
  · exact h.2 k' c' o' hc' ho'

theorem PlantOk.step {cs : List Cfg} {p : Plant} (h : PlantOk cs p) (e : Ev) :
    PlantOk cs (p.step cs e) := by
  cases e with
  | mode k m newm a =>
    simp only [Plant.step, Plant.setMode]
    split
    · rename_i c o hc ho
      exact h.set hc ((h.2 _ _ _ hc ho).setMode a _ m newm)
    · exact h
  | fail k m a =>
    simp only [Plant.step, Plant.failPause]
    split
    · rename_i c o hc ho
      exact h.set hc ((h.2 _ _ _ hc ho).failPause a m)
    · exact h

theorem modeOf_set {cs : List Cfg} {p : Plant} {k : Nat} {c : Cfg} {o o' : Obj}
    (hc : cs[k - 1]? = some c) (ho : p[k - 1]? = some o) (l i : Nat) :
    modeOf cs (p.set (k - 1) o') l i =
      if l - 1 = k - 1 then o'.getMode c i else modeOf cs p l i := by
  unfold modeOf
  rw [List.getElem?_set]
  have hlen : k - 1 < p.length := by
    rw [List.getElem?_eq_some_iff] at ho
    exact ho.1
  by_cases hlk : k - 1 = l - 1
  · rw [if_pos hlk, if_pos hlen, if_pos hlk.symm, ← hlk, hc]
  · rw [if_neg hlk, if_neg (Ne.symm hlk)]

/-- In a project the only operation that can come on is the addressed one, and, if restrictions are
enabled and it is not a pause or stop command, nothing that forbids it is on. -/
theorem step_comes_on {cs : List Cfg} {p : Plant} (hok : PlantOk cs p) (k m : Nat) (newm : Int)
    (a : Ans) {l i : Nat} (hk1 : 1 ≤ k) (hl1 : 1 ≤ l)
    (h : modeOf cs (p.step cs (.mode k m newm a)) l i = 1) :
    modeOf cs p l i = 1 ∨ (l = k ∧ i = m ∧ (newm = 2 ∨ newm = 3 ∨ (a.restrOn = true →
      ∀ l' i', 1 ≤ l' → forbids cs l' i' k m = true → modeOf cs p l' i' ≠ 1))) := by
  simp only [Plant.step, Plant.setMode] at h
  split at h
  · rename_i c o hc ho
    rw [modeOf_set hc ho] at h
    by_cases hlk : l - 1 = k - 1
    · rw [if_pos hlk] at h
      have hko := hok.2 _ _ _ hc ho
      have hv := (getMode_one _ _ _).mp h
      have hl : l = k := by omega
      rcases setMode_comes_on hko a _ m newm hv.2.2 with hb | ⟨h1, h2, hj, hcase⟩
      · left
        unfold modeOf
        rw [hlk, hc, ho]
        exact (getMode_one _ _ _).mpr ⟨hv.1, hv.2.1, hb⟩
      · refine .inr ⟨hl, by omega, ?_⟩
        rcases hcase with hcase | hcase | hcase
        · exact .inl hcase
        · exact .inr (.inl hcase)
        · refine .inr (.inr fun hr l' i' hl' hf => ?_)
          have hz := checkOn_zero hr hcase
          unfold forbids at hf
          rw [hc] at hf
          simp only [Bool.or_eq_true, Bool.and_eq_true, decide_eq_true_eq] at hf
          intro hone
          unfold modeOf at hone
          rcases hf with ⟨hlk', hown⟩ | hfor
          · rw [hlk', hc, ho] at hone
            have hv' := (getMode_one _ _ _).mp hone
            exact hz.1 i' hv'.1 hv'.2.1 hown hone
          · split at hone
            · rename_i cl ol hcl hol
              exact search_none hz.2 hl' hcl hol hc hfor hone
            · cases hone
    · rw [if_neg hlk] at h; exact .inl h
  · exact .inl h

theorem step_fail_comes_on {cs : List Cfg} {p : Plant} (hok : PlantOk cs p) (k m : Nat)
    (a : Ans) {l i : Nat} (h : modeOf cs (p.step cs (.fail k m a)) l i = 1) :
    modeOf cs p l i = 1 := by
  simp only [Plant.step, Plant.failPause] at h
  split at h
  · rename_i c o hc ho
    rw [modeOf_set hc ho] at h
    by_cases hlk : l - 1 = k - 1
    · rw [if_pos hlk] at h
      have hv := (getMode_one _ _ _).mp h
      unfold modeOf
      rw [hlk, hc, ho]
      exact (getMode_one _ _ _).mpr ⟨hv.1, hv.2.1,
        failPause_comes_on (hok.2 _ _ _ hc ho) a m hv.2.2⟩
    · rw [if_neg hlk] at h; exact h
  · exact h

/-! ### Counting -/

theorem countP_update {L : List Nat} (hL : L.Nodup) {m : Nat} (hm : m ∈ L) {p q : Nat → Bool}
    (hp : p m = false) (hq : ∀ j, j ≠ m → q j = p j) :
    L.countP q = L.countP p + (q m).toNat := by
  induction L with
  | nil => cases hm
  | cons x L ih =>
    rw [List.nodup_cons] at hL
    rw [List.countP_cons, List.countP_cons]
    by_cases hx : x = m
    · subst hx
      have : L.countP q = L.countP p := by
        apply List.countP_congr
        intro j hj
        rw [hq j (fun e => hL.1 (e ▸ hj))]
      rw [this, hp]
      cases q x <;> simp
    · rw [hq x hx]
      have hmL : m ∈ L := by
        rcases List.mem_cons.mp hm with h | h
        · exact absurd h.symm hx
        · exact h
      rw [ih hL.2 hmL]
      omega

theorem filter_single {L : List Nat} (hL : L.Nodup) {m : Nat} (hm : m ∈ L) {p : Nat → Bool}
    (hp : p m = true) (hq : ∀ j ∈ L, j ≠ m → p j = false) : L.filter p = [m] := by
  induction L with
  | nil => cases hm
  | cons x L ih =>
    rw [List.nodup_cons] at hL
    by_cases hx : x = m
    · subst hx
      rw [List.filter_cons_of_pos hp]
      congr 1
      rw [List.filter_eq_nil_iff]
      intro j hj
      rw [hq j (List.mem_cons_of_mem _ hj) (fun e => hL.1 (e ▸ hj))]
      simp
    · have hmL : m ∈ L := by
        rcases List.mem_cons.mp hm with h | h
        · exact absurd h.symm hx
        · exact h
      rw [List.filter_cons_of_neg (by rw [hq x List.mem_cons_self hx]; simp)]
      exact ih hL.2 hmL fun j hj => hq j (List.mem_cons_of_mem _ hj)

/-- The numbers of the operations. -/
def allOps (c : Cfg) : List Nat := (List.range c.n).map (· + 1)

theorem allOps_nodup (c : Cfg) : (allOps c).Nodup := by
  unfold allOps
  refine List.Pairwise.map _ ?_ (List.nodup_range (n := c.n))
  intro a b h e; apply h; omega

theorem mem_allOps {c : Cfg} {m : Nat} : m ∈ allOps c ↔ 1 ≤ m ∧ m ≤ c.n := by
  unfold allOps
  simp only [List.mem_map, List.mem_range]
  constructor
  · rintro ⟨j, hj, rfl⟩; omega
  · rintro ⟨h1, h2⟩; exact ⟨m - 1, by omega, by omega⟩

/-- The counters show the forbidding operations and the successor restrictions of `f`. -/
def AvailInv (c : Cfg) (o : Obj) (f : List Nat) : Prop :=
  ∀ i, i < c.n → o.avail[i]? = some (BitVec.ofNat 32
    (blockers c o (i + 1) + f.countP fun x => c.succ x (i + 1)))

theorem blockers_congr {c : Cfg} {o o' : Obj} (h : o.words = o'.words) (i : Nat) :
    blockers c o i = blockers c o' i := by
  unfold blockers Obj.getMode
  rw [h]

theorem AvailInv.congr {c : Cfg} {o o' : Obj} {f : List Nat} (h : AvailInv c o f)
    (hw : o.words = o'.words) (ha : o.avail = o'.avail) : AvailInv c o' f := by
  intro i hi
  rw [← ha, ← blockers_congr hw]
  exact h i hi

theorem getMode_setBit {c : Cfg} {o o' : Obj} (hok : Ok c o) {m : Nat} (h1 : 1 ≤ m) (h2 : m ≤ c.n)
    (hw : o'.words = setBit o.words (m - 1)) (j : Nat) :
    o'.getMode c j = if j = m then 1 else o.getMode c j := by
  have hlt : (m - 1) / 32 < o.words.length := by rw [hok.words]; exact idx_lt (by omega)
  by_cases hj : 1 ≤ j ∧ j ≤ c.n
  · rw [getMode_eq _ _ _ hj.1 hj.2, getMode_eq _ _ _ hj.1 hj.2, hw, isOn_setBit _ _ _ hlt]
    by_cases hjm : j = m
    · simp [hjm]
    · have : j - 1 ≠ m - 1 := by omega
      simp [hjm, this]
  · have hjm : j ≠ m := by omega
    rw [if_neg hjm]
    unfold Obj.getMode
    rw [if_pos (by omega), if_pos (by omega)]

theorem getMode_clearBit {c : Cfg} {o o' : Obj} (hok : Ok c o) {m : Nat} (h1 : 1 ≤ m) (h2 : m ≤ c.n)
    (hw : o'.words = clearBit o.words (m - 1)) (j : Nat) :
    o'.getMode c j = if j = m then 0 else o.getMode c j := by
  have hlt : (m - 1) / 32 < o.words.length := by rw [hok.words]; exact idx_lt (by omega)
  by_cases hj : 1 ≤ j ∧ j ≤ c.n
  · rw [getMode_eq _ _ _ hj.1 hj.2, getMode_eq _ _ _ hj.1 hj.2, hw, isOn_clearBit _ _ _ hlt]
    by_cases hjm : j = m
    · simp [hjm]
    · have : j - 1 ≠ m - 1 := by omega
      simp [hjm, this]
  · have hjm : j ≠ m := by omega
    rw [if_neg hjm]
    unfold Obj.getMode
    rw [if_pos (by omega), if_pos (by omega)]

theorem ofNat_sub_one (x k : Nat) (h : x = k + 1) :
    BitVec.ofNat 32 x - 1 = BitVec.ofNat 32 k := by
  subst h
  apply BitVec.eq_of_toNat_eq
  simp only [BitVec.toNat_sub, BitVec.toNat_ofNat, BitVec.ofNat_eq_ofNat]
  omega

theorem ofNat_add_one (x k : Nat) (h : k = x + 1) :
    BitVec.ofNat 32 x + 1 = BitVec.ofNat 32 k := by
  subst h
  apply BitVec.eq_of_toNat_eq
  simp only [BitVec.toNat_add, BitVec.toNat_ofNat, BitVec.ofNat_eq_ofNat]
  omega

/-- Contribution of operation `m` to the count of operation `i`. -/
def contrib (c : Cfg) (i m : Nat) : Bool := decide (m ≠ i) && c.own i m

theorem blockers_on {c : Cfg} {o o' : Obj} (hok : Ok c o) {m : Nat} (h1 : 1 ≤ m) (h2 : m ≤ c.n)
    (hw : o'.words = setBit o.words (m - 1)) (hoff : o.getMode c m = 0) (i : Nat) :
    blockers c o' i = blockers c o i + (contrib c i m).toNat := by
  unfold blockers
  have := countP_update (allOps_nodup c) (mem_allOps.mpr ⟨h1, h2⟩)
    (p := fun j => decide (j ≠ i) && c.own i j && decide (o.getMode c j = 1))
    (q := fun j => decide (j ≠ i) && c.own i j && decide (o'.getMode c j = 1))
    (by simp [hoff]) (fun j hj => by rw [getMode_setBit hok h1 h2 hw, if_neg hj])
  unfold allOps at this
  rw [this, getMode_setBit hok h1 h2 hw, if_pos rfl]
  simp [contrib]

theorem blockers_off {c : Cfg} {o o' : Obj} (hok : Ok c o) {m : Nat} (h1 : 1 ≤ m) (h2 : m ≤ c.n)
    (hw : o'.words = clearBit o.words (m - 1)) (hon : o.getMode c m = 1) (i : Nat) :
    blockers c o i = blockers c o' i + (contrib c i m).toNat := by
  unfold blockers
  have := countP_update (allOps_nodup c) (mem_allOps.mpr ⟨h1, h2⟩)
    (q := fun j => decide (j ≠ i) && c.own i j && decide (o.getMode c j = 1))
    (p := fun j => decide (j ≠ i) && c.own i j && decide (o'.getMode c j = 1))
    (by rw [getMode_clearBit hok h1 h2 hw, if_pos rfl]; simp)
    (fun j hj => by rw [getMode_clearBit hok h1 h2 hw, if_neg hj])
  unfold allOps at this
  rw [this, hon]
  simp [contrib]

theorem checkAvail_get (c : Cfg) (j : Nat) (a : List (BitVec 32)) (i : Nat) (x : Nat)
    (h : a[i]? = some (BitVec.ofNat 32 x)) :
    (Obj.checkAvail c j a)[i]? = some (BitVec.ofNat 32 (x + (contrib c (i + 1) j).toNat)) := by
  unfold Obj.checkAvail contrib
  rw [List.getElem?_mapIdx, h]
  simp only [Option.map_some, Option.some.injEq]
  by_cases hc : i + 1 ≠ j ∧ c.own (i + 1) j = true
  · rw [if_pos hc]
    have hne : j ≠ i + 1 := Ne.symm hc.1
    simp only [hne, ne_eq, not_false_eq_true, decide_true, hc.2, Bool.and_self, Bool.toNat_true]
    exact ofNat_add_one _ _ rfl
  · rw [if_neg hc]
    have : (decide (j ≠ i + 1) && c.own (i + 1) j) = false := by
      by_cases hj : j = i + 1
      · simp [hj]
      · cases ho : c.own (i + 1) j
        · simp
        · exact absurd ⟨Ne.symm hj, ho⟩ hc
    rw [this]; rfl

theorem foldAvail_get (c : Cfg) (o : Obj) (i : Nat) (l : List Nat) :
    ∀ (a : List (BitVec 32)) (x : Nat), a[i]? = some (BitVec.ofNat 32 x) →
    (l.foldl (fun a i => if o.getMode c i = 1 then Obj.checkAvail c i a else a) a)[i]? =
      some (BitVec.ofNat 32 (x + l.countP fun j => decide (j ≠ i + 1) && c.own (i + 1) j &&
        decide (o.getMode c j = 1))) := by
  induction l with
  | nil => intro a x h; simpa using h
  | cons y l ih =>
    intro a x h
    rw [List.foldl_cons, List.countP_cons]
    by_cases hy : o.getMode c y = 1
    · rw [if_pos hy, ih _ _ (checkAvail_get c y a i x h)]
      simp only [hy, decide_true, Bool.and_true]
      unfold contrib
      congr 2
      cases (decide (y ≠ i + 1) && c.own (i + 1) y) <;> simp <;> omega
    · rw [if_neg hy, ih _ _ h]
      simp [hy]

theorem AvailInv.switchOn {c : Cfg} {o : Obj} (hok : Ok c o) {m : Nat} (h1 : 1 ≤ m) (h2 : m ≤ c.n)
    (hoff : o.getMode c m = 0) :
    AvailInv c { (o.move c .start m).initMode c m with
      words := setBit ((o.move c .start m).initMode c m).words (m - 1) } [] := by
  intro i hi
  rw [blockers_on hok h1 h2 (o := o) rfl hoff]
  show ((o.move c .start m).initMode c m).avail[i]? = _
  unfold Obj.initMode
  simp only [List.countP_nil, Nat.add_zero]
  apply checkAvail_get
  have h0 : (o.avail.map fun _ => 0#32)[i]? = some (BitVec.ofNat 32 0) := by
    have : i < o.avail.length := by rw [hok.avail]; exact hi
    simp [List.getElem?_eq_getElem this]
  have := foldAvail_get c (o.move c .start m) i ((List.range c.n).map (· + 1)) _ 0 h0
  have e : (o.move c .start m).avail = o.avail := rfl
  rw [e, this, Nat.zero_add]
  rfl

theorem AvailInv.switchOff {c : Cfg} {o : Obj} {f : List Nat} (hok : Ok c o) (h : AvailInv c o f)
    {m : Nat} (h1 : 1 ≤ m) (h2 : m ≤ c.n) (hon : o.getMode c m = 1) :
    AvailInv c (o.switchOff c m) (f ++ [m]) := by
  intro i hi
  have hb := blockers_off hok h1 h2 (o' := o.switchOff c m) rfl hon (i + 1)
  have hx := h i hi
  simp only [Obj.switchOff, Obj.finalMode, Obj.move]
  rw [List.getElem?_mapIdx, List.getElem?_mapIdx, hx]
  simp only [Option.map_some, Option.some.injEq, List.countP_append, List.countP_singleton]
  generalize hB : blockers c (o.switchOff c m) (i + 1) = B at hb
  have hB' : blockers c (Obj.switchOff c m o) (i + 1) = B := hB
  simp only [Obj.switchOff, Obj.finalMode, Obj.move] at hB'
  rw [hB', hb]
  generalize (f.countP fun x => c.succ x (i + 1)) = F
  have hsub : (if i + 1 ≠ m ∧ c.own (i + 1) m = true
      then BitVec.ofNat 32 (B + (contrib c (i + 1) m).toNat + F) - 1
      else BitVec.ofNat 32 (B + (contrib c (i + 1) m).toNat + F)) = BitVec.ofNat 32 (B + F) := by
    by_cases hc : i + 1 ≠ m ∧ c.own (i + 1) m = true
    · rw [if_pos hc]
      have hne : m ≠ i + 1 := Ne.symm hc.1
      have : contrib c (i + 1) m = true := by simp [contrib, hne, hc.2]
      rw [this]
      exact ofNat_sub_one _ _ (by simp only [Bool.toNat_true]; omega)
    · rw [if_neg hc]
      have : contrib c (i + 1) m = false := by
        unfold contrib
        by_cases hj : m = i + 1
        · simp [hj]
        · cases ho : c.own (i + 1) m
          · simp
          · exact absurd ⟨Ne.symm hj, ho⟩ hc
      rw [this]; rfl
  rw [hsub]
  cases hs : c.succ m (i + 1)
  · simp
  · simp only [if_true]
    exact ofNat_add_one _ _ (by omega)

theorem availInv_fresh (c : Cfg) : AvailInv c (Obj.fresh c) [] := by
  intro i hi
  have : blockers c (Obj.fresh c) (i + 1) = 0 := by
    unfold blockers
    rw [List.countP_eq_zero]
    intro j hj
    have h := (mem_allOps (c := c)).mp hj
    have : (Obj.fresh c).getMode c j = 0 := by
      rw [getMode_eq _ _ _ h.1 h.2]
      simp only [isOn, Obj.fresh, List.getD_eq_getElem?_getD, List.getElem?_replicate]
      split <;> simp
    simp [this]
  rw [this]
  simp [Obj.fresh, hi]

/-! ### The list of finished operations -/

theorem finished_same {c : Cfg} {o o' : Obj} (h : ∀ j, o'.getMode c j = o.getMode c j)
    (f : List Nat) : finished c o o' f = f := by
  unfold finished
  simp only [h]
  rw [if_neg]
  · rw [List.filter_eq_nil_iff.mpr, List.append_nil]
    intro j _
    simp only [decide_eq_true_eq]
    omega
  · simp only [Bool.not_eq_true, List.any_eq_false, decide_eq_true_eq]
    intro j _
    omega

theorem finished_on {c : Cfg} {o o' : Obj} {m : Nat} (h1 : 1 ≤ m) (h2 : m ≤ c.n)
    (hoff : o.getMode c m = 0) (hon : o'.getMode c m = 1) (f : List Nat) :
    finished c o o' f = [] := by
  unfold finished
  rw [if_pos]
  rw [List.any_eq_true]
  exact ⟨m, mem_allOps.mpr ⟨h1, h2⟩, by simp [hoff, hon]⟩

theorem finished_off {c : Cfg} {o o' : Obj} {m : Nat} (h1 : 1 ≤ m) (h2 : m ≤ c.n)
    (hon : o.getMode c m = 1) (h : ∀ j, o'.getMode c j = if j = m then 0 else o.getMode c j)
    (f : List Nat) : finished c o o' f = f ++ [m] := by
  unfold finished
  rw [if_neg]
  · show f ++ (allOps c).filter _ = _
    rw [filter_single (allOps_nodup c) (mem_allOps.mpr ⟨h1, h2⟩)]
    · simp [hon, h]
    · intro j _ hj
      rw [h j, if_neg hj]
      simp only [decide_eq_false_iff_not]
      omega
  · simp only [Bool.not_eq_true, List.any_eq_false, decide_eq_true_eq]
    intro j _
    rw [h j]
    split <;> omega

/-- What happens to words and counters in a proper event. -/
theorem step_shape {c : Cfg} {o : Obj} (hok : Ok c o) (e : OEv)
    (hp : ∀ m newm a ext, e = .mode m newm a ext → (newm = 2 ∨ newm = 3) → o.getMode c m = 1) :
    ((o.step c e).words = o.words ∧ (o.step c e).avail = o.avail) ∨
    (∃ m o1, 1 ≤ m ∧ m ≤ c.n ∧ o.getMode c m = 1 ∧ Ok c o1 ∧ o1.words = o.words ∧
      o1.avail = o.avail ∧ o.step c e = o1.switchOff c m) ∨
    (∃ m, 1 ≤ m ∧ m ≤ c.n ∧ o.getMode c m = 0 ∧ o.step c e =
      { (o.move c .start m).initMode c m with
        words := setBit ((o.move c .start m).initMode c m).words (m - 1) }) := by
  have hnest : ∀ (a : Ans) (m : Nat) (k : Cmd), 1 ≤ m → m ≤ c.n → o.getMode c m = 1 →
      ∀ o2, o2 = Obj.nested c a m o (o.move c k m) →
      ((o2.words = o.words ∧ o2.avail = o.avail) ∨
      (∃ m o1, 1 ≤ m ∧ m ≤ c.n ∧ o.getMode c m = 1 ∧ Ok c o1 ∧ o1.words = o.words ∧
        o1.avail = o.avail ∧ o2 = o1.switchOff c m)) := by
    intro a m k h1 h2 hon o2 ho2
    have hb := ((getMode_one c o m).mp hon).2.2
    subst ho2
    unfold Obj.nested
    split
    · exact .inr ⟨m, o.move c k m, h1, h2, hon, hok.move k h1 h2 hb, rfl, rfl, rfl⟩
    · exact .inl ⟨rfl, rfl⟩
  cases e with
  | mode m newm a ext =>
    simp only [Obj.step]
    rcases setMode_cases c a ext m newm o with e | ⟨h1, h2, ⟨hn, e⟩ | ⟨hn, e⟩ | ⟨_, _, hon, e⟩ |
      ⟨_, hon, e⟩ | ⟨_, _, _, hoff, _, e⟩⟩
    · rw [e]; exact .inl ⟨rfl, rfl⟩
    · have hm := hp m newm a ext rfl (.inl hn)
      have hon := ((getMode_one c o m).mp hm).2.2
      rw [setBit_same hok h1 h2 hon] at e
      rcases hnest a m .pause h1 h2 hm _ e with h | h
      · exact .inl h
      · exact .inr (.inl h)
    · have hm := hp m newm a ext rfl (.inr hn)
      have hon := ((getMode_one c o m).mp hm).2.2
      rw [setBit_same hok h1 h2 hon] at e
      rcases hnest a m .stop h1 h2 hm _ e with h | h
      · exact .inl h
      · exact .inr (.inl h)
    · have hm := (getMode_one c o m).mpr ⟨h1, h2, hon⟩
      rcases hnest a m .start h1 h2 hm _ e with h | h
      · exact .inl h
      · exact .inr (.inl h)
    · exact .inr (.inl ⟨m, o, h1, h2, (getMode_one c o m).mpr ⟨h1, h2, hon⟩, hok, rfl, rfl, e⟩)
    · refine .inr (.inr ⟨m, h1, h2, ?_, e⟩)
      rw [getMode_eq _ _ _ h1 h2, hoff]; rfl
  | fail m a =>
    simp only [Obj.step]
    by_cases hn : m = 0 ∨ m > c.n ∨ o.opState c m ≠ .run
    · have : o.failPause c a m = o := by unfold Obj.failPause; rw [if_pos hn]
      rw [this]; exact .inl ⟨rfl, rfl⟩
    · have h1 : 1 ≤ m ∧ m ≤ c.n := by
        constructor <;> (apply Classical.byContradiction; intro hc; apply hn; omega)
      have hr : o.opState c m = .run := by
        apply Classical.byContradiction; intro hc; apply hn; exact .inr (.inr hc)
      have hon : isOn o.words (m - 1) = true := by
        refine hok.run (m - 1) (by omega) ?_
        unfold Obj.opState at hr
        rw [if_neg (by omega)] at hr
        rw [hr]; simp
      have e : o.failPause c a m = Obj.nested c a m o (o.move c .pause m) := by
        unfold Obj.failPause; rw [if_neg hn]
      rcases hnest a m .pause h1.1 h1.2 ((getMode_one c o m).mpr ⟨h1.1, h1.2, hon⟩) _ e with h | h
      · exact .inl h
      · exact .inr (.inl h)

/-- The finished operations are off and distinct. -/
def FinInv (c : Cfg) (o : Obj) (f : List Nat) : Prop :=
  f.Nodup ∧ ∀ m ∈ f, 1 ≤ m ∧ m ≤ c.n ∧ o.getMode c m = 0

theorem getMode_congr {c : Cfg} {o o' : Obj} (h : o'.words = o.words) (j : Nat) :
    o'.getMode c j = o.getMode c j := by
  unfold Obj.getMode; rw [h]

theorem avail_step {c : Cfg} {o : Obj} {f : List Nat} (hok : Ok c o) (h : AvailInv c o f)
    (hf : FinInv c o f) (e : OEv)
    (hp : ∀ m newm a ext, e = .mode m newm a ext → (newm = 2 ∨ newm = 3) → o.getMode c m = 1) :
    AvailInv c (o.step c e) (finished c o (o.step c e) f) ∧
      FinInv c (o.step c e) (finished c o (o.step c e) f) := by
  rcases step_shape hok e hp with ⟨hw, ha⟩ | ⟨m, o1, h1, h2, hon, hok1, hw, ha, he⟩ |
    ⟨m, h1, h2, hoff, he⟩
  · rw [finished_same (getMode_congr hw)]
    refine ⟨h.congr hw.symm ha.symm, hf.1, fun m hm => ?_⟩
    rw [getMode_congr hw]; exact hf.2 m hm
  · rw [he]
    have hon1 : o1.getMode c m = 1 := by rw [getMode_congr hw]; exact hon
    have hm : ∀ j, (o1.switchOff c m).getMode c j = if j = m then 0 else o.getMode c j := by
      intro j
      rw [getMode_clearBit hok1 h1 h2 rfl, getMode_congr hw]
    rw [finished_off h1 h2 hon hm]
    refine ⟨(h.congr hw.symm ha.symm).switchOff hok1 h1 h2 hon1, ?_, ?_⟩
    · rw [List.nodup_append]
      refine ⟨hf.1, by simp, ?_⟩
      intro x hx y hy hxy
      simp only [List.mem_singleton] at hy
      have := (hf.2 x hx).2.2
      rw [hxy, hy, hon] at this
      cases this
    · intro x hx
      rw [hm x]
      rcases List.mem_append.mp hx with hx | hx
      · have := hf.2 x hx
        refine ⟨this.1, this.2.1, ?_⟩
        split
        · rfl
        · exact this.2.2
      · simp only [List.mem_singleton] at hx
        subst hx
        exact ⟨h1, h2, by simp⟩
  · rw [he]
    rw [finished_on h1 h2 hoff (by rw [getMode_setBit hok h1 h2 rfl, if_pos rfl])]
    refine ⟨AvailInv.switchOn hok h1 h2 hoff, by simp, by simp⟩

theorem avail_run {c : Cfg} (es : List OEv) : ∀ {o : Obj} {f : List Nat}, Ok c o → AvailInv c o f →
    FinInv c o f → Proper c o es →
    AvailInv c (o.run c es) (finishedRun c o es f) ∧ FinInv c (o.run c es) (finishedRun c o es f) := by
  induction es with
  | nil => intro o f _ h hf _; exact ⟨h, hf⟩
  | cons e es ih =>
    intro o f hok h hf hp
    have hs := avail_step hok h hf e (by
      intro m newm a ext he hn
      subst he
      exact hp.1 hn)
    exact ih (hok.step e) hs.1 hs.2 hp.2

/-! ### Numeric commands -/

/-- `decode` of a non-zero number after the conversion to unsigned. -/
def decodeN (count n : Nat) : Action :=
  if n ≥ 200000 ∧ n < 300000 then .extra (n / 100 - 2000) (n % 100) true
  else if n ≥ 300000 ∧ n < 400000 then .extra (n / 100 - 3000) (n % 100) false
  else if n ≥ 1000 ∧ n < 2000 then
    if n - 1000 > count + 1 then .user (n - 1000) else .mode (n - 1000) 1
  else if n ≥ 2000 ∧ n < 3000 then
    if n - 2000 > count + 1 then .user (n - 2000) else .mode (n - 2000) 0
  else if n ≥ 100000 ∧ n < 200000 then .state (n / 100 - 1000) (n % 100)
  else .reject

theorem decode_eq (count : Nat) (v : Int) :
    decode count false v = decodeN count (BitVec.ofInt 32 v).toNat := by
  unfold decode
  rw [if_neg (by simp)]
  rfl

theorem decode_nat (count n : Nat) (h : n < 2 ^ 31) :
    decode count false (n : Int) = decodeN count n := by
  rw [decode_eq]
  congr 1
  rw [BitVec.toNat_ofInt]
  omega

theorem decodeN_inv (count x : Nat) :
    match decodeN count x with
    | .mode op s => x = (if s = 1 then 1000 else 2000) + op
    | .state op s => x = 100000 + 100 * op + s
    | .extra op st true => x = 200000 + 100 * op + st
    | .extra op st false => x = 300000 + 100 * op + st
    | .clear => False
    | .user _ => True
    | .reject => True := by
  unfold decodeN
  by_cases h1 : x ≥ 200000 ∧ x < 300000
  · rw [if_pos h1]; simp only; omega
  rw [if_neg h1]
  by_cases h2 : x ≥ 300000 ∧ x < 400000
  · rw [if_pos h2]; simp only; omega
  rw [if_neg h2]
  by_cases h3 : x ≥ 1000 ∧ x < 2000
  · rw [if_pos h3]
    generalize hy : x - 1000 = y
    by_cases h : y > count + 1
    · simp only [h, if_true]
    · simp only [h, if_false, if_true]; omega
  rw [if_neg h3]
  by_cases h4 : x ≥ 2000 ∧ x < 3000
  · rw [if_pos h4]
    generalize hy : x - 2000 = y
    by_cases h : y > count + 1
    · simp only [h, if_true]
    · simp only [h, Nat.zero_ne_one, if_false]; omega
  rw [if_neg h4]
  by_cases h5 : x ≥ 100000 ∧ x < 200000
  · rw [if_pos h5]; simp only; omega
  · rw [if_neg h5]; trivial

/-! ### Reasons -/

theorem refusal_off_kind (c : Cfg) (a : Ans) (ext : Option Nat) (m : Nat) (newm : Int)
    (on : Nat → Bool) (run : Bool) (x : Int)
    (h : refusal c a ext m newm on run = some (.offCheck x)) : newm = 0 := by
  apply Classical.byContradiction
  intro hz
  unfold refusal at h
  by_cases h0 : m = 0
  · simp [h0] at h
  by_cases hn : c.n < m
  · simp [h0, hn] at h
  simp only [h0, hn, if_false] at h
  by_cases h2 : newm = 2
  · simp only [h2, if_true] at h; split at h <;> simp at h
  by_cases h3 : newm = 3
  · subst h3; simp at h
  simp only [h2, h3, hz, if_false] at h
  cases hon : on m
  · simp only [hon, Bool.false_eq_true, if_false] at h
    by_cases hd : a.devErr = true ∧ a.checkMode = 1
    · simp [hd] at h
    simp only [hd, if_false] at h
    have rest : (if a.runChk ≠ 0 then some (Reason.stepsCheck a.runChk)
        else if a.luaOn ≠ 0 then some (Reason.userCheck a.luaOn) else none) ≠
          some (Reason.offCheck x) := by
      split
      · simp
      · split <;> simp
    split at h
    · split at h
      · simp at h
      · split at h
        · simp at h
        · exact rest h
    · exact rest h
  · simp only [hon, if_true] at h
    split at h
    · simp at h
    · split at h <;> simp at h

theorem refusal_user_kind (c : Cfg) (a : Ans) (ext : Option Nat) (m : Nat) (newm : Int)
    (on : Nat → Bool) (run : Bool) (x : Int)
    (h : refusal c a ext m newm on run = some (.userCheck x)) : newm ≠ 0 := by
  intro hz
  subst hz
  unfold refusal at h
  by_cases h0 : m = 0
  · simp [h0] at h
  by_cases hn : c.n < m
  · simp [h0, hn] at h
  simp only [h0, hn, if_false] at h
  rw [if_neg (by decide), if_neg (by decide), if_pos trivial] at h
  split at h
  · split at h <;> simp at h
  · simp at h

end Ptusa.TechObj
