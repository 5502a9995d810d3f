import Verif.Mem.Lemmas
import Verif.Params.Spec

namespace Ptusa.Params
open Ptusa.Mem

theorem decode_encode (v : Val) :
    decode (v.extractLsb' 0 8) (v.extractLsb' 8 8) (v.extractLsb' 16 8) (v.extractLsb' 24 8) = v := by
  unfold decode
  apply BitVec.eq_of_getLsbD_eq
  intro i hi
  simp only [BitVec.getLsbD_append, BitVec.getLsbD_extractLsb']
  split
  · simp_all
  · split
    · have : 8 + (i - 8) = i := by omega
      simp_all
    · split
      · have : 16 + (i - 8 - 8) = i := by omega
        simp_all
      · have : 24 + (i - 8 - 8 - 8) = i := by omega
        have : i - 8 - 8 - 8 < 8 := by omega
        simp_all

theorem encode_length (v : Val) : (encode v).length = 4 := rfl

theorem getWord_put_same (m : Nat → Byte) (p : Nat) (v : Val) :
    getWord (Disk.put m p (encode v)) p = v := by
  unfold getWord
  have h0 := Disk.put_in m p (encode v) 0 (by rw [encode_length]; decide)
  have h1 := Disk.put_in m p (encode v) 1 (by rw [encode_length]; decide)
  have h2 := Disk.put_in m p (encode v) 2 (by rw [encode_length]; decide)
  have h3 := Disk.put_in m p (encode v) 3 (by rw [encode_length]; decide)
  rw [Nat.add_zero] at h0
  rw [h0, h1, h2, h3]
  exact decode_encode v

theorem getWord_congr {m m' : Nat → Byte} {p p' : Nat}
    (h : ∀ j, j < 4 → m (p + j) = m' (p' + j)) : getWord m p = getWord m' p' := by
  unfold getWord
  have h0 := h 0 (by decide)
  rw [Nat.add_zero, Nat.add_zero] at h0
  rw [h0, h 1 (by decide), h 2 (by decide), h 3 (by decide)]

theorem getWord_put_other (m : Nat → Byte) (p q : Nat) (v : Val) (h : q + 4 ≤ p ∨ p + 4 ≤ q) :
    getWord (Disk.put m p (encode v)) q = getWord m q := by
  apply getWord_congr
  intro j hj
  apply Disk.put_other
  rw [encode_length]
  omega

/-- Byte-wise effect of `params_manager::save` inside the area. -/
theorem saveBytes_apply (ram : Nat → Byte) (d : Disk) (st n : Word)
    (h : st.toNat + n.toNat ≤ 30720) (hn : n ≠ 0) (q : Nat) :
    saveBytes ram d st n q =
      if 64 + st.toNat ≤ q ∧ q < 64 + st.toNat + n.toNat then ram (q - 64) else d q := by
  unfold saveBytes
  rw [if_neg hn]
  have hok : paramsMem.ok n st = true := by
    simp [Range.ok, paramsMem, BitVec.lt_def]; omega
  have hs : seekPos .eeprom (paramsMem.start + st) = 64 + st.toNat := by
    simp [seekPos, paramsMem, Area.startPos]; omega
  simp only [Range.write, paramsMem] at *
  simp only [hok, if_true, hs]
  rw [List.take_of_length_le (by simp)]
  unfold Disk.put
  simp only [List.length_map, List.length_range, List.getElem_map, List.getElem_range]
  split
  · congr 1
    omega
  · rfl

/-- `save( start, 0 )` saves the whole array from position 0 ... -/
theorem saveBytes_all (ram : Nat → Byte) (d : Disk) (q : Nat) :
    saveBytes ram d 0 0 q = if 64 ≤ q ∧ q < 30784 then ram (q - 64) else d q := by
  have h := saveBytes_apply ram d 0 30720 (by decide) (by decide) q
  have e : saveBytes ram d 0 0 = saveBytes ram d 0 30720 := by
    simp [saveBytes, totalParams]
  rw [e, h]
  rfl

/-- ... and is refused anywhere else. -/
theorem saveBytes_zero (ram : Nat → Byte) (d : Disk) (st : Word) (h : 0 < st.toNat)
    (h2 : st.toNat ≤ 30720) : saveBytes ram d st 0 = d := by
  unfold saveBytes
  rw [if_pos rfl]
  have hok : paramsMem.ok (BitVec.ofNat 32 totalParams) st = false := by
    simp [Range.ok, paramsMem, BitVec.lt_def, totalParams]; omega
  generalize BitVec.ofNat 32 totalParams = n at hok
  show (Range.write paramsMem d _ n st).1 = d
  unfold Range.write
  rw [hok]
  rfl

theorem loadRam_apply (d : Disk) (p : Nat) :
    loadRam d p = if p < 30720 then d (64 + p) else 0 := by
  have e : paramsMem.read d 30720 0 = some (d.get 64 30720) := rfl
  unfold loadRam
  rw [e]
  simp only [Disk.get, List.length_map, List.length_range, List.getElem_map, List.getElem_range]
  split <;> rfl

theorem marker_eq (d : Disk) : marker d = getWord d 4 := by
  have e : crcMem.read d 4 lastIdxOffset = some [d 4, d 5, d 6, d 7] := rfl
  unfold marker
  rw [e]
  rfl

theorem mark_apply (d : Disk) (l : Word) :
    NvWrite.apply d (.mark l) = Disk.put d 4 (encode l) := rfl

/-! ## Layout -/

/-- All sets are windows of the array, in increasing order. -/
structure WF (sets : List PSet) : Prop where
  pool : ∀ (i : Nat) (s : PSet), sets[i]? = some s → ∃ st, s.place = .pool st ∧
    st.toNat + 4 * s.count.toNat ≤ 30720 ∧ (s.count = 0 → 0 < st.toNat)
  sep : ∀ (i j : Nat) (s t : PSet) st tt, i < j → sets[i]? = some s → sets[j]? = some t →
    s.place = .pool st → t.place = .pool tt → st.toNat + 4 * s.count.toNat ≤ tt.toNat

theorem createAll_spec (last : Word) (layout : List (Word × Word))
    (h : last.toNat + 4 * (layout.map fun p => p.1.toNat).sum ≤ 30720) :
    (createAll last layout).1.toNat = last.toNat + 4 * (layout.map fun p => p.1.toNat).sum ∧
    (createAll last layout).2.length = layout.length ∧
    (∀ (i : Nat) (s : PSet), (createAll last layout).2[i]? = some s → ∃ st, s.place = .pool st ∧
      last.toNat ≤ st.toNat ∧ st.toNat + 4 * s.count.toNat ≤ 30720 ∧
      s.count.toNat = countOf layout i ∧ (i = 0 → st = last) ∧
      (0 < i → last.toNat + 4 * countOf layout 0 ≤ st.toNat)) ∧
    (∀ (i j : Nat) (s t : PSet) st tt, i < j → (createAll last layout).2[i]? = some s →
      (createAll last layout).2[j]? = some t →
      s.place = .pool st → t.place = .pool tt → st.toNat + 4 * s.count.toNat ≤ tt.toNat) := by
  induction layout generalizing last with
  | nil => simp [createAll]
  | cons p rest ih =>
    obtain ⟨c, g⟩ := p
    simp only [List.map_cons, List.sum_cons] at h ⊢
    have hsz : (4 * c).toNat = 4 * c.toNat := by simp; omega
    have hadd : (last + 4 * c).toNat = last.toNat + 4 * c.toNat := by
      rw [BitVec.toNat_add, hsz]; omega
    have hc : create last c g = (last + 4 * c, ⟨.pool last, c⟩) := by
      unfold create getParamsData
      rw [if_neg]
      simp only [paramsMem, BitVec.lt_def, hadd]
      simp; omega
    simp only [createAll, hc]
    obtain ⟨i1, i2, i3, i4⟩ := ih (last + 4 * c) (by omega)
    refine ⟨by omega, by simp only [List.length_cons, i2], ?_, ?_⟩
    · intro i s hs
      cases i with
      | zero =>
        simp at hs; subst hs
        exact ⟨last, rfl, by omega, by simp; omega, by simp [countOf], by simp, by simp⟩
      | succ i =>
        simp at hs
        obtain ⟨st, e1, e2, e3, e4, e5, e6⟩ := i3 i s hs
        refine ⟨st, e1, by omega, e3, by simpa [countOf] using e4, by simp, ?_⟩
        intro _
        simp [countOf]; omega
    · intro i j s t st tt hij hs ht hps hpt
      cases j with
      | zero => omega
      | succ j =>
        simp at ht
        cases i with
        | zero =>
          simp at hs; subst hs
          simp at hps; subst hps
          obtain ⟨st', e1, e2, _⟩ := i3 j t ht
          rw [hpt] at e1
          simp at e1; subst e1
          simp; omega
        | succ i =>
          simp at hs
          exact i4 i j s t st tt (by omega) hs ht hps hpt

theorem createAll_wf (layout : List (Word × Word)) (h : Fits layout) :
    WF (createAll 0 layout).2 := by
  obtain ⟨h1, h2⟩ := h
  obtain ⟨_, _, a3, a4⟩ := createAll_spec 0 layout (by simpa using h1)
  refine ⟨?_, a4⟩
  intro i s hs
  obtain ⟨st, e1, e2, e3, e4, e5, e6⟩ := a3 i s hs
  refine ⟨st, e1, e3, ?_⟩
  intro h0
  have : i ≠ 0 := by
    intro hi; subst hi
    rw [h0] at e4; simp at e4; omega
  have := e6 (by omega)
  omega

theorem createAll_count (layout : List (Word × Word)) (h : Fits layout) (i : Nat) :
    (createAll 0 layout).2[i]? = none ∨
    ∃ s, (createAll 0 layout).2[i]? = some s ∧ s.count.toNat = countOf layout i := by
  obtain ⟨h1, h2⟩ := h
  obtain ⟨_, _, a3, _⟩ := createAll_spec 0 layout (by simpa using h1)
  cases hs : (createAll 0 layout).2[i]? with
  | none => left; rfl
  | some s =>
    right
    obtain ⟨st, _, _, _, e, _⟩ := a3 i s hs
    exact ⟨s, rfl, e⟩

theorem createAll_countOf (layout : List (Word × Word)) (h : Fits layout) (i : Nat) :
    (((createAll 0 layout).2[i]?).map fun s => s.count.toNat).getD 0 = countOf layout i := by
  rcases createAll_count layout h i with e | ⟨s, e, e2⟩
  · obtain ⟨h1, h2⟩ := h
    obtain ⟨_, a2, _, _⟩ := createAll_spec 0 layout (by simpa using h1)
    rw [e]
    rw [List.getElem?_eq_none_iff] at e
    have : layout[i]? = none := List.getElem?_eq_none_iff.2 (by omega)
    simp [countOf, this]
  · rw [e]; simp [e2]

/-! ## Simulation relation -/

/-- The bytes of the RAM array and of the EEPROM represent the two tables. -/
structure Rel (sys : Sys) (a : Spec) : Prop where
  wf : WF sys.sets
  cur : ∀ (i : Nat) (s : PSet) st, sys.sets[i]? = some s → s.place = .pool st → ∀ k, k < s.count.toNat →
    getWord sys.ram (st.toNat + 4 * k) = a.cur i (k + 1)
  stored : ∀ (i : Nat) (s : PSet) st, sys.sets[i]? = some s → s.place = .pool st → ∀ k, k < s.count.toNat →
    getWord sys.disk (64 + st.toNat + 4 * k) = a.stored i (k + 1)

/-- Two different elements are at least four bytes apart. -/
theorem WF.apart {sets : List PSet} (h : WF sets) {i j : Nat} {s t : PSet} {st tt : Word}
    (hs : sets[i]? = some s) (ht : sets[j]? = some t) (ps : s.place = .pool st)
    (pt : t.place = .pool tt) {k l : Nat} (hk : k < s.count.toNat) (hl : l < t.count.toNat)
    (hne : ¬ (i = j ∧ k = l)) :
    st.toNat + 4 * k + 4 ≤ tt.toNat + 4 * l ∨ tt.toNat + 4 * l + 4 ≤ st.toNat + 4 * k := by
  rcases Nat.lt_trichotomy i j with hlt | heq | hgt
  · have := h.sep i j s t st tt hlt hs ht ps pt; omega
  · subst heq
    rw [hs] at ht; cases ht
    rw [ps] at pt; cases pt
    omega
  · have := h.sep j i t s tt st hgt ht hs pt ps; omega

theorem validIdx_iff (s : PSet) (idx : Word) :
    validIdx s idx = true ↔ 1 ≤ idx.toNat ∧ idx.toNat ≤ s.count.toNat := by
  simp [validIdx, BitVec.le_def, BitVec.lt_def]; omega

theorem setElement_ram {sys : Sys} {i : Nat} {s : PSet} {st : Word} (hp : s.place = .pool st)
    (idx : Word) (v : Val) : setElement sys i s idx v =
      { sys with ram := Disk.put sys.ram (st.toNat + 4 * (idx.toNat - 1)) (encode v) } := by
  simp [setElement, hp]

theorem setElement_cur {sys : Sys} {a : Spec} (h : Rel sys a) {i : Nat} {s : PSet} {st : Word}
    (hs : sys.sets[i]? = some s) (hp : s.place = .pool st) (idx : Word) (v : Val)
    (hv : 1 ≤ idx.toNat ∧ idx.toNat ≤ s.count.toNat) :
    Rel (setElement sys i s idx v) { a with cur := upd a.cur i idx.toNat v } := by
  rw [setElement_ram hp]
  refine ⟨h.wf, ?_, h.stored⟩
  intro j t tt ht pt l hl
  simp only [upd]
  by_cases hjl : j = i ∧ l = idx.toNat - 1
  · obtain ⟨rfl, rfl⟩ := hjl
    rw [hs] at ht; cases ht
    rw [hp] at pt; cases pt
    rw [if_pos ⟨rfl, by omega⟩]
    exact getWord_put_same _ _ _
  · rw [if_neg (by omega)]
    have := h.wf.apart hs ht hp pt (k := idx.toNat - 1) (l := l) (by omega) hl
      (by intro hc; exact hjl ⟨hc.1.symm, hc.2.symm⟩)
    rw [getWord_put_other _ _ _ _ (by omega)]
    exact h.cur j t tt ht pt l hl

/-- Saving the elements `k0 .. k0+m` of a set copies exactly those elements. -/
theorem save_stored {sys : Sys} {a : Spec} (h : Rel sys a) {i : Nat} {s : PSet} {st : Word}
    (hs : sys.sets[i]? = some s) (hp : s.place = .pool st) (off n : Word) (k0 m : Nat)
    (hoff : off.toNat = 4 * k0) (hn : n.toNat = 4 * m) (hm : k0 + m ≤ s.count.toNat)
    (hm0 : 0 < m) :
    Rel { sys with disk := saveBytes sys.ram sys.disk (st + off) n }
      { a with stored := fun j l =>
          if j = i ∧ k0 < l ∧ l ≤ k0 + m then a.cur j l else a.stored j l } := by
  obtain ⟨st', e1, e2, _⟩ := h.wf.pool i s hs
  rw [hp] at e1; cases e1
  have hst : (st + off).toNat = st.toNat + 4 * k0 := by
    rw [BitVec.toNat_add]; omega
  have hn0 : n ≠ 0 := by intro h; rw [h] at hn; simp at hn; omega
  refine ⟨h.wf, h.cur, ?_⟩
  intro j t tt ht pt l hl
  simp only
  by_cases hc : j = i ∧ k0 < l + 1 ∧ l + 1 ≤ k0 + m
  · rw [if_pos hc]
    obtain ⟨rfl, hc1, hc2⟩ := hc
    rw [hs] at ht; cases ht
    rw [hp] at pt; cases pt
    rw [← h.cur j s st hs hp l hl]
    apply getWord_congr
    intro b hb
    rw [saveBytes_apply _ _ _ _ (by omega) hn0, if_pos (by omega)]
    congr 1; omega
  · rw [if_neg hc]
    rw [← h.stored j t tt ht pt l hl]
    apply getWord_congr
    intro b hb
    rw [saveBytes_apply _ _ _ _ (by omega) hn0, if_neg]
    intro hr
    rcases Nat.lt_trichotomy j i with hlt | heq | hgt
    · have := h.wf.sep j i t s tt st hlt ht hs pt hp; omega
    · subst heq
      rw [hs] at ht; cases ht
      rw [hp] at pt; cases pt
      omega
    · have := h.wf.sep i j s t st tt hgt hs ht hp pt; omega

theorem zero_rel {sys : Sys} {a : Spec} (h : Rel sys a) {i : Nat} {s : PSet} {st : Word}
    (hs : sys.sets[i]? = some s) (hp : s.place = .pool st) (n : Nat) (hn : n ≤ s.count.toNat) :
    (zeroElements sys i s n).sets = sys.sets ∧
    Rel (zeroElements sys i s n)
      { a with cur := fun j l => if j = i ∧ 1 ≤ l ∧ l ≤ n then 0 else a.cur j l } := by
  induction n with
  | zero =>
    refine ⟨rfl, ?_⟩
    have e : (fun j l => if j = i ∧ 1 ≤ l ∧ l ≤ 0 then 0 else a.cur j l) = a.cur := by
      funext j l; rw [if_neg (by omega)]
    rw [e]; exact h
  | succ n ih =>
    obtain ⟨ih1, ih2⟩ := ih (by omega)
    have hlt := s.count.isLt
    have hidx : (BitVec.ofNat 32 (n + 1)).toNat = n + 1 := by
      rw [BitVec.toNat_ofNat]; omega
    refine ⟨?_, ?_⟩
    · simp only [zeroElements]
      rw [setElement_ram hp]; exact ih1
    · simp only [zeroElements]
      have := setElement_cur ih2 (i := i) (s := s) (by rw [ih1]; exact hs) hp
        (BitVec.ofNat 32 (n + 1)) 0 (by rw [hidx]; omega)
      rw [hidx] at this
      have e : upd (fun j l => if j = i ∧ 1 ≤ l ∧ l ≤ n then 0 else a.cur j l) i (n + 1) 0 =
          fun j l => if j = i ∧ 1 ≤ l ∧ l ≤ n + 1 then 0 else a.cur j l := by
        funext j l
        simp only [upd]
        by_cases hj : j = i <;> by_cases hl : l = n + 1 <;> by_cases hl2 : 1 ≤ l ∧ l ≤ n <;>
          simp [hj, hl, hl2] <;> omega
      rw [e] at this
      exact this

/-- Tables agree on all elements that exist. -/
structure Agree (sets : List PSet) (a b : Spec) : Prop where
  cur : ∀ (i : Nat) (s : PSet), sets[i]? = some s → ∀ k, 1 ≤ k → k ≤ s.count.toNat → a.cur i k = b.cur i k
  stored : ∀ (i : Nat) (s : PSet), sets[i]? = some s → ∀ k, 1 ≤ k → k ≤ s.count.toNat →
    a.stored i k = b.stored i k

theorem Rel.agree {sys : Sys} {a b : Spec} (h : Rel sys a) (hab : Agree sys.sets a b) :
    Rel sys b := by
  refine ⟨h.wf, ?_, ?_⟩
  · intro i s st hs hp k hk
    rw [h.cur i s st hs hp k hk, hab.cur i s hs (k + 1) (by omega) (by omega)]
  · intro i s st hs hp k hk
    rw [h.stored i s st hs hp k hk, hab.stored i s hs (k + 1) (by omega) (by omega)]

/-- One step of the code is one step of the specification. -/
theorem step_rel {sys : Sys} {a : Spec} (h : Rel sys a) (count : Nat → Nat)
    (hcount : ∀ (i : Nat) (s : PSet), sys.sets[i]? = some s → count i = s.count.toNat)
    (hnone : ∀ i : Nat, sys.sets[i]? = none → count i = 0) (op : Op) :
    ∃ sys', step sys op = some sys' ∧ sys'.sets = sys.sets ∧ sys'.last = sys.last ∧
      (∀ q, q < 64 → sys'.disk q = sys.disk q) ∧ Rel sys' (a.step count op) := by
  -- bytes below the parameter block are not touched by a save
  have hlow : ∀ (ram : Nat → Byte) (d : Disk) (st n : Word), st.toNat + n.toNat ≤ 30720 → n ≠ 0 →
      ∀ q, q < 64 → saveBytes ram d st n q = d q := by
    intro ram d st n h1 h2 q hq
    rw [saveBytes_apply _ _ _ _ h1 h2, if_neg (by omega)]
  cases op with
  | assign i idx v =>
    simp only [step, Spec.step]
    cases hs : sys.sets[i]? with
    | none =>
      refine ⟨sys, rfl, rfl, rfl, fun _ _ => rfl, ?_⟩
      rw [hnone i hs, if_neg (by omega)]; exact h
    | some s =>
      obtain ⟨st, hp, _⟩ := h.wf.pool i s hs
      simp only []
      rw [hcount i s hs]
      by_cases hv : validIdx s idx = true
      · rw [if_pos hv]
        rw [validIdx_iff] at hv
        rw [if_pos hv]
        refine ⟨_, rfl, ?_, ?_, ?_, setElement_cur h hs hp idx v hv⟩ <;>
          rw [setElement_ram hp]
        · intros; rfl
      · rw [if_neg hv]
        rw [validIdx_iff] at hv
        rw [if_neg hv]
        exact ⟨_, rfl, rfl, rfl, fun _ _ => rfl, ⟨h.wf, h.cur, h.stored⟩⟩
  | save i idx v =>
    simp only [step, Spec.step]
    cases hs : sys.sets[i]? with
    | none =>
      refine ⟨sys, rfl, rfl, rfl, fun _ _ => rfl, ?_⟩
      rw [hnone i hs, if_neg (by omega)]; exact h
    | some s =>
      obtain ⟨st, hp, hb, _⟩ := h.wf.pool i s hs
      simp only []
      rw [hcount i s hs]
      by_cases hv : validIdx s idx = true
      · rw [if_pos hv]
        rw [validIdx_iff] at hv
        rw [if_pos hv]
        have h1 := setElement_cur h hs hp idx v hv
        have hs1 : (setElement sys i s idx v).sets[i]? = some s := by
          rw [setElement_ram hp]; exact hs
        have hoff : (4 * (idx - 1)).toNat = 4 * (idx.toNat - 1) := by
          have := idx.isLt
          rw [BitVec.toNat_mul, BitVec.toNat_sub]
          simp; omega
        have h2 := save_stored h1 hs1 hp (4 * (idx - 1)) 4 (idx.toNat - 1) 1 hoff (by simp)
          (by omega) (by omega)
        have hst : (st + 4 * (idx - 1)).toNat = st.toNat + 4 * (idx.toNat - 1) := by
          rw [BitVec.toNat_add, hoff]; omega
        refine ⟨_, by simp only [saveSet, hp]; rfl, ?_, ?_, ?_, ?_⟩
        · rw [setElement_ram hp]
        · rw [setElement_ram hp]
        · intro q hq
          simp only []
          rw [hlow _ _ _ _ (by rw [hst]; simp; omega) (by decide) q hq]
          rw [setElement_ram hp]
        · refine h2.agree ⟨fun _ _ _ _ _ _ => rfl, ?_⟩
          intro j t ht k hk1 hk2
          simp only [upd]
          by_cases hj : j = i ∧ k = idx.toNat
          · rw [if_pos (by omega), if_pos hj, if_pos hj]
          · rw [if_neg (by omega), if_neg hj]
      · rw [if_neg hv]
        rw [validIdx_iff] at hv
        rw [if_neg hv]
        exact ⟨sys, rfl, rfl, rfl, fun _ _ => rfl, h⟩
  | saveAll i =>
    simp only [step, Spec.step]
    cases hs : sys.sets[i]? with
    | none =>
      refine ⟨sys, rfl, rfl, rfl, fun _ _ => rfl, ?_⟩
      refine h.agree ⟨fun _ _ _ _ _ _ => rfl, ?_⟩
      intro j t ht k _ _
      simp only [updRow]
      rw [if_neg]; intro hj; subst hj; rw [hs] at ht; cases ht
    | some s =>
      obtain ⟨st, hp, hb, h0⟩ := h.wf.pool i s hs
      simp only [saveSet, hp]
      have hmul : (4 * s.count).toNat = 4 * s.count.toNat := by
        rw [BitVec.toNat_mul]; simp; omega
      by_cases hz : s.count = 0
      · have hd : saveBytes sys.ram sys.disk (st + 0) (4 * s.count) = sys.disk := by
          rw [hz]
          have := saveBytes_zero sys.ram sys.disk (st + 0) (by simpa using h0 hz) (by simp; omega)
          simpa using this
        refine ⟨_, rfl, rfl, rfl, fun q _ => by simp only [hd], ?_⟩
        rw [hd]
        refine h.agree ⟨fun _ _ _ _ _ _ => rfl, ?_⟩
        intro j t ht k hk1 hk2
        simp only [updRow]
        rw [if_neg]; intro hj; subst hj; rw [hs] at ht; cases ht
        rw [hz] at hk2; simp at hk2; omega
      · have hz' : 0 < s.count.toNat := by
          rcases Nat.eq_zero_or_pos s.count.toNat with e | e
          · exact absurd (BitVec.eq_of_toNat_eq (by simpa using e)) hz
          · exact e
        have h2 := save_stored h hs hp 0 (4 * s.count) 0 s.count.toNat (by simp) hmul (by omega) hz'
        refine ⟨_, rfl, rfl, rfl, ?_, ?_⟩
        · intro q hq
          exact hlow _ _ _ _ (by rw [hmul]; simp; omega)
            (by intro e; rw [e] at hmul; simp at hmul; omega) q hq
        · refine h2.agree ⟨fun _ _ _ _ _ _ => rfl, ?_⟩
          intro j t ht k hk1 hk2
          simp only [updRow]
          by_cases hj : j = i
          · subst hj; rw [hs] at ht; cases ht
            rw [if_pos (by omega), if_pos rfl]
          · rw [if_neg (by omega), if_neg hj]
  | reset i =>
    simp only [step, Spec.step]
    cases hs : sys.sets[i]? with
    | none =>
      refine ⟨sys, rfl, rfl, rfl, fun _ _ => rfl, ?_⟩
      refine h.agree ⟨?_, ?_⟩ <;>
      · intro j t ht k _ _
        simp only [updRow]
        rw [if_neg]; intro hj; subst hj; rw [hs] at ht; cases ht
    | some s =>
      obtain ⟨st, hp, hb, h0⟩ := h.wf.pool i s hs
      obtain ⟨z1, z2⟩ := zero_rel h hs hp s.count.toNat (Nat.le_refl _)
      have zd : ∀ n, (zeroElements sys i s n).disk = sys.disk ∧
          (zeroElements sys i s n).last = sys.last := by
        intro n
        induction n with
        | zero => exact ⟨rfl, rfl⟩
        | succ n ih => simp only [zeroElements]; rw [setElement_ram hp]; exact ih
      simp only [saveSet, hp]
      have hmul : (4 * s.count).toNat = 4 * s.count.toNat := by
        rw [BitVec.toNat_mul]; simp; omega
      replace zd := zd s.count.toNat
      generalize zeroElements sys i s s.count.toNat = zs at *
      by_cases hz : s.count = 0
      · have hd : saveBytes zs.ram zs.disk (st + 0) (4 * s.count) = zs.disk := by
          rw [hz]
          have := saveBytes_zero zs.ram zs.disk (st + 0) (by simpa using h0 hz) (by simp; omega)
          simpa using this
        refine ⟨_, rfl, z1, zd.2, ?_, ?_⟩
        · intro q _; simp only [hd]; rw [zd.1]
        · rw [hd]
          refine z2.agree ⟨?_, ?_⟩
          · intro j t ht k hk1 hk2
            simp only [updRow]
            by_cases hj : j = i
            · subst hj
              simp only [z1] at ht
              rw [hs] at ht; cases ht
              rw [if_pos (by omega), if_pos rfl]
            · rw [if_neg (by omega), if_neg hj]
          · intro j t ht k hk1 hk2
            simp only [updRow]
            rw [if_neg]; intro hj; subst hj
            simp only [z1] at ht
            rw [hs] at ht; cases ht
            rw [hz] at hk2; simp at hk2; omega
      · have hz' : 0 < s.count.toNat := by
          rcases Nat.eq_zero_or_pos s.count.toNat with e | e
          · exact absurd (BitVec.eq_of_toNat_eq (by simpa using e)) hz
          · exact e
        have h2 := save_stored z2 (i := i) (s := s) (by rw [z1]; exact hs) hp 0 (4 * s.count) 0
          s.count.toNat (by simp) hmul (by omega) hz'
        refine ⟨_, rfl, z1, zd.2, ?_, ?_⟩
        · intro q hq
          simp only []
          rw [hlow _ _ _ _ (by rw [hmul]; simp; omega)
            (by intro e; rw [e] at hmul; simp at hmul; omega) q hq, zd.1]
        · refine h2.agree ⟨?_, ?_⟩
          · intro j t ht k hk1 hk2
            simp only [updRow]
            by_cases hj : j = i
            · subst hj
              simp only [z1] at ht
              rw [hs] at ht; cases ht
              rw [if_pos (by omega), if_pos rfl]
            · rw [if_neg (by omega), if_neg hj]
          · intro j t ht k hk1 hk2
            simp only [updRow]
            by_cases hj : j = i
            · subst hj
              simp only [z1] at ht
              rw [hs] at ht; cases ht
              rw [if_pos (by omega), if_pos (by omega), if_pos rfl]
            · rw [if_neg (by omega), if_neg hj]

theorem run_rel {sys : Sys} {a : Spec} (h : Rel sys a) (count : Nat → Nat)
    (hcount : ∀ (i : Nat) (s : PSet), sys.sets[i]? = some s → count i = s.count.toNat)
    (hnone : ∀ i : Nat, sys.sets[i]? = none → count i = 0) (ops : List Op) :
    ∃ sys', run sys ops = some sys' ∧ sys'.sets = sys.sets ∧ sys'.last = sys.last ∧
      (∀ q, q < 64 → sys'.disk q = sys.disk q) ∧ Rel sys' (a.run count ops) := by
  induction ops generalizing sys a with
  | nil => exact ⟨sys, rfl, rfl, rfl, fun _ _ => rfl, h⟩
  | cons op ops ih =>
    obtain ⟨s1, e1, e2, e3, e4, e5⟩ := step_rel h count hcount hnone op
    obtain ⟨s2, f1, f2, f3, f4, f5⟩ := ih e5 (by rw [e2]; exact hcount) (by rw [e2]; exact hnone)
    refine ⟨s2, ?_, f2.trans e2, f3.trans e3, fun q hq => (f4 q hq).trans (e4 q hq), f5⟩
    simp only [run, e1, Option.bind_some]
    exact f1

/-- What reading returns. -/
theorem readPar_rel {sys : Sys} {a : Spec} (h : Rel sys a) {i : Nat} {s : PSet}
    (hs : sys.sets[i]? = some s) (idx : Word) (h1 : 1 ≤ idx.toNat)
    (h2 : idx.toNat ≤ s.count.toNat) : readPar sys i idx = some (a.cur i idx.toNat) := by
  obtain ⟨st, hp, _⟩ := h.wf.pool i s hs
  unfold readPar
  rw [hs]
  have hv : validIdx s idx = true := (validIdx_iff s idx).2 ⟨h1, h2⟩
  simp only [Option.map_some, hv, if_true, element, hp]
  rw [h.cur i s st hs hp (idx.toNat - 1) (by omega)]
  congr 2
  omega

theorem boot_sets (layout : List (Word × Word)) (df : Defaults) (d : Disk) :
    (boot layout df d).sets = (createAll 0 layout).2 ∧
    (boot layout df d).last = (createAll 0 layout).1 := by
  simp [boot]

theorem boot_ram (layout : List (Word × Word)) (df : Defaults) (d : Disk) :
    (boot layout df d).ram = finalInitRam d (createAll 0 layout).1 df := by
  simp only [boot]

theorem applyAll_append (d : Disk) (a b : List NvWrite) :
    applyAll d (a ++ b) = applyAll (applyAll d a) b := by
  simp [applyAll]

theorem applyAll_low (d : Disk) (ws : List NvWrite)
    (h : ∀ w ∈ ws, ∃ ram st n, w = .par ram st n ∧ st.toNat + n.toNat ≤ 30720 ∧ n ≠ 0)
    (q : Nat) (hq : q < 64) : applyAll d ws q = d q := by
  induction ws generalizing d with
  | nil => rfl
  | cons w ws ih =>
    obtain ⟨ram, st, n, rfl, h1, h2⟩ := h w (by simp)
    show applyAll (NvWrite.apply d (.par ram st n)) ws q = d q
    rw [ih _ (fun w hw => h w (by simp [hw]))]
    simp only [NvWrite.apply]
    rw [saveBytes_apply _ _ _ _ h1 h2, if_neg (by omega)]

/-- After a start the EEPROM holds the RAM array and the marker is the current size. -/
theorem boot_disk (layout : List (Word × Word)) (df : Defaults) (d : Disk) (hdf : df.Valid) :
    (∀ p, p < 30720 → (boot layout df d).disk (64 + p) = (boot layout df d).ram p) ∧
    marker (boot layout df d).disk = (boot layout df d).last := by
  simp only [boot, finalInitRam, finalInitWrites]
  by_cases hm : marker d = (createAll 0 layout).1
  · rw [if_pos hm, if_pos hm]
    refine ⟨?_, hm⟩
    intro p hp
    rw [loadRam_apply, if_pos hp]
    rfl
  · rw [if_neg hm, if_neg hm]
    constructor
    · intro p hp
      rw [← List.cons_append, applyAll_append]
      show saveBytes df.ram _ 0 0 (64 + p) = _
      rw [saveBytes_all, if_pos (by omega)]
      congr 1; omega
    · rw [marker_eq, ← List.cons_append, applyAll_append]
      have e : getWord (saveBytes df.ram
          (applyAll d (.mark (createAll 0 layout).1 :: df.partialSaves)) 0 0) 4
          = getWord (Disk.put d 4 (encode (createAll 0 layout).1)) 4 := by
        apply getWord_congr
        intro j hj
        rw [saveBytes_all, if_neg (by omega)]
        show applyAll (NvWrite.apply d (.mark _)) df.partialSaves _ = _
        rw [applyAll_low _ _ hdf _ (by omega)]
        rfl
      show getWord (saveBytes df.ram _ 0 0) 4 = _
      rw [e, getWord_put_same]

/-- The values readable right after a start describe both tables. -/
theorem boot_rel (layout : List (Word × Word)) (hf : Fits layout) (df : Defaults) (d : Disk)
    (hdf : df.Valid) (c0 : Nat → Nat → Val)
    (hc : ∀ (i : Nat) (idx : Word), 1 ≤ idx.toNat → idx.toNat ≤ countOf layout i →
      readPar (boot layout df d) i idx = some (c0 i idx.toNat)) :
    Rel (boot layout df d) ⟨c0, c0⟩ := by
  have hwf := createAll_wf layout hf
  obtain ⟨hd, _⟩ := boot_disk layout df d hdf
  have hsets := (boot_sets layout df d).1
  have hcur : ∀ (i : Nat) (s : PSet) st, (boot layout df d).sets[i]? = some s →
      s.place = .pool st → ∀ k, k < s.count.toNat →
      getWord (boot layout df d).ram (st.toNat + 4 * k) = c0 i (k + 1) := by
    intro i s st hs hp k hk
    have hcnt : s.count.toNat = countOf layout i := by
      rcases createAll_count layout hf i with e | ⟨s', e, e2⟩
      · rw [hsets] at hs; rw [e] at hs; cases hs
      · rw [hsets] at hs; rw [e] at hs; cases hs; exact e2
    have hlt := s.count.isLt
    have hi : (BitVec.ofNat 32 (k + 1)).toNat = k + 1 := by rw [BitVec.toNat_ofNat]; omega
    have h := hc i (BitVec.ofNat 32 (k + 1)) (by omega) (by omega)
    unfold readPar at h
    rw [hs] at h
    have hv : validIdx s (BitVec.ofNat 32 (k + 1)) = true :=
      (validIdx_iff _ _).2 (by rw [hi]; omega)
    simp only [Option.map_some, hv, if_true, element, hp] at h
    rw [hi] at h
    simpa using h
  refine ⟨by rw [hsets]; exact hwf, hcur, ?_⟩
  intro i s st hs hp k hk
  show _ = c0 i (k + 1)
  rw [← hcur i s st hs hp k hk]
  obtain ⟨st', e1, e2, _⟩ := hwf.pool i s (by rw [← hsets]; exact hs)
  rw [hp] at e1; cases e1
  apply getWord_congr
  intro j hj
  have := hd (st.toNat + 4 * k + j) (by omega)
  rw [← this]
  congr 1; omega

/-- Restart with the same layout: the tables after the restart. -/
theorem restart_rel (layout : List (Word × Word)) (df : Defaults) {sys : Sys} {a : Spec}
    (h : Rel sys a) (hs : sys.sets = (createAll 0 layout).2)
    (hm : marker sys.disk = (createAll 0 layout).1) :
    Rel (boot layout df sys.disk) a.restart ∧
      marker (boot layout df sys.disk).disk = (createAll 0 layout).1 := by
  have hb : boot layout df sys.disk =
      { sets := sys.sets, last := (createAll 0 layout).1, ram := loadRam sys.disk,
        heap := fun _ _ => 0, stub := fun _ => 0, disk := sys.disk } := by
    simp [boot, finalInitRam, finalInitWrites, hm, applyAll, hs]
  rw [hb]
  refine ⟨⟨h.wf, ?_, h.stored⟩, hm⟩
  intro i s st hs hp k hk
  show _ = a.stored i (k + 1)
  rw [← h.stored i s st hs hp k hk]
  obtain ⟨st', e1, e2, _⟩ := h.wf.pool i s hs
  rw [hp] at e1; cases e1
  apply getWord_congr
  intro j hj
  dsimp only
  rw [loadRam_apply, if_pos (by omega)]
  congr 1; omega

theorem life_rel (layout : List (Word × Word)) (hf : Fits layout) {sys : Sys} {a : Spec}
    (h : Rel sys a) (hs : sys.sets = (createAll 0 layout).2)
    (hm : marker sys.disk = (createAll 0 layout).1) (es : List Ev) :
    ∃ sys', life layout sys es = some sys' ∧ sys'.sets = (createAll 0 layout).2 ∧
      Rel sys' (specLife layout a es) := by
  induction es generalizing sys a with
  | nil => exact ⟨sys, rfl, hs, h⟩
  | cons e es ih =>
    cases e with
    | op o =>
      obtain ⟨s1, e1, e2, e3, e4, e5⟩ := step_rel h (countOf layout)
        (by
          intro i s h'
          rw [hs] at h'
          rcases createAll_count layout hf i with e | ⟨s', e, e2⟩
          · rw [e] at h'; cases h'
          · rw [e] at h'; cases h'; exact e2.symm)
        (by
          intro i h'
          rw [hs] at h'
          have := createAll_countOf layout hf i
          rw [h'] at this
          simpa using this.symm) o
      have hm1 : marker s1.disk = (createAll 0 layout).1 := by
        rw [← hm, marker_eq, marker_eq]
        apply getWord_congr
        intro j hj
        exact e4 _ (by omega)
      obtain ⟨s2, f1, f2, f3⟩ := ih e5 (e2.trans hs) hm1
      exact ⟨s2, by simp only [life, e1, Option.bind_some]; exact f1, f2, f3⟩
    | restart df =>
      obtain ⟨r1, r2⟩ := restart_rel layout df h hs hm
      obtain ⟨s2, f1, f2, f3⟩ := ih r1 (boot_sets layout df sys.disk).1 r2
      exact ⟨s2, f1, f2, f3⟩

theorem Spec.run_other (count : Nat → Nat) (a : Spec) (ops : List Op) (j : Nat)
    (h : ∀ o ∈ ops, o.target ≠ j) :
    ((a.run count ops).cur j = a.cur j) ∧ ((a.run count ops).stored j = a.stored j) := by
  induction ops generalizing a with
  | nil => exact ⟨rfl, rfl⟩
  | cons o ops ih =>
    have h1 := ih (a.step count o) (fun o ho => h o (by simp [ho]))
    have h0 := h o (by simp)
    have : (a.step count o).cur j = a.cur j ∧ (a.step count o).stored j = a.stored j := by
      cases o <;> simp only [Op.target] at h0 <;> simp only [Spec.step] <;> (try split) <;>
        refine ⟨?_, ?_⟩ <;> first | trivial | rfl | (funext l; simp [upd, updRow, Ne.symm h0])
    exact ⟨h1.1.trans this.1, h1.2.trans this.2⟩

theorem RtPar.set_length (p : RtPar) (idx : Word) (v : Val) :
    (p.set idx v).vals.length = p.vals.length := by
  unfold RtPar.set; split <;> simp

theorem RtPar.run_length (p : RtPar) (ws : List (Word × Val)) :
    (p.run ws).vals.length = p.vals.length := by
  induction ws generalizing p with
  | nil => rfl
  | cons w ws ih =>
    show ((p.set w.1 w.2).run ws).vals.length = _
    rw [ih, RtPar.set_length]

theorem RtPar.run_append (p : RtPar) (ws : List (Word × Val)) (w : Word × Val) :
    p.run (ws ++ [w]) = (p.run ws).set w.1 w.2 := by
  simp [RtPar.run]

theorem lastWrite_append (q : Word → Bool) (ws : List (Word × Val)) (w : Word × Val) :
    lastWrite q (ws ++ [w]) = if q w.1 then some w.2 else lastWrite q ws := by
  unfold lastWrite
  rw [List.reverse_append]
  simp only [List.reverse_cons, List.reverse_nil, List.nil_append, List.cons_append,
    List.find?_cons]
  split <;> simp_all

/-- Induction from the end of a history. -/
theorem snoc_induction {α : Type} {P : List α → Prop} (nil : P [])
    (snoc : ∀ l a, P l → P (l ++ [a])) : ∀ l, P l := by
  intro l
  have key : ∀ l : List α, P l.reverse := by
    intro l
    induction l with
    | nil => exact nil
    | cons a l ih => rw [List.reverse_cons]; exact snoc _ _ ih
  have := key l.reverse
  rwa [List.reverse_reverse] at this

end Ptusa.Params
