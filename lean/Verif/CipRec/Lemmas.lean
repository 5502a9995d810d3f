import Verif.CipRec.Spec
import Verif.Text.Lemmas

namespace Ptusa.CipRec

open Ptusa.Text (Byte Plain toUtf8)
open Ptusa.Valve (Tm)

/-- A piece of the memory. -/
def seg (m : List Byte) (a n : Nat) : List Byte := (m.drop a).take n

/-- The memory with some bytes written. -/
def patch (m : List Byte) (a : Nat) (bs : List Byte) : List Byte := m.take a ++ bs ++ m.drop (a + bs.length)

theorem rd_eq (m : List Byte) (a n : Nat) (h : a + n ≤ m.length) : rd m (a : Int) n = some (seg m a n) := by
  unfold rd seg
  rw [if_pos ⟨by omega, by omega⟩]
  simp

theorem wr_eq (m : List Byte) (a : Nat) (bs : List Byte) (h : a + bs.length ≤ m.length) :
    wr m (a : Int) bs = some (patch m a bs) := by
  unfold wr patch
  rw [if_pos ⟨by omega, by omega⟩]
  simp

theorem patch_length (m : List Byte) (a : Nat) (bs : List Byte) (h : a + bs.length ≤ m.length) :
    (patch m a bs).length = m.length := by
  simp [patch]
  omega

theorem patch_get (m : List Byte) (a : Nat) (bs : List Byte) (h : a + bs.length ≤ m.length) (i : Nat) :
    (patch m a bs)[i]? = if i < a then m[i]? else if i < a + bs.length then bs[i - a]? else m[i]? := by
  unfold patch
  have hl : (m.take a).length = a := by simp; omega
  split
  · rw [List.getElem?_append_left (by simp; omega), List.getElem?_append_left (by omega), List.getElem?_take_of_lt ‹_›]
  · split
    · rw [List.getElem?_append_left (by simp; omega), List.getElem?_append_right (by omega), hl]
    · rw [List.getElem?_append_right (by simp; omega), List.getElem?_drop]
      congr 1
      simp
      omega

theorem seg_get (m : List Byte) (a n i : Nat) : (seg m a n)[i]? = if i < n then m[a + i]? else none := by
  unfold seg
  rw [List.getElem?_take, List.getElem?_drop]

theorem seg_length (m : List Byte) (a n : Nat) (h : a + n ≤ m.length) : (seg m a n).length = n := by
  simp [seg]
  omega

theorem seg_away (m : List Byte) (a : Nat) (bs : List Byte) (h : a + bs.length ≤ m.length) (b n : Nat)
    (hd : b + n ≤ a ∨ a + bs.length ≤ b) : seg (patch m a bs) b n = seg m b n := by
  apply List.ext_getElem?
  intro i
  rw [seg_get, seg_get, patch_get m a bs h]
  split
  · rcases hd with hd | hd
    · rw [if_pos (by omega)]
    · rw [if_neg (by omega), if_neg (by omega)]
  · rfl

theorem seg_inside (m : List Byte) (a : Nat) (bs : List Byte) (h : a + bs.length ≤ m.length) (j n : Nat)
    (hd : j + n ≤ bs.length) : seg (patch m a bs) (a + j) n = seg bs j n := by
  apply List.ext_getElem?
  intro i
  rw [seg_get, seg_get, patch_get m a bs h]
  split
  · rw [if_neg (by omega), if_pos (by omega)]
    congr 1
    omega
  · rfl

theorem seg_seg (m : List Byte) (a n j k : Nat) (h : j + k ≤ n) : seg (seg m a n) j k = seg m (a + j) k := by
  apply List.ext_getElem?
  intro i
  rw [seg_get, seg_get, seg_get]
  split
  · rw [if_pos (by omega)]
    congr 1
    omega
  · rfl

theorem seg_zero (n j k : Nat) (h : j + k ≤ n) : seg (List.replicate n (0 : Byte)) j k = List.replicate k 0 := by
  simp [seg]
  omega

theorem word_bytes (v : BitVec 32) : word4 (bytes4 v) = v := by
  apply BitVec.eq_of_toNat_eq
  show (BitVec.toNat (w := 8 + 8 + 8 + 8) (BitVec.extractLsb' 24 8 v ++ BitVec.extractLsb' 16 8 v ++
    BitVec.extractLsb' 8 8 v ++ BitVec.extractLsb' 0 8 v)) = _
  have hv := v.isLt
  simp only [BitVec.toNat_append, BitVec.extractLsb'_toNat, Nat.shiftLeft_eq, Nat.shiftRight_eq_div_pow]
  rw [← Nat.shiftLeft_eq, ← Nat.shiftLeft_eq, ← Nat.shiftLeft_eq,
    ← Nat.shiftLeft_add_eq_or_of_lt (Nat.mod_lt _ (by decide)), ← Nat.shiftLeft_add_eq_or_of_lt (Nat.mod_lt _ (by decide)),
    ← Nat.shiftLeft_add_eq_or_of_lt (Nat.mod_lt _ (by decide))]
  simp only [Nat.shiftLeft_eq]
  omega

theorem bytes_length (v : BitVec 32) : (bytes4 v).length = 4 := rfl

/-- A field of 24 bytes with a text. -/
def Holds (bs l : List Byte) : Prop := NameOk l ∧ ∃ j, bs = l ++ 0 :: j

/-- A piece of 512 bytes holds a recipe. -/
structure RepRec (bs : List Byte) (x : Rec) : Prop where
  len : bs.length = 512
  name : Holds (seg bs 0 24) x.name
  val : ∀ k < 120, word4 (seg bs (32 + 4 * k) 4) = x.val k
  order : trunc (x.val 1) ≠ none

/-- The memory holds a table. -/
structure Rep (m : List Byte) (t : Table) : Prop where
  len : m.length = 12800
  rcp : ∀ r < 25, RepRec (seg m (512 * r) 512) (t.one r)

theorem Rep.name {m : List Byte} {t : Table} (h : Rep m t) (r : Nat) (hr : r < 25) :
    Holds (seg m (512 * r) 24) (t.name r) := by
  have h1 := (h.rcp r hr).name
  rw [seg_seg _ _ _ _ _ (by omega)] at h1
  exact h1

theorem Rep.val {m : List Byte} {t : Table} (h : Rep m t) (r k : Nat) (hr : r < 25) (hk : k < 120) :
    word4 (seg m (512 * r + 32 + 4 * k) 4) = t.val r k := by
  have h1 := (h.rcp r hr).val k hk
  rw [seg_seg _ _ _ _ _ (by omega), ← Nat.add_assoc] at h1
  exact h1

theorem repRec_zero : RepRec (List.replicate 512 0) ⟨[], fun _ => 0⟩ where
  len := List.length_replicate ..
  name := by
    rw [seg_zero _ _ _ (by omega)]
    exact ⟨by decide, List.replicate 23 0, by decide⟩
  val := by
    intro k hk
    rw [seg_zero _ _ _ (by omega)]
    rfl
  order := by decide

theorem rep_zero : Rep (List.replicate 12800 0) Table.empty where
  len := List.length_replicate ..
  rcp := by
    intro r hr
    rw [seg_zero _ _ _ (by omega)]
    exact repRec_zero

/-- A whole recipe is written. -/
theorem Rep.setRec {m : List Byte} {t : Table} (h : Rep m t) (r : Nat) (hr : r < 25) (bs : List Byte) (x : Rec)
    (hx : RepRec bs x) : Rep (patch m (512 * r) bs) (t.setRec r x) where
  len := by rw [patch_length _ _ _ (by rw [hx.len, h.len]; omega), h.len]
  rcp := by
    intro r' hr'
    have hb : 512 * r + bs.length ≤ m.length := by rw [hx.len, h.len]; omega
    by_cases he : r' = r
    · subst he
      have := seg_inside m (512 * r') bs hb 0 512 (by rw [hx.len])
      rw [Nat.add_zero] at this
      rw [this]
      have hs : seg bs 0 512 = bs := by
        rw [seg, List.drop_zero, List.take_of_length_le (by rw [hx.len])]
      rw [hs]
      simpa [Table.one, Table.setRec] using hx
    · rw [seg_away _ _ _ hb _ _ (by rw [hx.len]; omega)]
      have := h.rcp r' hr'
      simpa [Table.one, Table.setRec, he] using this

/-- Bytes are written inside of a recipe. -/
theorem Rep.patch {m : List Byte} {t : Table} (h : Rep m t) (r : Nat) (hr : r < 25) (j : Nat) (bs : List Byte)
    (hj : j + bs.length ≤ 512) (x : Rec) (hx : RepRec (patch (seg m (512 * r) 512) j bs) x) :
    Rep (patch m (512 * r + j) bs) (t.setRec r x) := by
  have hl := h.len
  have he : CipRec.patch m (512 * r + j) bs =
      CipRec.patch m (512 * r) (CipRec.patch (seg m (512 * r) 512) j bs) := by
    have hs : (seg m (512 * r) 512).length = 512 := seg_length _ _ _ (by omega)
    have hp := patch_length (seg m (512 * r) 512) j bs (by omega)
    apply List.ext_getElem?
    intro i
    rw [patch_get _ _ _ (by omega), patch_get _ _ _ (by omega), hp, hs]
    by_cases h1 : i < 512 * r
    · rw [if_pos (by omega), if_pos h1]
    · rw [if_neg h1]
      by_cases h2 : i < 512 * r + 512
      · rw [if_pos h2, patch_get _ _ _ (by omega), seg_get]
        rw [show 512 * r + (i - 512 * r) = i by omega]
        simp only [if_pos (show i - 512 * r < 512 by omega)]
        by_cases h3 : i < 512 * r + j
        · rw [if_pos h3, if_pos (show i - 512 * r < j by omega)]
        · rw [if_neg h3, if_neg (show ¬ i - 512 * r < j by omega)]
          by_cases h4 : i < 512 * r + j + bs.length
          · rw [if_pos h4, if_pos (show i - 512 * r < j + bs.length by omega), Nat.sub_sub]
          · rw [if_neg h4, if_neg (show ¬ i - 512 * r < j + bs.length by omega)]
      · rw [if_neg h2, if_neg (by omega), if_neg (by omega)]
  rw [he]
  exact h.setRec r hr _ x hx

theorem Table.setRec_name (t : Table) (r : Nat) (n : List Byte) : t.setRec r ⟨n, t.val r⟩ = t.setName r n := by
  simp only [Table.setRec, Table.setName, Table.mk.injEq, true_and]
  funext r'
  split
  · rename_i h; rw [h]
  · rfl

theorem Table.setRec_val (t : Table) (r k : Nat) (v : BitVec 32) :
    t.setRec r ⟨t.name r, fun k' => if k' = k then v else t.val r k'⟩ = t.setVal r k v := by
  simp only [Table.setRec, Table.setVal, Table.mk.injEq]
  constructor
  · funext r'
    split
    · rename_i h; rw [h]
    · rfl
  · funext r' k'
    by_cases h : r' = r
    · subst h; simp
    · simp [h]

theorem Rep.setVal {m : List Byte} {t : Table} (h : Rep m t) (r k : Nat) (hr : r < 25) (v : BitVec 32) (hk : ValOk k v) :
    Rep (CipRec.patch m (512 * r + 32 + 4 * k) (bytes4 v)) (t.setVal r k v) := by
  have hl := h.len
  have hx := h.rcp r hr
  have hs := hx.len
  have hb : 32 + 4 * k + (bytes4 v).length ≤ (seg m (512 * r) 512).length := by
    rw [hs, bytes_length]
    have := hk.1
    omega
  rw [← Table.setRec_val, Nat.add_assoc]
  apply h.patch r hr (32 + 4 * k) (bytes4 v) (by have := hk.1; rw [bytes_length]; omega)
  refine ⟨by rw [patch_length _ _ _ hb, hs], ?_, ?_, ?_⟩
  · rw [seg_away _ _ _ hb _ _ (by omega)]
    exact hx.name
  · intro k' hk'
    dsimp only
    split
    · rename_i he
      subst he
      have := seg_inside (seg m (512 * r) 512) (32 + 4 * k') (bytes4 v) hb 0 4 (by rw [bytes_length])
      rw [Nat.add_zero] at this
      rw [this]
      exact word_bytes v
    · rw [seg_away _ _ _ hb _ _ (by rw [bytes_length]; omega)]
      exact hx.val k' hk'
  · dsimp only
    split
    · rename_i he
      exact hk.2 he.symm
    · exact hx.order

theorem Rep.setName {m : List Byte} {t : Table} (h : Rep m t) (r : Nat) (hr : r < 25) (bs l : List Byte)
    (hb : bs.length = 24) (hn : Holds bs l) : Rep (CipRec.patch m (512 * r) bs) (t.setName r l) := by
  have hl := h.len
  have hx := h.rcp r hr
  have hs := hx.len
  have hb' : 0 + bs.length ≤ (seg m (512 * r) 512).length := by omega
  rw [← Table.setRec_name]
  have := h.patch r hr 0 bs (by omega) ⟨l, t.val r⟩ ?_
  · exact this
  refine ⟨by rw [patch_length _ _ _ hb', hs], ?_, ?_, hx.order⟩
  · have := seg_inside (seg m (512 * r) 512) 0 bs hb' 0 24 (by omega)
    rw [Nat.add_zero] at this
    rw [this, seg, List.drop_zero, List.take_of_length_le (by omega)]
    exact hn
  · intro k hk
    rw [seg_away _ _ _ hb' _ _ (by omega)]
    exact hx.val k hk

theorem unset_of_ok {v : BitVec 32} (h : trunc v ≠ none) : unset v = v := by
  unfold unset
  split
  · rename_i he
    subst he
    exact absurd (by decide) h
  · rfl

theorem nonzero_unset (v : BitVec 32) : nonzero (unset v) = nonzero v := by
  unfold unset
  split
  · rename_i he
    subst he
    decide
  · rfl

theorem addr (r k : Nat) : startAddr r + parOffset + 4 * k = ((512 * r + 32 + 4 * k : Nat) : Int) := by
  simp only [startAddr, parOffset, recLen]
  push_cast
  omega

theorem addr0 (r : Nat) : startAddr r = ((512 * r : Nat) : Int) := by
  simp only [startAddr, recLen]
  push_cast
  omega

theorem Rep.getValue {m : List Byte} {t : Table} (h : Rep m t) (r k : Nat) (hr : r < 25) (hk : k < 120) :
    getValue m r k = some (unset (t.val r k)) := by
  unfold CipRec.getValue
  rw [addr, rd_eq _ _ _ (by rw [h.len]; omega), Option.map_some, h.val r k hr hk]
  rfl

theorem takeWhile_text (l j : List Byte) (h : ∀ b ∈ l, b ≠ 0) : (l ++ 0 :: j).takeWhile (· ≠ 0) = l := by
  induction l with
  | nil => simp
  | cons b l ih =>
    have hb := h b (by simp)
    simp only [List.cons_append, List.takeWhile_cons, ne_eq, hb, not_false_eq_true, decide_true, if_true]
    rw [show (fun x : Byte => decide (¬ x = 0)) = (fun x => decide (x ≠ 0)) from rfl, ih (fun b hb => h b (by simp [hb]))]

theorem Rep.readName {m : List Byte} {t : Table} (h : Rep m t) (r : Nat) (hr : r < 25) :
    readName m r = some (toUtf8 (t.name r)) := by
  unfold CipRec.readName
  rw [addr0, rd_eq _ _ _ (by rw [h.len, nameLen]; omega), Option.bind_some]
  obtain ⟨hn, j, hj⟩ := h.name r hr
  rw [show nameLen = 24 from rfl, hj, if_pos (by simp), takeWhile_text _ _ (fun b hb => (hn.2 b hb).1)]

theorem Rep.entry {m : List Byte} {t : Table} (h : Rep m t) (r : Nat) (hr : r < 25) :
    entry m r = some (([r].filter fun r => nonzero (t.val r 0)).map fun r => (r + 1, toUtf8 (t.name r))) := by
  unfold CipRec.entry
  have := h.getValue r 0 hr (by omega)
  rw [Nat.cast_zero] at this
  rw [this, Option.bind_some, nonzero_unset, h.readName r hr]
  by_cases hz : nonzero (t.val r 0) <;> simp [hz]

theorem Rep.entries {m : List Byte} {t : Table} (h : Rep m t) (is : List Nat) (hi : ∀ i ∈ is, i < 25) :
    entries m is = some ((is.filter fun r => nonzero (t.val r 0)).map fun r => (r + 1, toUtf8 (t.name r))) := by
  induction is with
  | nil => rfl
  | cons i is ih =>
    rw [CipRec.entries, h.entry i (hi i (by simp)), ih (fun j hj => hi j (by simp [hj]))]
    by_cases hz : nonzero (t.val i 0) <;> simp [hz]

/-- The program and the screen agree. -/
structure Sim (s : St) (x : Screen) : Prop where
  mem : Rep s.mem x.tab
  cur : s.cur = x.cur
  lt : x.cur < 25
  shown : s.name = some (toUtf8 x.shown)
  ok : NameOk x.shown
  copied : (s.copy = none ∧ x.copied = none) ∨ ∃ bs y, s.copy = some bs ∧ x.copied = some y ∧ RepRec bs y
  disk : Rep (loadFile s.file) x.disk
  dirty : s.changed = x.dirty
  tCheck : s.tCheck = x.tCheck
  tEval : s.tEval = x.tEval
  list : s.list = x.list

theorem Sim.set {s : St} {x : Screen} (h : Sim s x) (now : Tm) (r k : Nat) (hr : r < 25) (v : BitVec 32) (hk : ValOk k v) :
    ∃ s', s.setRec now r k v = some s' ∧ Sim s' (x.set now r k v) := by
  unfold St.setRec
  rw [addr, wr_eq _ _ _ (by rw [h.mem.len, bytes_length]; have := hk.1; omega)]
  refine ⟨_, rfl, ?_⟩
  exact { h with mem := h.mem.setVal r k hr v hk, dirty := rfl, tCheck := rfl }

theorem Sim.show {s : St} {x : Screen} (h : Sim s x) : ∃ s', s.loadName = some s' ∧ Sim s' x.show := by
  unfold St.loadName
  rw [h.cur, h.mem.readName _ h.lt]
  exact ⟨_, rfl, { h with shown := rfl, ok := (h.mem.name _ h.lt).1, cur := rfl }⟩

theorem conv_name (l : List Byte) (h : ∀ b ∈ l, Plain b) :
    Text.conv (toUtf8 l).length (toUtf8 l) = some (true, l) := by
  have := Text.conv_plain l h (toUtf8 l).length [] (le_refl _)
  rw [List.append_nil] at this
  rw [this, Text.conv_nil]
  simp

theorem Sim.keep {s : St} {x : Screen} (h : Sim s x) (junk : List Byte) (hj : junk.length = 25) :
    ∃ s', s.saveName junk = some s' ∧ Sim s' x.keep := by
  unfold St.saveName
  have hn := h.ok
  rw [h.shown, Option.bind_some, conv_name _ hn.2, Option.bind_some]
  dsimp only
  have hlen : (x.shown ++ if true = true then [0] else []).length = x.shown.length + 1 := by simp
  rw [hlen, if_neg (by have := hn.1; simp only [nameLen]; omega), h.cur, addr0]
  have hw : ((x.shown ++ (if true = true then [(0 : Byte)] else []) ++ junk.drop (x.shown.length + 1)).take nameLen).length = 24 := by
    have := hn.1
    simp [nameLen, hj]
    omega
  rw [wr_eq _ _ _ (by rw [hw, h.mem.len]; have := h.lt; omega)]
  refine ⟨_, rfl, ?_⟩
  refine { h with cur := rfl, shown := rfl, mem := h.mem.setName _ h.lt _ _ hw ⟨hn, (junk.drop (x.shown.length + 1)).take (23 - x.shown.length), ?_⟩ }
  have := hn.1
  simp only [if_true, List.append_assoc, List.singleton_append, nameLen]
  rw [List.take_append, List.take_of_length_le (by omega), show 24 - x.shown.length = (23 - x.shown.length) + 1 by omega,
    List.take_succ_cons]

theorem Sim.goto {s : St} {x : Screen} (h : Sim s x) (junk : List Byte) (hj : junk.length = 25) (r : Int) :
    ∃ s', s.goto junk r = some s' ∧ Sim s' (x.goto r) := by
  unfold St.goto Screen.goto
  rw [show ((perLine : Nat) : Int) = 25 from rfl]
  by_cases hr : 0 ≤ r ∧ r < 25
  · rw [if_pos hr, if_pos hr]
    obtain ⟨s1, h1, h2⟩ := h.keep junk hj
    rw [h1, Option.bind_some]
    exact Sim.show (x := { x.keep with cur := r.toNat }) { h2 with cur := rfl, lt := by show r.toNat < 25; omega }
  · rw [if_neg hr, if_neg hr]
    exact ⟨s, rfl, h⟩

theorem Sim.formList {s : St} {x : Screen} (h : Sim s x) :
    ∃ s', s.formList = some s' ∧ Sim s' { x with list := x.tab.used } := by
  unfold St.formList
  rw [h.mem.entries _ (by simp [perLine])]
  exact ⟨_, rfl, { h with list := rfl }⟩

/-- Values are set one after another. -/
theorem Sim.reset {s : St} {x : Screen} (h : Sim s x) (now : Tm) (kvs : List (Nat × BitVec 32))
    (hk : ∀ e ∈ kvs, ValOk e.1 e.2) (hd : (kvs.map Prod.fst).Nodup) (hc : x.dirty = true ∧ x.tCheck = now ∨ kvs ≠ []) :
    ∃ s', s.reset now kvs = some s' ∧
      Sim s' { x with tab := x.tab.setRec x.cur ⟨x.tab.name x.cur, fun k => (kvs.lookup k).getD (x.tab.val x.cur k)⟩,
                      dirty := true, tCheck := now } := by
  induction kvs generalizing s x with
  | nil =>
    refine ⟨s, rfl, ?_⟩
    rcases hc with ⟨h1, h2⟩ | hc
    · have he : x.tab.setRec x.cur ⟨x.tab.name x.cur, fun k => (([] : List (Nat × BitVec 32)).lookup k).getD
          (x.tab.val x.cur k)⟩ = x.tab := by
        simp only [List.lookup_nil, Option.getD_none, Table.setRec_name x.tab x.cur (x.tab.name x.cur)]
        cases ht : x.tab
        simp only [Table.setName, Table.mk.injEq, and_true]
        funext r'
        split
        · rename_i h'; rw [h']
        · rfl
      rw [he, ← h1, ← h2]
      exact h
    · exact absurd rfl hc
  | cons e kvs ih =>
    obtain ⟨k, v⟩ := e
    rw [St.reset, h.cur]
    obtain ⟨s1, h1, h2⟩ := h.set now x.cur k h.lt v (hk (k, v) (by simp))
    rw [h1, Option.bind_some]
    simp only [List.map_cons, List.nodup_cons] at hd
    obtain ⟨s', h3, h4⟩ := ih h2 (fun e he => hk e (by simp [he])) hd.2 (.inl ⟨rfl, rfl⟩)
    refine ⟨s', h3, ?_⟩
    convert h4 using 2
    any_goals rfl
    simp only [Screen.set, Table.setRec, Table.setVal, Table.mk.injEq]
    refine ⟨rfl, ?_⟩
    funext r' k'
    by_cases hr : r' = x.cur
    · simp only [hr, if_true, true_and, List.lookup_cons]
      by_cases hkk : k' = k
      · subst hkk
        have : kvs.lookup k' = none := by
          rw [List.lookup_eq_none_iff]
          intro p hp
          simp only [bne_iff_ne, ne_eq]
          intro he
          exact hd.1 (he ▸ List.mem_map_of_mem hp)
        simp [this]
      · have : (k' == k) = false := by simpa using hkk
        simp [this, hkk]
    · simp [hr]

theorem defaults_ok : (∀ e ∈ defaults, ValOk e.1 e.2) ∧ (defaults.map Prod.fst).Nodup := by decide +kernel

theorem Sim.order {s : St} {x : Screen} (h : Sim s x) (now : Tm) (c : Int) :
    ∃ s', (if c = 1 then s.reset now defaults else if c = 2 then s.copyRecipe else if c = 3 then s.paste
      else if c = 4 then s.nullify else some s) = some s' ∧ Sim s' (x.order now c) := by
  unfold Screen.order
  by_cases h1 : c = 1
  · rw [if_pos h1, if_pos h1]
    exact h.reset now defaults defaults_ok.1 defaults_ok.2 (.inr (by decide))
  rw [if_neg h1, if_neg h1]
  by_cases h2 : c = 2
  · rw [if_pos h2, if_pos h2, St.copyRecipe, h.cur, addr0, rd_eq _ _ _ (by rw [h.mem.len]; have := h.lt; simp [recLen]; omega)]
    exact ⟨_, rfl, { h with cur := rfl, copied := .inr ⟨_, _, rfl, rfl, h.mem.rcp _ h.lt⟩ }⟩
  rw [if_neg h2, if_neg h2]
  by_cases h3 : c = 3
  · rw [if_pos h3, if_pos h3, St.paste]
    rcases h.copied with ⟨hc, hy⟩ | ⟨bs, y, hc, hy, hr⟩
    · rw [hc, hy]
      exact ⟨s, rfl, h⟩
    · rw [hc, hy]
      dsimp only
      rw [h.cur, addr0, wr_eq _ _ _ (by rw [h.mem.len, hr.len]; have := h.lt; omega), Option.bind_some]
      have hm := h.mem.setRec _ h.lt _ _ hr
      exact Sim.show { h with cur := rfl, mem := hm, copied := .inr ⟨bs, y, rfl, rfl, hr⟩ }
  rw [if_neg h3, if_neg h3]
  by_cases h4 : c = 4
  · rw [if_pos h4, if_pos h4, St.nullify, h.cur, addr0, wr_eq _ _ _ (by
      rw [h.mem.len, List.length_replicate]; have := h.lt; simp only [recLen]; omega), Option.bind_some]
    exact Sim.show { h with cur := rfl, mem := h.mem.setRec _ h.lt _ _ repRec_zero }
  rw [if_neg h4, if_neg h4]
  exact ⟨s, rfl, h⟩

theorem order_cur (x : Screen) (now : Tm) (c : Int) : (x.order now c).cur = x.cur := by
  unfold Screen.order
  split
  · rfl
  split
  · rfl
  split
  · split <;> rfl
  split <;> rfl

theorem Sim.command {s : St} {x : Screen} (h : Sim s x) (now : Tm) :
    ∃ s', s.command now = some s' ∧ Sim s' (x.command now) := by
  unfold St.command Screen.command
  have hg := h.mem.getValue x.cur 1 h.lt (by omega)
  have ho : trunc (x.tab.val x.cur 1) ≠ none := (h.mem.rcp _ h.lt).order
  rw [Nat.cast_one, unset_of_ok ho] at hg
  rw [h.cur, hg, Option.bind_some]
  by_cases hz : nonzero (x.tab.val x.cur 1)
  · rw [if_pos hz, if_pos hz]
    obtain ⟨c, hc⟩ := Option.ne_none_iff_exists'.mp ho
    rw [hc, Option.bind_some]
    obtain ⟨s1, h1, h2⟩ := h.order now c
    rw [h1, Option.bind_some]
    have := h2.set now x.cur 1 h.lt 0 ⟨by omega, by decide⟩
    rw [← order_cur x now c, ← h2.cur] at this
    simpa [order_cur, h2.cur] using this
  · rw [if_neg hz, if_neg hz]
    exact ⟨s, rfl, h⟩

theorem load_save (m : List Byte) (hm : m.length = 12800) (f : Option (List Byte)) (w : Nat) (hw : DiskOk w) :
    loadFile (some (m.take w ++ (f.getD []).drop (m.take w).length)) = if w ≠ 0 then m else loadFile f := by
  rcases hw with rfl | hw
  · simp [loadFile]
  · rw [if_pos (by omega), List.take_of_length_le (by omega)]
    unfold loadFile
    simp only [Option.getD_some]
    rw [show memSize = 12800 from rfl, List.take_append, hm, Nat.sub_self, List.take_zero, List.append_nil,
      List.take_of_length_le (by omega), hm, Nat.sub_self]
    simp

theorem Sim.saved {s : St} {x : Screen} (h : Sim s x) (w : Nat) (hw : DiskOk w) :
    Sim (s.save w) { x with disk := if w ≠ 0 then x.tab else x.disk } := by
  have := load_save s.mem h.mem.len s.file w hw
  refine { h with disk := ?_ }
  show Rep (loadFile (some _)) _
  rw [this]
  split
  · exact h.mem
  · exact h.disk

theorem Sim.start {f : Option (List Byte)} {t : Table} (h : Rep (loadFile f) t) (now : Tm) :
    ∃ s', CipRec.start f now = some s' ∧ Sim s' (Screen.start t now) := by
  unfold CipRec.start
  unfold St.loadName
  have := h.readName 0 (by omega)
  rw [Nat.cast_zero] at this
  simp only [Nat.cast_zero, this, Option.map_some, Option.bind_some, St.formList]
  rw [h.entries _ (by simp [perLine])]
  refine ⟨_, rfl, ?_⟩
  exact { mem := h, cur := rfl, lt := by show 0 < 25; omega, shown := rfl, ok := (h.name 0 (by omega)).1,
          copied := .inl ⟨rfl, rfl⟩, disk := h, dirty := rfl, tCheck := rfl, tEval := rfl, list := rfl }

theorem Sim.eval {s : St} {x : Screen} (h : Sim s x) (now : Tm) (junk : List Byte) (hj : junk.length = 25) (w : Nat)
    (hw : DiskOk w) : ∃ s', s.eval now junk w = some s' ∧ Sim s' (x.eval now w) := by
  unfold St.eval Screen.eval
  have h1 : ∃ s1, (if 10000#64 < Time.deltaMs now s.tEval then ({ s with tEval := now }.saveName junk).bind (·.formList)
      else some s) = some s1 ∧ Sim s1 (if 10000#64 < Time.deltaMs now x.tEval then
        { x.keep with tEval := now, list := x.keep.tab.used } else x) := by
    rw [h.tEval]
    split
    · have h0 : Sim { s with tEval := now } { x with tEval := now } := { h with tEval := rfl }
      obtain ⟨s1, h1, h2⟩ := h0.keep junk hj
      rw [h1, Option.bind_some]
      exact h2.formList
    · exact ⟨s, rfl, h⟩
  obtain ⟨s1, h1, h2⟩ := h1
  rw [h1, Option.bind_some]
  dsimp only
  generalize (if 10000#64 < Time.deltaMs now x.tEval then
        { x.keep with tEval := now, list := x.keep.tab.used } else x) = y at h2 ⊢
  apply Sim.command
  rw [h2.tCheck, h2.dirty]
  split
  · cases hd : y.dirty
    · simp only [Bool.false_eq_true, if_false, false_and]
      exact { h2 with tCheck := rfl, dirty := by show s1.changed = _; rw [h2.dirty, hd] }
    · simp only [if_true, true_and]
      have h3 : Sim { s1 with changed := false } { y with dirty := false } := { h2 with dirty := rfl }
      exact { h3.saved w hw with tCheck := rfl }
  · exact h2

theorem Sim.step {s : St} {x : Screen} (h : Sim s x) (now : Tm) (junk : List Byte) (hj : junk.length = 25) (a : Act)
    (ha : a.Ok) : ∃ s', s.step ⟨now, junk, a.op⟩ = some s' ∧ Sim s' (x.step now a) := by
  cases a with
  | par k v =>
    have hk : k < 120 := ha.1
    have : ((BitVec.ofNat 32 (k + 1) - 1).toInt) = (k : Int) := by
      have h1 : BitVec.ofNat 32 (k + 1) - 1 = BitVec.ofNat 32 k := by
        apply BitVec.eq_of_toNat_eq
        simp
        omega
      rw [h1, BitVec.toInt_eq_toNat_of_lt (by simp; omega)]
      simp
      omega
    show ∃ s', s.setRec now s.cur (BitVec.ofNat 32 (k + 1) - 1).toInt v = some s' ∧ _
    rw [this, h.cur]
    exact h.set now x.cur k h.lt v ha
  | value r k v => exact h.set now r k ha.1 v ha.2
  | name l =>
    have hn : NameOk l := ha
    have h98 : ∀ b ∈ l, b ≠ 0x98 := fun b hb => (hn.2 b hb).2.1
    show ∃ s', (match Text.setName nameLen (3 * nameLen) (toUtf8 l) with
      | none => some s | some n => some { s with name := n }) = some s' ∧ _
    have hs : Text.setName nameLen (3 * nameLen) (toUtf8 l) = some (some (toUtf8 l)) := by
      unfold Text.setName
      have h3 := Text.toUtf8_three l
      have := hn.1
      rw [Text.strlen, Text.count_toUtf8 l h98, Option.getD_some, if_pos (show l.length < nameLen from hn.1),
        if_pos (by simp only [nameLen]; omega)]
    rw [hs]
    exact ⟨_, rfl, { h with shown := rfl, ok := hn }⟩
  | goto r => exact h.goto junk hj r
  | next =>
    show ∃ s', s.goto junk (s.cur + 1) = some s' ∧ _
    rw [h.cur]
    exact h.goto junk hj _
  | prev =>
    show ∃ s', s.goto junk (s.cur - 1 : Int) = some s' ∧ _
    rw [h.cur]
    exact h.goto junk hj _
  | reload => exact Sim.show (x := { x with tab := x.disk }) { h with mem := h.disk }
  | eval w => exact h.eval now junk hj w ha
  | restart => exact Sim.start h.disk now
  | shutdown w =>
    obtain ⟨s1, h1, h2⟩ := h.keep junk hj
    show ∃ s', (s.saveName junk).bind _ = some s' ∧ _
    rw [h1, Option.bind_some]
    exact Sim.start (h2.saved w ha).disk now

theorem Sim.run {s : St} {x : Screen} (h : Sim s x) (es : List (Tm × List Byte × Act)) (hes : History es) :
    ∃ s', s.run (es.map event) = some s' ∧ Sim s' (x.run es) := by
  induction es generalizing s x with
  | nil => exact ⟨s, rfl, h⟩
  | cons e es ih =>
    obtain ⟨now, junk, a⟩ := e
    have he := hes _ (by simp : (now, junk, a) ∈ _)
    obtain ⟨s1, h1, h2⟩ := h.step now junk he.1 a he.2
    show ∃ s', (s.step ⟨now, junk, a.op⟩).bind _ = some s' ∧ _
    rw [h1, Option.bind_some]
    exact ih h2 (fun e he => hes e (by simp [he]))

/-- The state in front of the order. -/
structure Pre (x y : Screen) (now : Tm) (w : Nat) : Prop where
  cur : y.cur = x.cur
  val : y.tab.val = x.tab.val
  shown : y.shown = x.shown
  copied : y.copied = x.copied
  saved : 30000#64 < Time.deltaMs now x.tCheck →
    y.disk = (if x.dirty ∧ w ≠ 0 then y.tab else x.disk) ∧ y.dirty = false ∧ y.tCheck = now
  kept : ¬ 30000#64 < Time.deltaMs now x.tCheck → y.disk = x.disk ∧ y.dirty = x.dirty ∧ y.tCheck = x.tCheck
  list : 10000#64 < Time.deltaMs now x.tEval → y.list = x.keep.tab.used

theorem eval_pre (x : Screen) (now : Tm) (w : Nat) : ∃ y, x.eval now w = y.command now ∧ Pre x y now w := by
  unfold Screen.eval
  dsimp only
  refine ⟨_, rfl, ?_⟩
  by_cases h1 : 10000#64 < Time.deltaMs now x.tEval
  · rw [if_pos h1]
    by_cases h2 : 30000#64 < Time.deltaMs now x.tCheck
    · rw [if_pos (by exact h2)]
      exact ⟨rfl, rfl, rfl, rfl, fun _ => ⟨rfl, rfl, rfl⟩, fun h => absurd h2 h, fun _ => rfl⟩
    · rw [if_neg (by exact h2)]
      exact ⟨rfl, rfl, rfl, rfl, fun h => absurd h h2, fun _ => ⟨rfl, rfl, rfl⟩, fun _ => rfl⟩
  · rw [if_neg h1]
    by_cases h2 : 30000#64 < Time.deltaMs now x.tCheck
    · rw [if_pos h2]
      exact ⟨rfl, rfl, rfl, rfl, fun _ => ⟨rfl, rfl, rfl⟩, fun h => absurd h2 h, fun h => absurd h h1⟩
    · rw [if_neg h2]
      exact ⟨rfl, rfl, rfl, rfl, fun h => absurd h h2, fun _ => ⟨rfl, rfl, rfl⟩, fun h => absurd h h1⟩

theorem command_list (y : Screen) (now : Tm) : (y.command now).list = y.list := by
  unfold Screen.command Screen.order
  split
  · split
    · rfl
    · split
      · rfl
      split
      · rfl
      split
      · split <;> rfl
      split <;> rfl
  · rfl

theorem command_disk (y : Screen) (now : Tm) : (y.command now).disk = y.disk := by
  unfold Screen.command Screen.order
  split
  · split
    · rfl
    · split
      · rfl
      split
      · rfl
      split
      · split <;> rfl
      split <;> rfl
  · rfl

theorem loadFile_none : loadFile none = List.replicate 12800 0 := by
  show ([] : List Byte).take memSize ++ List.replicate (memSize - (([] : List Byte).take memSize).length) 0 = _
  rw [List.take_nil, List.nil_append]
  rfl

/-- From the first start. -/
theorem reach (t0 : Tm) (es : List (Tm × List Byte × Act)) (hes : History es) :
    ∃ s, (start none t0).bind (·.run (es.map event)) = some s ∧ Sim s ((Screen.start .empty t0).run es) := by
  obtain ⟨s0, h0, h1⟩ := Sim.start (f := none) (t := .empty) (by rw [loadFile_none]; exact rep_zero) t0
  rw [h0, Option.bind_some]
  exact h1.run es hes

theorem command_none (y : Screen) (now : Tm) (h : y.tab.val y.cur 1 = 0) : y.command now = y := by
  unfold Screen.command
  rw [h, if_neg (by decide)]

theorem quiet_step (x : Screen) (now : Tm) (a : Act) (ha : Quiet a) (h : ∀ r < 25, x.tab.val r 1 = 0) (hc : x.cur < 25) :
    (x.step now a).tab.val = x.tab.val ∧ (x.step now a).cur < 25 ∧
      (¬ 30000#64 < Time.deltaMs now x.tCheck → (x.step now a).dirty = x.dirty ∧ (x.step now a).tCheck = x.tCheck ∧
        (x.step now a).disk = x.disk) := by
  have hgoto : ∀ i, (x.goto i).tab.val = x.tab.val ∧ (x.goto i).cur < 25 ∧
      (¬ 30000#64 < Time.deltaMs now x.tCheck → (x.goto i).dirty = x.dirty ∧ (x.goto i).tCheck = x.tCheck ∧
        (x.goto i).disk = x.disk) := by
    intro i
    unfold Screen.goto
    split
    · exact ⟨rfl, by show i.toNat < 25; omega, fun _ => ⟨rfl, rfl, rfl⟩⟩
    · exact ⟨rfl, hc, fun _ => ⟨rfl, rfl, rfl⟩⟩
  cases a with
  | name l => exact ⟨rfl, hc, fun _ => ⟨rfl, rfl, rfl⟩⟩
  | goto r => exact hgoto r
  | next => exact hgoto _
  | prev => exact hgoto _
  | eval w =>
    show (x.eval now w).tab.val = _ ∧ _
    obtain ⟨y, he, hp⟩ := eval_pre x now w
    have hn : y.command now = y := command_none y now (by rw [hp.val, hp.cur]; exact h _ hc)
    simp only [Screen.step]
    rw [he, hn]
    exact ⟨hp.val, by rw [hp.cur]; exact hc, fun hk => ⟨(hp.kept hk).2.1, (hp.kept hk).2.2, (hp.kept hk).1⟩⟩
  | par k v => exact absurd ha id
  | value r k v => exact absurd ha id
  | reload => exact absurd ha id
  | restart => exact absurd ha id
  | shutdown w => exact absurd ha id

theorem quiet_run (x : Screen) (t : Tm) (es : List (Tm × List Byte × Act))
    (hes : ∀ e ∈ es, Quiet e.2.2 ∧ ¬ 30000#64 < Time.deltaMs e.1 t) (h : ∀ r < 25, x.tab.val r 1 = 0) (hc : x.cur < 25)
    (ht : x.tCheck = t) :
    (x.run es).tab.val = x.tab.val ∧ (x.run es).cur < 25 ∧ (x.run es).dirty = x.dirty ∧ (x.run es).tCheck = t ∧
      (x.run es).disk = x.disk := by
  induction es generalizing x with
  | nil => exact ⟨rfl, hc, rfl, ht, rfl⟩
  | cons e es ih =>
    obtain ⟨now, j, a⟩ := e
    have he := hes (now, j, a) (by simp)
    obtain ⟨h1, h2, h3⟩ := quiet_step x now a he.1 h hc
    obtain ⟨h4, h5, h6⟩ := h3 (by rw [ht]; exact he.2)
    obtain ⟨i1, i2, i3, i4, i5⟩ := ih (x.step now a) (fun e he => hes e (by simp [he])) (by rw [h1]; exact h) h2 (by rw [h5, ht])
    exact ⟨by rw [Screen.run, i1, h1], i2, by rw [Screen.run, i3, h4], i4, by rw [Screen.run, i5, h6]⟩

theorem quiet_ok {es : List (Tm × List Byte × Act)} (h : ∀ e ∈ es, Quiet e.2.2 ∧ e.2.1.length = 25) : History es := by
  intro e he
  obtain ⟨hq, hj⟩ := h e he
  refine ⟨hj, ?_⟩
  cases ha : e.2.2 <;> simp_all [Quiet, Act.Ok]

theorem quiet_clean (x : Screen) (n : Tm) (a : Act) (hq : Quiet a) (hx : ∀ r < 25, x.tab.val r 1 = 0) (hc : x.cur < 25)
    (hdx : x.dirty = false) : (x.step n a).dirty = false ∧ (x.step n a).disk = x.disk := by
  have hgoto : ∀ i, (x.goto i).dirty = false ∧ (x.goto i).disk = x.disk := by
    intro i
    unfold Screen.goto
    split
    · exact ⟨hdx, rfl⟩
    · exact ⟨hdx, rfl⟩
  cases a with
  | name l => exact ⟨hdx, rfl⟩
  | goto r => exact hgoto r
  | next => exact hgoto _
  | prev => exact hgoto _
  | eval w =>
    obtain ⟨y, he, hp⟩ := eval_pre x n w
    have hn : y.command n = y := command_none y n (by rw [hp.val, hp.cur]; exact hx _ hc)
    simp only [Screen.step]
    rw [he, hn]
    by_cases ht : 30000#64 < Time.deltaMs n x.tCheck
    · refine ⟨(hp.saved ht).2.1, ?_⟩
      rw [(hp.saved ht).1, if_neg (by simp [hdx])]
    · exact ⟨by rw [(hp.kept ht).2.1, hdx], (hp.kept ht).1⟩
  | par k v => exact absurd hq id
  | value r k v => exact absurd hq id
  | reload => exact absurd hq id
  | restart => exact absurd hq id
  | shutdown w => exact absurd hq id

theorem Sim.noOrder {s : St} {x : Screen} (h : Sim s x) (ho : NoOrder s.mem) (r : Nat) (hr : r < 25) : x.tab.val r 1 = 0 := by
  have h3 := h.mem.getValue r 1 hr (by omega)
  have h4 : trunc (x.tab.val r 1) ≠ none := (h.mem.rcp r hr).order
  rw [Nat.cast_one, ho r hr, unset_of_ok h4] at h3
  simpa using h3.symm

end Ptusa.CipRec
