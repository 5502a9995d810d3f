import Verif.Mem.Model

namespace Ptusa.Mem

/-- The request cannot wrap the 32-bit position (any block of at most 4 GiB - 32 KiB). -/
def NoWrap (c : Word) : Prop := c.toNat ≤ 4294934528

/-- State invariant of the manager. -/
structure Mgr.Inv (m : Mgr) : Prop where
  nv : m.lastNvram.toNat ≤ 31
  ee1 : 32 ≤ m.lastEeprom.toNat
  ee2 : m.lastEeprom.toNat ≤ 32767

theorem Mgr.inv_init : Mgr.init.Inv := by
  constructor <;> decide

theorem Mgr.alloc_inv {m : Mgr} (h : m.Inv) (a : Area) {c : Word} (hc : NoWrap c) :
    (m.alloc a c).1.Inv := by
  obtain ⟨h1, h2, h3⟩ := h
  unfold NoWrap at hc
  unfold Mgr.alloc
  split
  · exact ⟨h1, h2, h3⟩
  · rename_i hlt
    cases a <;> simp [Mgr.setLast, Mgr.last, Area.endPos, BitVec.lt_def] at hlt ⊢
    · constructor <;> simp <;> omega
    · constructor <;> simp <;> omega

theorem Mgr.getBlock_inv {m : Mgr} (h : m.Inv) (t : MemType) {c : Word} (hc : NoWrap c) :
    (m.getBlock t c).1.Inv := by
  cases t
  · exact Mgr.alloc_inv h _ hc
  · exact Mgr.alloc_inv h _ hc
  · exact h

theorem Mgr.run_inv {m : Mgr} (h : m.Inv) (rs : List (MemType × Word))
    (hc : ∀ p ∈ rs, NoWrap p.2) : (m.run rs).1.Inv := by
  induction rs generalizing m with
  | nil => exact h
  | cons p rs ih =>
    obtain ⟨t, c⟩ := p
    simp only [Mgr.run]
    exact ih (Mgr.getBlock_inv h t (hc (t, c) (by simp))) (fun p hp => hc p (by simp [hp]))

/-- What one successful allocation guarantees. -/
theorem Mgr.getBlock_spec {m : Mgr} (h : m.Inv) (t : MemType) {c : Word} (hc : NoWrap c) :
    (m.getBlock t c = (m, Range.empty)) ∨
    ∃ a, (m.getBlock t c).2 = ⟨some a, m.last a, c⟩ ∧
      (m.getBlock t c).1 = m.setLast a (m.last a + c) ∧
      (m.last a + c).toNat = (m.last a).toNat + c.toNat ∧
      (m.last a).toNat + c.toNat ≤ a.endPos.toNat ∧
      a.startPos.toNat ≤ (m.last a).toNat := by
  obtain ⟨h1, h2, h3⟩ := h
  unfold NoWrap at hc
  have key : ∀ a : Area, m.alloc a c = (m, Range.empty) ∨
    ((m.alloc a c).2 = ⟨some a, m.last a, c⟩ ∧
      (m.alloc a c).1 = m.setLast a (m.last a + c) ∧
      (m.last a + c).toNat = (m.last a).toNat + c.toNat ∧
      (m.last a).toNat + c.toNat ≤ a.endPos.toNat ∧
      a.startPos.toNat ≤ (m.last a).toNat) := by
    intro a
    unfold Mgr.alloc
    split
    · left; rfl
    · rename_i hlt
      right
      refine ⟨rfl, rfl, ?_⟩
      cases a <;> simp [Mgr.last, Area.endPos, Area.startPos, BitVec.lt_def] at hlt ⊢ <;> omega
  cases t
  · rcases key .nvram with h | h
    · left; exact h
    · right; exact ⟨_, h⟩
  · rcases key .eeprom with h | h
    · left; exact h
    · right; exact ⟨_, h⟩
  · left; rfl

/-- The bump pointer of an area never decreases. -/
theorem Mgr.getBlock_mono {m : Mgr} (h : m.Inv) (t : MemType) {c : Word} (hc : NoWrap c)
    (a : Area) : (m.last a).toNat ≤ ((m.getBlock t c).1.last a).toNat := by
  rcases Mgr.getBlock_spec h t hc with e | ⟨a', _, e2, e3, _⟩
  · rw [e]; exact Nat.le_refl _
  · rw [e2]
    cases a <;> cases a' <;> simp [Mgr.setLast, Mgr.last] at * <;> omega

/-- Every range handed out by a history lies in its area, at or above the bump pointer the
history started with. -/
theorem Mgr.run_above {m : Mgr} (h : m.Inv) (rs : List (MemType × Word))
    (hc : ∀ p ∈ rs, NoWrap p.2) :
    ∀ r ∈ (m.run rs).2, r = Range.empty ∨
      ∃ a, r.mem = some a ∧ (m.last a).toNat ≤ r.start.toNat ∧
        a.startPos.toNat ≤ r.start.toNat ∧ r.start.toNat + r.size.toNat ≤ a.endPos.toNat := by
  induction rs generalizing m with
  | nil => simp [Mgr.run]
  | cons p rs ih =>
    obtain ⟨t, c⟩ := p
    have hc0 : NoWrap c := hc (t, c) (by simp)
    simp only [Mgr.run]
    intro r hr
    rcases List.mem_cons.1 hr with rfl | hr
    · rcases Mgr.getBlock_spec h t hc0 with e | ⟨a, e1, e2, e3, e4, e5⟩
      · left; rw [e]
      · right
        refine ⟨a, ?_, ?_, ?_, ?_⟩ <;> rw [e1]
        · exact Nat.le_refl _
        · exact e5
        · exact e4
    · rcases ih (Mgr.getBlock_inv h t hc0) (fun p hp => hc p (by simp [hp])) r hr with e | ⟨a, e1, e2, e3⟩
      · left; exact e
      · right
        exact ⟨a, e1, Nat.le_trans (Mgr.getBlock_mono h t hc0 a) e2, e3⟩

theorem Disk.get_put_same (d : Disk) (p : Nat) (buf : List Byte) :
    (d.put p buf).get p buf.length = buf := by
  apply List.ext_getElem
  · simp [Disk.get]
  · intro i h1 h2
    simp only [Disk.get, List.getElem_map, List.getElem_range]
    unfold Disk.put
    have : p ≤ p + i ∧ p + i < p + buf.length := by omega
    simp [this]

theorem Disk.put_other (d : Disk) (p q : Nat) (buf : List Byte)
    (h : q < p ∨ p + buf.length ≤ q) : d.put p buf q = d q := by
  unfold Disk.put
  have : ¬ (p ≤ q ∧ q < p + buf.length) := by omega
  simp [this]

theorem Disk.put_in (d : Disk) (p : Nat) (buf : List Byte) (i : Nat) (h : i < buf.length) :
    d.put p buf (p + i) = buf[i] := by
  unfold Disk.put
  have : p ≤ p + i ∧ p + i < p + buf.length := by omega
  simp [this]

end Ptusa.Mem
