import Verif.Mem.Lemmas

/-!
# C01, C02: non-volatile memory blocks
-/
namespace Ptusa.Mem

/-- Two ranges share no position of the logical address space of an area. -/
def Range.Disjoint (r s : Range) : Prop :=
  ∀ q, ¬ (r.lo ≤ q ∧ q < r.hi ∧ s.lo ≤ q ∧ q < s.hi)

/-- `[start, start + size)` lies inside the positions `startPos..endPos` of the area. -/
def Range.InArea (r : Range) : Prop :=
  ∀ a, r.mem = some a → a.startPos.toNat ≤ r.start.toNat ∧
    r.start.toNat + r.size.toNat ≤ a.endPos.toNat + 1

/-- C01 (full claim, as a predicate on a history of requests). -/
def C01_claim (rs : List (MemType × Word)) : Prop :=
  (∀ r ∈ (Mgr.init.run rs).2, r.InArea) ∧
  (Mgr.init.run rs).2.Pairwise Range.Disjoint

/-- C01 is false of the code: the 32-bit sum in the capacity check wraps, so a request of
nearly 4 GiB is granted, moves the bump pointer backwards, and a later block coincides with
an earlier one. -/
theorem C01_blocks_disjoint_violated :
    ¬ ∀ rs : List (MemType × Word), C01_claim rs := by
  intro h
  have h2 := (h [(.eeprom, 100), (.eeprom, 4294967196), (.eeprom, 100)]).2
  have e : (Mgr.init.run [(.eeprom, 100), (.eeprom, 4294967196), (.eeprom, 100)]).2
      = [⟨some .eeprom, 32, 100⟩, ⟨some .eeprom, 132, 4294967196⟩, ⟨some .eeprom, 32, 100⟩] := by
    decide
  rw [e] at h2
  simp only [List.pairwise_cons, List.mem_cons] at h2
  have := h2.1 _ (Or.inr (Or.inl rfl)) 64
  apply this
  decide

/-- C01 for every history whose requests are below 4 GiB - 32 KiB each (missing: the
wrapping requests, for which it is false, see above). -/
theorem C01_blocks_disjoint_partial (rs : List (MemType × Word))
    (hc : ∀ p ∈ rs, p.2.toNat ≤ 4294934528) : C01_claim rs := by
  have main : ∀ m : Mgr, m.Inv → (m.run rs).2.Pairwise Range.Disjoint := by
    induction rs with
    | nil => intro m _; simp [Mgr.run]
    | cons p rs ih =>
      obtain ⟨t, c⟩ := p
      intro m hm
      have hc0 : NoWrap c := hc (t, c) (by simp)
      have hcr : ∀ p ∈ rs, NoWrap p.2 := fun p hp => hc p (by simp [hp])
      simp only [Mgr.run]
      rw [List.pairwise_cons]
      refine ⟨?_, ih (fun p hp => hc p (by simp [hp])) _ (Mgr.getBlock_inv hm t hc0)⟩
      intro s hs
      have ha := Mgr.run_above (Mgr.getBlock_inv hm t hc0) rs hcr s hs
      rcases Mgr.getBlock_spec hm t hc0 with e | ⟨a, e1, e2, e3, e4, e5⟩
      · rw [e]; intro q hq; simp [Range.empty, Range.lo, Range.hi] at hq
      · rcases ha with rfl | ⟨a', f1, f2, f3, f4⟩
        · intro q hq; simp [Range.empty, Range.lo, Range.hi] at hq
        · intro q hq
          rw [e1] at hq
          simp only [Range.lo, Range.hi, f1] at hq
          rw [e2] at f2
          cases a <;> cases a' <;>
            simp [Mgr.setLast, Mgr.last, Area.startPos, Area.endPos] at * <;> omega
  refine ⟨?_, main _ Mgr.inv_init⟩
  intro r hr a ha
  rcases Mgr.run_above Mgr.inv_init rs hc r hr with rfl | ⟨a', h1, _, h2, h3⟩
  · simp [Range.empty] at ha
  · rw [ha] at h1
    cases h1
    exact ⟨h2, by omega⟩

/-- Non-vacuity: three granted blocks and one refused one. -/
example : (∀ p ∈ [(MemType.nvram, (10 : Word)), (.eeprom, 30720), (.eeprom, 100), (.nvram, 100)],
      p.2.toNat ≤ 4294934528) ∧
    (Mgr.init.run [(MemType.nvram, 10), (.eeprom, 30720), (.eeprom, 100), (.nvram, 100)]).2
      = [⟨some .nvram, 0, 10⟩, ⟨some .eeprom, 32, 30720⟩, ⟨some .eeprom, 30752, 100⟩,
         Range.empty] := by decide

/-- C01, refusal part, for every request including wrapping ones: a request answered with the
empty block changes nothing in the manager. -/
theorem C01_refused_consumes_nothing (m : Mgr) (t : MemType) (c : Word)
    (h : (m.getBlock t c).2.mem = none) :
    (m.getBlock t c).1 = m ∧ (m.getBlock t c).2 = Range.empty := by
  have key : ∀ a, (m.alloc a c).2.mem = none →
      (m.alloc a c).1 = m ∧ (m.alloc a c).2 = Range.empty := by
    intro a
    unfold Mgr.alloc
    split <;> simp
  cases t
  · exact key _ h
  · exact key _ h
  · exact ⟨rfl, rfl⟩

example : (Mgr.init.getBlock .nvram 100).2.mem = none := by decide

/-- C01, grant part: a request that fits (with the one-byte reserve of the inclusive end
position) is granted, with the size asked for. -/
theorem C01_fitting_request_granted (m : Mgr) (a : Area) (c : Word)
    (h : (m.last a).toNat + c.toNat ≤ a.endPos.toNat) :
    (m.getBlock (match a with | .nvram => .nvram | .eeprom => .eeprom) c).2
      = ⟨some a, m.last a, c⟩ := by
  cases a <;> simp only [Mgr.getBlock, Mgr.alloc, BitVec.lt_def] <;>
    rw [if_neg] <;> simp [Mgr.last, Area.endPos] at * <;> omega

example : (Mgr.init.last .eeprom).toNat + (30720 : Word).toNat ≤ Area.eeprom.endPos.toNat := by
  decide

/-- C01 is also false at the level of the storage device: the driver adds the start of the
area a second time (`l_mem.cpp:71,94`), so a granted EEPROM block can reach past the end of
the 32768-byte device. -/
theorem C01_block_inside_device_violated :
    ¬ ∀ rs : List (MemType × Word), (∀ p ∈ rs, p.2.toNat ≤ 4294934528) →
      ∀ r ∈ (Mgr.init.run rs).2, r.hi ≤ totalSize := by
  intro h
  have := h [(.eeprom, 32735)] (by decide) ⟨some .eeprom, 32, 32735⟩ (by decide)
  revert this
  decide

/-- ... but the two blocks the runtime itself asks for (`param_ex.cpp:24-28`) are inside it. -/
theorem C01_params_blocks_inside_device :
    ∀ r ∈ (Mgr.init.run [(.nvram, 10), (.eeprom, 30720)]).2, r.mem ≠ none ∧ r.hi ≤ totalSize := by
  decide

/-! ## C02 -/

/-- C02 (full claim for one call): a write touches only bytes of its own block. -/
def C02_write_claim (r : Range) (d : Disk) (buf : List Byte) (count start : Word) : Prop :=
  ∀ q, ¬ (r.lo ≤ q ∧ q < r.hi) → (r.write d buf count start).1 q = d q

/-- C02 is false of the code: the sum `start_pos + count` wraps (`base_mem.cpp:98`), so a
one-byte write at position 2^32-1 is accepted and hits the byte *before* the block, which
belongs to another granted block. -/
theorem C02_write_in_block_violated :
    ¬ ∀ (rs : List (MemType × Word)) (d : Disk) (buf : List Byte) (count start : Word),
      ∀ r ∈ (Mgr.init.run rs).2, C02_write_claim r d buf count start := by
  intro h
  have := h [(.eeprom, 100), (.eeprom, 100)] (fun _ => 0) [1] 1 4294967295
    ⟨some .eeprom, 132, 100⟩ (by decide) 163 (by decide)
  revert this
  decide

/-- C02 for calls whose `start_pos + count` does not wrap 32 bits, on any block below 4 GiB
(missing: wrapping calls, for which it is false): a write touches only its own block. -/
theorem C02_write_in_block_partial (r : Range) (d : Disk) (buf : List Byte) (count start : Word)
    (hr : r.hi < 2 ^ 32)
    (hs : start.toNat + count.toNat < 2 ^ 32) : C02_write_claim r d buf count start := by
  intro q hq
  unfold Range.write
  cases hm : r.mem with
  | none => rfl
  | some a =>
    simp only []
    split
    · rename_i hok
      apply Disk.put_other
      simp only [Range.lo, Range.hi, hm] at hq hr
      simp [Range.ok, BitVec.lt_def] at hok
      have hl : (buf.take count.toNat).length ≤ count.toNat := by simp; omega
      simp only [seekPos]
      cases a <;> simp [Area.startPos] at * <;> omega
    · rfl

/-- C02, two blocks: a non-wrapping write through one block leaves every other granted block
unchanged. -/
theorem C02_other_blocks_untouched_partial (rs : List (MemType × Word))
    (hc : ∀ p ∈ rs, p.2.toNat ≤ 4294934528) (i j : Nat)
    (hi : i < (Mgr.init.run rs).2.length) (hj : j < (Mgr.init.run rs).2.length) (hij : i ≠ j)
    (d : Disk) (buf : List Byte) (count start : Word)
    (hs : start.toNat + count.toNat < 2 ^ 32) :
    ∀ q, ((Mgr.init.run rs).2[j]).lo ≤ q → q < ((Mgr.init.run rs).2[j]).hi →
      (((Mgr.init.run rs).2[i]).write d buf count start).1 q = d q := by
  intro q h1 h2
  have hp := (C01_blocks_disjoint_partial rs hc).2
  rw [List.pairwise_iff_getElem] at hp
  have hd : ¬ (((Mgr.init.run rs).2[i]).lo ≤ q ∧ q < ((Mgr.init.run rs).2[i]).hi) := by
    rcases Nat.lt_or_gt_of_ne hij with hlt | hlt
    · have := hp i j hi hj hlt q; omega
    · have := hp j i hj hi hlt q; omega
  refine C02_write_in_block_partial _ d buf count start ?_ hs q hd
  rcases Mgr.run_above Mgr.inv_init rs hc _ (List.getElem_mem hi) with e | ⟨a, e1, _, _, e2⟩
  · rw [e]; decide
  · simp only [Range.hi, Range.lo, e1]
    cases a <;> simp [Area.startPos, Area.endPos] at * <;> omega

example : ((Mgr.init.run [(.nvram, 10), (.eeprom, 30720)]).2[1].write (fun _ => 0) [7, 8] 2 5).1
    70 = 8 ∧
    ((Mgr.init.run [(.nvram, 10), (.eeprom, 30720)]).2[0]).hi ≤ 70 := by decide

/-- C02, refusal: a call outside the block (computed without wrapping) moves no byte and
reports 0, for reads and writes. -/
theorem C02_outside_is_refused (r : Range) (d : Disk) (buf : List Byte) (count start : Word)
    (hs : start.toNat + count.toNat < 2 ^ 32)
    (ho : r.size.toNat < start.toNat + count.toNat) :
    r.write d buf count start = (d, 0) ∧ r.read d count start = none := by
  have : r.ok count start = false := by
    simp [Range.ok, BitVec.lt_def]; omega
  unfold Range.write Range.read
  cases r.mem <;> simp [this]

example : (5 : Word).toNat + (6 : Word).toNat < 2 ^ 32 ∧
    (⟨some .nvram, 0, 10⟩ : Range).size.toNat < (5 : Word).toNat + (6 : Word).toNat := by decide

/-- C02, acceptance: a call inside the block is carried out completely, and a read of the
same span returns the bytes written. -/
theorem C02_write_read (r : Range) (d : Disk) (buf : List Byte) (count start : Word)
    (hm : r.mem ≠ none) (hb : buf.length = count.toNat)
    (hin : start.toNat + count.toNat ≤ r.size.toNat) :
    (r.write d buf count start).2 = count.toNat ∧
    r.read (r.write d buf count start).1 count start = some buf := by
  have hok : r.ok count start = true := by
    have := r.size.isLt
    simp [Range.ok, BitVec.lt_def]; omega
  unfold Range.write Range.read
  cases h : r.mem with
  | none => exact absurd h hm
  | some a =>
    simp only [hok, if_true]
    refine ⟨trivial, ?_⟩
    rw [← hb, List.take_length, Disk.get_put_same]

example : (⟨some .nvram, 0, 10⟩ : Range).mem ≠ none ∧ [(1 : Byte), 2].length = (2 : Word).toNat ∧
    (8 : Word).toNat + (2 : Word).toNat ≤ (⟨some .nvram, 0, 10⟩ : Range).size.toNat := by decide

end Ptusa.Mem
