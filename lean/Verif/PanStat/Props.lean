import Verif.PanStat.Lemmas

/-!
# C224 — Parameters of a washing station at the panel
-/
namespace Ptusa.PanStat
open Tcp (Byte Buf put get zeros)
open Modbus (head writeMsg packFloat unpackFloat forceBit pair)
open Panel (regBytes)

/-- **C224.**  After every sequence of requests each parameter has the value last written to it, as a float or as a coil, and the others the value they
had. -/
theorem C224_values_partial (vals : List (BitVec 32)) (h : List Ev) (hf : ∀ e ∈ h, e.Fits) (hc : ∀ on, Ev.coil vals.length on ∉ h) :
    (run vals (h.map Ev.msg)).length = vals.length ∧
      ∀ i, 0 < i → i ≤ vals.length → (run vals (h.map Ev.msg))[i - 1]? = (given i h).orElse fun _ => vals[i - 1]? := by
  suffices H : (run vals (h.map Ev.msg)).length = vals.length ∧
      ∀ i, 0 < i → i ≤ vals.length → value (run vals (h.map Ev.msg)) i = (given i h).getD (value vals i) by
    refine ⟨H.1, fun i h0 hi => ?_⟩
    have := H.2 i h0 hi
    unfold value at this
    rw [H.1, if_pos ⟨hi, h0⟩, if_pos ⟨hi, h0⟩, List.getD_eq_getElem?_getD, List.getD_eq_getElem?_getD, List.getElem?_eq_getElem (by rw [H.1]; omega),
      List.getElem?_eq_getElem (show i - 1 < vals.length by omega)] at this
    rw [List.getElem?_eq_getElem (by rw [H.1]; omega), List.getElem?_eq_getElem (show i - 1 < vals.length by omega)]
    simp only [Option.getD_some] at this
    rw [this]
    cases given i h <;> rfl
  induction h using List.reverseRecOn with
  | nil => exact ⟨rfl, fun i _ _ => rfl⟩
  | append_singleton h e ih =>
    obtain ⟨l, v⟩ := ih (fun x hx => hf x (by simp [hx])) (fun on hx => hc on (by simp [hx]))
    rw [List.map_append, List.map_cons, List.map_nil, run_snoc]
    obtain ⟨o, e1, e2, e3⟩ := serve_value (run vals (h.map Ev.msg)) e (hf e (by simp)) (fun c on hx hl => by
      subst hx
      rw [hl, l] at hc
      exact hc on (by simp))
    rw [e1]
    refine ⟨by rw [e2, l], fun i h0 hi => ?_⟩
    rw [e3 i h0 (by omega), v i h0 hi]
    unfold given
    rw [List.reverse_append, List.reverse_cons, List.reverse_nil, List.nil_append, List.singleton_append, List.findSome?_cons]
    cases e.gives i <;> rfl

/-- **C224.**  Reading floats from parameter `a` on gives them in order, and changes nothing. -/
theorem C224_read (vals : List (BitVec 32)) (a n : Nat) (ha : 2 * a < 65536) (hn : 2 * n < 65536) :
    ∃ o, serve vals (Ev.read a n).msg = some o ∧ o.vals = vals ∧ o.len = 3 + 4 * n ∧
      ∀ j < n, 0 < a + j → ∀ v, vals[a + j - 1]? = some v → ∀ i < 4, o.buf (3 + 4 * j + i) = (regBytes v).getD i 0 := by
  have hm := head_fields 3 (BitVec.ofNat 16 (2 * a)) (BitVec.ofNat 16 (2 * n)) []
  rw [List.append_nil] at hm
  obtain ⟨e0, e1, e2, e3⟩ := hm
  have ea : (BitVec.ofNat 16 (2 * a)).toNat = 2 * a := by simp; omega
  have en : (BitVec.ofNat 16 (2 * n)).toNat = 2 * n := by simp; omega
  unfold serve Ev.msg
  simp only [e0, e1, e2, e3, ea, en]
  refine ⟨_, rfl, rfl, ?_, fun j hj h0 v hv i hi => ?_⟩
  · dsimp only
    omega
  · dsimp only
    rw [readRegs_eq, Panel.readRegs, show (2 * n + 1) / 2 = n by omega,
      (Panel.readRegs_go [⟨vals, 0⟩] 0 (2 * a) ⟨vals, 0⟩ rfl _ n).2 j hj i hi, show 2 * a / 2 + j = a + j by omega]
    have hl : a + j - 1 < vals.length := by
      rcases Nat.lt_or_ge (a + j - 1) vals.length with x | x
      · exact x
      · rw [List.getElem?_eq_none x] at hv
        exact nomatch hv
    have hg : Panel.Par.get ⟨vals, 0⟩ (a + j) = v := by
      unfold Panel.Par.get
      rw [if_pos ⟨by show a + j ≤ vals.length; omega, h0⟩, List.getD_eq_getElem?_getD]
      dsimp only
      rw [hv]
      rfl
    rw [hg]

/-- **C224.**  Reading coils: coil `i` shows whether parameter `i` differs from zero. -/
theorem C224_coils (vals : List (BitVec 32)) (c n : Nat) (hc : c < 65536) (hn : n < 65536) :
    ∃ o, serve vals (Ev.readCoils c n).msg = some o ∧ o.vals = vals ∧
      ∀ j < n, 0 < c + j → ∀ v, vals[c + j - 1]? = some v → (o.buf (3 + j / 8)).getLsbD (j % 8) = decide (v ≠ 0 ∧ v ≠ 0x80000000) := by
  have hm := head_fields 1 (BitVec.ofNat 16 c) (BitVec.ofNat 16 n) []
  rw [List.append_nil] at hm
  obtain ⟨e0, e1, e2, e3⟩ := hm
  have ea : (BitVec.ofNat 16 c).toNat = c := by simp; omega
  have en : (BitVec.ofNat 16 n).toNat = n := by simp; omega
  unfold serve Ev.msg
  simp only [e0, e1, e2, e3, ea, en]
  refine ⟨_, rfl, rfl, fun j hj h0 v hv => ?_⟩
  dsimp only
  rw [readCoils_eq _ _ _ _ (by omega), (Panel.readCoils_go [⟨vals, 0⟩] 0 (c + 1) ⟨vals, 0⟩ rfl _ n).2 j, if_pos hj]
  have hp : Panel.pred32 (c + 1 + j) = c + j := by unfold Panel.pred32; omega
  have hl : c + j - 1 < vals.length := by
    rcases Nat.lt_or_ge (c + j - 1) vals.length with x | x
    · exact x
    · rw [List.getElem?_eq_none x] at hv
      exact nomatch hv
  rw [hp]
  have hg : Panel.Par.get ⟨vals, 0⟩ (c + j) = v := by
    unfold Panel.Par.get
    rw [if_pos ⟨by show c + j ≤ vals.length; omega, h0⟩, List.getD_eq_getElem?_getD]
    dsimp only
    rw [hv]
    rfl
  rw [hg]
  unfold Panel.nonzero
  have hz : v.extractLsb' 0 31 = 0 ↔ v = 0 ∨ v = 0x80000000 := by
    constructor
    · intro h
      have h1 := congrArg BitVec.toNat h
      simp at h1
      have := v.isLt
      have h2 : v.toNat = 0 ∨ v.toNat = 2147483648 := by omega
      rcases h2 with h2 | h2
      · left; exact BitVec.eq_of_toNat_eq h2
      · right; exact BitVec.eq_of_toNat_eq h2
    · rintro (h | h) <;> subst h <;> decide
  rw [decide_eq_decide, ne_eq, hz]
  constructor
  · intro h; exact ⟨fun x => h (Or.inl x), fun x => h (Or.inr x)⟩
  · rintro ⟨h1, h2⟩ (h | h)
    · exact h1 h
    · exact h2 h

/-- **C224 (violated).**  The coil of the last parameter cannot be written, although it can be read. -/
theorem C224_last_violated (vals : List (BitVec 32)) (on : Bool) (h : vals.length < 65536) :
    ∃ o, serve vals (Ev.coil vals.length on).msg = some o ∧ o.vals = vals := by
  obtain ⟨o, e1, e2⟩ := serve_coil vals vals.length on h
  refine ⟨o, e1, ?_⟩
  rw [e2]
  unfold writeCoil
  exact if_neg (Nat.lt_irrefl _)

/-- **C224 (violated).**  One register alone is written, the lower or the upper half of a parameter: the word becomes the lower half, and the upper half
becomes what follows in the buffer, here zero. -/
theorem C224_half_violated (vals : List (BitVec 32)) (addr w : BitVec 16) (h1 : 1 ≤ addr.toNat / 2) (hc : addr.toNat / 2 ≤ vals.length) :
    ∃ o, serve vals (zeros (writeMsg 101 addr 1 [w.extractLsb' 8 8, w.extractLsb' 0 8])) = some o ∧
      o.vals = vals.set (addr.toNat / 2 - 1) (w.setWidth 32) := by
  have hm := head_fields 0x10 addr 1 ([BitVec.ofNat 8 [w.extractLsb' 8 8, w.extractLsb' 0 8].length] ++ [w.extractLsb' 8 8, w.extractLsb' 0 8])
  rw [← List.append_assoc] at hm
  obtain ⟨e0, e1, e2, e3⟩ := hm
  unfold serve writeMsg
  simp only [e0, e1, e2, e3]
  refine ⟨_, rfl, ?_⟩
  dsimp only
  unfold writeRegs
  rw [show ((1 : BitVec 16).toNat + 1) / 2 = 1 from rfl]
  simp only [List.range_one, List.foldl_cons, List.foldl_nil, writeOne, Nat.mul_zero, Nat.add_zero]
  rw [if_pos hc, save, if_pos ⟨h1, hc⟩]
  congr 1
  show unpackFloat [w.extractLsb' 8 8, w.extractLsb' 0 8, 0, 0] = _
  apply BitVec.eq_of_getLsbD_eq
  intro i hi
  have h8 : i < 8 ∨ (8 ≤ i ∧ i < 16) ∨ (16 ≤ i ∧ i < 24) ∨ (24 ≤ i ∧ i < 32) := by omega
  simp only [unpackFloat, BitVec.getLsbD_append, BitVec.getLsbD_extractLsb', BitVec.getLsbD_setWidth]
  rcases h8 with h | ⟨h1, h2⟩ | ⟨h1, h2⟩ | ⟨h1, h2⟩
  · simp [h, hi]
  · have a : ¬ i < 8 := by omega
    have c : i - 8 < 8 := by omega
    simp [a, c, hi, show 8 + (i - 8) = i by omega]
  · have a : ¬ i < 8 := by omega
    have b : ¬ i - 8 < 8 := by omega
    simp [a, b, hi, BitVec.getLsbD_of_ge w i h1]
  · have a : ¬ i < 8 := by omega
    have b : ¬ i - 8 < 8 := by omega
    simp [a, b, hi, BitVec.getLsbD_of_ge w i (by omega)]

/-- Two parameters are written together, one of them again as a coil. -/
example : let h := [Ev.floats 2 [0x41200000, 0x41A00000], .readCoils 1 4, .coil 3 true]
    (∀ e ∈ h, e.Fits) ∧ (∀ on, Ev.coil 4 on ∉ h) ∧ run [1, 2, 3, 4] (h.map Ev.msg) = [1, 0x41200000, 0x3F800000, 4] := by
  refine ⟨?_, ?_, by decide +kernel⟩
  · intro e he
    simp only [List.mem_cons, List.not_mem_nil, or_false] at he
    rcases he with rfl | rfl | rfl
    · exact ⟨by decide, by decide⟩
    · exact ⟨by decide, by decide⟩
    · show 3 < 65536
      decide
  · decide

/-- Two floats and three coils are read. -/
example : (serve [0, 0x41200000, 7] (Ev.read 2 2).msg).map (fun o => get o.buf 3 8) = some [0, 0, 0x41, 0x20, 0, 7, 0, 0] ∧
    (serve [0, 0x41200000, 7] (Ev.readCoils 1 3).msg).map (fun o => o.buf 3 &&& 7) = some 6 := by decide +kernel

end Ptusa.PanStat
