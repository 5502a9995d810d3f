import Verif.PanStat.Spec
import Verif.Panel.Lemmas
import Mathlib.Data.List.Induction

namespace Ptusa.PanStat
open Tcp (Byte Buf put get zeros)
open Modbus (head writeMsg packFloat unpackFloat forceBit pair)
open Panel (regBytes assigned nonzero pred32)

theorem writeRegs_vals (addr : Nat) (b : Buf) (p : Panel.Par) (m : Nat) :
    ∃ q, (List.range m).foldl (Panel.writeOne 0 addr b) [p] = [q] ∧ (List.range m).foldl (writeOne addr b) p.vals = q.vals := by
  induction m with
  | zero => exact ⟨p, rfl, rfl⟩
  | succ m ih =>
    obtain ⟨q, e1, e2⟩ := ih
    rw [List.range_succ, List.foldl_append, List.foldl_append, e1, e2]
    simp only [List.foldl_cons, List.foldl_nil]
    unfold Panel.writeOne writeOne
    simp only [List.getElem?_cons_zero]
    by_cases c : (addr + 2 * m) / 2 ≤ q.vals.length
    · rw [if_pos c, if_pos c]
      refine ⟨_, rfl, ?_⟩
      unfold save Panel.Par.set
      by_cases z : 0 < (addr + 2 * m) / 2
      · rw [if_pos ⟨z, c⟩, if_pos ⟨c, z⟩]
      · rw [if_neg (fun x => z x.1), if_neg (fun x => z x.2)]
    · rw [if_neg c, if_neg c]
      exact ⟨q, rfl, rfl⟩

theorem readCoils_eq (vals : List (BitVec 32)) (addr : Nat) (b : Buf) (n : Nat) (h : addr + n < 2 ^ 32) :
    readCoils vals addr n b = (List.range n).foldl (Panel.coilOne [⟨vals, 0⟩] 0 (addr + 1)) b := by
  unfold readCoils
  induction n with
  | zero => simp only [List.range_zero, List.foldl_nil]
  | succ n ih =>
    rw [List.range_succ, List.foldl_append, List.foldl_append, ih (by omega)]
    simp only [List.foldl_cons, List.foldl_nil, Panel.coilOne, List.getElem?_cons_zero]
    have : pred32 (addr + 1 + n) = addr + n := by unfold pred32; omega
    rw [this]
    rfl

theorem readRegs_eq (vals : List (BitVec 32)) (addr n : Nat) (b : Buf) : readRegs vals addr n b = Panel.readRegs [⟨vals, 0⟩] 0 addr n b := rfl

theorem head_fields (fn : Byte) (addr n : BitVec 16) (t : List Byte) :
    zeros (head 101 fn addr n ++ t) 0 = 101 ∧ zeros (head 101 fn addr n ++ t) 1 = fn ∧ pair (zeros (head 101 fn addr n ++ t)) 2 = addr.toNat ∧
      pair (zeros (head 101 fn addr n ++ t)) 4 = n.toNat := Modbus.head_mem 101 fn addr n t

theorem serve_floats (vals : List (BitVec 32)) (a : Nat) (vs : List (BitVec 32)) (ha : 2 * a < 65536) (hn : 2 * vs.length < 65536) :
    ∃ o, serve vals (Ev.floats a vs).msg = some o ∧ o.vals = assigned vals a vs := by
  have hm := head_fields 0x10 (BitVec.ofNat 16 (2 * a)) (BitVec.ofNat 16 (2 * vs.length)) ([BitVec.ofNat 8 (vs.flatMap regBytes).length] ++ vs.flatMap regBytes)
  rw [← List.append_assoc] at hm
  obtain ⟨e0, e1, e2, e3⟩ := hm
  have ea : (BitVec.ofNat 16 (2 * a)).toNat = 2 * a := by simp; omega
  have en : (BitVec.ofNat 16 (2 * vs.length)).toNat = 2 * vs.length := by simp; omega
  have hw := Panel.write_assigned [⟨vals, 0⟩] 0 ⟨vals, 0⟩ rfl (BitVec.ofNat 16 (2 * a)) (BitVec.ofNat 16 (2 * vs.length)) 101 vs en
  unfold serve Ev.msg
  unfold writeMsg at hw ⊢
  simp only [e0, e1, e2, e3]
  refine ⟨_, rfl, ?_⟩
  dsimp only
  obtain ⟨q, q1, q2⟩ := writeRegs_vals (BitVec.ofNat 16 (2 * a)).toNat
    (zeros (head 101 16 (BitVec.ofNat 16 (2 * a)) (BitVec.ofNat 16 (2 * vs.length)) ++ [BitVec.ofNat 8 (vs.flatMap regBytes).length] ++ vs.flatMap regBytes))
    ⟨vals, 0⟩ (((BitVec.ofNat 16 (2 * vs.length)).toNat + 1) / 2)
  unfold writeRegs
  rw [q2]
  unfold Panel.writeRegs at hw
  rw [q1] at hw
  have := (List.cons.inj hw).1
  rw [this, ea, show 2 * a / 2 = a by omega]

theorem serve_coil (vals : List (BitVec 32)) (c : Nat) (on : Bool) (hc : c < 65536) :
    ∃ o, serve vals (Ev.coil c on).msg = some o ∧ o.vals = writeCoil vals c on := by
  have hm := head_fields 5 (BitVec.ofNat 16 c) (if on then 0xFF00 else 0) []
  rw [List.append_nil] at hm
  obtain ⟨e0, e1, e2, e3⟩ := hm
  have e4 : zeros (head 101 5 (BitVec.ofNat 16 c) (if on then 0xFF00 else 0)) 4 = (if on then 0xFF else 0) := by cases on <;> rfl
  have ea : (BitVec.ofNat 16 c).toNat = c := by simp; omega
  unfold serve Ev.msg
  simp only [e0, e1, e2, e3, e4, ea]
  refine ⟨_, rfl, ?_⟩
  cases on <;> rfl

theorem serve_reads (vals : List (BitVec 32)) (e : Ev) (h : ∀ i, e.gives i = none) : ∃ o, serve vals e.msg = some o ∧ (o.vals = vals ∨ ∃ a, e = .floats a []) := by
  cases e with
  | floats a vs =>
    have : vs = [] := by
      have := h a
      simp only [Ev.gives, Nat.le_refl, ↓reduceIte, Nat.sub_self] at this
      cases vs with
      | nil => rfl
      | cons v vs => exact absurd this (by simp)
    subst this
    have hm := head_fields 0x10 (BitVec.ofNat 16 (2 * a)) (BitVec.ofNat 16 0) ([BitVec.ofNat 8 0] ++ [])
    rw [← List.append_assoc] at hm
    obtain ⟨e0, e1, e2, e3⟩ := hm
    unfold serve Ev.msg writeMsg
    simp only [List.flatMap_nil, List.length_nil, Nat.mul_zero, e0, e1, e2, e3]
    exact ⟨_, rfl, Or.inr ⟨a, rfl⟩⟩
  | coil c on => exact absurd (h c) (by simp [Ev.gives])
  | read a n =>
    have hm := head_fields 3 (BitVec.ofNat 16 (2 * a)) (BitVec.ofNat 16 (2 * n)) []
    rw [List.append_nil] at hm
    obtain ⟨e0, e1, e2, e3⟩ := hm
    unfold serve Ev.msg
    simp only [e0, e1, e2, e3]
    exact ⟨_, rfl, Or.inl rfl⟩
  | readCoils c n =>
    have hm := head_fields 1 (BitVec.ofNat 16 c) (BitVec.ofNat 16 n) []
    rw [List.append_nil] at hm
    obtain ⟨e0, e1, e2, e3⟩ := hm
    unfold serve Ev.msg
    simp only [e0, e1, e2, e3]
    exact ⟨_, rfl, Or.inl rfl⟩

/-- One message: each parameter it names has the value it gives, the others are as before. -/
theorem serve_value (vals : List (BitVec 32)) (e : Ev) (he : e.Fits) (hc : ∀ c on, e = .coil c on → c ≠ vals.length) :
    ∃ o, serve vals e.msg = some o ∧ o.vals.length = vals.length ∧
      ∀ i, 0 < i → i ≤ vals.length → value o.vals i = (e.gives i).getD (value vals i) := by
  cases e with
  | floats a vs =>
    obtain ⟨o, e1, e2⟩ := serve_floats vals a vs he.1 he.2
    refine ⟨o, e1, by rw [e2, Panel.assigned_length], fun i h0 hi => ?_⟩
    have := Panel.assigned_get vals a vs (i - 1) (by omega)
    rw [show i - 1 + 1 = i by omega] at this
    unfold value
    rw [e2, Panel.assigned_length, if_pos ⟨hi, h0⟩, if_pos ⟨hi, h0⟩, List.getD_eq_getElem?_getD, this]
    unfold Ev.gives
    simp only
    by_cases c1 : a ≤ i
    · rw [if_pos c1]
      by_cases c2 : i < a + vs.length
      · rw [if_pos ⟨c1, c2⟩, List.getElem?_eq_getElem (show i - a < vs.length by omega)]
        rfl
      · rw [if_neg (fun x => c2 x.2), List.getElem?_eq_none (show vs.length ≤ i - a by omega), Option.getD_none, List.getD_eq_getElem?_getD]
    · rw [if_neg c1, if_neg (fun x => c1 x.1), Option.getD_none, List.getD_eq_getElem?_getD]
  | coil c on =>
    obtain ⟨o, e1, e2⟩ := serve_coil vals c on he
    have hne := hc c on rfl
    refine ⟨o, e1, ?_, fun i h0 hi => ?_⟩
    · rw [e2]
      unfold writeCoil save
      by_cases c1 : c < vals.length
      · rw [if_pos c1]
        by_cases c2 : 0 < c ∧ c ≤ vals.length
        · rw [if_pos c2, List.length_set]
        · rw [if_neg c2]
      · rw [if_neg c1]
    · rw [e2]
      unfold writeCoil save Ev.gives
      simp only
      by_cases c1 : c < vals.length
      · rw [if_pos c1]
        by_cases c2 : 0 < c
        · rw [if_pos ⟨c2, by omega⟩]
          unfold value
          rw [List.length_set, if_pos ⟨hi, h0⟩, List.getD_eq_getElem?_getD, List.getElem?_set]
          by_cases c3 : c = i
          · rw [if_pos (show c - 1 = i - 1 by omega), if_pos c3, if_pos (show c - 1 < vals.length by omega)]
            rfl
          · rw [if_neg (show ¬ c - 1 = i - 1 by omega), if_neg c3, Option.getD_none, if_pos ⟨hi, h0⟩, List.getD_eq_getElem?_getD]
        · rw [if_neg (fun x => c2 x.1), if_neg (by omega)]
          rfl
      · rw [if_neg c1, if_neg (by omega)]
        rfl
  | read a n =>
    obtain ⟨o, e1, e2⟩ := serve_reads vals (.read a n) (fun _ => rfl)
    rcases e2 with e2 | ⟨_, x⟩
    · exact ⟨o, e1, by rw [e2], fun i _ _ => by rw [e2]; rfl⟩
    · exact nomatch x
  | readCoils a n =>
    obtain ⟨o, e1, e2⟩ := serve_reads vals (.readCoils a n) (fun _ => rfl)
    rcases e2 with e2 | ⟨_, x⟩
    · exact ⟨o, e1, by rw [e2], fun i _ _ => by rw [e2]; rfl⟩
    · exact nomatch x

theorem run_snoc (vals : List (BitVec 32)) (h : List Buf) (m : Buf) :
    run vals (h ++ [m]) = (match serve (run vals h) m with | some o => o.vals | none => run vals h) := by
  unfold run
  rw [List.foldl_append]
  rfl

end Ptusa.PanStat
