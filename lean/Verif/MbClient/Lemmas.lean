import Verif.MbClient.Spec
import Mathlib.Tactic.IntervalCases

/-!
# Helper lemmas about the Modbus client
-/
namespace Ptusa.MbClient
open Spec

theorem hi_eq (x : UInt) : hi x = BitVec.ofNat 8 (x.toNat / 256) := by
  apply BitVec.eq_of_toNat_eq
  simp [hi, BitVec.extractLsb', Nat.shiftRight_eq_div_pow]

theorem lo_eq (x : UInt) : lo x = BitVec.ofNat 8 x.toNat := by
  apply BitVec.eq_of_toNat_eq
  simp [lo, BitVec.extractLsb']

theorem be16_hl (x : UInt) : be16 x.toNat = [hi x, lo x] := by simp [be16, hi_eq, lo_eq]

theorem map_getD (l : List Byte) : (List.range l.length).map (fun i => l.getD i 0) = l := by
  apply List.ext_getElem
  · simp
  · intro i h1 h2
    simp [List.getElem?_eq_getElem h2]

theorem map_put (l : List Byte) (b : Buf) (n : Nat) :
    (List.range (l.length + n)).map (put 0 l b) = l ++ (List.range n).map fun i => b (l.length + i) := by
  rw [List.range_add, List.map_append]
  congr 1
  · conv_rhs => rw [← map_getD l]
    apply List.map_congr_left
    intro i hi
    simp only [List.mem_range] at hi
    simp [put, hi]
  · simp only [List.map_map]
    apply List.map_congr_left
    intro i hi
    simp [put]

/-- The bytes at the place of the data. -/
def dat (b : Buf) (p n : Nat) : List Byte := (List.range n).map fun i => b (p + i)

@[simp] theorem dat_length (b : Buf) (p n : Nat) : (dat b p n).length = n := by simp [dat]

theorem regBytes_toNat {q : UInt} (h : q.toNat ≤ 127) : (regBytes q).toNat = 2 * q.toNat := by
  simp [regBytes]; omega

theorem coilBytes_toNat {q : UInt} (h : q.toNat ≤ 255) : (coilBytes q).toNat = (q.toNat + 7) / 8 := by
  have e : q.toNat % 256 = q.toNat := by omega
  simp only [coilBytes, e, BitVec.toNat_ofNat]
  split <;> omega

theorem ofNat_toNat8 (b : Byte) (n : Nat) (h : b.toNat = n) : b = BitVec.ofNat 8 n := by
  subst h; simp

theorem head_length (st : Byte) (r : Req) :
    (r.head st).length = match r with
      | .writeCoils .. | .writeRegs .. => 13
      | .readWrite .. => 17
      | .mask .. => 14
      | _ => 12 := by
  cases r <;> rfl

theorem sent_eq (r : Req) (st : Byte) (h : Fits r) : r.sent = (r.head st).length + dataLen r := by
  cases r with
  | writeCoils a q => simp only [Req.sent, head_length, dataLen]; rw [coilBytes_toNat h]
  | writeRegs a q =>
    simp only [Req.sent, head_length, dataLen]
    rw [regBytes_toNat (by simp only [Fits] at h; omega)]
  | readWrite ra rq wa wq =>
    simp only [Req.sent, head_length, dataLen]
    rw [regBytes_toNat (by simp only [Fits] at h; omega)]
  | _ => simp [Req.sent, head_length, dataLen]

theorem sent_le (r : Req) (h : Fits r) : r.sent ≤ size := by
  rw [sent_eq r 0 h]
  cases r <;> simp only [head_length, dataLen, size, Fits] at * <;> omega

theorem dataAt_eq (r : Req) (st : Byte) : dataLen r = 0 ∨ dataAt r = (r.head st).length := by
  cases r <;> simp [dataLen, dataAt, head_length]

/-- The head and the data are the message. -/
theorem head_adu (st : Byte) (r : Req) (d : List Byte) (h : Fits r) (hd : d.length = dataLen r) :
    r.head st ++ d = adu st (pdu d r) := by
  cases r with
  | writeCoils a q =>
    simp only [dataLen] at hd
    simp only [Fits] at h
    have e := ofNat_toNat8 _ _ (coilBytes_toNat h)
    have hs : (7 : Byte) + BitVec.ofNat 8 d.length = BitVec.ofNat 8 (7 + d.length) := by
      apply BitVec.eq_of_toNat_eq; simp
    have hz : (7 + d.length) / 256 = 0 := by omega
    simp only [Req.head, adu, pdu, be16_hl, e, ← hd]
    simp only [be16, List.cons_append, List.nil_append, List.length_cons, hs]
    rw [show d.length + 1 + 1 + 1 + 1 + 1 + 1 + 1 = 7 + d.length by omega, hz]
    rfl
  | writeRegs a q =>
    simp only [dataLen] at hd
    simp only [Fits] at h
    have t := regBytes_toNat (q := q) (by omega)
    have e := ofNat_toNat8 _ _ t
    simp only [Req.head, adu, pdu, be16_hl, lenHi, lenLo, e, ← hd]
    have hm : d.length % 256 = d.length := by omega
    simp [be16, hm]
    constructor <;> congr 1 <;> omega
  | readWrite ra rq wa wq =>
    simp only [dataLen] at hd
    simp only [Fits] at h
    have t := regBytes_toNat (q := wq) (by omega)
    have e := ofNat_toNat8 _ _ t
    simp only [Req.head, adu, pdu, be16_hl, lenHi, lenLo, e, ← hd]
    have hm : d.length % 256 = d.length := by omega
    simp [be16, hm]
    constructor <;> congr 1 <;> omega
  | coil a v =>
    have : d = [] := List.length_eq_zero_iff.mp hd
    subst this
    simp only [Req.head, adu, pdu, be16_hl]
    cases v <;> simp [be16]
  | _ =>
    have : d = [] := List.length_eq_zero_iff.mp hd
    subst this
    simp only [Req.head, adu, pdu, be16_hl]
    simp [be16]

/-- The frame of a request. -/
theorem frame_eq (c : Cl) (r : Req) (h : Fits r) :
    frame r.sent (put 0 (r.head c.station) c.buf) = some (adu c.station (pdu (dat c.buf (dataAt r) (dataLen r)) r)) := by
  rw [frame, if_pos (sent_le r h), sent_eq r c.station h, map_put, ← head_adu c.station r _ h (dat_length ..)]
  congr 2
  rcases dataAt_eq r c.station with h0 | h0
  · simp [h0, dat]
  · simp [h0, dat]

theorem call_eq (c : Cl) (r : Req) (net : Option (List Byte)) (h : Fits r) :
    c.call r net = some (adu c.station (pdu (dat c.buf (dataAt r) (dataLen r)) r),
      BitVec.ofNat 32 ((net.getD []).take size).length == r.expected,
      { c with buf := if isWrite r then zeroFrom 13 (put 0 ((net.getD []).take size) (put 0 (r.head c.station) c.buf))
          else put 0 ((net.getD []).take size) (put 0 (r.head c.station) c.buf) }) := by
  simp only [Cl.call, frame_eq c r h, Option.map_some]
  cases r <;> rfl

theorem call_some {c : Cl} {r : Req} {net : Option (List Byte)} {p : List Byte × Bool × Cl} (h : c.call r net = some p) :
    p.2.1 = (BitVec.ofNat 32 ((net.getD []).take size).length == r.expected) ∧ p.2.2.station = c.station ∧
      p.2.2.masks = c.masks ∧
      p.2.2.buf = (if isWrite r then zeroFrom 13 (put 0 ((net.getD []).take size) (put 0 (r.head c.station) c.buf))
          else put 0 ((net.getD []).take size) (put 0 (r.head c.station) c.buf)) := by
  simp only [Cl.call, Option.map_eq_some_iff] at h
  obtain ⟨f, -, h⟩ := h
  subst h
  refine ⟨rfl, rfl, rfl, ?_⟩
  cases r <;> rfl

theorem put_get (l : List Byte) (b : Buf) {i : Nat} (h : i < l.length) : put 0 l b i = l[i] := by
  simp [put, h]

theorem put_out (l : List Byte) (b : Buf) {p i : Nat} (h : i < p ∨ p + l.length ≤ i) : put p l b i = b i := by
  rw [put, if_neg]; omega

theorem expected_toNat (r : Req) (h : Legal r) : r.expected.toNat = answerLen r := by
  cases r with
  | discrete a q | coils a q =>
    simp only [Legal] at h
    simp only [Req.expected, answerLen]
    split <;> simp [BitVec.toNat_add] <;> omega
  | holding a q | input a q =>
    simp only [Legal] at h
    simp [Req.expected, answerLen, BitVec.toNat_add, BitVec.toNat_mul]; omega
  | readWrite ra rq wa wq =>
    simp only [Legal] at h
    simp [Req.expected, answerLen, BitVec.toNat_add, BitVec.toNat_mul]; omega
  | _ => rfl

theorem legal_len (r : Req) (h : Legal r) : answerLen r ≤ 259 ∧ 9 < answerLen r := by
  cases r <;> simp only [Legal, answerLen] at * <;> omega

/-- When an answer is accepted. -/
theorem accept_iff (r : Req) (h : Legal r) (l : List Byte) :
    (BitVec.ofNat 32 (l.take size).length == r.expected) = true ↔ (l.take size).length = answerLen r := by
  rw [beq_iff_eq, ← expected_toNat r h]
  have hl : (l.take size).length ≤ 256 := by simp [size]
  constructor
  · intro e
    rw [← e]; simp; simp at hl; omega
  · intro e
    apply BitVec.eq_of_toNat_eq
    rw [BitVec.toNat_ofNat, ← e]; omega

theorem take_all {l : List Byte} (h : l.length ≤ 256) : l.take size = l := List.take_of_length_le h

@[simp] theorem regBytes_length (l : List (BitVec 16)) : (Spec.regBytes l).length = 2 * l.length := by
  induction l with
  | nil => rfl
  | cons v t ih =>
    simp only [Spec.regBytes, List.flatMap_cons, List.length_append] at *
    rw [ih]; simp [be16]; omega

theorem regBytes_get (l : List (BitVec 16)) (k : Nat) (h : k < l.length) :
    (Spec.regBytes l).getD (2 * k) 0 = BitVec.ofNat 8 (l[k].toNat / 256) ∧
    (Spec.regBytes l).getD (2 * k + 1) 0 = BitVec.ofNat 8 l[k].toNat := by
  induction l generalizing k with
  | nil => simp at h
  | cons v t ih =>
    cases k with
    | zero => simp [Spec.regBytes, be16]
    | succ k =>
      have := ih k (by simpa using h)
      simp only [Spec.regBytes, List.flatMap_cons, be16, List.cons_append, List.nil_append] at *
      rw [show 2 * (k + 1) = 2 * k + 1 + 1 by omega, show 2 * k + 1 + 1 + 1 = 2 * k + 1 + 1 + 1 by rfl]
      simpa using this

theorem join16 (v : BitVec 16) : (BitVec.ofNat 8 (v.toNat / 256) ++ BitVec.ofNat 8 v.toNat : BitVec 16) = v := by
  apply BitVec.eq_of_toNat_eq
  have := v.isLt
  rw [BitVec.toNat_append, Nat.shiftLeft_eq, ← Nat.shiftLeft_eq, ← Nat.shiftLeft_add_eq_or_of_lt (by simp; omega)]
  simp [Nat.shiftLeft_eq]; omega

theorem split16 (v : BitVec 16) : [v.extractLsb' 8 8, v.extractLsb' 0 8] = be16 v.toNat := by
  simp only [be16, List.cons.injEq, and_true]
  constructor <;> apply BitVec.eq_of_toNat_eq <;> simp [Nat.shiftRight_eq_div_pow]

theorem addr_toNat {k : UInt} (h : k.toNat < 2 ^ 31) : (k * 2).toNat = 2 * k.toNat := by
  simp [BitVec.toNat_mul]; omega

theorem setInt2_eq (c : Cl) {k : UInt} (h : k.toNat ≤ 120) (v : BitVec 16) :
    c.setInt2 k v = { c with buf := put (13 + 2 * k.toNat) (be16 v.toNat) c.buf } := by
  rw [Cl.setInt2, addr_toNat (by omega), if_neg (by omega), split16]

/-- The registers to write are where they belong. -/
def Holds (b : Buf) (m : Nat → BitVec 16) : Prop :=
  ∀ k ≤ 120, b (13 + 2 * k) = BitVec.ofNat 8 ((m k).toNat / 256) ∧ b (14 + 2 * k) = BitVec.ofNat 8 (m k).toNat

theorem holds_set {b : Buf} {m : Nat → BitVec 16} (h : Holds b m) (k : Nat) (v : BitVec 16) :
    Holds (put (13 + 2 * k) (be16 v.toNat) b) fun j => if k = j then v else m j := by
  intro j hj
  obtain ⟨h1, h2⟩ := h j hj
  by_cases e : k = j
  · subst e
    simp only [if_true]
    constructor
    · simp [put, be16]
    · rw [put, if_pos (by simp [be16]; omega), show 14 + 2 * k - (13 + 2 * k) = 1 by omega]
      simp [be16]
  · simp only [e, if_false]
    rw [put_out _ _ (by simp [be16]; omega), put_out _ _ (by simp [be16]; omega)]
    exact ⟨h1, h2⟩

theorem holds_zero (b : Buf) : Holds (zeroFrom 13 b) fun _ => 0 := by
  intro j hj
  simp [zeroFrom, show 13 ≤ 14 + 2 * j by omega]

theorem holds_short {b : Buf} {m : Nat → BitVec 16} (h : Holds b m) (l : List Byte) (hl : l.length ≤ 13) :
    Holds (put 0 l b) m := by
  intro j hj
  rw [put_out _ _ (by omega), put_out _ _ (by omega)]
  exact h j hj

theorem withBit_self (x : Byte) {n : Nat} (hn : n < 8) (v : Bool) : (withBit x n v).getLsbD n = v := by
  have : n = 0 ∨ n = 1 ∨ n = 2 ∨ n = 3 ∨ n = 4 ∨ n = 5 ∨ n = 6 ∨ n = 7 := by omega
  rcases this with rfl | rfl | rfl | rfl | rfl | rfl | rfl | rfl <;> cases v <;> simp [withBit]

theorem withBit_other (x : Byte) {n m : Nat} (h : m ≠ n) (v : Bool) :
    (withBit x n v).getLsbD m = x.getLsbD m := by
  have : ((1#8) <<< n).getLsbD m = false := by
    simp only [BitVec.getLsbD_shiftLeft, BitVec.getLsbD_one]
    simp; omega
  simp [withBit, this]

theorem withBit_lo (x : BitVec 16) (o : Nat) (h : o < 8) (v : Bool) :
    withBit (BitVec.ofNat 8 x.toNat) o v = BitVec.ofNat 8 (withBit16 x o v).toNat ∧
    BitVec.ofNat 8 (x.toNat / 256) = BitVec.ofNat 8 ((withBit16 x o v).toNat / 256) := by
  have e : ∀ y : BitVec 16, BitVec.ofNat 8 y.toNat = y.extractLsb' 0 8 ∧
      BitVec.ofNat 8 (y.toNat / 256) = y.extractLsb' 8 8 := by
    intro y; constructor <;> apply BitVec.eq_of_toNat_eq <;> simp [Nat.shiftRight_eq_div_pow]
  rw [(e x).1, (e x).2, (e _).1, (e _).2]
  constructor
  · apply BitVec.eq_of_getLsbD_eq
    intro i hi
    by_cases hio : i = o
    · subst hio
      rw [withBit_self _ h]
      cases v <;> simp [withBit16, h] <;> omega
    · rw [withBit_other _ hio]
      have : ((1#16) <<< o).getLsbD i = false := by
        simp only [BitVec.getLsbD_shiftLeft, BitVec.getLsbD_one]; simp; omega
      cases v <;> simp [withBit16, this, hi] <;> omega
  · apply BitVec.eq_of_getLsbD_eq
    intro i hi
    have : ((1#16) <<< o).getLsbD (8 + i) = false := by
      simp only [BitVec.getLsbD_shiftLeft, BitVec.getLsbD_one]; simp; omega
    cases v <;> simp [withBit16, this, hi]
    intro _; omega

theorem withBit_hi (x : BitVec 16) (o : Nat) (h1 : 8 ≤ o) (h : o < 16) (v : Bool) :
    BitVec.ofNat 8 x.toNat = BitVec.ofNat 8 (withBit16 x o v).toNat ∧
    withBit (BitVec.ofNat 8 (x.toNat / 256)) (o % 8) v = BitVec.ofNat 8 ((withBit16 x o v).toNat / 256) := by
  have e : ∀ y : BitVec 16, BitVec.ofNat 8 y.toNat = y.extractLsb' 0 8 ∧
      BitVec.ofNat 8 (y.toNat / 256) = y.extractLsb' 8 8 := by
    intro y; constructor <;> apply BitVec.eq_of_toNat_eq <;> simp [Nat.shiftRight_eq_div_pow]
  rw [(e x).1, (e x).2, (e _).1, (e _).2]
  constructor
  · apply BitVec.eq_of_getLsbD_eq
    intro i hi
    have : ((1#16) <<< o).getLsbD i = false := by
      simp only [BitVec.getLsbD_shiftLeft, BitVec.getLsbD_one]; simp; omega
    cases v <;> simp [withBit16, this, hi]
    intro _; omega
  · apply BitVec.eq_of_getLsbD_eq
    intro i hi
    by_cases hio : i = o % 8
    · rw [hio, withBit_self _ (by omega)]
      have e8 : 8 + o % 8 = o := by omega
      cases v <;> simp [withBit16, BitVec.getLsbD_extractLsb', e8] <;> omega
    · rw [withBit_other _ hio]
      have : ((1#16) <<< o).getLsbD (8 + i) = false := by
        simp only [BitVec.getLsbD_shiftLeft, BitVec.getLsbD_one]; simp; omega
      cases v <;> simp [withBit16, this, hi]
      intro _; omega

theorem regSetBit_eq (c : Cl) {k o : UInt} (hk : k.toNat ≤ 120) (v : Bool) {p : Nat}
    (hp : p = 13 + 2 * k.toNat + if o.toNat < 8 then 1 else 0) :
    c.regSetBit k o v = some { c with buf := Function.update c.buf p (withBit (c.buf p) (o.toNat % 8) v) } := by
  have e : (k * 2 + if o.toNat < 8 then 1 else 0).toNat = 2 * k.toNat + if o.toNat < 8 then 1 else 0 := by
    split <;> simp [BitVec.toNat_add, BitVec.toNat_mul] <;> omega
  have e2 : (k * 2 + if o.toNat < 8 then 1 else 0).toInt = ((2 * k.toNat + if o.toNat < 8 then 1 else 0 : Nat) : Int) := by
    rw [BitVec.toInt_eq_toNat_of_lt (by rw [e]; split <;> omega), e]
  have e3 : (13 + ((2 * k.toNat + if o.toNat < 8 then 1 else 0 : Nat) : Int)).toNat =
      p := by omega
  simp only [Cl.regSetBit, e2, e3, size]
  rw [if_pos]
  split <;> omega

theorem holds_bit {b : Buf} {m : Nat → BitVec 16} (h : Holds b m) (k o : Nat) (ho : o < 16) (v : Bool) :
    Holds (Function.update b (13 + 2 * k + if o < 8 then 1 else 0)
      (withBit (b (13 + 2 * k + if o < 8 then 1 else 0)) (o % 8) v))
      fun j => if k = j then withBit16 (m j) o v else m j := by
  intro j hj
  obtain ⟨h1, h2⟩ := h j hj
  by_cases e : k = j
  · subst e
    simp only [if_true]
    by_cases h8 : o < 8
    · simp only [h8, if_true]
      rw [show 14 + 2 * k = 13 + 2 * k + 1 by omega] at *
      rw [Function.update_self, Function.update_of_ne (by omega), h1, h2, show o % 8 = o by omega]
      exact ⟨(withBit_lo _ _ h8 v).2, (withBit_lo _ _ h8 v).1⟩
    · simp only [h8, if_false, Nat.add_zero]
      rw [Function.update_self, Function.update_of_ne (by omega), h1, h2]
      exact ⟨(withBit_hi _ _ (by omega) ho v).2, (withBit_hi _ _ (by omega) ho v).1⟩
  · simp only [e, if_false]
    rw [Function.update_of_ne (by split <;> omega), Function.update_of_ne (by split <;> omega)]
    exact ⟨h1, h2⟩

theorem holds_after {junk : Buf} {ops : List Op} {c : Cl} (hq : Quiet ops) (ha : after (Cl.initial junk) ops = some c) :
    Holds c.buf (image ops) := by
  induction ops generalizing c with
  | nil =>
    simp only [after, Option.some.injEq] at ha
    subst ha
    exact holds_zero _
  | cons o t ih =>
    cases o with
    | set k v =>
      simp only [after, Option.map_eq_some_iff] at ha
      obtain ⟨c0, h0, rfl⟩ := ha
      obtain ⟨hk, hq⟩ := hq
      rw [setInt2_eq _ hk]
      exact holds_set (ih hq h0) _ _
    | bit k o v =>
      simp only [after, Option.bind_eq_some_iff] at ha
      obtain ⟨c0, h0, ha⟩ := ha
      obtain ⟨hk, ho, hq⟩ := hq
      rw [regSetBit_eq _ hk v rfl] at ha
      obtain rfl := Option.some.inj ha
      exact holds_bit (ih hq h0) _ _ ho v
    | call r net =>
      simp only [after, Option.bind_eq_some_iff, Option.map_eq_some_iff] at ha
      obtain ⟨c0, h0, p, hp, rfl⟩ := ha
      obtain ⟨-, -, -, hb⟩ := call_some hp
      have e : image (Op.call r net :: t) = if isWrite r then (fun _ => 0) else image t := by
        funext j; simp only [image]; split <;> rfl
      rw [hb, e]
      by_cases hw : isWrite r = true
      · simp only [hw, if_true]
        exact holds_zero _
      · simp only [hw]
        rcases hq with hq | ⟨hn, hs, hq⟩
        · exact absurd hq hw
        · refine holds_short (holds_short (ih hq h0) _ ?_) _ (by simp; omega)
          rw [head_length]
          cases r <;> simp_all [Req.sync, isWrite]

theorem dat_holds {b : Buf} {m : Nat → BitVec 16} (h : Holds b m) {q : Nat} (hq : q ≤ 121) :
    dat b 13 (2 * q) = Spec.regBytes ((List.range q).map m) := by
  induction q with
  | zero => rfl
  | succ q ih =>
    obtain ⟨h1, h2⟩ := h q (by omega)
    have e : dat b 13 (2 * (q + 1)) = dat b 13 (2 * q) ++ [b (13 + 2 * q), b (14 + 2 * q)] := by
      rw [dat, show 2 * (q + 1) = 2 * q + 1 + 1 by omega, List.range_succ, List.range_succ]
      simp [dat]
      congr 1; omega
    rw [e, ih (by omega), h1, h2, List.range_succ, List.map_append]
    simp [Spec.regBytes, be16]

/-- The bytes of an answer are in the buffer. -/
theorem call_buf {c : Cl} {r : Req} {l : List Byte} {p : List Byte × Bool × Cl} (h : c.call r (some l) = some p)
    (hw : isWrite r = false) (hl : l.length ≤ 256) {i : Nat} (hi : i < l.length) : p.2.2.buf i = l.getD i 0 := by
  obtain ⟨-, -, -, hb⟩ := call_some h
  rw [hb]
  simp only [hw, Option.getD_some, take_all hl]
  rw [if_neg (by simp), put_get _ _ hi]
  simp [hi]

theorem regAnswer_length (st fc : Byte) (l : List (BitVec 16)) : (regAnswer st fc l).length = 9 + 2 * l.length := by
  simp [regAnswer, adu, be16]; omega

theorem regAnswer_get (st fc : Byte) (l : List (BitVec 16)) (i : Nat) :
    (regAnswer st fc l).getD (9 + i) 0 = (Spec.regBytes l).getD i 0 := by
  simp only [regAnswer, adu, be16, List.cons_append, List.nil_append]
  rw [show 9 + i = i + 1 + 1 + 1 + 1 + 1 + 1 + 1 + 1 + 1 by omega]
  simp only [List.getD_cons_succ]

theorem packed_length (x : Nat → Bool) (q : Nat) : (packed x q).length = (q + 7) / 8 := by simp [packed]

theorem coilAnswer_length (st fc : Byte) (x : Nat → Bool) (q : Nat) :
    (coilAnswer st fc x q).length = 9 + (q + 7) / 8 := by
  simp [coilAnswer, adu, be16, packed_length]; omega

theorem coilAnswer_get (st fc : Byte) (x : Nat → Bool) (q i : Nat) :
    (coilAnswer st fc x q).getD (9 + i) 0 = (packed x q).getD i 0 := by
  simp only [coilAnswer, adu, be16, List.cons_append, List.nil_append]
  rw [show 9 + i = i + 1 + 1 + 1 + 1 + 1 + 1 + 1 + 1 + 1 by omega]
  simp only [List.getD_cons_succ]

theorem bits8_bit (f : Nat → Bool) {i : Nat} (h : i < 8) : (bits8 f).getLsbD i = f i := by
  have : i = 0 ∨ i = 1 ∨ i = 2 ∨ i = 3 ∨ i = 4 ∨ i = 5 ∨ i = 6 ∨ i = 7 := by omega
  have e : ∀ i, (bits8 f).getLsbD i = [f 0, f 1, f 2, f 3, f 4, f 5, f 6, f 7].getD i false :=
    fun i => BitVec.getLsbD_ofBoolListLE
  rw [e]
  rcases this with rfl | rfl | rfl | rfl | rfl | rfl | rfl | rfl <;> rfl

theorem packed_bit (x : Nat → Bool) (q k : Nat) (h : k < q) :
    ((packed x q).getD (k / 8) 0).getLsbD (k % 8) = x k := by
  have h1 : k / 8 < (packed x q).length := by rw [packed_length]; omega
  have e : (packed x q).getD (k / 8) 0 = (packed x q)[k / 8] := by simp [h1]
  rw [e]
  simp only [packed, List.getElem_map, List.getElem_range]
  rw [bits8_bit _ (by omega), show 8 * (k / 8) + k % 8 = k by omega]
  simp [h]

theorem bits_after {junk : Buf} {ops : List (UInt × Bool)} {c : Cl} (ha : afterBits (Cl.initial junk) ops = some c) :
    ∀ j, (c.buf (13 + j / 8)).getLsbD (j % 8) = coilImage ops j := by
  induction ops generalizing c with
  | nil =>
    simp only [afterBits, Option.some.injEq] at ha
    subst ha
    intro j
    simp [Cl.initial, zeroFrom, coilImage]
  | cons o t ih =>
    obtain ⟨k, v⟩ := o
    simp only [afterBits, Option.bind_eq_some_iff] at ha
    obtain ⟨c0, h0, ha⟩ := ha
    intro j
    have ih := ih h0 j
    simp only [Cl.setBit] at ha
    split at ha
    · obtain rfl := Option.some.inj ha
      simp only [coilImage]
      by_cases e : k.toNat = j
      · subst e
        rw [Function.update_self, withBit_self _ (by omega), if_pos rfl]
      · rw [if_neg e]
        by_cases e8 : j / 8 = k.toNat / 8
        · rw [e8, Function.update_self, withBit_other _ (by omega), ← e8]
          exact ih
        · rw [Function.update_of_ne (by omega)]
          exact ih
    · simp at ha

theorem masks_after {c : Cl} {ops : List (Int × Bool)} {n o : UInt} (hc : c.masks = some (n, o)) :
    ∃ n' o', afterMasks c ops = some { c with masks := some (n', o') } ∧
      ∀ j < 32, n'.getLsbD j = (n.getLsbD j && (decide (15 < j) || (asked ops j).isNone)) ∧
        o'.getLsbD j = (if j ≤ 15 then (asked ops j).getD (o.getLsbD j) else o.getLsbD j) := by
  induction ops with
  | nil =>
    refine ⟨n, o, by rw [afterMasks, ← hc], fun j _ => ?_⟩
    simp [asked]
  | cons x t ih =>
    obtain ⟨n1, o1, h1, hb⟩ := ih
    obtain ⟨k, v⟩ := x
    simp only [afterMasks, h1, Option.bind_some, Cl.maskSetBit]
    by_cases hk : k < 0 ∨ 15 < k
    · rw [if_pos hk]
      refine ⟨n1, o1, rfl, fun j hj => ?_⟩
      obtain ⟨b1, b2⟩ := hb j hj
      rw [b1, b2]
      by_cases hj15 : j ≤ 15
      · have e : k ≠ (j : Int) := by omega
        simp [asked, e]
      · simp [hj15, show 15 < j by omega]
    · rw [if_neg hk]
      refine ⟨_, _, rfl, fun j hj => ?_⟩
      obtain ⟨b1, b2⟩ := hb j hj
      have sh : ((1#32) <<< k.toNat).getLsbD j = decide (k = (j : Int)) := by
        simp only [BitVec.getLsbD_shiftLeft, BitVec.getLsbD_one]
        by_cases e : k = (j : Int)
        · subst e; simp [hj]
        · have : j < k.toNat ∨ j - k.toNat ≠ 0 := by omega
          simp [e, hj]
          intro; omega
      constructor
      · simp only [BitVec.getLsbD_and, BitVec.getLsbD_not, sh, b1, hj]
        by_cases e : k = (j : Int)
        · have : ¬ 15 < j := by omega
          simp [asked, e, this]
        · simp [asked, e]
      · by_cases e : k = (j : Int)
        · have : j ≤ 15 := by omega
          cases v <;> simp [asked, e, this, hj]
        · cases v <;>
            simp only [Bool.false_eq_true, if_true, if_false, BitVec.getLsbD_or, BitVec.getLsbD_and, BitVec.getLsbD_not,
              sh, e, b2, hj, asked, decide_false, decide_true, Bool.not_false, Bool.and_true, Bool.or_false]

end Ptusa.MbClient
