import Verif.MbClient.Lemmas

/-!
# C93–C95: requests, answers and bits of the Modbus client

Not proved of C93: coils above 255, registers above 121 and read/write above 119 (the code is wrong there, see the
`_violated` theorems).  Not proved of C94: that an answer belongs to the request (it is not checked), coils above 1976 and
124 or 125 registers (never accepted), registers to write after a read in between (they are lost).
-/
namespace Ptusa.MbClient
open Spec

/-! ## C93: requests -/

/-- Every request that fits is sent as the protocol defines it: head, length, station, function, numbers, data. -/
theorem C93_request_partial (c : Cl) (r : Req) (net : Option (List Byte)) (_ : Legal r) (hf : Fits r) :
    ∃ d res c', d.length = dataLen r ∧ c.call r net = some (adu c.station (pdu d r), res, c') :=
  ⟨_, _, _, dat_length .., call_eq c r net hf⟩

example : Legal (.writeRegs 0x1234 2) ∧ Fits (.writeRegs 0x1234 2) ∧
    ((Cl.initial fun _ => 0x55).call (.writeRegs 0x1234 2) none).map (·.1) =
      some [0, 0, 0, 0, 0, 11, 1, 0x10, 0x12, 0x34, 0, 2, 4, 0, 0, 0, 0] := by
  refine ⟨?_, ?_, ?_⟩
  · simp [Legal]
  · simp [Fits]
  · decide +kernel

/-- A write of 256 to 1968 coils never is the message it should be: it is too short. -/
theorem C93_coils_violated (c : Cl) (a q : UInt) (h : 256 ≤ q.toNat) (hl : Legal (.writeCoils a q))
    (net : Option (List Byte)) : Legal (.writeCoils a q) ∧ ∃ f res c', c.call (.writeCoils a q) net = some (f, res, c') ∧
      ∀ st d, d.length = dataLen (.writeCoils a q) → f ≠ adu st (pdu d (.writeCoils a q)) := by
  refine ⟨hl, ?_⟩
  have hb : (coilBytes q).toNat ≤ 32 ∧ (coilBytes q).toNat < (q.toNat + 7) / 8 := by
    simp only [coilBytes, BitVec.toNat_ofNat]
    split <;> omega
  have hs : Req.sent (.writeCoils a q) ≤ size := by simp only [Req.sent, size]; omega
  obtain ⟨⟨f, res, c'⟩, hp⟩ : ∃ p, c.call (.writeCoils a q) net = some p := by
    simp only [Cl.call, frame, if_pos hs, Option.map_some]
    exact ⟨_, rfl⟩
  refine ⟨f, res, c', hp, ?_⟩
  simp only [Cl.call, frame, if_pos hs, Option.map_some, Option.some.injEq, Prod.mk.injEq] at hp
  intro st d hd he
  have hlen := congrArg List.length (hp.1.trans he)
  simp only [dataLen] at hd
  simp [Req.sent, adu, pdu, be16, hd] at hlen
  omega

example : Legal (.writeCoils 0 300) := by simp [Legal]

/-- A write of 122 or 123 registers reads behind the end of the buffer. -/
theorem C93_registers_violated (c : Cl) (a q : UInt) (h : 122 ≤ q.toNat) (hl : Legal (.writeRegs a q))
    (net : Option (List Byte)) : c.call (.writeRegs a q) net = none := by
  have hq : q.toNat ≤ 123 := hl.2.1
  have : ¬ Req.sent (.writeRegs a q) ≤ size := by
    simp only [Req.sent, size]; rw [regBytes_toNat (by omega)]; omega
  simp [Cl.call, frame, this]

example : Legal (.writeRegs 100 123) := by simp [Legal]

/-- A read/write with 120 or 121 registers to write reads behind the end of the buffer as soon as there is a connection. -/
theorem C93_read_write_violated (s : St) (ra rq wa wq : UInt) (h : 120 ≤ wq.toNat) (hl : Legal (.readWrite ra rq wa wq))
    (hr : s.result = 0) (ho : s.link = .on) (n1 n2 : Net) : s.call (.readWrite ra rq wa wq) n1 n2 = none := by
  have hq : wq.toNat ≤ 121 := hl.2.2.2.2.1
  have : ¬ Req.sent (.readWrite ra rq wa wq) ≤ size := by
    simp only [Req.sent, size]; rw [regBytes_toNat (by omega)]; omega
  simp [St.call, St.poll, ho, hr, Req.takes, St.send, frame, this]

example : Legal (.readWrite 0 1 0 121) := by simp [Legal]

/-! ## C94: answers and values -/

/-- A call returns 1 exactly when an answer with the right number of bytes is there (at most 256 are looked at). -/
theorem C94_accepted {c : Cl} {r : Req} {net : Option (List Byte)} {f : List Byte} {res : Bool} {c' : Cl} (hl : Legal r)
    (h : c.call r net = some (f, res, c')) : res = true ↔ ((net.getD []).take 256).length = answerLen r := by
  have := (call_some h).1
  simp only at this
  rw [this]
  exact accept_iff r hl _

example : ((Cl.initial fun _ => 0).call (.holding 7 1) (some (regAnswer 1 3 [0x1234]))).map (·.2.1) = some true := by
  decide +kernel

/-- Without an answer, and when the device refuses, a call returns 0. -/
theorem C94_refused {c : Cl} {r : Req} {f : List Byte} {res : Bool} {c' : Cl} (hl : Legal r) (st fc code : Byte)
    {net : Option (List Byte)} (hn : net = none ∨ net = some (refusal st fc code)) (h : c.call r net = some (f, res, c')) :
    res = false := by
  have := C94_accepted hl h
  have hlen := legal_len r hl
  cases res with
  | false => rfl
  | true =>
    have := this.mp rfl
    rcases hn with rfl | rfl
    · simp at this; omega
    · simp [refusal, adu, be16] at this; omega

example : ((Cl.initial fun _ => 0).call (.holding 7 1) (some (refusal 1 3 2))).map (·.2.1) = some false := by
  decide +kernel

/-- Registers that are read: the call returns 1 and the getters give the values of the device, a 32-bit value with its low
half first.  For up to 123 registers. -/
theorem C94_registers_partial (c : Cl) (r : Req) (a q : UInt) (hr : r = .holding a q ∨ r = .input a q) (hl : Legal r)
    (hq : q.toNat ≤ 123) (l : List (BitVec 16)) (hn : l.length = q.toNat) (st fc : Byte) :
    ∃ f c', c.call r (some (regAnswer st fc l)) = some (f, true, c') ∧
      (∀ k : UInt, ∀ h : k.toNat < q.toNat, c'.getInt2 k = l[k.toNat]) ∧
      (∀ k : UInt, ∀ h : k.toNat + 1 < q.toNat, c'.getInt4 k = l[k.toNat + 1] ++ l[k.toNat]) ∧
      (∀ k o : UInt, ∀ h : k.toNat < q.toNat, o.toNat < 16 → c'.regGetBit k o = some (l[k.toNat].getLsbD o.toNat)) := by
  have hf : Fits r := by rcases hr with rfl | rfl <;> trivial
  have hw : isWrite r = false := by rcases hr with rfl | rfl <;> rfl
  have hlen : (regAnswer st fc l).length = 9 + 2 * q.toNat := by rw [regAnswer_length, hn]
  obtain ⟨p, hc⟩ : ∃ p, c.call r (some (regAnswer st fc l)) = some p := ⟨_, call_eq c _ _ hf⟩
  have hres : p.2.1 = true := by
    rw [C94_accepted (f := p.1) (c' := p.2.2) hl hc, Option.getD_some, List.take_of_length_le (by omega), hlen]
    rcases hr with rfl | rfl <;> rfl
  have hb : ∀ i, i < 2 * q.toNat → p.2.2.buf (9 + i) = (Spec.regBytes l).getD i 0 := by
    intro i hi
    rw [call_buf hc hw (by omega) (by omega), regAnswer_get]
  have hreg : ∀ k, ∀ h : k < q.toNat, p.2.2.buf (9 + 2 * k) = BitVec.ofNat 8 (l[k].toNat / 256) ∧
      p.2.2.buf (10 + 2 * k) = BitVec.ofNat 8 l[k].toNat := by
    intro k h
    obtain ⟨h1, h2⟩ := regBytes_get l k (by omega)
    rw [hb _ (by omega), show 10 + 2 * k = 9 + (2 * k + 1) by omega, hb _ (by omega)]
    exact ⟨h1, h2⟩
  refine ⟨p.1, p.2.2, by rw [hc, ← hres], ?_, ?_, ?_⟩
  · intro k h
    obtain ⟨h1, h2⟩ := hreg _ h
    rw [Cl.getInt2, addr_toNat (by omega), if_neg (by omega), h1, h2, join16]
  · intro k h
    obtain ⟨h1, h2⟩ := hreg k.toNat (by omega)
    obtain ⟨h3, h4⟩ := hreg (k.toNat + 1) h
    rw [Cl.getInt4, addr_toNat (by omega), if_neg (by omega), h1, h2, show 11 + 2 * k.toNat = 9 + 2 * (k.toNat + 1) by omega,
      show 12 + 2 * k.toNat = 10 + 2 * (k.toNat + 1) by omega, h3, h4, join16, join16]
  · intro k o h ho
    obtain ⟨h1, h2⟩ := hreg _ h
    have e : ∀ y : BitVec 16, BitVec.ofNat 8 y.toNat = y.extractLsb' 0 8 ∧
        BitVec.ofNat 8 (y.toNat / 256) = y.extractLsb' 8 8 := by
      intro y; constructor <;> apply BitVec.eq_of_toNat_eq <;> simp [Nat.shiftRight_eq_div_pow]
    by_cases h8 : o.toNat < 8
    · have ep : (9 + (k * 2 + if o.toNat < 8 then 1 else 0)).toNat = 10 + 2 * k.toNat := by
        simp [h8, BitVec.toNat_add, BitVec.toNat_mul]; omega
      simp only [Cl.regGetBit, ep, size]
      rw [if_pos (by omega), h2, (e _).1]
      simp [show o.toNat % 8 = o.toNat by omega, h8]
    · have ep : (9 + (k * 2 + if o.toNat < 8 then 1 else 0)).toNat = 9 + 2 * k.toNat := by
        simp [h8, BitVec.toNat_add, BitVec.toNat_mul]; omega
      simp only [Cl.regGetBit, ep, size]
      rw [if_pos (by omega), h1, (e _).2]
      simp [show 8 + o.toNat % 8 = o.toNat by omega]
      omega

example : ((Cl.initial fun _ => 0).call (.holding 7 2) (some (regAnswer 1 3 [0x1234, 0x5678]))).map
    (fun p => (p.2.2.getInt2 1, p.2.2.getInt4 0, p.2.2.regGetBit 0 12)) = some (0x5678, 0x56781234, some true) := by
  decide +kernel

/-- 124 or 125 registers can be asked for, and no answer is ever accepted. -/
theorem C94_registers_violated {c : Cl} {r : Req} {a q : UInt} (hr : r = .holding a q ∨ r = .input a q) (hl : Legal r)
    (hq : 124 ≤ q.toNat) {net : Option (List Byte)} {f : List Byte} {res : Bool} {c' : Cl}
    (h : c.call r net = some (f, res, c')) : res = false := by
  have := C94_accepted hl h
  cases res with
  | false => rfl
  | true =>
    have := this.mp rfl
    have h256 : ((net.getD []).take 256).length ≤ 256 := by simp
    rcases hr with rfl | rfl <;> (simp only [answerLen] at this; omega)

example : Legal (.holding 0 125) ∧ (∃ p, (Cl.initial fun _ => 0).call (.holding 0 125) none = some p) :=
  ⟨by simp [Legal], _, call_eq _ _ _ (by trivial)⟩

/-- Coils and inputs that are read: the call returns 1 and `get_bit` gives the values of the device.  For up to 1976. -/
theorem C94_coils_partial (c : Cl) (r : Req) (a q : UInt) (hr : r = .discrete a q ∨ r = .coils a q) (hl : Legal r)
    (hq : q.toNat ≤ 1976) (x : Nat → Bool) (st fc : Byte) :
    ∃ f c', c.call r (some (coilAnswer st fc x q.toNat)) = some (f, true, c') ∧
      ∀ k : UInt, k.toNat < q.toNat → c'.getBit k = some (x k.toNat) := by
  have hf : Fits r := by rcases hr with rfl | rfl <;> trivial
  have hw : isWrite r = false := by rcases hr with rfl | rfl <;> rfl
  have hlen := coilAnswer_length st fc x q.toNat
  obtain ⟨p, hc⟩ : ∃ p, c.call r (some (coilAnswer st fc x q.toNat)) = some p := ⟨_, call_eq c _ _ hf⟩
  have hres : p.2.1 = true := by
    rw [C94_accepted (f := p.1) (c' := p.2.2) hl hc, Option.getD_some, List.take_of_length_le (by omega), hlen]
    rcases hr with rfl | rfl <;> rfl
  refine ⟨p.1, p.2.2, by rw [hc, ← hres], ?_⟩
  intro k hk
  have hb : p.2.2.buf (9 + k.toNat / 8) = (packed x q.toNat).getD (k.toNat / 8) 0 := by
    rw [call_buf hc hw (by omega) (by omega), coilAnswer_get]
  rw [Cl.getBit, hb, if_pos (show 9 + k.toNat / 8 < size by simp only [size]; omega), packed_bit _ _ _ hk]

example : ((Cl.initial fun _ => 0).call (.coils 7 12) (some (coilAnswer 1 1 (fun i => i == 9) 12))).map
    (fun p => (p.2.2.getBit 9, p.2.2.getBit 8)) = some (some true, some false) := by
  decide +kernel

/-- 1977 to 2000 coils can be asked for, and no answer is ever accepted. -/
theorem C94_coils_violated {c : Cl} {r : Req} {a q : UInt} (hr : r = .discrete a q ∨ r = .coils a q) (hl : Legal r)
    (hq : 1977 ≤ q.toNat) {net : Option (List Byte)} {f : List Byte} {res : Bool} {c' : Cl}
    (h : c.call r net = some (f, res, c')) : res = false := by
  have := C94_accepted hl h
  cases res with
  | false => rfl
  | true =>
    have := this.mp rfl
    have h256 : ((net.getD []).take 256).length ≤ 256 := by simp
    rcases hr with rfl | rfl <;> (simp only [answerLen] at this; omega)

example : Legal (.coils 0 2000) := by simp [Legal]

/-- The answer of another station to another function is taken for the answer: reading 24 coils accepts the confirmation
that a coil was written, and its bytes as the coils. -/
theorem C94_foreign_violated (c : Cl) (a a' : UInt) (ha : a.toNat + 24 ≤ 65536) (st : Byte) (v : Nat) :
    Legal (.coils a 24) ∧
    ∃ f c', c.call (.coils a 24) (some (echo st 5 a'.toNat v)) = some (f, true, c') ∧
      c'.buf 9 = BitVec.ofNat 8 a'.toNat := by
  have hl : Legal (.coils a 24) := ⟨by decide, by decide, ha⟩
  refine ⟨hl, ?_⟩
  obtain ⟨p, hc⟩ : ∃ p, c.call (.coils a 24) (some (echo st 5 a'.toNat v)) = some p := ⟨_, call_eq c _ _ trivial⟩
  have hlen : (echo st 5 a'.toNat v).length = 12 := by simp [echo, adu, be16]
  have hres : p.2.1 = true := by
    rw [C94_accepted (f := p.1) (c' := p.2.2) hl hc, Option.getD_some, List.take_of_length_le (by omega), hlen]
    rfl
  refine ⟨p.1, p.2.2, by rw [hc, ← hres], ?_⟩
  rw [call_buf hc rfl (by omega) (by omega)]
  simp [echo, adu, be16]

/-- Setting a byte, a register or two registers never writes outside the buffer, whatever the number; a byte that
has a place in the buffer is set. -/
theorem C94_setters_inside (c : Cl) (k : Nat) (hk : 256 ≤ k) :
    (∀ (a : Int) (v : Byte), (c.setByte a v).buf k = c.buf k) ∧
    (∀ (a : UInt) (v : BitVec 16), (c.setInt2 a v).buf k = c.buf k) ∧
    (∀ (a : UInt) (v : BitVec 32), (c.setInt4 a v).buf k = c.buf k) ∧
    (∀ (n : Nat) (v : Byte), 13 + n < 256 → (c.setByte n v).buf (13 + n) = v) := by
  refine ⟨fun a v => ?_, fun a v => ?_, fun a v => ?_, fun n v hn => ?_⟩
  · unfold Cl.setByte
    split
    · rfl
    · exact Function.update_of_ne (by omega) _ _
  · unfold Cl.setInt2
    split
    · rfl
    · exact put_out _ _ (Or.inr (by simp only [List.length_cons, List.length_nil]; omega))
  · unfold Cl.setInt4
    split
    · rfl
    · exact put_out _ _ (Or.inr (by simp only [List.length_cons, List.length_nil]; omega))
  · unfold Cl.setByte
    rw [if_neg (by omega), show (13 + (n : Int)).toNat = 13 + n by omega]
    exact Function.update_self _ _ _

example : (((Cl.initial fun _ => 0).setByte 242 7).setByte 243 7).buf 255 = 7 ∧
    (((Cl.initial fun _ => 0).setByte 242 7).setByte 243 7).buf 256 = 0 := by decide +kernel

/-- Registers that are written: the request carries the values that were set since creation or since the last write, 0
where nothing was set; provided calls in between got answers of at most 13 bytes. -/
theorem C94_written_partial {junk : Buf} {ops : List Op} {c : Cl} (hq : Quiet ops)
    (ha : after (Cl.initial junk) ops = some c) (a q : UInt) (hl : q.toNat ≤ 121) (net : Option (List Byte)) :
    ∃ res c', c.call (.writeRegs a q) net =
      some (adu c.station (0x10 :: (be16 a.toNat ++ be16 q.toNat ++ [BitVec.ofNat 8 (2 * q.toNat)] ++
        Spec.regBytes ((List.range q.toNat).map (image ops)))), res, c') := by
  have h := call_eq c (.writeRegs a q) net hl
  simp only [dataAt, dataLen, pdu, dat_length] at h
  rw [dat_holds (holds_after hq ha) hl] at h
  exact ⟨_, _, h⟩

example : Quiet [.bit 1 9 true, .set 0 5, .call (.writeRegs 0 3) none, .set 2 7] ∧
    (List.range 3).map (image [.bit 1 9 true, .set 0 5, .call (.writeRegs 0 3) none, .set 2 7]) = [5, 0x0200, 0] := by
  refine ⟨?_, ?_⟩
  · simp [Quiet, isWrite]
  · decide +kernel

example : ((after (Cl.initial fun _ => 0x55) [.set 1 0x0102]).bind fun c => c.call (.writeRegs 16 2) none).map (·.1) =
    some [0, 0, 0, 0, 0, 11, 1, 0x10, 0, 16, 0, 2, 4, 0, 0, 1, 2] := by decide +kernel

/-- A read between setting and writing: register 0 is written with the third value that was read instead of the value
that was set, whatever it was. -/
theorem C94_read_between_violated (c : Cl) (v : BitVec 16) (a q : UInt) (hl : Legal (.holding a q)) (h3 : 3 ≤ q.toNat)
    (hq : q.toNat ≤ 123) (l : List (BitVec 16)) (hn : l.length = q.toNat) (st fc : Byte) (b : UInt)
    (net : Option (List Byte)) :
    ∃ f c1, (c.setInt2 0 v).call (.holding a q) (some (regAnswer st fc l)) = some (f, true, c1) ∧
      ∃ res c2, c1.call (.writeRegs b 1) net =
        some (adu c.station (0x10 :: (be16 b.toNat ++ be16 1 ++ [(2 : Byte)] ++ be16 l[2].toNat)), res, c2) := by
  obtain ⟨f, c1, hc, -⟩ := C94_registers_partial (c.setInt2 0 v) _ a q (Or.inl rfl) hl hq l hn st fc
  refine ⟨f, c1, hc, ?_⟩
  have hlen : (regAnswer st fc l).length = 9 + 2 * q.toNat := by rw [regAnswer_length, hn]
  obtain ⟨h1, h2⟩ := regBytes_get l 2 (by omega)
  have b1 : c1.buf 13 = BitVec.ofNat 8 (l[2].toNat / 256) := by
    rw [call_buf hc rfl (by omega) (by omega), ← h1]; exact regAnswer_get st fc l 4
  have b2 : c1.buf 14 = BitVec.ofNat 8 l[2].toNat := by
    rw [call_buf hc rfl (by omega) (by omega), ← h2]; exact regAnswer_get st fc l 5
  have hst : c1.station = c.station := by
    rw [(call_some hc).2.1]; rw [setInt2_eq _ (by simp)]
  have h := call_eq c1 (.writeRegs b 1) net (by simp [Fits])
  have hd : dat c1.buf 13 (2 * (1 : UInt).toNat) = be16 l[2].toNat := by
    rw [be16, ← b1, ← b2]; rfl
  simp only [dataAt, dataLen, pdu, dat_length] at h
  rw [hd, hst] at h
  exact ⟨_, _, h⟩

example : Legal (.holding 0 3) := by simp [Legal]

/-- Registers that do not fit are not set, and read as 0. -/
theorem C94_outside_partial (c : Cl) (k : UInt) (h : k.toNat < 2 ^ 31) (v : BitVec 16) :
    (121 ≤ k.toNat → c.setInt2 k v = c) ∧ (123 ≤ k.toNat → c.getInt2 k = 0) ∧ (122 ≤ k.toNat → c.getInt4 k = 0) := by
  refine ⟨fun hk => ?_, fun hk => ?_, fun hk => ?_⟩
  · rw [Cl.setInt2, addr_toNat h, if_pos (by omega)]
  · rw [Cl.getInt2, addr_toNat h, if_pos (by omega)]
  · rw [Cl.getInt4, addr_toNat h, if_pos (by omega)]

example : ((Cl.initial fun _ => 0x55).setInt2 120 0x0102).buf 253 = 1 ∧
    ((Cl.initial fun _ => 0x55).setInt2 121 0x0102).buf 255 = 0 := by decide +kernel

/-- Numbers of 2147483648 and more do not fit either, and change the registers from 0 on. -/
theorem C94_outside_violated (c : Cl) (k k' : UInt) (h : k'.toNat = k.toNat + 2147483648) (v : BitVec 16) :
    c.setInt2 k' v = c.setInt2 k v ∧ c.getInt2 k' = c.getInt2 k := by
  have e : k' * 2 = k * 2 := by
    apply BitVec.eq_of_toNat_eq
    rw [BitVec.toNat_mul, BitVec.toNat_mul, h]
    have e2 : (2 : UInt).toNat = 2 := rfl
    rw [e2]
    omega
  simp only [Cl.setInt2, Cl.getInt2, e, and_self]

example : (0x80000005 : UInt).toNat = (5 : UInt).toNat + 2147483648 := by decide +kernel

/-- A 32-bit value that is set is in two registers, the low half first. -/
theorem C94_long (c : Cl) (k : UInt) (h : k.toNat ≤ 119) (hi lo : BitVec 16) :
    c.setInt4 k (hi ++ lo) = (c.setInt2 k lo).setInt2 (k + 1) hi := by
  have e1 : (k + 1).toNat = k.toNat + 1 := by simp [BitVec.toNat_add]; omega
  rw [setInt2_eq _ (by omega), setInt2_eq _ (by omega), Cl.setInt4, addr_toNat (by omega), if_neg (by omega), e1]
  simp only [Cl.mk.injEq, and_true]
  have t : (hi ++ lo).toNat = hi.toNat * 65536 + lo.toNat := by
    rw [BitVec.toNat_append, ← Nat.shiftLeft_add_eq_or_of_lt lo.isLt, Nat.shiftLeft_eq]
  have h1 := hi.isLt
  have h2 := lo.isLt
  have x1 : ((hi ++ lo).extractLsb' 8 8 : Byte) = lo.extractLsb' 8 8 := by
    apply BitVec.eq_of_toNat_eq
    simp only [BitVec.extractLsb'_toNat, t, Nat.shiftRight_eq_div_pow]; omega
  have x2 : ((hi ++ lo).extractLsb' 0 8 : Byte) = lo.extractLsb' 0 8 := by
    apply BitVec.eq_of_toNat_eq
    simp only [BitVec.extractLsb'_toNat, t, Nat.shiftRight_eq_div_pow]; omega
  have x3 : ((hi ++ lo).extractLsb' 24 8 : Byte) = hi.extractLsb' 8 8 := by
    apply BitVec.eq_of_toNat_eq
    simp only [BitVec.extractLsb'_toNat, t, Nat.shiftRight_eq_div_pow]; omega
  have x4 : ((hi ++ lo).extractLsb' 16 8 : Byte) = hi.extractLsb' 0 8 := by
    apply BitVec.eq_of_toNat_eq
    simp only [BitVec.extractLsb'_toNat, t, Nat.shiftRight_eq_div_pow]; omega
  funext i
  rw [x1, x2, x3, x4, ← split16, ← split16]
  simp only [put, List.length_cons, List.length_nil]
  by_cases c1 : i = 13 + 2 * k.toNat
  · subst c1; simp
  by_cases c2 : i = 14 + 2 * k.toNat
  · subst c2
    rw [if_pos (by omega), if_neg (by omega), if_pos (by omega), show 14 + 2 * k.toNat - (13 + 2 * k.toNat) = 1 by omega]
    rfl
  by_cases c3 : i = 15 + 2 * k.toNat
  · subst c3
    rw [if_pos (by omega), if_pos (by omega), show 15 + 2 * k.toNat - (13 + 2 * k.toNat) = 2 by omega,
      show 15 + 2 * k.toNat - (13 + 2 * (k.toNat + 1)) = 0 by omega]
    rfl
  by_cases c4 : i = 16 + 2 * k.toNat
  · subst c4
    rw [if_pos (by omega), if_pos (by omega), show 16 + 2 * k.toNat - (13 + 2 * k.toNat) = 3 by omega,
      show 16 + 2 * k.toNat - (13 + 2 * (k.toNat + 1)) = 1 by omega]
    rfl
  · rw [if_neg (by omega), if_neg (by omega), if_neg (by omega)]

example : ((Cl.initial fun _ => 0).setInt4 0 0x01020304).buf 13 = 3 := by decide +kernel

/-! ## C95: bits -/

/-- Coils that are written: the request carries the last value set for each, off where nothing was set. -/
theorem C95_coils_partial {junk : Buf} {ops : List (UInt × Bool)} {c : Cl} (ha : afterBits (Cl.initial junk) ops = some c)
    (a q : UInt) (hq : q.toNat ≤ 255) (net : Option (List Byte)) :
    ∃ d res c', d.length = (q.toNat + 7) / 8 ∧
      c.call (.writeCoils a q) net = some (adu c.station (pdu d (.writeCoils a q)), res, c') ∧
      ∀ j < q.toNat, (d.getD (j / 8) 0).getLsbD (j % 8) = coilImage ops j := by
  refine ⟨_, _, _, dat_length .., call_eq c (.writeCoils a q) net hq, ?_⟩
  intro j hj
  rw [← bits_after ha j]
  have : j / 8 < (q.toNat + 7) / 8 := by omega
  simp [dat, dataAt, this]

example : ((afterBits (Cl.initial fun _ => 0x55) [(9, true), (0, false), (0, true), (3, true)]).bind
      fun c => c.call (.writeCoils 0 10) none).map (·.1) =
      some [0, 0, 0, 0, 0, 9, 1, 0x0F, 0, 0, 0, 10, 2, 8, 2] := by decide +kernel

/-- Bits below 1944 can always be set. -/
theorem C95_coils_defined_partial (c : Cl) (ops : List (UInt × Bool)) (h : ∀ o ∈ ops, o.1.toNat < 1944) :
    ∃ c', afterBits c ops = some c' := by
  induction ops with
  | nil => exact ⟨c, rfl⟩
  | cons o t ih =>
    obtain ⟨c0, h0⟩ := ih fun o ho => h o (List.mem_cons_of_mem _ ho)
    have := h o (List.mem_cons_self ..)
    refine ⟨_, by rw [afterBits, h0, Option.bind_some, Cl.setBit, if_pos (by simp only [size]; omega)]⟩

example : ∀ o ∈ [((1943 : UInt), true)], o.1.toNat < 1944 := by decide

/-- Setting a bit from 1944 on writes behind the buffer, reading one from 1976 on reads behind it. -/
theorem C95_bounds_violated (c : Cl) (k : UInt) (v : Bool) :
    (1944 ≤ k.toNat → c.setBit k v = none) ∧ (1976 ≤ k.toNat → c.getBit k = none) := by
  constructor <;> intro h
  · rw [Cl.setBit, if_neg (show ¬ 13 + k.toNat / 8 < size by simp only [size]; omega)]
  · rw [Cl.getBit, if_neg (show ¬ 9 + k.toNat / 8 < size by simp only [size]; omega)]

/-- Masks: after `mask_reset` and any `mask_set_bit` calls the request makes the device set every bit as it was last asked
for, and leave the others. -/
theorem C95_masks_partial (c : Cl) (ops : List (Int × Bool)) (a : UInt) :
    ∃ c' n o, afterMasks c.maskReset ops = some c' ∧ c'.maskReq a = some (.mask a n o) ∧ n.toNat < 65536 ∧ o.toNat < 65536 ∧
      ∀ (r : BitVec 16) (i : Nat), i < 16 →
        (masked r (n.setWidth 16) (o.setWidth 16)).getLsbD i = (asked ops i).getD (r.getLsbD i) := by
  obtain ⟨n, o, h, hb⟩ := masks_after (c := c.maskReset) (ops := ops) (n := 0xFFFF) (o := 0) rfl
  have small : ∀ x : UInt, (∀ j < 32, 16 ≤ j → x.getLsbD j = false) → x.toNat < 65536 := by
    intro x hx
    rw [show 65536 = 2 ^ 16 by rfl]
    apply Nat.lt_pow_two_of_testBit
    intro i hi
    by_cases h32 : i < 32
    · exact hx i h32 hi
    · have := x.isLt
      exact Nat.testBit_lt_two_pow (lt_of_lt_of_le this (Nat.pow_le_pow_right (by omega) (by omega)))
  have hFF : ∀ j < 32, (0xFFFF : UInt).getLsbD j = decide (j < 16) := by decide
  refine ⟨_, n, o, h, rfl, small n ?_, small o ?_, ?_⟩
  · intro j hj h16
    rw [(hb j hj).1, hFF j hj]
    simp; omega
  · intro j hj h16
    rw [(hb j hj).2, if_neg (by omega)]
    simp
  · intro r i hi
    obtain ⟨b1, b2⟩ := hb i (by omega)
    rw [hFF i (by omega)] at b1
    rw [if_pos (by omega)] at b2
    simp only [masked, BitVec.getLsbD_or, BitVec.getLsbD_and, BitVec.getLsbD_not, BitVec.getLsbD_setWidth, b1, b2, hi]
    have : ¬ 15 < i := by omega
    cases asked ops i with
    | none => simp [this]
    | some v => simp [this]

example : ((afterMasks (Cl.initial fun _ => 0).maskReset [(3, true), (0, false), (3, false), (77, true)]).bind
    fun c => c.masks) = some (0xFFF6, 8) := by decide +kernel

/-- Without `mask_reset` the masks are whatever is in memory. -/
theorem C95_masks_violated (junk : Buf) (a : UInt) (k : Int) (v : Bool) (hk : 0 ≤ k ∧ k ≤ 15) :
    (Cl.initial junk).maskReq a = none ∧ (Cl.initial junk).maskSetBit k v = none := by
  refine ⟨rfl, ?_⟩
  rw [Cl.maskSetBit, if_neg (by omega)]
  rfl

example : (0 : Int) ≤ 3 ∧ (3 : Int) ≤ 15 := by decide

/-- `reverse` turns the order of the bits round. -/
theorem C95_reverse (b : Byte) (i : Nat) (h : i < 8) : (reverse b).getLsbD i = b.getLsbD (7 - i) := by
  have : i = 0 ∨ i = 1 ∨ i = 2 ∨ i = 3 ∨ i = 4 ∨ i = 5 ∨ i = 6 ∨ i = 7 := by omega
  rcases this with rfl | rfl | rfl | rfl | rfl | rfl | rfl | rfl <;> simp [reverse]

example : reverse 0x13 = 0xC8 := by decide

end Ptusa.MbClient
