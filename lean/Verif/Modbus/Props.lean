import Verif.Modbus.Lemmas

/-!
# Properties of the Modbus server

C69 - reading gives the values of the program.  C70 - the reply tells whether a request was carried out.  C71 - values
written arrive unchanged.  C73 - a request uses only existing lines of a cleaning station.
-/
namespace Ptusa.Modbus

open Tcp (Byte Buf put get bufSize put_in put_out)

/-- A program for the examples: one word of memory; coils are its bits, writing sets it. -/
def demo : Prog (BitVec 16) where
  readCoils := some fun s _ a n => (s, some (some ((List.range n).map fun i => if s.getLsbD (a + i) then 1 else 0)))
  readRegs := some fun s _ _ _ => (s, some (some [.int16 s, .time 45296000, .other, .other, .other, .float 0x41200000, .other]))
  writeCoil := some fun s _ a v => (if v = 1 then s ||| (1 <<< a) else s, some ())
  writeRegs := some fun _ _ _ _ l => (unpackInt16 l, if l.isEmpty then none else some ())

/-! ### The way over TCP -/

/-- **C69, C70.**  Over TCP, whatever the exchange buffer held before and however the network splits the sending, a message
gets exactly the reply of `exchange`, and the connection stays open. -/
theorem C69_wire {σ} (p : Prog σ) (s s' : σ) (sv : Tcp.Services) (old : Buf) (sock : Tcp.Sock) (t1 t2 : Byte)
    (msg out : List Byte) (es : List Tcp.SendEv) (x : Tcp.Echo) (hsv : sv 15 = some (service p s))
    (hm : msg.length < 65536) (h0 : msg ≠ []) (h : exchange p s t1 t2 msg = some (s', out))
    (hes : es.all Tcp.SendEv.ok = true) (hx : Tcp.doEcho sv old sock (.data (frame t1 t2 msg)) es = some x) :
    x.out = out ∧ x.ended = .kept { sock with evaluated := false, init := false } := by
  rw [echo_modbus p s s' sv old sock t1 t2 msg out es hsv hm h h0, Option.map_eq_some_iff] at hx
  obtain ⟨y, hy, rfl⟩ := hx
  have hne : out ≠ [] := by
    simp only [exchange, Option.map_eq_some_iff, Prod.mk.injEq] at h
    obtain ⟨o, _, _, rfl⟩ := h
    simp [frame]
  have hpos := Tcp.sendall_ok es _ 0 y hes (Or.inl hne) hy
  have hall := Tcp.sendall_all es _ 0 y hy hpos
  rw [if_neg (by omega)]
  exact ⟨hall, rfl⟩

example : exchange demo 5 0 7 (head 1 1 0 3) = some (5, frame 0 7 [1, 1, 1, 5]) := by decide +kernel

/-! ### Reading -/

/-- **C69, partial.**  Reading up to 2040 coils gives the values of the program, first coil in the lowest bit of the first
byte.  Missing: more coils, and the unused bits of the last byte (see below). -/
theorem C69_coils_partial {σ} (p : Prog σ) (s s' : σ) (t1 t2 unit : Byte) (addr n : BitVec 16)
    (f : σ → Nat → Nat → Nat → σ × Option (Option (List Int))) (vs : List Int) (hp : p.readCoils = some f)
    (hf : f s unit.toNat addr.toNat n.toNat = (s', some (some vs))) (hv : vs.length = n.toNat) (hn : n.toNat ≤ 2040) :
    ∃ bytes : List Byte, exchange p s t1 t2 (head unit 1 addr n) =
        some (s', frame t1 t2 ([unit, 1, BitVec.ofNat 8 bytes.length] ++ bytes)) ∧
      bytes.length = (n.toNat + 7) / 8 ∧ ∀ i, i < n.toNat → coil bytes i = (vs.getD i 0 != 0) := by
  have hbuf := Tcp.bufSize_eq
  have hc : coilBytes n.toNat = (n.toNat + 7) / 8 := by unfold coilBytes; split <;> omega
  have hs := serve_coils p s s' unit addr n f vs hp hf (by omega)
  generalize hb : putCoils (put (Tcp.zeros (head unit 1 addr n)) 2 [BitVec.ofNat 8 (coilBytes n.toNat)]) 0 vs = b at hs
  refine ⟨get b 3 (coilBytes n.toNat), ?_, by rw [Tcp.get_length, hc], ?_⟩
  · rw [exchange, hs, Option.map_some]
    simp only
    rw [if_pos (by omega), get_add, Tcp.get_length]
    congr 3
    simp only [Tcp.get, List.range, List.range.loop, List.map_cons, List.map_nil, Nat.zero_add]
    rw [← hb, putCoils_low _ _ _ _ (by omega), putCoils_low _ _ _ _ (by omega), putCoils_low _ _ _ _ (by omega)]
    rfl
  · intro i hi
    unfold coil
    rw [get_getD _ _ _ _ (by omega), ← hb, putCoils_bit, if_pos (by omega)]
    simp

example : exchange demo 0x5A5 0 7 (head 1 1 0 12) = some (0x5A5, frame 0 7 [1, 1, 2, 0xA5, 5]) := by decide +kernel

/-- **C69, violated.**  The unused bits of the last byte are not zero: when less than eight coils are read they are the bits
of the address in the request, for every program. -/
theorem C69_spare_violated {σ} (p : Prog σ) (s s' : σ) (t1 t2 unit : Byte) (addr n : BitVec 16)
    (f : σ → Nat → Nat → Nat → σ × Option (Option (List Int))) (vs : List Int) (hp : p.readCoils = some f)
    (hf : f s unit.toNat addr.toNat n.toNat = (s', some (some vs))) (hv : vs.length = n.toNat) (hn : n.toNat < 8)
    (hn0 : 0 < n.toNat) :
    ∃ x : Byte, exchange p s t1 t2 (head unit 1 addr n) = some (s', frame t1 t2 [unit, 1, 1, x]) ∧
      ∀ i, n.toNat ≤ i → i < 8 → x.getLsbD i = addr.getLsbD i := by
  have hbuf := Tcp.bufSize_eq
  have hc : coilBytes n.toNat = 1 := by unfold coilBytes; split <;> omega
  have hs := serve_coils p s s' unit addr n f vs hp hf (by omega)
  rw [hc] at hs
  refine ⟨putCoils (put (Tcp.zeros (head unit 1 addr n)) 2 [BitVec.ofNat 8 1]) 0 vs 3, ?_, ?_⟩
  · rw [exchange, hs, Option.map_some]
    simp only
    rw [if_pos (by omega)]
    congr 3
    simp only [Tcp.get, List.range, List.range.loop, List.map_cons, List.map_nil, Nat.zero_add]
    rw [putCoils_low _ _ _ _ (by omega), putCoils_low _ _ _ _ (by omega), putCoils_low _ _ _ _ (by omega)]
    rfl
  · intro i h1 h2
    have := putCoils_bit vs (put (Tcp.zeros (head unit 1 addr n)) 2 [BitVec.ofNat 8 1]) 0 i
    rw [if_neg (by omega), Nat.div_eq_of_lt h2, Nat.mod_eq_of_lt h2] at this
    rw [this, put_out _ _ _ _ (by simp)]
    show (addr.extractLsb' 0 8).getLsbD i = _
    simp [h2]

example : exchange demo 0 0 7 (head 1 1 0xF0 1) = some (0, frame 0 7 [1, 1, 1, 0xF0]) := by decide +kernel

/-- **C69.**  Every value the program gives for a register is read from its registers, when the program leaves the
registers a value fills behind the first one to it (pairs of another type): numbers, floats and 32-bit numbers low register
first, times as `HH:MM:SS`, texts in Unicode. -/
theorem C69_registers {σ} (p : Prog σ) (s s' s'' : σ) (t1 t2 unit : Byte) (addr n : BitVec 16)
    (f : σ → Nat → Nat → Nat → σ × Option (Option (List Reg))) (pre : List Reg) (r : Reg) (k : Nat) (post : List Reg)
    (ws : List Nat) (out : List Byte) (hp : p.readRegs = some f)
    (hf : f s unit.toNat addr.toNat n.toNat = (s', some (some (pre ++ r :: (List.replicate k .other ++ post)))))
    (hw : r.words = some ws) (hk : ws.length ≤ k + 1) (hfit : pre.length + ws.length ≤ n.toNat)
    (hx : exchange p s t1 t2 (head unit 3 addr n) = some (s'', out)) :
    s'' = s' ∧ ∃ bytes : List Byte, out = frame t1 t2 ([unit, 3, BitVec.ofNat 8 bytes.length] ++ bytes) ∧
      bytes.length = 2 * n.toNat ∧ ∀ i, i < ws.length → reg bytes (pre.length + i) = ws.getD i 0 := by
  rw [exchange, serve_regs p s s' unit addr n f _ hp hf, Option.map_map, Option.map_eq_some_iff] at hx
  obtain ⟨b, hb, hx⟩ := hx
  simp only [Function.comp_apply, Prod.mk.injEq] at hx
  obtain ⟨rfl, rfl⟩ := hx
  refine ⟨rfl, get b 3 (2 * n.toNat), ?_, Tcp.get_length _ _ _, ?_⟩
  · rw [if_pos (by omega), get_add, Tcp.get_length, Nat.mul_comm n.toNat 2]
    congr 2
    simp only [Tcp.get, List.range, List.range.loop, List.map_cons, List.map_nil, Nat.zero_add]
    rw [putRegs_low _ _ _ _ _ hb (by omega), putRegs_low _ _ _ _ _ hb (by omega), putRegs_low _ _ _ _ _ hb (by omega)]
    rfl
  · obtain ⟨l, hl, hj⟩ := putRegs_at pre r k post _ b 0 hb
    obtain ⟨hlen, hreg⟩ := bytes_words r l ws hl hw
    intro i hi
    rw [← hreg i hi]
    unfold reg
    have e1 := hj (2 * i) (by omega) (by omega)
    have e2 := hj (2 * i + 1) (by omega) (by omega)
    rw [get_getD _ _ _ _ (by omega), get_getD _ _ _ _ (by omega), ← e1, ← e2,
      show 3 + 2 * (pre.length + i) = 3 + 2 * (0 + pre.length) + 2 * i by omega,
      show 3 + (2 * (pre.length + i) + 1) = 3 + 2 * (0 + pre.length) + (2 * i + 1) by omega]

/-- **C69.**  Every reading of registers gets a reply when the table of the program has at most 65535 pairs and its texts
are UTF-8 of less than 96 bytes of letters, ASCII characters and the number sign. -/
theorem C69_answered {σ} (p : Prog σ) (s s' : σ) (t1 t2 unit : Byte) (addr n : BitVec 16)
    (f : σ → Nat → Nat → Nat → σ × Option (Option (List Reg))) (rs : List Reg) (hp : p.readRegs = some f)
    (hf : f s unit.toNat addr.toNat n.toNat = (s', some (some rs))) (hlen : rs.length ≤ 65535)
    (ht : ∀ l, Reg.text l ∈ rs → ∃ a : List Byte, (∀ b ∈ a, Text.Plain b) ∧ l = a.flatMap (fun b => Text.utf8 (Text.cp b)) ∧
      l.length < 96) : (exchange p s t1 t2 (head unit 3 addr n)).isSome := by
  rw [exchange, serve_regs p s s' unit addr n f rs hp hf]
  simp only [Option.isSome_map]
  refine putRegs_isSome rs _ 0 ?_ (by omega)
  intro r hr
  cases r with
  | text l =>
    obtain ⟨a, ha, rfl, hl⟩ := ht l hr
    exact text_bytes a ha hl
  | int16 v => exact ⟨_, rfl, by simp [packInt16]⟩
  | float v => exact ⟨_, rfl, by simp [packFloat]⟩
  | uint32 v => exact ⟨_, rfl, by simp [packLong]⟩
  | time v => exact ⟨_, rfl, by simp [packTime]⟩
  | other => exact ⟨_, rfl, by simp⟩

example : (exchange demo 0x1234 0 7 (head 1 3 0 7)).map (fun x => x.2.drop 9) =
    some [0x12, 0x34, 50, 49, 51, 58, 58, 52, 54, 53, 0, 0, 0x41, 0x20] := by decide +kernel

/-- **C69, violated.**  Registers the program gives no value for are not refused: when the project has no function for
registers, or it gives an empty table, the first two registers read are bytes of the request itself. -/
theorem C69_missing_violated {σ} (p : Prog σ) (s : σ) (t1 t2 unit : Byte) (addr n : BitVec 16)
    (hp : p.readRegs = none ∨ ∃ f, p.readRegs = some f ∧ f s unit.toNat addr.toNat n.toNat = (s, some (some [])))
    (hn : 2 ≤ n.toNat) (hn' : n.toNat ≤ 125) :
    ∃ bytes : List Byte, exchange p s t1 t2 (head unit 3 addr n) =
        some (s, frame t1 t2 ([unit, 3, BitVec.ofNat 8 bytes.length] ++ bytes)) ∧
      bytes.length = 2 * n.toNat ∧ reg bytes 0 = addr.toNat % 256 * 256 ∧ reg bytes 1 = n.toNat * 256 := by
  have hs : serve p s (Tcp.zeros (head unit 3 addr n)) =
      some ⟨s, put (Tcp.zeros (head unit 3 addr n)) 2 [BitVec.ofNat 8 (2 * n.toNat)], 3 + n.toNat * 2⟩ := by
    rcases hp with hp | ⟨f, hp, hf⟩
    · have hm := head_mem unit 3 addr n []
      rw [List.append_nil] at hm
      obtain ⟨h0, h1, h2, h3⟩ := hm
      unfold serve
      simp only [h0, h1, h2, h3]
      have : (3 : BitVec 8).toNat = 3 := rfl
      simp only [this, hp]
    · rw [serve_regs p s s unit addr n f [] hp hf]
      rfl
  generalize hb : put (Tcp.zeros (head unit 3 addr n)) 2 [BitVec.ofNat 8 (2 * n.toNat)] = b at hs
  refine ⟨get b 3 (2 * n.toNat), ?_, Tcp.get_length _ _ _, ?_, ?_⟩
  · rw [exchange, hs, Option.map_some]
    simp only
    rw [if_pos (by omega), get_add, Tcp.get_length, Nat.mul_comm n.toNat 2]
    congr 3
    rw [← hb]
    rfl
  · unfold reg
    rw [get_getD _ _ _ _ (by omega), get_getD _ _ _ _ (by omega), ← hb, put_out _ _ _ _ (by simp), put_out _ _ _ _ (by simp)]
    show (addr.extractLsb' 0 8).toNat * 256 + (n.extractLsb' 8 8).toNat = _
    simp [Nat.shiftRight_eq_div_pow]
    omega
  · unfold reg
    rw [get_getD _ _ _ _ (by omega), get_getD _ _ _ _ (by omega), ← hb, put_out _ _ _ _ (by simp), put_out _ _ _ _ (by simp)]
    show (n.extractLsb' 0 8).toNat * 256 + 0 = _
    simp
    omega

example : exchange { demo with readRegs := none } 0 0 7 (head 1 3 0x10 2) = some (0, frame 0 7 [1, 3, 4, 0x10, 0, 2, 0]) := by
  decide +kernel

/-! ### Replies -/

/-- **C70, violated.**  The reply to writing a coil never tells whether it was written: the acknowledgement comes when the
program wrote it, when its function failed and when it has no such function. -/
theorem C70_coil_violated {σ} (p : Prog σ) (s : σ) (t1 t2 unit : Byte) (addr v : BitVec 16) :
    (exchange p s t1 t2 (head unit 5 addr v)).map Prod.snd = some (frame t1 t2 (head unit 5 addr v)) := by
  have hm := head_mem unit 5 addr v []
  rw [List.append_nil] at hm
  obtain ⟨h0, h1, h2, h3⟩ := hm
  have h5 : (5 : BitVec 8).toNat = 5 := rfl
  have hz : get (Tcp.zeros (head unit 5 addr v)) 0 6 = head unit 5 addr v := get_zeros _
  have hl : (head unit 5 addr v).length = 6 := rfl
  have key : ∀ o, serve p s (Tcp.zeros (head unit 5 addr v)) = some o →
      o.buf = Tcp.zeros (head unit 5 addr v) ∧ (o.len = 6 ∨ o.len = 0) := by
    intro o ho
    unfold serve at ho
    simp only [h0, h1, h2, h5] at ho
    split at ho
    · simp only [Option.some.injEq] at ho; subst ho; exact ⟨rfl, Or.inl rfl⟩
    · split at ho
      · simp only [Option.some.injEq] at ho; subst ho; exact ⟨rfl, Or.inr rfl⟩
      · simp only [Option.some.injEq] at ho; subst ho; exact ⟨rfl, Or.inl rfl⟩
  have hsome : (serve p s (Tcp.zeros (head unit 5 addr v))).isSome := by
    unfold serve
    simp only [h0, h1, h2, h5]
    split
    · rfl
    · split <;> rfl
  obtain ⟨o, ho⟩ := Option.isSome_iff_exists.mp hsome
  obtain ⟨hb, hlen⟩ := key o ho
  rw [exchange, ho]
  simp only [Option.map_some]
  rw [hb, hl]
  rcases hlen with h | h
  · rw [h, if_pos (by omega), hz]
  · rw [h, if_neg (by omega), hz]

/-- A program that refuses every write, and the same reply as from one that writes. -/
example : (exchange { demo with writeCoil := some fun s _ _ _ => (s, none) } 0 0 7 (head 1 5 3 0xFF00)).map Prod.snd =
    (exchange demo 0 0 7 (head 1 5 3 0xFF00)).map Prod.snd := by decide +kernel

/-- **C70, violated.**  Functions the server does not know are not refused: the message comes back and the program is not
asked.  For writing one register (function 6) this is the acknowledgement of a write that never happened. -/
theorem C70_unknown_violated {σ} (p : Prog σ) (s : σ) (t1 t2 : Byte) (msg : List Byte)
    (hf : (msg.getD 1 0).toNat ∉ [1, 3, 5, 16]) :
    exchange p s t1 t2 msg = some (s, frame t1 t2 msg) := by
  have hs : serve p s (Tcp.zeros msg) = some ⟨s, Tcp.zeros msg, 0⟩ := by
    unfold serve
    simp only
    have : (Tcp.zeros msg 1).toNat ∉ [1, 3, 5, 16] := hf
    simp only [List.mem_cons, List.not_mem_nil, or_false, not_or] at this
    split
    · omega
    · omega
    · omega
    · omega
    · rfl
  rw [exchange, hs]
  simp only [Option.map_some, Nat.lt_irrefl, if_false]
  rw [get_zeros]

example : exchange demo 1 0 7 (head 1 6 3 0x1234) = some (1, frame 0 7 (head 1 6 3 0x1234)) := by decide +kernel

/-- **C70, violated.**  A failed reading of 17 to 24 coils is answered by a proper reply with coils: the low byte of the
address, zero, and the number of coils. -/
theorem C70_read_violated {σ} (p : Prog σ) (s s' : σ) (t1 t2 unit : Byte) (addr n : BitVec 16)
    (f : σ → Nat → Nat → Nat → σ × Option (Option (List Int))) (hp : p.readCoils = some f)
    (hf : f s unit.toNat addr.toNat n.toNat = (s', none)) (h1 : 17 ≤ n.toNat) (h2 : n.toNat ≤ 24) :
    exchange p s t1 t2 (head unit 1 addr n) =
      some (s', frame t1 t2 ([unit, 1, 3] ++ [addr.extractLsb' 0 8, 0, n.extractLsb' 0 8])) := by
  have hm := head_mem unit 1 addr n []
  rw [List.append_nil] at hm
  obtain ⟨e0, e1, e2, e3⟩ := hm
  have hc : coilBytes n.toNat = 3 := by unfold coilBytes; split <;> omega
  have hs : serve p s (Tcp.zeros (head unit 1 addr n)) =
      some ⟨s', put (Tcp.zeros (head unit 1 addr n)) 2 [BitVec.ofNat 8 3], 0⟩ := by
    unfold serve
    simp only [e0, e1, e2, e3]
    have : (1 : BitVec 8).toNat = 1 := rfl
    simp only [this, hp, hf, hc]
  have hn : n.extractLsb' 8 8 = 0 := by
    apply BitVec.eq_of_toNat_eq
    simp [Nat.shiftRight_eq_div_pow]
    omega
  rw [exchange, hs]
  simp only [Option.map_some, Nat.lt_irrefl, if_false]
  have hl : (head unit 1 addr n).length = 6 := rfl
  rw [hl, ← hn]
  rfl

example : exchange { demo with readCoils := some fun s _ _ _ => (s, none) } 0 0 7 (head 1 1 0x37 24) =
    some (0, frame 0 7 [1, 1, 3, 0x37, 0, 24]) := by decide +kernel

/-- **C71.**  A message that writes registers gives the program exactly the bytes sent, and the acknowledgement comes exactly
when the program took them. -/
theorem C71_registers {σ} (p : Prog σ) (s : σ) (t1 t2 unit : Byte) (addr n : BitVec 16) (bytes : List Byte)
    (f : σ → Nat → Nat → Nat → List Byte → σ × Option Unit) (hp : p.writeRegs = some f)
    (h : bytes.length = 2 * n.toNat) :
    ∃ out, exchange p s t1 t2 (writeMsg unit addr n bytes) = some ((f s unit.toNat addr.toNat n.toNat bytes).1, out) ∧
      (out = frame t1 t2 (head unit 0x10 addr n) ↔ (f s unit.toNat addr.toNat n.toNat bytes).2 = some ()) := by
  have hs := serve_write p s unit addr n bytes f hp (by omega)
  rw [h, Nat.sub_self, List.replicate_zero, List.append_nil] at hs
  simp only at hs
  rw [exchange, hs]
  generalize f s unit.toNat addr.toNat n.toNat bytes = r
  obtain ⟨s', o⟩ := r
  have hh : get (Tcp.zeros (writeMsg unit addr n bytes)) 0 6 = head unit 0x10 addr n := rfl
  cases o with
  | none =>
    refine ⟨_, rfl, ?_⟩
    simp only [Option.isSome_none, Bool.false_eq_true, if_false, Nat.lt_irrefl, reduceCtorEq, iff_false]
    intro hc
    have := congrArg List.length hc
    rw [frame_length, frame_length, Tcp.get_length, write_len] at this
    have h6 : (head unit 16 addr n).length = 6 := rfl
    omega
  | some u =>
    refine ⟨_, rfl, ?_⟩
    simp only [Option.isSome_some, if_true]
    rw [if_pos (by omega), hh]
    simp

example : exchange demo 0 0 7 (writeMsg 1 3 1 [0x12, 0x34]) = some (0x1234, frame 0 7 (head 1 0x10 3 1)) := by
  decide +kernel

/-- **C71, violated.**  A message that carries less bytes than it announces is not refused: zeros are written to the missing
registers and the acknowledgement comes. -/
theorem C71_short_violated {σ} (p : Prog σ) (s s' : σ) (t1 t2 unit : Byte) (addr n : BitVec 16) (bytes : List Byte)
    (f : σ → Nat → Nat → Nat → List Byte → σ × Option Unit) (hp : p.writeRegs = some f)
    (h : bytes.length < 2 * n.toNat)
    (hf : f s unit.toNat addr.toNat n.toNat (bytes ++ List.replicate (2 * n.toNat - bytes.length) 0) = (s', some ())) :
    exchange p s t1 t2 (writeMsg unit addr n bytes) = some (s', frame t1 t2 (head unit 0x10 addr n)) := by
  have hs := serve_write p s unit addr n bytes f hp (by omega)
  rw [hf] at hs
  simp only [Option.isSome_some, if_true] at hs
  have hh : get (Tcp.zeros (writeMsg unit addr n bytes)) 0 6 = head unit 0x10 addr n := rfl
  rw [exchange, hs]
  simp only [Option.map_some]
  rw [if_pos (by omega), hh]

example : exchange demo 7 0 7 (writeMsg 1 3 1 []) = some (0, frame 0 7 (head 1 0x10 3 1)) := by decide +kernel

/-- **C71, violated.**  A project without a function for registers acknowledges every write of registers. -/
theorem C71_absent_violated {σ} (p : Prog σ) (s : σ) (t1 t2 unit : Byte) (addr n : BitVec 16) (bytes : List Byte)
    (hp : p.writeRegs = none) :
    exchange p s t1 t2 (writeMsg unit addr n bytes) = some (s, frame t1 t2 (head unit 0x10 addr n)) := by
  have hs : serve p s (Tcp.zeros (writeMsg unit addr n bytes)) = some ⟨s, Tcp.zeros (writeMsg unit addr n bytes), 6⟩ := by
    unfold serve
    have e1' : Tcp.zeros (writeMsg unit addr n bytes) 1 = 0x10 := rfl
    have h10 : (0x10 : BitVec 8).toNat = 16 := rfl
    simp only [e1', h10, hp]
  have hh : get (Tcp.zeros (writeMsg unit addr n bytes)) 0 6 = head unit 0x10 addr n := rfl
  rw [exchange, hs]
  simp only [Option.map_some]
  rw [if_pos (by omega), hh]

example : exchange { demo with writeRegs := none } 7 0 7 (writeMsg 1 3 1 [1, 2]) =
    some (7, frame 0 7 (head 1 0x10 3 1)) := by decide +kernel

/-- **C71.**  Writing a coil tells the program its group, its number and 1 exactly for a value with a high byte that is not
zero (0xFF00 of the protocol), 0 otherwise. -/
theorem C71_coil {σ} (p : Prog σ) (s : σ) (t1 t2 unit : Byte) (addr v : BitVec 16)
    (f : σ → Nat → Nat → Nat → σ × Option Unit) (hp : p.writeCoil = some f) :
    (exchange p s t1 t2 (head unit 5 addr v)).map Prod.fst =
      some (f s unit.toNat addr.toNat (if 256 ≤ v.toNat then 1 else 0)).1 := by
  have hm := head_mem unit 5 addr v []
  rw [List.append_nil] at hm
  obtain ⟨h0, h1, h2, h3⟩ := hm
  have h5 : (5 : BitVec 8).toNat = 5 := rfl
  have h4 : (if 0 < (Tcp.zeros (head unit 5 addr v) 4).toNat then 1 else 0) = if 256 ≤ v.toNat then 1 else 0 := by
    have : (Tcp.zeros (head unit 5 addr v) 4).toNat = v.toNat / 256 := by
      show (v.extractLsb' 8 8).toNat = _
      simp [Nat.shiftRight_eq_div_pow]
      omega
    rw [this]
    by_cases h : 256 ≤ v.toNat
    · rw [if_pos h, if_pos (by omega)]
    · rw [if_neg h, if_neg (by omega)]
  unfold exchange serve
  simp only [h0, h1, h2, h5, hp, h4]
  generalize f s unit.toNat addr.toNat (if 256 ≤ v.toNat then 1 else 0) = r
  obtain ⟨s', o⟩ := r
  cases o <;> rfl

example : exchange demo 1 0 7 (head 1 5 3 0xFF00) = some (9, frame 0 7 (head 1 5 3 0xFF00)) := by decide +kernel

/-- **C71.**  The values of the program and of its messages are packed and unpacked without loss. -/
theorem C71_pack (v : BitVec 16) (x : BitVec 32) (u : BitVec 64) (rest : List Byte) :
    unpackInt16 (packInt16 v ++ rest) = v ∧ unpackFloat (packFloat x ++ rest) = x ∧
      (unpackLong (packLong u ++ rest)).toNat = u.toNat % 2 ^ 32 := by
  refine ⟨?_, ?_, ?_⟩
  · simp only [packInt16, List.cons_append, unpackInt16]
    apply BitVec.eq_of_getLsbD_eq
    intro i hi
    simp only [BitVec.getLsbD_append, BitVec.getLsbD_extractLsb']
    by_cases h : i < 8
    · simp [h]
    · simp [h, show i - 8 < 8 by omega, show 8 + (i - 8) = i by omega]
  · simp only [packFloat, List.cons_append, unpackFloat]
    apply BitVec.eq_of_getLsbD_eq
    intro i hi
    simp only [BitVec.getLsbD_append, BitVec.getLsbD_extractLsb']
    by_cases h : i < 8
    · simp [h]
    · by_cases h2 : i - 8 < 8
      · simp [h, h2, show 8 + (i - 8) = i by omega]
      · by_cases h3 : i - 8 - 8 < 8
        · simp [h, h2, h3, show 16 + (i - 8 - 8) = i by omega]
        · simp [h, h2, h3, show i - 8 - 8 - 8 < 8 by omega, show 24 + (i - 8 - 8 - 8) = i by omega]
  · simp only [packLong, List.cons_append, unpackLong]
    have : (u.extractLsb' 24 8 ++ u.extractLsb' 16 8 ++ u.extractLsb' 8 8 ++ u.extractLsb' 0 8 : BitVec 32) =
        u.setWidth 32 := by
      apply BitVec.eq_of_getLsbD_eq
      intro i hi
      simp only [BitVec.getLsbD_append, BitVec.getLsbD_extractLsb', BitVec.getLsbD_setWidth]
      by_cases h : i < 8
      · simp [h, hi]
      · by_cases h2 : i - 8 < 8
        · simp [h, h2, hi, show 8 + (i - 8) = i by omega]
        · by_cases h3 : i - 8 - 8 < 8
          · simp [h, h2, h3, hi, show 16 + (i - 8 - 8) = i by omega]
          · simp [h, h2, h3, hi, show i - 8 - 8 - 8 < 8 by omega, show 24 + (i - 8 - 8 - 8) = i by omega]
    rw [this]
    simp
    omega

example : packFloat 0x41200000 = [0, 0, 0x41, 0x20] ∧ unpackInt16 [0xFF, 0xFE] = 0xFFFE := by decide +kernel

/-! ### Lines of a cleaning station -/

/-- **C73, partial.**  With at least one line, a request for recipes or parameters of a line, and every read of registers
of the control group, uses an existing line.  Of the other groups a used line is never above the last one, except by
commands. -/
theorem C73_lines_partial (cnt : Nat) (g : Group) (a : Act) (obj : Nat) (i : Int) (hc : 1 ≤ cnt)
    (h : lineIndex cnt g a obj = some i) (hg : ¬ (g = .control ∧ a = .writeReg)) :
    i < cnt ∧ ((g = .recipes ∨ (∃ k, g = .lineParams k) ∨ (g = .control ∧ a = .readReg) ∨
      (g = .other ∧ 1000 ≤ obj) ∨ (g = .control ∧ 100 ≤ obj)) → 0 ≤ i) := by
  cases g with
  | other =>
    cases a <;> simp only [lineIndex] at h <;> (repeat' split at h) <;>
      simp only [Option.some.injEq, reduceCtorEq] at h <;> subst h <;>
      refine ⟨by omega, fun hh => ?_⟩ <;> simp at hh <;> omega
  | recipes =>
    cases a <;> simp only [lineIndex] at h <;> (repeat' split at h) <;>
      simp only [Option.some.injEq, reduceCtorEq] at h <;> subst h <;> exact ⟨by omega, fun _ => by omega⟩
  | control =>
    cases a with
    | writeReg => exact absurd ⟨rfl, rfl⟩ hg
    | readCoil =>
      simp only [lineIndex] at h
      split at h <;> simp only [Option.some.injEq, reduceCtorEq] at h
      subst h
      refine ⟨by omega, fun hh => ?_⟩
      simp at hh
      omega
    | readReg =>
      simp only [lineIndex] at h
      split at h <;> simp only [Option.some.injEq, reduceCtorEq] at h
      subst h
      exact ⟨by omega, fun _ => by omega⟩
    | writeCoil => simp [lineIndex] at h
  | lineParams k =>
    simp only [lineIndex] at h
    split at h <;> simp only [Option.some.injEq, reduceCtorEq] at h
    subst h
    exact ⟨by omega, fun _ => by omega⟩

example : lineIndex 3 .recipes .readReg 6301 = some 2 ∧ lineIndex 3 .recipes .readReg 9301 = none := by decide

/-- **C73, violated.**  Reading or switching the switches with a number below 1000, reading the pumps with a number below
100, and reading or writing the names with the number 0, 20, 40 or 60 uses the line before the first one. -/
theorem C73_before_violated (cnt obj : Nat) :
    (101 ≤ obj → obj ≤ 104 → lineIndex cnt .other .readCoil obj = some (-1) ∧ lineIndex cnt .other .writeCoil obj = some (-1)) ∧
    (obj ≤ 1 → lineIndex cnt .control .readCoil obj = some (-1)) ∧
    (obj ∈ [0, 20, 40, 60] → lineIndex cnt .other .readReg obj = some (-1) ∧ lineIndex cnt .other .writeReg obj = some (-1)) := by
  refine ⟨fun h1 h2 => ?_, fun h => ?_, fun h => ?_⟩
  · have : obj / 1000 = 0 := by omega
    simp [lineIndex, this, h1, h2]
  · have : obj / 100 = 0 := by omega
    simp [lineIndex, this, h]
  · simp only [List.mem_cons, List.not_mem_nil, or_false] at h
    rcases h with rfl | rfl | rfl | rfl <;> simp [lineIndex]

example : lineIndex 4 .other .writeCoil 101 = some (-1) ∧ lineIndex 4 .other .writeCoil 2101 = some 1 := by decide

/-- **C73, violated.**  A command (a register of the control group with a number that is a multiple of 100) is given to the
line of that number without a look at the number of lines. -/
theorem C73_command_violated (cnt line : Nat) : lineIndex cnt .control .writeReg (100 * line) = some line := by
  simp [lineIndex]

example : lineIndex 2 .control .writeReg 65500 = some 655 := by decide

end Ptusa.Modbus
