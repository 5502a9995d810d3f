import Verif.Modbus.Spec
import Verif.Tcp.Lemmas
import Verif.Text.Props

/-!
# Lemmas on the Modbus server
-/
namespace Ptusa.Modbus

open Tcp (Byte Buf put get bufSize put_in put_out)

/-! ### Coils -/

theorem bit_set (x : Byte) (k j : Nat) (hk : k < 8) (hj : j < 8) (v : Bool) :
    (if v then x ||| (1#8 <<< k) else x &&& (0xFF#8 ^^^ (1#8 <<< k))).getLsbD j = if j = k then v else x.getLsbD j := by
  have h : ∀ (x : BitVec 8) (k j : Fin 8) (v : Bool),
      (if v then x ||| (1#8 <<< k.val) else x &&& (0xFF#8 ^^^ (1#8 <<< k.val))).getLsbD j.val =
        if j.val = k.val then v else x.getLsbD j.val := by
    intro x
    revert x
    apply Text.byte_cases
    decide +kernel
  exact h x ⟨k, hk⟩ ⟨j, hj⟩ v

theorem forceBit_bit (b : Buf) (off k i : Nat) (v : Bool) :
    (forceBit b off k v (off + i / 8)).getLsbD (i % 8) = if i = k then v else (b (off + i / 8)).getLsbD (i % 8) := by
  unfold forceBit
  by_cases h : i / 8 = k / 8
  · rw [h, put_in _ _ _ _ (by omega) (by simp)]
    simp only [Nat.sub_self, List.getD_cons_zero]
    rw [bit_set _ _ _ (by omega) (by omega)]
    by_cases e : i = k
    · rw [if_pos (by omega), if_pos e]
    · rw [if_neg (by omega), if_neg e]
  · rw [put_out _ _ _ _ (by simp only [List.length_singleton]; omega), if_neg (by rintro rfl; exact h rfl)]

theorem forceBit_low (b : Buf) (off k i : Nat) (v : Bool) (h : i < off) : forceBit b off k v i = b i := by
  unfold forceBit
  rw [put_out _ _ _ _ (by omega)]

theorem putCoils_bit (vs : List Int) (b : Buf) (k i : Nat) :
    (putCoils b k vs (3 + i / 8)).getLsbD (i % 8) =
      if k ≤ i ∧ i < k + vs.length then (vs.getD (i - k) 0 != 0) else (b (3 + i / 8)).getLsbD (i % 8) := by
  induction vs generalizing b k with
  | nil => simp only [putCoils, List.length_nil]; rw [if_neg (by omega)]
  | cons v vs ih =>
    rw [putCoils, ih, forceBit_bit, List.length_cons]
    by_cases h : k + 1 ≤ i ∧ i < k + 1 + vs.length
    · rw [if_pos h, if_pos (by omega)]
      have : i - k = i - (k + 1) + 1 := by omega
      rw [this, List.getD_cons_succ]
    · rw [if_neg h]
      by_cases e : i = k
      · subst e; simp
      · rw [if_neg e, if_neg (by omega)]

theorem putCoils_low (vs : List Int) (b : Buf) (k i : Nat) (h : i < 3) : putCoils b k vs i = b i := by
  induction vs generalizing b k with
  | nil => rfl
  | cons v vs ih => rw [putCoils, ih, forceBit_low _ _ _ _ _ h]

/-! ### Registers -/

theorem putRegs_low (rs : List Reg) (b b' : Buf) (i q : Nat) (h : putRegs b i rs = some b') (hq : q < 3 + 2 * i) :
    b' q = b q := by
  induction rs generalizing b i with
  | nil => simp only [putRegs, Option.some.injEq] at h; rw [h]
  | cons r rs ih =>
    simp only [putRegs, Option.bind_eq_some_iff] at h
    obtain ⟨l, hl, h⟩ := h
    split at h
    · rw [ih _ _ h (by omega), put_out _ _ _ _ (by omega)]
    · simp at h

theorem putRegs_others (k : Nat) (rs : List Reg) (b b' : Buf) (i q : Nat)
    (h : putRegs b i (List.replicate k .other ++ rs) = some b') (hq : q < 3 + 2 * (i + k)) : b' q = b q := by
  induction k generalizing b i with
  | zero => exact putRegs_low rs b b' i q (by simpa using h) (by omega)
  | succ k ih =>
    rw [List.replicate_succ, List.cons_append] at h
    simp only [putRegs, Reg.bytes, Option.bind_some] at h
    split at h
    · rw [ih _ _ h (by omega), put_out _ _ _ _ (by simp; omega)]
    · simp at h

theorem putRegs_at (pre : List Reg) (r : Reg) (k : Nat) (post : List Reg) (b b' : Buf) (i : Nat)
    (h : putRegs b i (pre ++ r :: (List.replicate k .other ++ post)) = some b') :
    ∃ l, r.bytes = some l ∧ ∀ j, j < l.length → j < 2 * (k + 1) → b' (3 + 2 * (i + pre.length) + j) = l.getD j 0 := by
  induction pre generalizing b i with
  | nil =>
    rw [List.nil_append] at h
    simp only [putRegs, Option.bind_eq_some_iff] at h
    obtain ⟨l, hl, h⟩ := h
    refine ⟨l, hl, fun j hj hk => ?_⟩
    split at h
    · rw [putRegs_others k post _ b' (i + 1) _ h (by simp; omega), put_in _ _ _ _ (by simp) (by simp; omega)]
      congr 1
      simp
    · simp at h
  | cons r' pre ih =>
    rw [List.cons_append] at h
    simp only [putRegs, Option.bind_eq_some_iff] at h
    obtain ⟨l', _, h⟩ := h
    split at h
    · obtain ⟨l, hl, hj⟩ := ih _ _ h
      refine ⟨l, hl, fun j h1 h2 => ?_⟩
      rw [← hj j h1 h2]
      congr 1
      rw [List.length_cons]
      omega
    · simp at h

theorem wide_lt (b : Byte) : Text.wide b < 65536 := by
  revert b
  apply Text.byte_cases
  decide +kernel

theorem toWide_lt (l : List Byte) : ∀ w ∈ Text.toWide l, w < 65536 := by
  intro w hw
  simp only [Text.toWide, List.mem_append, List.mem_map, List.mem_singleton] at hw
  rcases hw with ⟨b, _, rfl⟩ | rfl
  · exact wide_lt b
  · decide

theorem wordBytes_length (ws : List Nat) : (wordBytes ws).length = 2 * ws.length := by
  induction ws with
  | nil => rfl
  | cons w ws ih =>
    have : wordBytes (w :: ws) = [BitVec.ofNat 8 (w / 256), BitVec.ofNat 8 w] ++ wordBytes ws := rfl
    rw [this, List.length_append, ih]
    simp; omega

theorem wordBytes_reg (ws : List Nat) (h : ∀ w ∈ ws, w < 65536) (i : Nat) (hi : i < ws.length) :
    reg (wordBytes ws) i = ws.getD i 0 := by
  induction ws generalizing i with
  | nil => simp at hi
  | cons w ws ih =>
    have e : wordBytes (w :: ws) = BitVec.ofNat 8 (w / 256) :: BitVec.ofNat 8 w :: wordBytes ws := rfl
    rw [e]
    cases i with
    | zero =>
      have := h w (by simp)
      simp [reg]
      omega
    | succ i =>
      have := ih (fun x hx => h x (by simp [hx])) i (by simpa using hi)
      unfold reg at this ⊢
      have e1 : 2 * (i + 1) = 2 * i + 1 + 1 := by omega
      rw [e1, List.getD_cons_succ, List.getD_cons_succ, List.getD_cons_succ, List.getD_cons_succ, this,
        List.getD_cons_succ]

theorem digit_toNat (n : Nat) (h : n < 10) : (digit n).toNat = 48 + n := by
  simp [digit]; omega

/-- The bytes of a value are its registers. -/
theorem bytes_words (r : Reg) (l : List Byte) (ws : List Nat) (hl : r.bytes = some l) (hw : r.words = some ws) :
    2 * ws.length ≤ l.length ∧ ∀ i, i < ws.length → reg l i = ws.getD i 0 := by
  cases r with
  | int16 v =>
    simp only [Reg.bytes, Reg.words, Option.some.injEq] at hl hw
    subst hl hw
    refine ⟨by simp [packInt16], fun i hi => ?_⟩
    have : i = 0 := by simp at hi; omega
    subst this
    simp [reg, packInt16, Nat.shiftRight_eq_div_pow]
    omega
  | float v =>
    simp only [Reg.bytes, Reg.words, Option.some.injEq] at hl hw
    subst hl hw
    refine ⟨by simp [packFloat], fun i hi => ?_⟩
    have : i = 0 ∨ i = 1 := by simp at hi; omega
    rcases this with rfl | rfl <;> simp [reg, packFloat, Nat.shiftRight_eq_div_pow] <;> omega
  | uint32 v =>
    simp only [Reg.bytes, Reg.words, Option.some.injEq] at hl hw
    subst hl hw
    refine ⟨by simp [packLong], fun i hi => ?_⟩
    have : i = 0 ∨ i = 1 := by simp at hi; omega
    rcases this with rfl | rfl <;> simp [reg, packLong, Nat.shiftRight_eq_div_pow] <;> omega
  | time t =>
    simp only [Reg.bytes, Reg.words, clock, Option.some.injEq] at hl hw
    subst hl hw
    refine ⟨by simp [packTime], fun i hi => ?_⟩
    have : i = 0 ∨ i = 1 ∨ i = 2 ∨ i = 3 := by simp at hi; omega
    have d := digit_toNat
    rcases this with rfl | rfl | rfl | rfl
    · show (digit (t.toNat / 1000 / 3600 % 100 % 10)).toNat * 256 + (digit (t.toNat / 1000 / 3600 % 100 / 10)).toNat =
        48 + t.toNat / 3600000 % 100 / 10 + 256 * (48 + t.toNat / 3600000 % 100 % 10)
      rw [d _ (by omega), d _ (by omega)]
      omega
    · show (digit (t.toNat / 1000 / 60 % 60 / 10)).toNat * 256 + 58 = 58 + 256 * (48 + t.toNat / 60000 % 60 / 10)
      rw [d _ (by omega)]
      omega
    · show 58 * 256 + (digit (t.toNat / 1000 / 60 % 60 % 10)).toNat = 48 + t.toNat / 60000 % 60 % 10 + 256 * 58
      rw [d _ (by omega)]
      omega
    · show (digit (t.toNat / 1000 % 60 % 10)).toNat * 256 + (digit (t.toNat / 1000 % 60 / 10)).toNat =
        48 + t.toNat / 1000 % 60 / 10 + 256 * (48 + t.toNat / 1000 % 60 % 10)
      rw [d _ (by omega), d _ (by omega)]
      omega
  | text x =>
    simp only [Reg.bytes, Reg.words] at hl hw
    rw [hw] at hl
    simp only [Option.map_some, Option.some.injEq] at hl
    subst hl
    have hlt : ∀ w ∈ ws, w < 65536 := by
      simp only [Text.utf8ToWide, Option.map_eq_some_iff] at hw
      obtain ⟨y, _, rfl⟩ := hw
      exact toWide_lt y
    exact ⟨by rw [wordBytes_length], fun i hi => wordBytes_reg ws hlt i hi⟩
  | other =>
    simp only [Reg.words, Option.some.injEq] at hw
    subst hw
    exact ⟨by simp, fun i hi => by simp at hi⟩

/-! ### Memory of a message -/

theorem get_getD (b : Buf) (off n i : Nat) (h : i < n) : (get b off n).getD i 0 = b (off + i) := by
  simp [Tcp.get, List.getD_eq_getElem?_getD, h]

theorem get_add (b : Buf) (a n : Nat) : get b 0 (a + n) = get b 0 a ++ get b a n := by
  simp [Tcp.get, List.range_add]

theorem get_congr (b b' : Buf) (off off' n : Nat) (h : ∀ i, i < n → b (off + i) = b' (off' + i)) :
    get b off n = get b' off' n := by
  apply List.map_congr_left
  intro i hi
  exact h i (List.mem_range.mp hi)

theorem get_zeros (l : List Byte) : get (Tcp.zeros l) 0 l.length = l := by
  apply List.ext_getElem
  · simp [Tcp.get]
  · intro i h1 h2
    simp [Tcp.get, Tcp.zeros, List.getD_eq_getElem?_getD, List.getElem?_eq_getElem h2]

theorem byteSplit (v : BitVec 16) : (v.extractLsb' 8 8).toNat * 256 + (v.extractLsb' 0 8).toNat = v.toNat := by
  simp [Nat.shiftRight_eq_div_pow]
  omega

/-- What the service sees of a message with a head. -/
theorem head_mem (unit fn : Byte) (addr n : BitVec 16) (l : List Byte) :
    let m := Tcp.zeros (head unit fn addr n ++ l)
    m 0 = unit ∧ m 1 = fn ∧ pair m 2 = addr.toNat ∧ pair m 4 = n.toNat := by
  refine ⟨rfl, rfl, ?_, ?_⟩
  · exact byteSplit addr
  · exact byteSplit n

theorem serve_len {σ} (p : Prog σ) (s : σ) (m : Buf) (o : Out σ) (h : serve p s m = some o) : o.len ≤ 131073 := by
  have hp : pair m 4 ≤ 65535 := by
    unfold pair
    have := (m 4).isLt
    have := (m (4 + 1)).isLt
    omega
  have hc : coilBytes (pair m 4) ≤ 255 := by
    unfold coilBytes
    split <;> omega
  unfold serve at h
  simp only at h
  split at h
  · split at h
    · simp only [Option.some.injEq] at h; subst h; simp only; omega
    · split at h
      · simp only [Option.some.injEq] at h; subst h; simp only; omega
      · simp only [Option.some.injEq] at h; subst h; simp only; omega
      · split at h
        · simp only [Option.some.injEq] at h; subst h; simp only; omega
        · simp at h
  · split at h
    · simp only [Option.some.injEq] at h; subst h; simp only; omega
    · split at h
      · simp only [Option.some.injEq] at h; subst h; simp only; omega
      · simp only [Option.some.injEq] at h; subst h; simp only; omega
      · simp only [Option.map_eq_some_iff] at h
        obtain ⟨b', _, rfl⟩ := h
        simp only; omega
  · split at h
    · simp only [Option.some.injEq] at h; subst h; simp only; omega
    · split at h <;> (simp only [Option.some.injEq] at h; subst h; simp only; omega)
  · split at h
    · simp only [Option.some.injEq] at h; subst h; simp only; omega
    · split at h <;> (simp only [Option.some.injEq] at h; subst h; simp only; omega)
  · simp only [Option.some.injEq] at h; subst h; simp only; omega

theorem frame_length (t1 t2 : Byte) (msg : List Byte) : (frame t1 t2 msg).length = 6 + msg.length := by
  simp [frame]; omega

/-- The exchange over TCP sends what `exchange` says. -/
theorem echo_modbus {σ} (p : Prog σ) (s s' : σ) (sv : Tcp.Services) (old : Buf) (sock : Tcp.Sock) (t1 t2 : Byte)
    (msg out : List Byte) (es : List Tcp.SendEv) (hsv : sv 15 = some (service p s)) (hm : msg.length < 65536)
    (h : exchange p s t1 t2 msg = some (s', out)) (h0 : msg ≠ []) :
    Tcp.doEcho sv old sock (.data (frame t1 t2 msg)) es = (Tcp.sendall es out 0).map fun x =>
      if x.1 ≤ 0 then ⟨.closed, x.2⟩ else ⟨.kept { sock with evaluated := false, init := false }, x.2⟩ := by
  have hbuf := Tcp.bufSize_eq
  simp only [exchange, Option.map_eq_some_iff, Prod.mk.injEq] at h
  obtain ⟨o, ho, hs', hout⟩ := h
  have hlen := serve_len p s _ o ho
  generalize hb : put (fun i => if i < bufSize then 0 else old i) 0 (frame t1 t2 msg) = b
  have hmem : ∀ i, i < bufSize → b i = (frame t1 t2 msg).getD i 0 := fun i hi => by
    rw [← hb]; exact Tcp.recv_mem old _ i hi
  have hz : (fun i => if i < bufSize - 6 then b (6 + i) else 0) = Tcp.zeros msg := by
    funext i
    by_cases hi : i < bufSize - 6
    · rw [if_pos hi, hmem _ (by omega)]
      have : 6 + i = i + 1 + 1 + 1 + 1 + 1 + 1 := by omega
      rw [this]
      rfl
    · rw [if_neg hi]
      simp only [Tcp.zeros]
      rw [List.getD_eq_getElem?_getD, List.getElem?_eq_none (by omega)]
      rfl
  have b0 : b 0 = t1 := by rw [hmem 0 (by omega)]; rfl
  have b1 : b 1 = t2 := by rw [hmem 1 (by omega)]; rfl
  have b2 : b 2 = 0 := by rw [hmem 2 (by omega)]; rfl
  have b3 : b 3 = 0 := by rw [hmem 3 (by omega)]; rfl
  have b4 : b 4 = BitVec.ofNat 8 (msg.length / 256) := by rw [hmem 4 (by omega)]; rfl
  have b5 : b 5 = BitVec.ofNat 8 msg.length := by rw [hmem 5 (by omega)]; rfl
  have hcall : Tcp.call (service p s) b 6 = some (put b 6 (get o.buf 0 (bufSize - 6)), BitVec.ofNat 32 o.len) := by
    unfold Tcp.call
    simp only [service]
    rw [hz, ho]
    simp only [Tcp.get_length]
    rw [if_pos (by omega)]
    congr 2
    apply BitVec.eq_of_toNat_eq
    simp only [BitVec.truncate_eq_setWidth, BitVec.toNat_setWidth, BitVec.toNat_ofNat]
    omega
  have hget : ∀ n, n ≤ bufSize - 6 → ∀ x1 x2 : Byte,
      get (put (put b 6 (get o.buf 0 (bufSize - 6))) 4 [x1, x2]) 0 (6 + n) = [t1, t2, 0, 0, x1, x2] ++ get o.buf 0 n := by
    intro n hn x1 x2
    rw [get_add]
    congr 1
    · simp only [Tcp.get, List.range, List.range.loop, List.map_cons, List.map_nil, Nat.zero_add]
      simp [put, b0, b1, b2, b3]
    · apply get_congr
      intro i hi
      rw [put_out _ _ _ _ (by simp only [List.length_cons, List.length_nil]; omega),
        put_in _ _ _ _ (by omega) (by rw [Tcp.get_length]; omega)]
      rw [get_getD _ _ _ _ (by omega)]
      congr 1
      omega
  have hget0 : get (put b 6 (get o.buf 0 (bufSize - 6))) 0 (6 + msg.length) = frame t1 t2 (get o.buf 0 msg.length) := by
    rw [get_add, frame, Tcp.get_length]
    congr 1
    · simp only [Tcp.get, List.range, List.range.loop, List.map_cons, List.map_nil, Nat.zero_add]
      simp [put, b0, b1, b2, b3, b4, b5]
    · apply get_congr
      intro i hi
      rw [put_in _ _ _ _ (by omega) (by rw [Tcp.get_length]; omega)]
      rw [get_getD _ _ _ _ (by omega)]
      congr 1
      omega
  have hml : 0 < msg.length := List.length_pos_iff.mpr h0
  have hans : Tcp.answer sv b (BitVec.ofNat 32 (frame t1 t2 msg).length) =
      some (if 0 < o.len then
        ⟨put (put b 6 (get o.buf 0 (bufSize - 6))) 4 [BitVec.ofNat 8 (o.len / 256), BitVec.ofNat 8 o.len],
          BitVec.ofNat 32 (6 + o.len), true⟩
      else ⟨put b 6 (get o.buf 0 (bufSize - 6)), BitVec.ofNat 32 (6 + msg.length), true⟩) := by
    unfold Tcp.answer
    simp only [b2, b3, hsv]
    have hpos : (0 : Int) < (BitVec.ofNat 32 o.len).toInt ↔ 0 < o.len := by
      rw [Tcp.toInt_small _ (by rw [BitVec.toNat_ofNat]; omega), BitVec.toNat_ofNat]
      omega
    simp only [BitVec.ofNat_eq_ofNat, BitVec.toNat_ofNat, Nat.zero_mod, Nat.add_zero, ne_eq, not_true_eq_false, and_false,
      if_false, if_true]
    rw [hcall, Option.map_some]
    congr 1
    by_cases hp : 0 < o.len
    · rw [if_pos (hpos.mpr hp), if_pos hp]
      congr 1
      · congr 1
        have e1 : (BitVec.ofNat 32 o.len).extractLsb' 8 8 = BitVec.ofNat 8 (o.len / 256) := by
          apply BitVec.eq_of_toNat_eq
          simp [Nat.shiftRight_eq_div_pow]
          omega
        have e2 : (BitVec.ofNat 32 o.len).extractLsb' 0 8 = BitVec.ofNat 8 o.len := by
          apply BitVec.eq_of_toNat_eq
          simp
        rw [e1, e2]
      · apply BitVec.eq_of_toNat_eq
        simp only [BitVec.toNat_add, BitVec.toNat_ofNat]
        omega
    · rw [if_neg (fun hh => hp (hpos.mp hh)), if_neg hp, frame_length]
  unfold Tcp.doEcho
  simp only
  rw [hb, hans, Option.bind_some]
  by_cases hp : 0 < o.len
  · rw [if_pos hp] at hout ⊢
    simp only
    have hn : (BitVec.ofNat 32 (6 + o.len)).toNat = 6 + o.len := by rw [BitVec.toNat_ofNat]; omega
    have hi : (0 : Int) < (BitVec.ofNat 32 (6 + o.len)).toInt := by
      rw [Tcp.toInt_small _ (by rw [hn]; omega), hn]; omega
    rw [if_neg (by rw [hn]; omega), if_pos hi, hn, hget _ (by omega), ← hout, frame, Tcp.get_length]
    rfl
  · rw [if_neg hp] at hout ⊢
    simp only
    have hn : (BitVec.ofNat 32 (6 + msg.length)).toNat = 6 + msg.length := by rw [BitVec.toNat_ofNat]; omega
    have hi : (0 : Int) < (BitVec.ofNat 32 (6 + msg.length)).toInt := by
      rw [Tcp.toInt_small _ (by rw [hn]; omega), hn]; omega
    rw [if_neg (by rw [hn]; omega), if_pos hi, hn, hget0, ← hout]
    rfl

theorem putRegs_isSome (rs : List Reg) (b : Buf) (i : Nat) (h : ∀ r ∈ rs, ∃ l, r.bytes = some l ∧ l.length ≤ 200)
    (hi : i + rs.length ≤ 65535) : (putRegs b i rs).isSome := by
  have hbuf := Tcp.bufSize_eq
  induction rs generalizing b i with
  | nil => rfl
  | cons r rs ih =>
    obtain ⟨l, hl, hlen⟩ := h r (by simp)
    rw [List.length_cons] at hi
    simp only [putRegs, hl, Option.bind_some]
    rw [if_pos (by omega)]
    exact ih _ _ (fun x hx => h x (by simp [hx])) (by omega)

theorem text_bytes (a : List Byte) (ha : ∀ b ∈ a, Text.Plain b) (hl : (a.flatMap fun b => Text.utf8 (Text.cp b)).length < 96) :
    ∃ l, (Reg.text (a.flatMap fun b => Text.utf8 (Text.cp b))).bytes = some l ∧ l.length ≤ 200 := by
  have hT : Text.IsText a := fun b hb => ⟨(ha b hb).1, (ha b hb).2.1⟩
  have he := Text.C72_utf8 a hT
  rw [← he] at hl ⊢
  have hlen := Text.toUtf8_length a fun b hb => (hT b hb).2
  have := Text.C72_shown_partial a ha hl 97 (by omega) []
  rw [Text.C72_typed a hT 97 (by omega), ← he] at this
  refine ⟨_, by rw [Reg.bytes, this, Option.map_some], ?_⟩
  rw [wordBytes_length]
  simp
  omega

theorem serve_coils {σ} (p : Prog σ) (s s' : σ) (unit : Byte) (addr n : BitVec 16)
    (f : σ → Nat → Nat → Nat → σ × Option (Option (List Int))) (vs : List Int) (hp : p.readCoils = some f)
    (hf : f s unit.toNat addr.toNat n.toNat = (s', some (some vs))) (hv : vs.length / 8 + 10 ≤ bufSize) :
    serve p s (Tcp.zeros (head unit 1 addr n)) =
      some ⟨s', putCoils (put (Tcp.zeros (head unit 1 addr n)) 2 [BitVec.ofNat 8 (coilBytes n.toNat)]) 0 vs,
        3 + coilBytes n.toNat⟩ := by
  have hm := head_mem unit 1 addr n []
  rw [List.append_nil] at hm
  obtain ⟨h0, h1, h2, h3⟩ := hm
  unfold serve
  simp only [h0, h1, h2, h3]
  have : (1 : BitVec 8).toNat = 1 := rfl
  simp only [this, hp, hf]
  rw [if_pos hv]

theorem serve_regs {σ} (p : Prog σ) (s s' : σ) (unit : Byte) (addr n : BitVec 16)
    (f : σ → Nat → Nat → Nat → σ × Option (Option (List Reg))) (rs : List Reg) (hp : p.readRegs = some f)
    (hf : f s unit.toNat addr.toNat n.toNat = (s', some (some rs))) :
    serve p s (Tcp.zeros (head unit 3 addr n)) =
      (putRegs (put (Tcp.zeros (head unit 3 addr n)) 2 [BitVec.ofNat 8 (2 * n.toNat)]) 0 rs).map fun b' =>
        ⟨s', b', 3 + n.toNat * 2⟩ := by
  have hm := head_mem unit 3 addr n []
  rw [List.append_nil] at hm
  obtain ⟨h0, h1, h2, h3⟩ := hm
  unfold serve
  simp only [h0, h1, h2, h3]
  have : (3 : BitVec 8).toNat = 3 := rfl
  simp only [this, hp, hf]

theorem write_len (unit : Byte) (addr n : BitVec 16) (bytes : List Byte) :
    (writeMsg unit addr n bytes).length = 7 + bytes.length := by
  simp [writeMsg, head]; omega

/-- The bytes a message to write registers gives the program. -/
theorem write_bytes (unit : Byte) (addr n : BitVec 16) (bytes : List Byte) (h : bytes.length ≤ 2 * n.toNat) :
    get (Tcp.zeros (writeMsg unit addr n bytes)) 7 (2 * n.toNat) =
      bytes ++ List.replicate (2 * n.toNat - bytes.length) 0 := by
  apply List.ext_getElem
  · simp only [Tcp.get, List.length_map, List.length_range, List.length_append, List.length_replicate]
    omega
  · intro i h1 h2
    simp only [Tcp.get, List.length_map, List.length_range] at h1
    simp only [Tcp.get, List.getElem_map, List.getElem_range]
    have e : Tcp.zeros (writeMsg unit addr n bytes) (7 + i) = bytes.getD i 0 := by
      have : 7 + i = i + 1 + 1 + 1 + 1 + 1 + 1 + 1 := by omega
      rw [this]
      rfl
    rw [e]
    by_cases hi : i < bytes.length
    · rw [List.getElem_append_left hi]
      simp [List.getD_eq_getElem?_getD, List.getElem?_eq_getElem hi]
    · rw [List.getElem_append_right (by omega), List.getElem_replicate]
      rw [List.getD_eq_getElem?_getD, List.getElem?_eq_none (by omega)]
      rfl

theorem serve_write {σ} (p : Prog σ) (s : σ) (unit : Byte) (addr n : BitVec 16) (bytes : List Byte)
    (f : σ → Nat → Nat → Nat → List Byte → σ × Option Unit) (hp : p.writeRegs = some f)
    (h : bytes.length ≤ 2 * n.toNat) :
    serve p s (Tcp.zeros (writeMsg unit addr n bytes)) =
      let r := f s unit.toNat addr.toNat n.toNat (bytes ++ List.replicate (2 * n.toNat - bytes.length) 0)
      some ⟨r.1, Tcp.zeros (writeMsg unit addr n bytes), if r.2.isSome then 6 else 0⟩ := by
  have hm := head_mem unit 0x10 addr n ([BitVec.ofNat 8 bytes.length] ++ bytes)
  rw [← List.append_assoc] at hm
  obtain ⟨e0, e1, e2, e3⟩ := hm
  unfold serve
  change (match (Tcp.zeros (writeMsg unit addr n bytes) 1).toNat with | _ => _) = _
  have e0' : Tcp.zeros (writeMsg unit addr n bytes) 0 = unit := e0
  have e1' : Tcp.zeros (writeMsg unit addr n bytes) 1 = 0x10 := e1
  have e2' : pair (Tcp.zeros (writeMsg unit addr n bytes)) 2 = addr.toNat := e2
  have e3' : pair (Tcp.zeros (writeMsg unit addr n bytes)) 4 = n.toNat := e3
  have h10 : (0x10 : BitVec 8).toNat = 16 := rfl
  simp only [e0', e1', e2', e3', h10, hp, write_bytes unit addr n bytes h]
  generalize f s unit.toNat addr.toNat n.toNat (bytes ++ List.replicate (2 * n.toNat - bytes.length) 0) = r
  obtain ⟨s', o⟩ := r
  cases o <;> rfl

end Ptusa.Modbus
