import Verif.Coupler.Lemmas

/-!
# Properties of the exchange with I/O couplers
-/
namespace Ptusa.Coupler

open Tcp (Byte Buf put)
open CritErr (Mgr Call key)

/-! ### C74: the inputs shown are those the coupler sent -/

/-- C74 for the digital inputs of a WAGO coupler, for complete answers: the inputs become the bits of the answer, and
nothing else of the node is changed.  Missing: answers that arrive in parts, more than 255 inputs. -/
theorem C74_digital_partial (b : Buf) (nd : Node) (e : Net) (data : List Byte) (hr : Reply 0x02 data e.got)
    (hl : data.length = bytesOf nd.diCnt) (hc : nd.diCnt ≤ 255) (hok : (talk nd.link nd.num e).ok = true) :
    ∃ x nd', readDi b nd e = some (x, nd') ∧ (∀ i < nd.diCnt, nd'.di i = bitOf data i) ∧
      nd' = { nd with link := (talk nd.link nd.num e).link, di := nd'.di } := by
  have h253 : bytesOf nd.diCnt ≤ 253 := by unfold bytesOf; split <;> omega
  rw [readDi_eq b nd e h253]
  have hlen := reply_len hr
  have htake : e.got.take (bytesOf nd.diCnt + 9) = e.got := List.take_of_length_le (by omega)
  have hat : ∀ i, i < e.got.length → put (put b 0 (reqDi nd.diCnt)) 0 e.got i = e.got.getD i 0 :=
    fun i hi => put_zero _ _ _ hi
  have h7 := (hat 7 (by omega)).trans (reply_code hr)
  have h8 : (put (put b 0 (reqDi nd.diCnt)) 0 e.got 8).toNat = bytesOf nd.diCnt := by
    rw [hat 8 (by omega), reply_size hr, hl]
  simp only [hok, htake, if_true, h7, h8, and_self]
  refine ⟨_, _, rfl, ?_, rfl⟩
  intro i hi
  have hb : 9 + i / 8 < e.got.length := by
    have : i / 8 < bytesOf nd.diCnt := by unfold bytesOf; split <;> omega
    omega
  simp only [hi, if_true]
  rw [hat _ hb, reply_data hr]
  rfl

example : ∃ (nd : Node) (e : Net), Reply 0x02 [0x05, 0x01] e.got ∧ [0x05#8, 0x01].length = bytesOf nd.diCnt ∧
    nd.diCnt ≤ 255 ∧ (talk nd.link nd.num e).ok = true :=
  ⟨⟨Link.init 0, 1, 9, fun _ => false, 0, 0, fun _ => 0, fun _ => 0, 0, fun _ => 0, fun _ => 0, 0, 0, fun _ => 0, fun _ => 0,
    fun _ => 0⟩, ⟨600, 610, true, true, [0x73, 0x73, 0, 0, 0, 5, 0, 2, 2, 5, 1]⟩,
    ⟨[0x73, 0x73, 0, 0, 0, 5, 0], by decide, by decide, by decide⟩, by decide, by decide, by decide⟩

/-- C74: without an answer, and after a refusal, the inputs stay as they are. -/
theorem C74_unanswered (b : Buf) (nd : Node) (e : Net) (hr : e.got = [] ∨ Refusal 0x02 e.got) (hc : nd.diCnt ≤ 255) :
    ∃ x, readDi b nd e = some (x, { nd with link := (talk nd.link nd.num e).link }) := by
  have h253 : bytesOf nd.diCnt ≤ 253 := by unfold bytesOf; split <;> omega
  rw [readDi_eq b nd e h253]
  by_cases hok : (talk nd.link nd.num e).ok = true
  · rcases hr with hr | hr
    · exact absurd hr (talk_got hok)
    have hlen := refusal_len hr
    have htake : e.got.take (bytesOf nd.diCnt + 9) = e.got := List.take_of_length_le (by omega)
    have h7 : put (put b 0 (reqDi nd.diCnt)) 0 e.got 7 = 0x82 := by
      rw [put_zero _ _ _ (by omega), refusal_code hr]; decide
    have hne : ¬ ((0x82 : Byte) = 0x02) := by decide
    simp only [hok, htake, if_true, h7, hne, false_and, and_false, if_false]
    exact ⟨_, rfl⟩
  · simp only [hok, Bool.false_eq_true, false_and, if_false]
    exact ⟨_, rfl⟩

example : Refusal 0x02 [0x73, 0x73, 0, 0, 0, 3, 0, 0x82, 2] := ⟨[0x73, 0x73, 0, 0, 0, 3, 0], 2, by decide, by decide⟩

/-- C74 over any history of reads with complete answers: the inputs shown are all from one answer (the last one that came),
never a mixture, or still those of the beginning. -/
theorem C74_history_partial (nd : Node) (h : List (Buf × Net)) (hc : nd.diCnt ≤ 255)
    (hw : ∀ p ∈ h, Whole nd.diCnt p.2.got) :
    ∃ nd', reads nd h = some nd' ∧
      (nd'.di = nd.di ∨ ∃ pre p post data, h = pre ++ p :: post ∧ Reply 0x02 data p.2.got ∧
        data.length = bytesOf nd.diCnt ∧ ∀ i < nd.diCnt, nd'.di i = bitOf data i) := by
  suffices H : ∀ (h : List (Buf × Net)) (nd : Node), nd.diCnt ≤ 255 → (∀ p ∈ h, Whole nd.diCnt p.2.got) →
      ∃ nd', reads nd h = some nd' ∧
        (nd'.di = nd.di ∨ ∃ pre p post data, h = pre ++ p :: post ∧ Reply 0x02 data p.2.got ∧
          data.length = bytesOf nd.diCnt ∧ ∀ i < nd.diCnt, nd'.di i = bitOf data i) from H h nd hc hw
  clear hw hc h nd
  intro h
  induction h with
  | nil => intro nd _ _; exact ⟨nd, rfl, Or.inl rfl⟩
  | cons p h ih =>
    intro nd hc hw
    have hp := hw p (by simp)
    have hrest : ∀ q ∈ h, Whole nd.diCnt q.2.got := fun q hq => hw q (by simp [hq])
    have step : ∃ x nd1, readDi p.1 nd p.2 = some (x, nd1) ∧ nd1.diCnt = nd.diCnt ∧
        (nd1.di = nd.di ∨ ∃ data, Reply 0x02 data p.2.got ∧ data.length = bytesOf nd.diCnt ∧
          ∀ i < nd.diCnt, nd1.di i = bitOf data i) := by
      by_cases hok : (talk nd.link nd.num p.2).ok = true
      · rcases hp with hp | hp | ⟨data, hr, hl⟩
        · obtain ⟨x, hx⟩ := C74_unanswered p.1 nd p.2 (Or.inl hp) hc
          exact ⟨x, _, hx, rfl, Or.inl rfl⟩
        · obtain ⟨x, hx⟩ := C74_unanswered p.1 nd p.2 (Or.inr hp) hc
          exact ⟨x, _, hx, rfl, Or.inl rfl⟩
        · obtain ⟨x, nd1, hx, hd, he⟩ := C74_digital_partial p.1 nd p.2 data hr hl hc hok
          exact ⟨x, nd1, hx, by rw [he], Or.inr ⟨data, hr, hl, hd⟩⟩
      · have h253 : bytesOf nd.diCnt ≤ 253 := by unfold bytesOf; split <;> omega
        refine ⟨_, _, readDi_eq p.1 nd p.2 h253, ?_, ?_⟩ <;> simp [hok]
    obtain ⟨x, nd1, hx, hcnt, hd⟩ := step
    obtain ⟨nd', hrun, hres⟩ := ih nd1 (by rw [hcnt]; exact hc) (by rw [hcnt]; exact hrest)
    refine ⟨nd', by simp [reads, hx, hrun], ?_⟩
    rcases hres with hres | ⟨pre, q, post, data, he, hr, hl, hb⟩
    · rcases hd with hd | ⟨data, hr, hl, hb⟩
      · exact Or.inl (hres.trans hd)
      · exact Or.inr ⟨[], p, h, data, rfl, hr, hl, by rw [hres]; exact hb⟩
    · rw [hcnt] at hl hb
      exact Or.inr ⟨p :: pre, q, post, data, by rw [he]; rfl, hr, hl, hb⟩

/-- C74 does not hold when an answer arrives in two parts: `recv` is called once, and the missing bytes are taken from the
request.  Up to eight inputs are shown as off, whatever the coupler sends. -/
theorem C74_fragment_violated (b : Buf) (nd : Node) (e : Net) (d : Byte) (got : List Byte) (hr : Reply 0x02 [d] got)
    (he : e.got = got.take 9) (h0 : 0 < nd.diCnt) (hc : nd.diCnt ≤ 8) (hok : (talk nd.link nd.num e).ok = true) :
    ∃ x nd', readDi b nd e = some (x, nd') ∧ ∀ i < nd.diCnt, nd'.di i = false := by
  have h1 : bytesOf nd.diCnt = 1 := by unfold bytesOf; split <;> omega
  have hlen := reply_len hr
  simp only [List.length_cons, List.length_nil] at hlen
  have hl9 : e.got.length = 9 := by rw [he, List.length_take]; omega
  have hget : ∀ i < 9, e.got.getD i 0 = got.getD i 0 := by
    intro i hi; simp [he, List.getD, List.getElem?_take_of_lt hi]
  rw [readDi_eq b nd e (by omega)]
  have htake : e.got.take (bytesOf nd.diCnt + 9) = e.got := List.take_of_length_le (by omega)
  have hat : ∀ i, i < 9 → put (put b 0 (reqDi nd.diCnt)) 0 e.got i = got.getD i 0 :=
    fun i hi => (put_zero _ _ _ (by omega)).trans (hget i hi)
  have h7 := (hat 7 (by omega)).trans (reply_code hr)
  have h8 : (put (put b 0 (reqDi nd.diCnt)) 0 e.got 8).toNat = bytesOf nd.diCnt := by
    rw [hat 8 (by omega), reply_size hr, h1]; rfl
  simp only [hok, htake, if_true, h7, h8, and_self]
  refine ⟨_, _, rfl, ?_⟩
  intro i hi
  simp only [hi, if_true]
  rw [show 9 + i / 8 = 9 by omega, Tcp.put_out _ _ _ _ (by omega), put_zero _ _ _ (by simp [reqDi])]
  simp [reqDi]

/-- C74 does not hold after that: the byte that was left makes every later answer look wrong.  The inputs never change again,
although the coupler answers every request, the connection stays and no loss is reported (`stream`: a connection with one
byte left, `data` the inputs the coupler sends each time). -/
theorem C74_frozen_violated (b : Buf) (nd : Node) (x : Byte) (h : List (Tm × List Byte)) (hok : nd.link.ok = true)
    (h0 : 0 < nd.diCnt) (hc : nd.diCnt ≤ 255) (hs : Steady nd.link.lastPoll h) (ha : nd.link.alarm = false)
    (hm : ∀ p ∈ h, ∃ hd data, IsHead hd ∧ hd.getD 6 0 = 0 ∧ data.length = bytesOf nd.diCnt ∧
      p.2 = hd ++ [0x02, BitVec.ofNat 8 data.length] ++ data) :
    ∃ nd' y, stream b nd [x] h = some (nd', [y]) ∧ nd'.di = nd.di ∧ nd'.link.ok = true ∧
      nd'.link.alarm = false := by
  induction h generalizing b nd x with
  | nil => exact ⟨nd, x, rfl, rfl, hok, ha⟩
  | cons p h ih =>
    obtain ⟨t, msg⟩ := p
    obtain ⟨hd, data, h7, h6, hl, hmsg⟩ := hm (t, msg) (by simp)
    simp only at hmsg
    have h253 : bytesOf nd.diCnt ≤ 253 := by unfold bytesOf; split <;> omega
    have hlen : msg.length = bytesOf nd.diCnt + 9 := by
      rw [hmsg]; simp only [List.length_append, List.length_cons, List.length_nil, IsHead] at h7 ⊢; omega
    set e : Net := ⟨t, t, true, true, [x] ++ msg⟩ with he
    have htok : (talk nd.link nd.num e).ok = true := by
      rw [talk_ok]; exact ⟨Or.inl hok, rfl, by simp [he]⟩
    obtain ⟨hs1, hs2, hs3⟩ := hs
    have hlink : (talk nd.link nd.num e).link = { nd.link with ok := true, delay := 500, lastPoll := t, alarm := false } := by
      rw [talk_ok_link htok, watch_quiet _ _ _ hs1 hs2]
    have hlok : (talk nd.link nd.num e).link.ok = true := by rw [hlink]
    have hget6 : ([x] ++ msg).getD 7 0 = 0 := by
      rw [show 7 = [x].length + 6 from rfl, getD_right, hmsg, List.append_assoc, getD_left _ _ _ (by rw [h7]; omega), h6]
    have hb7 : put (put b 0 (reqDi nd.diCnt)) 0 (e.got.take (bytesOf nd.diCnt + 9)) 7 = 0 := by
      rw [put_zero _ _ _ (by simp only [he, List.length_take, List.length_append, List.length_cons, List.length_nil]; omega)]
      have : ([x] ++ msg).getD 7 0 = (([x] ++ msg).take (bytesOf nd.diCnt + 9)).getD 7 0 := by
        simp only [List.getD]; rw [List.getElem?_take_of_lt (by omega)]
      exact this.symm.trans hget6
    have hstep : ∃ q, readDi b nd e = some (q, { nd with link := (talk nd.link nd.num e).link }) := by
      rw [readDi_eq b nd e h253]
      have hne : ¬ ((0 : Byte) = 0x02) := by decide
      simp only [htok, if_true, hb7, hne, false_and, and_false, if_false]
      exact ⟨_, rfl⟩
    obtain ⟨q, hq⟩ := hstep
    have hdrop : ∃ y, ([x] ++ msg).drop (bytesOf nd.diCnt + 9) = [y] := by
      have : (([x] ++ msg).drop (bytesOf nd.diCnt + 9)).length = 1 := by
        simp only [List.length_drop, List.length_append, List.length_cons, List.length_nil]; omega
      exact List.length_eq_one_iff.mp this
    obtain ⟨y, hy⟩ := hdrop
    obtain ⟨nd', z, h1, h2, h3⟩ := ih q.buf { nd with link := (talk nd.link nd.num e).link } y hlok h0 hc
      (by simp only [hlink]; exact hs3) (by simp only [hlink]) (fun p hp => hm p (by simp [hp]))
    refine ⟨nd', z, ?_, h2, h3⟩
    simp only [stream]
    rw [show (⟨t, t, true, true, [x] ++ msg⟩ : Net) = e from rfl, hq]
    simp only [Option.bind_some, hy]
    exact h1

/-- Nine inputs, of which the first answer arrives without its last byte; then the coupler sends all inputs on. -/
example : ((readDi (fun _ => 0) ⟨⟨true, 0, false, 0, 500⟩, 1, 9, fun _ => false, 0, 0, fun _ => 0, fun _ => 0, 0, fun _ => 0,
    fun _ => 0, 0, 0, fun _ => 0, fun _ => 0, fun _ => 0⟩ ⟨10, 10, true, true, [0x73, 0x73, 0, 0, 0, 5, 0, 2, 2, 0]⟩).bind
    fun r => (stream r.1.buf r.2 [0x01] [(20, [0x73, 0x73, 0, 0, 0, 5, 0, 2, 2, 0xFF, 0x01]),
      (30, [0x73, 0x73, 0, 0, 0, 5, 0, 2, 2, 0xFF, 0x01])]).map fun r => (r.1.di 0, r.1.di 8, r.1.link.alarm, r.2)) =
    some (false, false, false, [0x01]) := by decide +kernel

/-- C74 does not hold for a coupler with more than 255 digital inputs: the request asks for the remainder by 256 only
(`( unsigned char ) DI_cnt >> 7 >> 1` is zero), so that the right answer to it is never accepted and the inputs never
change. -/
theorem C74_many_violated (b : Buf) (nd : Node) (e : Net) (data : List Byte) (hc : 256 ≤ nd.diCnt) (hc' : nd.diCnt ≤ 2024)
    (hr : Reply 0x02 data e.got) (hl : data.length = bytesOf (nd.diCnt % 256)) :
    (wordAt (reqDi nd.diCnt) 10).toNat = nd.diCnt % 256 ∧
    ∃ x, readDi b nd e = some (x, { nd with link := (talk nd.link nd.num e).link }) := by
  constructor
  · have hz : (BitVec.ofNat 8 nd.diCnt : Byte) >>> 8 = 0#8 := by
      apply BitVec.eq_of_toNat_eq
      rw [BitVec.toNat_ushiftRight, Nat.shiftRight_eq_div_pow]
      exact Nat.div_eq_of_lt (BitVec.isLt _)
    rw [wordAt_toNat]
    simp [reqDi, hz]
  have h253 : bytesOf nd.diCnt ≤ 253 := by unfold bytesOf; split <;> omega
  have hne : data.length ≠ bytesOf nd.diCnt := by
    rw [hl]; unfold bytesOf; split <;> split <;> omega
  rw [readDi_eq b nd e h253]
  have hlen := reply_len hr
  have hlt : data.length < bytesOf nd.diCnt := by
    rw [hl] at hne ⊢; unfold bytesOf at hne ⊢; split at hne <;> split at hne <;> simp_all <;> omega
  by_cases hok : (talk nd.link nd.num e).ok = true
  · have htake : e.got.take (bytesOf nd.diCnt + 9) = e.got := List.take_of_length_le (by omega)
    have h8 : (put (put b 0 (reqDi nd.diCnt)) 0 e.got 8).toNat = data.length := by
      rw [put_zero _ _ _ (by omega), reply_size hr]
    simp only [hok, htake, if_true, h8, hne, and_false, if_false]
    exact ⟨_, rfl⟩
  · simp only [hok, Bool.false_eq_true, false_and, if_false]
    exact ⟨_, rfl⟩

example : ∃ (data : List Byte) (e : Net), Reply 0x02 data e.got ∧ data.length = bytesOf (264 % 256) :=
  ⟨[7], ⟨0, 0, true, true, [0x73, 0x73, 0, 0, 0, 4, 0, 2, 1, 7]⟩, ⟨[0x73, 0x73, 0, 0, 0, 4, 0], by decide, by decide, by decide⟩,
    by decide⟩

/-- C74 for the analog inputs of a WAGO coupler, for complete answers: every channel becomes the word in the last two of its
bytes.  Missing: answers that arrive in parts. -/
theorem C74_analog_partial (b : Buf) (nd : Node) (e : Net) (data : List Byte) (hr : Reply 0x04 data e.got)
    (hl : data.length = nd.aiSize) (hsz : place nd.aiType nd.aiCnt = nd.aiSize) (hc : nd.aiSize ≤ 250)
    (hok : (talk nd.link nd.num e).ok = true) :
    ∃ x nd', readAi b nd e = some (x, nd') ∧ (∀ l < nd.aiCnt, nd'.ai l = wordAt data (place nd.aiType (l + 1) - 2)) ∧
      nd' = { nd with link := (talk nd.link nd.num e).link, ai := nd'.ai } := by
  have hlen := reply_len hr
  have htake : e.got.take (nd.aiSize + 9) = e.got := List.take_of_length_le (by omega)
  have hat : ∀ i, i < e.got.length → put (put b 0 (reqAi nd.aiSize)) 0 e.got i = e.got.getD i 0 :=
    fun i hi => put_zero _ _ _ hi
  have h7 := (hat 7 (by omega)).trans (reply_code hr)
  have h8 : (put (put b 0 (reqAi nd.aiSize)) 0 e.got 8).toNat = nd.aiSize := by
    rw [hat 8 (by omega), reply_size hr, hl]
  have hcnt : ∀ n, 2 * n ≤ place nd.aiType n := by
    intro n
    induction n with
    | zero => simp [place]
    | succ n ih => simp only [place, width]; split <;> omega
  have hcond : nd.aiCnt ≤ analogSize ∧ 9 + place nd.aiType nd.aiCnt ≤ buffSize := by
    have := hcnt nd.aiCnt
    simp only [analogSize, buffSize]; omega
  simp only [readAi, exchange_some _ _ _ 12 (nd.aiSize + 9) e (by omega) (by omega), Option.bind_some, hok, htake, if_true,
    h7, h8, and_self, hcond]
  refine ⟨_, _, rfl, ?_, rfl⟩
  intro l hll
  simp only [hll, if_true]
  have hm := place_mono nd.aiType (show l + 1 ≤ nd.aiCnt by omega)
  have h2 := hcnt (l + 1)
  rw [hat _ (by omega), hat _ (by omega)]
  rw [show 7 + place nd.aiType (l + 1) = 9 + (place nd.aiType (l + 1) - 2) by omega,
    show 8 + place nd.aiType (l + 1) = 9 + (place nd.aiType (l + 1) - 2 + 1) by omega, reply_data hr, reply_data hr]
  rfl

/-- Three channels, the second one of a module 638. -/
example : ∃ (nd : Node) (e : Net) (data : List Byte), Reply 0x04 data e.got ∧ data.length = nd.aiSize ∧
    place nd.aiType nd.aiCnt = nd.aiSize ∧ nd.aiSize ≤ 250 ∧ (talk nd.link nd.num e).ok = true :=
  ⟨⟨Link.init 0, 1, 0, fun _ => false, 3, 8, fun i => if i = 1 then 638 else 461, fun _ => 0, 0, fun _ => 0, fun _ => 0, 0, 0,
    fun _ => 0, fun _ => 0, fun _ => 0⟩, ⟨600, 610, true, true, [0x73, 0x73, 0, 0, 0, 11, 0, 4, 8, 1, 2, 3, 4, 5, 6, 7, 8]⟩,
    [1, 2, 3, 4, 5, 6, 7, 8],
    ⟨[0x73, 0x73, 0, 0, 0, 11, 0], by decide, by decide, by decide⟩, by decide, by decide, by decide, by decide⟩

/-! ### Reading Phoenix couplers -/

/-- C74 for Phoenix couplers: the registers are read in parts of at most 123, each exactly once and in order; the image takes
the words and the bits of every part that was answered.  When the coupler does not answer a part, or refuses it, the rest of
the image stays as it was.  The words of IO-Link masters are stored with their bytes exchanged. -/
theorem C74_phoenix (b : Buf) (nd : Node) (ev : Nat → Net) (w : Nat → BitVec 16) (m : Nat) (hc : nd.aiCnt ≤ 2016)
    (hd : 16 * nd.aiCnt ≤ nd.diCnt) (hok : nd.link.ok = true)
    (hgood : ∀ j < m, 123 * j < nd.aiCnt ∧ (ev j).sends = true ∧
      Reply 0x04 (regsData w (123 * j) (min 123 (nd.aiCnt - 123 * j))) (ev j).got)
    (hbad : 123 * m < nd.aiCnt → NoData 0x04 (ev m)) :
    ∃ x nd' sent, readPhoenix b nd ev 0 0 = some (x, nd', sent) ∧
      (∀ i < nd.aiCnt, i < 123 * m → nd'.ai i = if IolMaster (nd.aiType i) then swapped (w i) else w i) ∧
      (∀ i, ¬ (i < nd.aiCnt ∧ i < 123 * m) → nd'.ai i = nd.ai i) ∧
      (∀ i < nd.aiCnt, i < 123 * m → ∀ k < 16, nd'.di (16 * i + k) = regBit (w i) k) ∧
      (∀ i, ¬ (i < 16 * nd.aiCnt ∧ i < 16 * (123 * m)) → nd'.di i = nd.di i) ∧
      nd' = { nd with link := nd'.link, ai := nd'.ai, di := nd'.di } ∧
      (∀ j < m, ∃ req, sent[j]? = some req ∧ Asks req 0x04 (8000 + 123 * j) (min 123 (nd.aiCnt - 123 * j))) ∧
      sent.length ≤ m + 1 ∧ (nd.aiCnt ≤ 123 * m → sent.length = m) := by
  obtain ⟨x, nd', sent, r1, r2, r3, r4, r5, r6, r7⟩ := readPhoenix_parts w ev m b nd 0 0 hc hd hok
    (by simpa using hgood) (by simpa using hbad)
  refine ⟨x, nd', sent, r1, ?_, ?_, ?_, ?_, r4, by simpa using r5, r6, by simpa using r7⟩
  · intro i h1 h2; rw [r2, if_pos (by omega)]
  · intro i h; rw [r2, if_neg (by omega)]
  · intro i h1 h2 k hk
    rw [r3, if_pos (by omega), show (16 * i + k) / 16 = i by omega, show (16 * i + k) % 16 = k by omega]
  · intro i h; rw [r3, if_neg (by omega)]

/-- A coupler with 124 registers of which the second request is not answered. -/
example : ∃ (nd : Node) (ev : Nat → Net) (w : Nat → BitVec 16), nd.aiCnt = 124 ∧ 16 * nd.aiCnt ≤ nd.diCnt ∧ nd.link.ok = true ∧
    (∀ j < 1, 123 * j < nd.aiCnt ∧ (ev j).sends = true ∧
      Reply 0x04 (regsData w (123 * j) (min 123 (nd.aiCnt - 123 * j))) (ev j).got) ∧ (123 * 1 < nd.aiCnt → NoData 0x04 (ev 1)) := by
  refine ⟨⟨⟨true, 0, false, 0, 500⟩, 1, 1984, fun _ => false, 124, 248, fun _ => 1027843, fun _ => 0, 0, fun _ => 0, fun _ => 0, 0, 0,
    fun _ => 0, fun _ => 0, fun _ => 0⟩,
    fun k => ⟨0, 0, true, true, if k = 0 then [0, 0, 0, 0, 0, 0, 0, 4, 246] ++ regsData (fun i => BitVec.ofNat 16 i) 0 123 else []⟩,
    fun i => BitVec.ofNat 16 i, rfl, by decide, rfl, ?_, ?_⟩
  · intro j hj
    have : j = 0 := by omega
    subst this
    exact ⟨by decide, rfl, ⟨[0, 0, 0, 0, 0, 0, 0], rfl, by rw [regsData_length]; decide, by rw [regsData_length]; rfl⟩⟩
  · intro _; exact Or.inr (Or.inl rfl)

/-! ### C75: the outputs are written as asked, and recorded as set only when the coupler confirmed -/

/-- C75 for the digital outputs of a WAGO coupler with at most 255 of them: every message sent sets all outputs exactly as
asked and nothing else; after a confirmation the recorded outputs are those that were asked for; without an answer, or after
a refusal, they stay.  Missing: more than 255 outputs, answers shorter than eight bytes. -/
theorem C75_digital_partial (b : Buf) (nd : Node) (e : Net) (hc : nd.doCnt ≤ 255) :
    ∃ x nd', writeDo b nd e = some (x, nd') ∧
      (∀ req ∈ x.sent, SetsBits req nd.doCnt fun i => (nd.dReq i).getLsbD 0) ∧
      (x.sent.length = if x.talk.sent then 1 else 0) ∧
      (nd.link.ok = true → Confirms 0x0F e → x.sent.length = 1 ∧ ∀ i < nd.doCnt, nd'.dCur i = nd.dReq i) ∧
      (NoData 0x0F e → nd'.dCur = nd.dCur) ∧
      (∀ i, nd.doCnt ≤ i → nd'.dCur i = nd.dCur i) ∧
      nd' = { nd with link := (talk nd.link nd.num e).link, dCur := nd'.dCur } := by
  have hb : bytesOf nd.doCnt ≤ 249 := by rw [bytesOf_eq]; omega
  rw [writeDo_eq b nd e hb]
  have hno := @noData_code (put b 0 (reqDo nd.doCnt nd.dReq)) nd.link nd.num e 0x0F 12
  have hyes := @confirms_code nd.link nd.num e 0x0F (put b 0 (reqDo nd.doCnt nd.dReq))
  refine ⟨_, _, rfl, ?_, ?_, ?_, ?_, ?_, ?_⟩
  · intro req hreq
    have : req = reqDo nd.doCnt nd.dReq := by
      revert hreq; dsimp only; split <;> simp
    rw [this]; exact reqDo_sets _ _ hc
  · dsimp only; split <;> rfl
  · intro hok hcf
    have hy := hyes hcf hok
    refine ⟨by simp [talk_sent hy.1], ?_⟩
    intro i hi
    rw [if_pos hy]; simp [hi]
  · intro hnd
    rw [if_neg (hno hnd (by omega) (by decide))]
  · intro i hi
    split <;> split <;> simp [Nat.not_lt.mpr hi]
  · split <;> split <;> rfl

/-- Nine outputs, confirmed. -/
example : ∃ (nd : Node) (e : Net), nd.doCnt = 9 ∧ nd.link.ok = true ∧ Confirms 0x0F e :=
  ⟨⟨⟨true, 0, false, 0, 500⟩, 1, 0, fun _ => false, 0, 0, fun _ => 0, fun _ => 0, 9, fun _ => 0, fun _ => 1, 0, 0, fun _ => 0, fun _ => 0,
    fun _ => 0⟩, ⟨600, 610, true, true, [0x73, 0x73, 0, 0, 0, 6, 0, 0x0F, 0, 0, 0, 9]⟩, rfl, rfl, rfl,
    ⟨[0x73, 0x73, 0, 0, 0, 6, 0], [0, 0, 0, 9], rfl, rfl, rfl⟩⟩

/-- C75 does not hold for answers of one to seven bytes: the function code is read where the request still stands, so that
any such answer confirms the outputs. -/
theorem C75_short_violated (b : Buf) (nd : Node) (e : Net) (hc : nd.doCnt ≤ 255) (hok : nd.link.ok = true) (hs : e.sends = true)
    (hg : e.got ≠ []) (hl : e.got.length < 8) :
    ∃ x nd', writeDo b nd e = some (x, nd') ∧ ∀ i < nd.doCnt, nd'.dCur i = nd.dReq i := by
  have hb : bytesOf nd.doCnt ≤ 249 := by rw [bytesOf_eq]; omega
  rw [writeDo_eq b nd e hb]
  have ht : (talk nd.link nd.num e).ok = true := (talk_ok _ _ _).mpr ⟨Or.inl hok, hs, hg⟩
  have htake : e.got.take 12 = e.got := List.take_of_length_le (by omega)
  have h7 : put (put b 0 (reqDo nd.doCnt nd.dReq)) 0 e.got 7 = 0x0F := by
    rw [Tcp.put_out _ _ _ _ (by omega), put_zero _ _ _ (by rw [reqDo_length]; omega)]
    rfl
  simp only [ht, htake, if_true, h7, and_self]
  refine ⟨_, _, rfl, ?_⟩
  intro i hi; simp [hi]

example : ((writeDo (fun _ => 0) ⟨⟨true, 0, false, 0, 500⟩, 1, 0, fun _ => false, 0, 0, fun _ => 0, fun _ => 0, 9, fun _ => 0, fun _ => 1, 0, 0,
    fun _ => 0, fun _ => 0, fun _ => 0⟩ ⟨600, 610, true, true, [0]⟩).map fun r => r.2.dCur 8) = some 1 := by decide +kernel

/-- C75 does not hold for a coupler with 256 to 1992 digital outputs: the message asks for the remainder by 256 only, so that
the other outputs are not set, and the confirmation records all of them as set. -/
theorem C75_many_violated (b : Buf) (nd : Node) (e : Net) (hc : 256 ≤ nd.doCnt) (hc' : nd.doCnt ≤ 1992)
    (hok : nd.link.ok = true) (he : Confirms 0x0F e) :
    ∃ x nd' req, writeDo b nd e = some (x, nd') ∧ x.sent = [req] ∧ (wordAt req 10).toNat = nd.doCnt % 256 ∧
      ∀ i < nd.doCnt, nd'.dCur i = nd.dReq i := by
  have hb : bytesOf nd.doCnt ≤ 249 := by rw [bytesOf_eq]; omega
  rw [writeDo_eq b nd e hb]
  have hy := confirms_code (num := nd.num) (put b 0 (reqDo nd.doCnt nd.dReq)) he hok
  have hz : (BitVec.ofNat 8 nd.doCnt : Byte) >>> 8 = 0#8 := by
    apply BitVec.eq_of_toNat_eq
    rw [BitVec.toNat_ushiftRight, Nat.shiftRight_eq_div_pow]
    exact Nat.div_eq_of_lt (BitVec.isLt _)
  refine ⟨_, _, reqDo nd.doCnt nd.dReq, rfl, by simp [talk_sent hy.1], ?_, ?_⟩
  · rw [wordAt_toNat]; simp [reqDo, hz]
  · intro i hi
    rw [if_pos hy]; simp [hi]

/-- More than 1992 digital outputs do not fit the buffer: the message is written behind its end. -/
theorem C75_overflow_violated (b : Buf) (nd : Node) (e : Net) (hc : 1992 < nd.doCnt) : writeDo b nd e = none := by
  have hn : buffSize < 13 + bytesOf nd.doCnt := by simp only [buffSize, bytesOf_eq]; omega
  simp only [writeDo, if_pos hn]

example : ∃ nd : Node, 1992 < nd.doCnt :=
  ⟨⟨Link.init 0, 1, 0, fun _ => false, 0, 0, fun _ => 0, fun _ => 0, 2000, fun _ => 0, fun _ => 0, 0, 0, fun _ => 0, fun _ => 0,
    fun _ => 0⟩, by decide⟩

/-! ### C75: analog outputs and Phoenix couplers -/

/-- C75 for Phoenix couplers, whatever happens on the network: every message sent is complete and sets registers of the node to
the words asked for and no others; as long as the coupler confirms, every register gets into a message and is then
recorded as set; the record of registers whose message is not answered or refused stays. -/
theorem C75_phoenix (b : Buf) (nd : Node) (ev : Nat → Net) (hc : nd.aoCnt ≤ 2016) (hd : 16 * nd.aoCnt ≤ nd.doCnt) :
    ∃ x nd' sent, writePhoenix b nd ev 0 0 = some (x, nd', sent) ∧
      (∀ req ∈ sent, WellFormed req ∧ ∀ a v, Sets req a v → ∃ i < nd.aoCnt, a = 9000 + i ∧ OutWord nd i v) ∧
      (∀ i < nd.aoCnt, nd.link.ok = true → (∀ j ≤ i / 123, Confirms 0x10 (ev j)) →
        (∃ req v, sent[i / 123]? = some req ∧ Sets req (9000 + i) v ∧ OutWord nd i v) ∧
        nd'.aCur i = nd.aReq i ∧ ∀ k < 16, nd'.dCur (16 * i + k) = nd.dReq (16 * i + k)) ∧
      (∀ i, NoData 0x10 (ev (i / 123)) → nd'.aCur i = nd.aCur i ∧ ∀ k < 16, nd'.dCur (16 * i + k) = nd.dCur (16 * i + k)) ∧
      (∀ i, nd.aoCnt ≤ i → nd'.aCur i = nd.aCur i) ∧ (∀ i, 16 * nd.aoCnt ≤ i → nd'.dCur i = nd.dCur i) ∧
      nd' = { nd with link := nd'.link, aCur := nd'.aCur, dCur := nd'.dCur } := by
  obtain ⟨x, nd', sent, r1, r2, r3, r4, r5, r6, r7⟩ := writePhoenix_parts ev nd.aoCnt b nd 0 0 (by omega) hc hd
  simp only [Nat.zero_add] at r5 r6 r7
  refine ⟨x, nd', sent, r1, ?_, ?_, ?_, fun i hi => r3 i (by omega), fun i hi => r4 i (by omega), r2⟩
  · intro req hreq
    obtain ⟨j, j1, rfl⟩ := r7 req hreq
    obtain ⟨q1, _, q3⟩ := reqOut_sets nd (123 * j) (min 123 (nd.aoCnt - 123 * j)) (by omega) (by omega)
    refine ⟨q1, ?_⟩
    intro a v hs
    obtain ⟨i, _, i2, i3, i4⟩ := q3 a v hs
    exact ⟨i, by omega, i3, i4⟩
  · intro i hi hok hcf
    obtain ⟨a1, a2, a3⟩ := r6 (i / 123) i (by omega) (by omega) hi hok hcf
    obtain ⟨_, q2, _⟩ := reqOut_sets nd (123 * (i / 123)) (min 123 (nd.aoCnt - 123 * (i / 123))) (by omega) (by omega)
    obtain ⟨v, v1, v2⟩ := q2 i (by omega) (by omega)
    exact ⟨⟨_, v, a3, v1, v2⟩, a1, a2⟩
  · intro i hnd
    exact r5 (i / 123) i (by omega) (by omega) hnd

/-- A coupler with two IO-Link masters and an analog module: word 35 is the fourth of the second master. -/
example : ∃ nd : Node, nd.aoCnt = 68 ∧ nd.aoCnt ≤ 2016 ∧ 16 * nd.aoCnt ≤ nd.doCnt ∧ OutWord nd 35 0x3412 ∧ OutWord nd 64 0x1234 := by
  refine ⟨⟨⟨true, 0, false, 0, 500⟩, 1, 0, fun _ => false, 0, 0, fun _ => 0, fun _ => 0, 16 * 68, fun _ => 0, fun _ => 1, 68, 136,
    fun i => if i < 64 then 1027843 else 2688527, fun _ => 0, fun _ => 0x1234⟩, rfl, by decide, by decide, ?_, ?_⟩
  · refine ⟨0, ⟨by decide, ?_, Or.inl rfl⟩, ?_⟩
    · intro j _ hj; dsimp only; rw [if_pos (show j < 64 by omega), if_pos (by decide)]
    · rw [if_pos (by decide)]; decide
  · refine ⟨64, ⟨by decide, ?_, Or.inr (by decide)⟩, ?_⟩
    · intro j hj hj'; rw [show j = 64 by omega]
    · rw [if_neg (by decide), if_neg (by decide), if_pos (by decide)]

/-- C75 does not hold for answers of one to seven bytes from a Phoenix coupler either. -/
theorem C75_phoenix_short_violated (b : Buf) (nd : Node) (ev : Nat → Net) (h0 : 0 < nd.aoCnt) (hc : nd.aoCnt ≤ 123)
    (hd : 16 * nd.aoCnt ≤ nd.doCnt) (hok : nd.link.ok = true) (hs : (ev 0).sends = true) (hg : (ev 0).got ≠ [])
    (hl : (ev 0).got.length < 8) :
    ∃ x nd' sent, writePhoenix b nd ev 0 0 = some (x, nd', sent) ∧ ∀ i < nd.aoCnt, nd'.aCur i = nd.aReq i := by
  rw [writePhoenix, dif_neg (by omega)]
  have hpd : part nd.aoCnt 0 = nd.aoCnt := by simp only [part, maxRegs]; omega
  rw [hpd]
  have hcond : 0 + nd.aoCnt ≤ analogSize ∧ 16 * (0 + nd.aoCnt) ≤ nd.doCnt := by simp only [analogSize]; omega
  have ht : (talk nd.link nd.num (ev 0)).ok = true := (talk_ok _ _ _).mpr ⟨Or.inl hok, hs, hg⟩
  have htake : (ev 0).got.take 12 = (ev 0).got := List.take_of_length_le (by omega)
  have h7 : put (put b 0 (reqOut nd 0 nd.aoCnt)) 0 (ev 0).got 7 = 0x10 := by
    rw [Tcp.put_out _ _ _ _ (by omega), put_zero _ _ _ (by rw [reqOut_length]; omega)]
    rfl
  simp only [hcond, and_self, if_true, exchange_some _ _ _ (2 * nd.aoCnt + 13) 12 _ (show 2 * nd.aoCnt + 13 ≤ 262 by omega)
    (show 12 ≤ 262 by omega), ht, htake, settle, h7]
  rw [writePhoenix, dif_pos (by simp only [confirm]; omega)]
  refine ⟨_, _, _, rfl, ?_⟩
  intro i hi
  simp only [confirm]
  rw [if_pos (by omega)]

/-- C75 for the analog outputs of a WAGO coupler, when the sizes of the configuration agree and fit the buffer: the message is
complete and has the value of every channel at its place (channels of modules 638 are left out); the recorded
outputs change only with a confirmation.  Missing: answers shorter than eight bytes, configurations whose sizes do not agree. -/
theorem C75_analog_partial (b : Buf) (nd : Node) (e : Net) (hsz : place nd.aoType nd.aoCnt = nd.aoSize) (hs : nd.aoSize ≤ 248) :
    ∃ x nd', writeAo b nd e = some (x, nd') ∧
      (∀ req ∈ x.sent, WellFormed req ∧ ∀ l < nd.aoCnt, nd.aoType l ≠ 638 → wordAt req (13 + place nd.aoType l) = nd.aReq l) ∧
      (nd.link.ok = true → Confirms 0x10 e → x.sent.length = 1 ∧ nd'.aCur = nd.aReq) ∧ (NoData 0x10 e → nd'.aCur = nd.aCur) ∧
      nd' = { nd with link := (talk nd.link nd.num e).link, aCur := nd'.aCur } := by
  have hle : ∀ n, 2 * n ≤ place nd.aoType n ∧ place nd.aoType n % 2 = 0 := by
    intro n
    induction n with
    | zero => simp [place]
    | succ n ih => simp only [place, width]; split <;> omega
  have hle' := hle nd.aoCnt
  have hlen := aoBytes_length nd.aoType nd.aReq nd.aoCnt
  rw [hsz] at hlen
  generalize hdata : aoBytes nd.aoCnt nd.aoType nd.aReq = data at hlen
  have hcond : ¬ (buffSize < 13 + data.length ∨ analogSize < nd.aoCnt) := by simp only [buffSize, analogSize]; omega
  generalize hb1 : put (put b 0 (headRegs 0 (nd.aoSize / 2) nd.aoSize)) 13 data = b1
  have hget : Tcp.get b1 0 (nd.aoSize + 13) = headRegs 0 (nd.aoSize / 2) nd.aoSize ++ data := by
    apply List.ext_getElem
    · simp [Tcp.get, headRegs, hlen]
    · intro i h1 h2
      simp only [Tcp.get, List.getElem_map, List.getElem_range, Nat.zero_add, ← hb1]
      have hh : (headRegs 0 (nd.aoSize / 2) nd.aoSize).length = 13 := rfl
      by_cases hi : i < 13
      · rw [Tcp.put_out _ _ _ _ (by omega), put_zero _ _ _ (by omega), List.getElem_append_left (by omega)]
        simp [List.getD, List.getElem?_eq_getElem (show i < (headRegs 0 (nd.aoSize / 2) nd.aoSize).length by omega)]
      · have hl2 : i - 13 < data.length := by
          simp only [List.length_append, hh] at h2; omega
        rw [Tcp.put_in _ _ _ _ (by omega) (by omega), List.getElem_append_right (by omega)]
        simp [List.getD, List.getElem?_eq_getElem hl2, hh]
  have hno := @noData_code b1 nd.link nd.num e 0x10 12
  have hyes := @confirms_code nd.link nd.num e 0x10 b1
  simp only [writeAo, hdata, if_neg hcond, exchange_some _ _ _ (nd.aoSize + 13) 12 e (show nd.aoSize + 13 ≤ 262 by omega)
    (show 12 ≤ 262 by omega), Option.bind_some, hb1, hget]
  generalize (if (talk nd.link nd.num e).ok = true then put b1 0 (List.take 12 e.got) else b1) = b2 at hno hyes
  have hmsg : ∀ req ∈ (if (talk nd.link nd.num e).sent = true then [headRegs 0 (nd.aoSize / 2) nd.aoSize ++ data] else []),
      WellFormed req ∧ ∀ l < nd.aoCnt, nd.aoType l ≠ 638 → wordAt req (13 + place nd.aoType l) = nd.aReq l := by
    intro req hreq
    have : req = headRegs 0 (nd.aoSize / 2) nd.aoSize ++ data := by revert hreq; split <;> simp
    subst this
    have h10 : (wordAt (headRegs 0 (nd.aoSize / 2) nd.aoSize ++ data) 10).toNat = nd.aoSize / 2 := by
      rw [wordAt_toNat]; simp [headRegs]; omega
    refine ⟨⟨?_, rfl, ?_, ?_⟩, ?_⟩
    · rw [wordAt_toNat]; simp [headRegs, hlen]; omega
    · rw [h10]; simp [headRegs, hlen]; omega
    · rw [h10]; simp [headRegs]; omega
    · intro l hl hty
      have hg : ∀ t < 2, (headRegs 0 (nd.aoSize / 2) nd.aoSize ++ data).getD (13 + place nd.aoType l + t) 0 = (be (nd.aReq l)).getD t 0 := by
        intro t ht
        rw [← aoBytes_get nd.aoType nd.aReq nd.aoCnt l t hl hty ht, hdata, Nat.add_assoc]
        exact getD_right (headRegs 0 (nd.aoSize / 2) nd.aoSize) data _
      have g0 := hg 0 (by omega)
      have g1 := hg 1 (by omega)
      rw [Nat.add_zero] at g0
      rw [wordAt, g0, g1]; exact be_word _
  by_cases hh : (talk nd.link nd.num e).ok = true ∧ b2 7 = 0x10
  · rw [if_pos hh]
    refine ⟨_, _, rfl, hmsg, ?_, ?_, rfl⟩
    · intro _ _; simp [talk_sent hh.1]
    · intro hn; exact absurd hh (hno hn (by omega) (by decide))
  · rw [if_neg hh]
    refine ⟨_, _, rfl, hmsg, ?_, fun _ => rfl, rfl⟩
    intro hok hcf; exact absurd (hyes hcf hok) hh

example : ∃ nd : Node, nd.aoCnt = 3 ∧ place nd.aoType nd.aoCnt = nd.aoSize ∧ nd.aoSize ≤ 248 :=
  ⟨⟨Link.init 0, 1, 0, fun _ => false, 0, 0, fun _ => 0, fun _ => 0, 0, fun _ => 0, fun _ => 0, 3, 8, fun i => if i = 1 then 638 else 554,
    fun _ => 0, fun _ => 0⟩, rfl, by decide, by decide⟩

/-! ### C76, C77: a coupler that is lost is reported, and connecting is retried less and less often -/

/-- C76: over any history of exchanges and commands, after an exchange with an active node the loss of the connection is
in the list of critical errors exactly when the node had not been heard for more than six seconds when it began. -/
theorem C76_reported (num : BitVec 64) (t0 : Tm) (m : Mgr) (hn : m.errors.Nodup) (hm : ¬ Reported m num) (h : List Ev) (e : Net)
    (hact : (evRun num (evInit t0 m) h).1 = true) (hle : (heard num (evInit t0 m) t0 h).toNat ≤ e.now.toNat) :
    Reported (evRun num (evInit t0 m) (h ++ [.talk e])).2.2 num ↔ (heard num (evInit t0 m) t0 h).toNat + 6000 < e.now.toNat := by
  have hi := inv_run num h _ (init_inv num t0 m hn hm)
  have hp := heard_eq num h (evInit t0 m)
  have hp' : (evRun num (evInit t0 m) h).2.1.lastPoll = heard num (evInit t0 m) t0 h := hp
  simp only [evRun, List.foldl_append, List.foldl]
  change Reported (evStep num (evRun num (evInit t0 m) h) (.talk e)).2.2 num ↔ _
  generalize evRun num (evInit t0 m) h = s at hi hact hp'
  simp only [evStep, hact, if_true]
  rw [(talk_mgr _ num e _ hi.nodup hi.alarm).2.2.1, hp', BitVec.lt_def, Timer.delta_eq hle]
  show 6000 < _ ↔ _
  omega

/-- The node is not heard for 6001 milliseconds. -/
example : Reported (evRun 3 (evInit 0 Mgr.init) [.talk ⟨600, 610, true, true, [1]⟩, .talk ⟨6611, 6800, true, true, []⟩]).2.2 3 := by
  decide

/-- C76: a node that is switched off is not reported as lost. -/
theorem C76_off (num : BitVec 64) (t0 : Tm) (m : Mgr) (hn : m.errors.Nodup) (hm : ¬ Reported m num) (h : List Ev)
    (hact : (evRun num (evInit t0 m) h).1 = false) : ¬ Reported (evRun num (evInit t0 m) h).2.2 num := by
  have hi := inv_run num h _ (init_inv num t0 m hn hm)
  rw [← hi.alarm, hi.off hact]
  simp

example : (evRun 3 (evInit 0 Mgr.init) [.talk ⟨6611, 6800, true, true, []⟩, .cmd .disable]).1 = false := by decide

/-- C76: the entries of other errors are not touched by a node. -/
theorem C76_others (num : BitVec 64) (t0 : Tm) (m : Mgr) (hn : m.errors.Nodup) (hm : ¬ Reported m num) (h : List Ev)
    (k : CritErr.Err) (h1 : k ≠ key noConnection ioCoupler num) (h2 : k ≠ key service ioCoupler num) :
    k ∈ (evRun num (evInit t0 m) h).2.2.errors ↔ k ∈ m.errors :=
  others_run num _ (init_inv num t0 m hn hm) h k h1 h2

/-- The loss of another node. -/
example : key noConnection ioCoupler 2 ≠ key noConnection ioCoupler 3 ∧ key noConnection ioCoupler 2 ≠ key service ioCoupler 3 := by
  decide

/-- C76 does not hold in its sense for a coupler that refuses: refusals count as signs of life, so that inputs which are never
updated are not reported.  Over any history of refused reads at most six seconds apart the inputs stay as they are
and the loss is not reported. -/
theorem C76_refused_violated (nd : Node) (h : List (Tm × List Byte)) (b : Nat → Buf) (k : Nat) (hc : nd.diCnt ≤ 255)
    (ha : nd.link.alarm = false) (hok : nd.link.ok = true) (hs : Steady nd.link.lastPoll h) (hr : ∀ p ∈ h, Refusal 0x02 p.2) :
    ∃ nd', reads nd (h.mapIdx fun i p => (b (k + i), ⟨p.1, p.1, true, true, p.2⟩)) = some nd' ∧ nd'.di = nd.di ∧
      nd'.link.alarm = false ∧ nd'.link.ok = true := by
  induction h generalizing nd k with
  | nil => exact ⟨nd, rfl, rfl, ha, hok⟩
  | cons p h ih =>
    obtain ⟨t, g⟩ := p
    obtain ⟨s1, s2, s3⟩ := hs
    have hg : Refusal 0x02 g := hr (t, g) (by simp)
    obtain ⟨x, hx⟩ := C74_unanswered (b (k + 0)) nd ⟨t, t, true, true, g⟩ (Or.inr hg) hc
    have htok : (talk nd.link nd.num ⟨t, t, true, true, g⟩).ok = true := by
      rw [talk_ok]
      refine ⟨Or.inl hok, rfl, ?_⟩
      intro c
      have := refusal_len hg
      simp only at c
      rw [c] at this; simp at this
    have hlink : (talk nd.link nd.num ⟨t, t, true, true, g⟩).link =
        { nd.link with ok := true, delay := 500, lastPoll := t, alarm := false } := by
      rw [talk_ok_link htok, watch_quiet _ _ _ s1 s2]
    obtain ⟨nd', r1, r2, r3, r4⟩ := ih { nd with link := (talk nd.link nd.num ⟨t, t, true, true, g⟩).link } (k + 1) hc
      (by rw [hlink]) (by rw [hlink]) (by rw [hlink]; exact s3) (fun q hq => hr q (by simp [hq]))
    refine ⟨nd', ?_, r2, r3, r4⟩
    rw [List.mapIdx_cons, reads, hx]
    simp only [Option.bind_some]
    rw [← r1]
    congr 2
    funext i p
    rw [show k + 1 + i = k + (i + 1) by omega]

/-- A node that was switched off for more than six seconds is reported as lost by the first exchange after it is switched on,
although the coupler answers: the time of the last answer is not renewed. -/
theorem C76_enable_violated (num : BitVec 64) (t0 : Tm) (m : Mgr) (hn : m.errors.Nodup) (hm : ¬ Reported m num) (h : List Ev)
    (e : Net) (h1 : (heard num (evInit t0 m) t0 h).toNat + 6000 < e.now.toNat) (h2 : e.sends = true) (h3 : e.got ≠ [])
    (h4 : e.connects = true)
    (h5 : (evRun num (evInit t0 m) h).2.1.lastInit.toNat + (evRun num (evInit t0 m) h).2.1.delay.toNat ≤ e.now.toNat) :
    let s' := evRun num (evInit t0 m) (h ++ [.cmd .disable, .cmd .enable])
    s'.1 = true ∧ (talk s'.2.1 num e).ok = true ∧ Reported (evRun num s' [.talk e]).2.2 num := by
  have hi := inv_run num h _ (init_inv num t0 m hn hm)
  have hp : (evRun num (evInit t0 m) h).2.1.lastPoll = heard num (evInit t0 m) t0 h := heard_eq num h (evInit t0 m)
  rw [← hp] at h1
  have happ : evRun num (evInit t0 m) (h ++ [.cmd .disable, .cmd .enable]) =
      evRun num (evRun num (evInit t0 m) h) [.cmd .disable, .cmd .enable] := by simp [evRun]
  rw [happ]
  clear happ hp hm hn
  generalize evRun num (evInit t0 m) h = s at hi h1 h5
  intro s'
  have hi' : Inv num s' := inv_run num _ s hi
  have hp : s'.2.1.lastPoll = s.2.1.lastPoll ∧ s'.2.1.lastInit = s.2.1.lastInit ∧ s'.2.1.delay = s.2.1.delay ∧ s'.1 = true := by
    obtain ⟨act, l, m⟩ := s
    cases act <;> exact ⟨rfl, rfl, rfl, rfl⟩
  generalize s' = q at hi' hp
  obtain ⟨p1, p2, p3, p4⟩ := hp
  refine ⟨p4, ?_, ?_⟩
  · rw [talk_ok]
    refine ⟨Or.inr ⟨?_, h4⟩, h2, h3⟩
    rw [p2, p3, BitVec.lt_def, Timer.delta_eq (by omega)]; omega
  · simp only [evRun, List.foldl, evStep, p4, if_true]
    rw [(talk_mgr _ num e _ hi'.nodup hi'.alarm).2.2.1, p1, BitVec.lt_def, Timer.delta_eq (by omega)]
    show 6000 < _
    omega

example : Reported (evRun 3 (evInit 0 Mgr.init) [.talk ⟨600, 610, true, true, [1]⟩, .cmd .disable, .cmd .enable,
    .talk ⟨60000, 60010, true, true, [1]⟩]).2.2 3 := by decide

/-- C76: without the command that clears errors, a node is shown as switched off for service exactly when it is. -/
theorem C76_service_partial (num : BitVec 64) (t0 : Tm) (m : Mgr) (hn : m.errors.Nodup) (hm : ¬ Reported m num)
    (hm' : ¬ InService m num) (h : List Ev) (hcl : ∀ c, Ev.cmd c ∈ h → c ≠ .clear) :
    InService (evRun num (evInit t0 m) h).2.2 num ↔ (evRun num (evInit t0 m) h).1 = false := by
  have key' : ∀ (h : List Ev) (s : Bool × Link × Mgr), Inv num s → (InService s.2.2 num ↔ s.1 = false) →
      (∀ c, Ev.cmd c ∈ h → c ≠ .clear) → (InService (evRun num s h).2.2 num ↔ (evRun num s h).1 = false) := by
    intro h
    induction h with
    | nil => intro s _ hs _; exact hs
    | cons ev h ih =>
      intro s hi hs hc
      refine ih (evStep num s ev) (inv_step num s hi ev) ?_ (fun c hm => hc c (by simp [hm]))
      obtain ⟨act, l, m⟩ := s
      obtain ⟨hn, ha, ho⟩ := hi
      have hne := key_service_ne num num
      cases ev with
      | talk e =>
        cases act with
        | false => exact hs
        | true =>
          have := (talk_mgr l num e m hn ha).2.2.2 (key service ioCoupler num) hne.symm
          simp only [evStep, if_true, InService, this]
          exact hs
      | cmd c =>
        cases c with
        | enable =>
          simp only [evStep, Cmd.run, Mgr.run, List.foldl, InService, mem_step_reset _ hn]
          simp
        | disable =>
          have hn1 := nodup_step _ hn (.set service ioCoupler num)
          simp only [evStep, Cmd.run, Mgr.run, List.foldl, InService, mem_step_reset _ hn1, mem_step_set]
          simp [hne.symm]
        | clear => exact absurd rfl (hc .clear (by simp))
  exact key' h _ (init_inv num t0 m hn hm) (by simp [evInit, hm']) hcl

example : InService (evRun 3 (evInit 0 Mgr.init) [.talk ⟨600, 610, true, true, [1]⟩, .cmd .disable]).2.2 3 := by decide

/-- The command that clears errors takes a switched off node out of the list although it stays off. -/
theorem C76_service_violated (num : BitVec 64) (t0 : Tm) (m : Mgr) (hn : m.errors.Nodup) (hm : ¬ Reported m num) (h : List Ev) :
    let s := evRun num (evInit t0 m) (h ++ [.cmd .disable, .cmd .clear])
    s.1 = false ∧ ¬ InService s.2.2 num := by
  have hi := inv_run num h _ (init_inv num t0 m hn hm)
  have happ : evRun num (evInit t0 m) (h ++ [.cmd .disable, .cmd .clear]) =
      evRun num (evRun num (evInit t0 m) h) [.cmd .disable, .cmd .clear] := by simp [evRun]
  rw [happ]
  generalize evRun num (evInit t0 m) h = s at hi
  refine ⟨rfl, ?_⟩
  have hi1 := inv_run num [.cmd .disable] s hi
  have hn1 := nodup_step _ hi1.nodup (.reset service ioCoupler num)
  have : (evRun num s [.cmd .disable, .cmd .clear]).2.2 =
      ((evRun num s [.cmd .disable]).2.2.step (.reset service ioCoupler num)).step (.reset noConnection ioCoupler num) := rfl
  rw [this, InService, mem_step_reset _ hn1, mem_step_reset _ hi1.nodup]
  simp

example : InService (evRun 3 (evInit 0 Mgr.init) [.cmd .disable]).2.2 3 ∧
    ¬ InService (evRun 3 (evInit 0 Mgr.init) [.cmd .disable, .cmd .clear]).2.2 3 := by decide

/-- The command with the number 0 means a node before the first one, which is undefined. -/
theorem C76_zero_violated (n : BitVec 32) : ∃ i, nodeOf n 0 = some i ∧ n ≤ i := by
  refine ⟨0 - 1, ?_, ?_⟩
  · rw [nodeOf, if_pos]; rw [BitVec.le_def]; exact Nat.zero_le _
  · rw [BitVec.le_def]
    have := n.isLt
    show n.toNat ≤ 4294967295
    omega

/-- Other numbers mean an existing node or nothing. -/
theorem C76_number (n idx : BitVec 32) (h : idx ≠ 0) :
    nodeOf n idx = if idx.toNat ≤ n.toNat then some (BitVec.ofNat 32 (idx.toNat - 1)) else none := by
  have h0 : idx.toNat ≠ 0 := fun c => h (BitVec.eq_of_toNat_eq c)
  simp only [nodeOf, BitVec.le_def]
  split
  · congr 1
    apply BitVec.eq_of_toNat_eq
    have := idx.isLt
    simp [BitVec.toNat_sub]
    omega
  · rfl

example : nodeOf 3 3 = some 2 ∧ nodeOf 3 4 = none := by decide

/-! ### C77 -/

/-- C77: over any history, the pause before the next attempt to connect is 0.5 s, doubled with every attempt that failed
since the last success, up to 64 s. -/
theorem C77_delay (num : BitVec 64) (t0 : Tm) (h : List Net) :
    (talks num (Link.init t0) h).delay.toNat = 500 * 2 ^ min (failures num (Link.init t0) 0 h) 7 :=
  (delay_run num h (Link.init t0) 0 rfl (fun _ => rfl)).1

/-- Two failed attempts. -/
example : failures 3 (Link.init 0) 0 [⟨500, 600, false, true, []⟩, ⟨1000, 1000, true, true, [1]⟩, ⟨1600, 1700, false, true, []⟩] = 2 := by
  decide

/-- C77: a node that is not connected is connected again exactly when the pause since the end of the last failed attempt is
over; a connected node is not connected again. -/
theorem C77_tried (num : BitVec 64) (l : Link) (e : Net) (hle : l.lastInit.toNat ≤ e.now.toNat) :
    (talk l num e).tried = true ↔ l.ok = false ∧ l.lastInit.toNat + l.delay.toNat ≤ e.now.toNat := by
  rw [(talk_retry l num e).1, BitVec.lt_def, Timer.delta_eq hle]
  constructor
  · rintro ⟨a, b⟩; exact ⟨a, by omega⟩
  · rintro ⟨a, b⟩; exact ⟨a, by omega⟩

/-- C77 over any history: after an attempt `e1` that failed, the next attempt `e2` begins exactly when the pause is over: not
before, and the first exchange after it is an attempt. -/
theorem C77_wait (num : BitVec 64) (t0 : Tm) (pre mid : List Net) (e1 e2 : Net)
    (h1 : (talk (talks num (Link.init t0) pre) num e1).tried = true) (hc : e1.connects = false)
    (hm : attempts num (talks num (Link.init t0) (pre ++ [e1])) mid = 0) (hle : e1.after.toNat ≤ e2.now.toNat) :
    (talk (talks num (Link.init t0) (pre ++ e1 :: mid)) num e2).tried = true ↔
      e1.after.toNat + 500 * 2 ^ min (failures num (Link.init t0) 0 (pre ++ [e1])) 7 ≤ e2.now.toNat := by
  have hd := C77_delay num t0 (pre ++ [e1])
  rw [show pre ++ e1 :: mid = pre ++ [e1] ++ mid by simp, talks_append]
  have hlast : talks num (Link.init t0) (pre ++ [e1]) = (talk (talks num (Link.init t0) pre) num e1).link := by
    rw [talks_append]; rfl
  obtain ⟨q1, q2, _⟩ := (talk_retry (talks num (Link.init t0) pre) num e1).2.2.1 h1 hc
  rw [← hlast] at q1 q2
  obtain ⟨a1, a2, a3⟩ := idle_run num _ mid q1 hm
  rw [C77_tried _ _ _ (by rw [a2, q2]; exact hle), a1, a2, a3, q2, hd]
  simp

example : (talk (talks 3 (Link.init 0) []) 3 ⟨500, 600, false, true, []⟩).tried = true ∧
    (talk (talks 3 (Link.init 0) [⟨500, 600, false, true, []⟩]) 3 ⟨1599, 1599, true, true, [1]⟩).tried = false ∧
    (talk (talks 3 (Link.init 0) [⟨500, 600, false, true, []⟩]) 3 ⟨1600, 1600, true, true, [1]⟩).tried = true := by decide

/-- C77 does not hold for a coupler that accepts connections but does not answer: every exchange connects again, without a
pause. -/
theorem C77_hang_violated (num : BitVec 64) (l : Link) (h : List Net) (ho : l.ok = false)
    (he : ∀ e ∈ h, e.connects = true ∧ e.got = [] ∧ l.lastInit.toNat + l.delay.toNat ≤ e.now.toNat ∧
      l.lastInit.toNat + 500 ≤ e.now.toNat) :
    attempts num l h = h.length := by
  induction h generalizing l with
  | nil => rfl
  | cons e h ih =>
    obtain ⟨c1, c2, c3, c4⟩ := he e (by simp)
    have ht : (talk l num e).tried = true := (C77_tried num l e (by omega)).mpr ⟨ho, c3⟩
    obtain ⟨q1, q2, q3⟩ := (talk_retry l num e).2.2.2 (Or.inr ⟨ht, c1⟩)
    simp only [attempts, ht, if_true, List.length_cons]
    rw [ih (talk l num e).link (by rw [q1, c2]; simp)]
    · omega
    · intro e' he'
      obtain ⟨d1, d2, d3, d4⟩ := he e' (by simp [he'])
      rw [q2, q3]
      exact ⟨d1, d2, d4, d4⟩

example : attempts 3 (Link.init 0) [⟨500, 800, true, true, []⟩, ⟨801, 1101, true, true, []⟩, ⟨1102, 1402, true, true, []⟩] = 3 := by
  decide

/-! ### C78, C79: the channels of devices -/

/-- C78: the state of an IO-Link device on the ports 1 to 8 of a module is what the first word of the module says: bit
`port - 1` that it is connected, bit `port + 7` that its data are valid. -/
theorem C78_state (w0 w1 : BitVec 16) (port : Nat) (h1 : 1 ≤ port) (h2 : port ≤ 8) :
    (iolState true (some (w0, w1)) port = .notConnected ↔ w0.getLsbD (port - 1) = false) ∧
    (iolState true (some (w0, w1)) port = .deviceError ↔ w0.getLsbD (port - 1) = true ∧ w0.getLsbD (port + 7) = false) ∧
    (iolState true (some (w0, w1)) port = .ok ↔ w0.getLsbD (port - 1) = true ∧ w0.getLsbD (port + 7) = true) := by
  have e1 : (w1 ++ w0 : BitVec 32).getLsbD (port - 1) = w0.getLsbD (port - 1) := by
    rw [BitVec.getLsbD_append, if_pos (by omega)]
  have e2 : (w1 ++ w0 : BitVec 32).getLsbD (port + 7) = w0.getLsbD (port + 7) := by
    rw [BitVec.getLsbD_append, if_pos (by omega)]
  have hp : (0 : Int) < port ∧ (port : Int) ≤ 8 := by omega
  simp only [iolState, if_pos hp, Int.toNat_natCast, e1, e2]
  cases w0.getLsbD (port - 1) <;> cases w0.getLsbD (port + 7) <;> simp

example : iolState true (some (0x0101, 0)) 1 = .ok ∧ iolState true (some (0x0301, 0)) 2 = .notConnected ∧
    iolState true (some (0x0103, 0)) 2 = .deviceError := by decide

/-- C78: a channel without such a port, without a module, or of another vendor is never shown with an error. -/
theorem C78_other (v : Bool) (module : Option (BitVec 16 × BitVec 16)) (port : Int)
    (h : v = false ∨ module = none ∨ port < 1 ∨ 8 < port) : iolState v module port = .ok := by
  unfold iolState
  split
  · rcases h with h | h | h
    · simp at h
    · simp at h
    · rw [if_neg (by omega)]
  · rfl

example : iolState true (some (0, 0)) 9 = .ok := C78_other _ _ _ (by decide)

/-- C79: after any sequence of settings every channel has the place it was last given, if that exists. -/
theorem C79_places (find : Nat → Nat → Option (Nat × Nat)) (n : Nat) (calls : List (Nat × Nat × Nat)) (ch : Nat) :
    (configure find n calls)[ch]? =
      if ch < n then some ((given ch calls).bind fun c => find c.1 c.2) else none := by
  induction calls using List.reverseRecOn with
  | nil =>
    by_cases h : ch < n <;> simp [configure, given, h]
  | append_singleton calls c ih =>
    have hl := configure_length find n calls
    rw [configure_snoc, initChannel]
    by_cases hc : c.1 = ch
    · have hg : given ch (calls ++ [c]) = some c.2 := by simp [given, hc]
      rw [hg, hc, hl]
      by_cases hch : ch < n
      · rw [if_pos hch, if_pos hch, List.getElem?_set_self (by omega)]; rfl
      · rw [if_neg hch, if_neg hch, ih, if_neg hch]
    · have hg : given ch (calls ++ [c]) = given ch calls := by simp [given, hc]
      rw [hg]
      split
      · rw [List.getElem?_set_ne hc]; exact ih
      · exact ih

example : (configure (digitalPlace [8, 16]) 2 [(0, 1, 3), (1, 5, 0), (0, 1, 15), (2, 0, 0)]) = [some (1, 15), none] := by decide

/-- C79 for the digital outputs: setting a channel that was given an existing output changes exactly this output; setting
any other channel changes nothing and returns 1.  Reading the channel afterwards gives what was set. -/
theorem C79_digital (sz : Sizes) (n : Nat) (calls : List (Nat × Nat × Nat)) (m : Image) (ch : Nat) (v : Byte) :
    let p := configure (digitalPlace sz) n calls
    (∀ node off, ch < n → given ch calls = some (node, off) → (∃ cnt, sz[node]? = some cnt ∧ off < cnt) →
      setDo p m ch v = (fun i j => if i = node ∧ j = off then v else m i j, 0) ∧ getBit p (setDo p m ch v).1 ch = v) ∧
    ((¬ ch < n ∨ given ch calls = none ∨ ∃ node off, given ch calls = some (node, off) ∧ ∀ cnt, sz[node]? = some cnt → cnt ≤ off) →
      setDo p m ch v = (m, 1) ∧ getBit p m ch = 0) := by
  intro p
  have hp : p[ch]? = _ := C79_places (digitalPlace sz) n calls ch
  constructor
  · intro node off hch hg ⟨cnt, h1, h2⟩
    have : p[ch]? = some (some (node, off)) := by
      rw [hp, if_pos hch, hg]; simp [digitalPlace, h1, h2]
    simp [setDo, getBit, this]
  · intro h
    have : p[ch]? = none ∨ p[ch]? = some none := by
      rw [hp]
      by_cases hch : ch < n
      · rw [if_pos hch]
        right
        rcases h with h | h | ⟨node, off, hg, hc⟩
        · omega
        · rw [h]; rfl
        · rw [hg]
          simp only [Option.bind_some, digitalPlace]
          cases hs : sz[node]? with
          | none => rfl
          | some cnt =>
            have := hc cnt hs
            simp only
            rw [if_neg (by omega)]
      · rw [if_neg hch]; exact Or.inl rfl
    rcases this with h | h <;> simp [setDo, getBit, h]

example : given 0 [(0, 1, 3), (1, 5, 0), (0, 1, 15)] = some (1, 15) ∧ ([8, 16] : Sizes)[1]? = some 16 := by decide

/-- C79: channels with different places do not influence one another. -/
theorem C79_apart (p : Places) (m : Image) (a b : Nat) (v : Byte) (ha : p[a]? ≠ p[b]?) :
    getBit p (setDo p m a v).1 b = getBit p m b := by
  unfold getBit setDo
  cases hb : p[b]? with
  | none => rfl
  | some pb =>
    cases pb with
    | none => rfl
    | some q =>
      cases hq : p[a]? with
      | none => rfl
      | some pa =>
        cases pa with
        | none => rfl
        | some r =>
          obtain ⟨n1, o1⟩ := q
          obtain ⟨n2, o2⟩ := r
          simp only
          rw [if_neg]
          rintro ⟨rfl, rfl⟩
          exact ha (hq.trans hb.symm)

example : ([some (1, 2), some (1, 3)] : Places)[0]? ≠ ([some (1, 2), some (1, 3)] : Places)[1]? := by decide

/-- C79 for the analog channels, when all channels were given existing places: the module type is found.  Missing: offsets
behind the channels of the node. -/
theorem C79_analog_partial (types : List (List Nat)) (n : Nat) (calls : List (Nat × Nat × Nat)) (ch : Nat) (node off : Nat)
    (l : List Nat) (hch : ch < n) (hg : given ch calls = some (node, off)) (hn : types[node]? = some l) (ho : off < l.length)
    (hs : l.length ≤ analogSize) :
    moduleType (configure (analogPlace (types.map List.length)) n calls) types ch = some (some l[off]) := by
  have hp := C79_places (analogPlace (types.map List.length)) n calls ch
  rw [if_pos hch, hg] at hp
  simp only [Option.bind_some, analogPlace, List.getElem?_map, hn, Option.map_some, if_pos (show off < analogSize by omega)] at hp
  simp [moduleType, hp, hn, ho]

example : moduleType (configure (analogPlace [2]) 1 [(0, 0, 1)]) [[461, 466]] 0 = some (some 466) := by decide

/-- C79 does not hold for analog channels: any offset behind the channels of the node, up to the size of the buffer, is
accepted, and then every use of the channel reads the module type behind the end of the table. -/
theorem C79_analog_violated (types : List (List Nat)) (n : Nat) (calls : List (Nat × Nat × Nat)) (ch : Nat) (node off : Nat)
    (l : List Nat) (hch : ch < n) (hg : given ch calls = some (node, off)) (hn : types[node]? = some l) (ho : l.length ≤ off)
    (hs : off < analogSize) :
    moduleType (configure (analogPlace (types.map List.length)) n calls) types ch = none := by
  have hp := C79_places (analogPlace (types.map List.length)) n calls ch
  rw [if_pos hch, hg] at hp
  simp only [Option.bind_some, analogPlace, List.getElem?_map, hn, Option.map_some, if_pos hs] at hp
  simp [moduleType, hp, hn, ho]

example : moduleType (configure (analogPlace [2]) 1 [(0, 0, 2)]) [[461, 466]] 0 = none := by decide

/-- C75 in the sense of what devices show does not hold: reading an output of a device gives what was asked for, even when the
coupler does not answer or refuses. -/
theorem C75_shown_violated (b : Buf) (nd : Nat → Node) (e : Net) (p : Places) (ch node off : Nat) (v : Byte)
    (hp : p[ch]? = some (some (node, off))) (hc : (nd node).doCnt ≤ 255) (he : NoData 0x0F e) :
    let asked := (setDo p (fun i => (nd i).dReq) ch v).1
    ∃ x nd', writeDo b { nd node with dReq := asked node } e = some (x, nd') ∧ nd'.dCur = (nd node).dCur ∧
      getBit p (fun i => if i = node then nd'.dReq else asked i) ch = v := by
  intro asked
  have hset : asked node off = v := by simp [asked, setDo, hp]
  obtain ⟨x, nd', h1, _, _, _, h5, _, h7⟩ := C75_digital_partial b { nd node with dReq := asked node } e hc
  refine ⟨x, nd', h1, h5 he, ?_⟩
  have : nd'.dReq = asked node := by rw [h7]
  simp [getBit, hp, this, hset]

example : NoData 0x0F ⟨0, 0, true, true, []⟩ := Or.inr (Or.inl rfl)

end Ptusa.Coupler
