import Verif.Coupler.Spec
import Verif.Tcp.Lemmas
import Verif.Timer.Lemmas
import Verif.CritErr.Lemmas
import Mathlib.Data.List.Induction

namespace Ptusa.Coupler

open Tcp (Byte Buf put)
open CritErr (Mgr Call key)

theorem talk_ok (l : Link) (num : BitVec 64) (e : Net) :
    (talk l num e).ok = true ↔
      (l.ok = true ∨ (¬ Time.deltaMs e.now l.lastInit < l.delay ∧ e.connects = true)) ∧ e.sends = true ∧ e.got ≠ [] := by
  have hw : (l.watch num e.now).1.ok = l.ok ∧ (l.watch num e.now).1.lastInit = l.lastInit ∧
      (l.watch num e.now).1.delay = l.delay := by
    unfold Link.watch; split <;> split <;> simp
  simp only [talk, hw.1, hw.2.1, hw.2.2]
  by_cases h1 : l.ok = true
  · simp only [h1]
    by_cases h2 : e.sends = true <;> by_cases h3 : e.got = [] <;> simp [h2, h3]
  · simp only [Bool.not_eq_true] at h1
    by_cases h4 : Time.deltaMs e.now l.lastInit < l.delay
    · simp [h1, h4]
    · by_cases h5 : e.connects = true
      · by_cases h2 : e.sends = true <;> by_cases h3 : e.got = [] <;> simp [h1, h2, h3, h4, h5]
      · simp [h1, h4, h5]

theorem talk_got {l : Link} {num : BitVec 64} {e : Net} (h : (talk l num e).ok = true) : e.got ≠ [] := ((talk_ok l num e).mp h).2.2

theorem talk_sent {l : Link} {num : BitVec 64} {e : Net} (h : (talk l num e).ok = true) : (talk l num e).sent = true := by
  revert h
  simp only [talk]
  split
  · simp
  · split
    · simp
    · split
      · simp
      · split <;> simp

/-- The connection after an answer. -/
theorem talk_ok_link {l : Link} {num : BitVec 64} {e : Net} (h : (talk l num e).ok = true) :
    (talk l num e).link = { (l.watch num e.now).1 with ok := true, delay := 500, lastPoll := e.after } := by
  revert h
  simp only [talk]
  split
  · simp
  · split
    · simp
    · split
      · simp
      · split <;> simp

theorem watch_quiet (l : Link) (num : BitVec 64) (t : Tm) (h1 : l.lastPoll.toNat ≤ t.toNat)
    (h2 : t.toNat ≤ l.lastPoll.toNat + 6000) : (l.watch num t).1 = { l with alarm := false } := by
  have h : ¬ 6000 < Time.deltaMs t l.lastPoll := by
    rw [BitVec.lt_def, Timer.delta_eq h1]
    show ¬ 6000 < _
    omega
  unfold Link.watch
  rw [if_neg h]
  by_cases ha : l.alarm = true
  · rw [if_pos ha]
  · rw [if_neg ha]
    simp only [Bool.not_eq_true] at ha
    simp [← ha]

/-- An exchange that fits the buffer. -/
theorem exchange_some (b : Buf) (l : Link) (num : BitVec 64) (ns nr : Nat) (e : Net) (hs : ns ≤ 262) (hr : nr ≤ 262) :
    exchange b l num ns nr e = some ⟨if (talk l num e).ok then put b 0 (e.got.take nr) else b, talk l num e,
      if (talk l num e).sent then [Tcp.get b 0 ns] else []⟩ := by
  have h1 : ¬ buffSize < ns := by simp only [buffSize]; omega
  have h2 : ¬ buffSize < (e.got.take nr).length := by simp only [buffSize, List.length_take]; omega
  simp only [exchange, h1, h2, if_false]
  by_cases h : (talk l num e).ok = true
  · simp [h, talk_sent h]
  · simp [h]

theorem packByte_bit (f : Nat → Bool) (k : Nat) (hk : k < 8) : (packByte f).getLsbD k = f k := by
  have hr : List.range 8 = [0, 1, 2, 3, 4, 5, 6, 7] := by decide
  have h1 : ∀ (c : Bool) (m : Nat), (if c then 1#8 else 0#8 : BitVec 8).getLsbD m = (c && decide (m = 0)) := by
    intro c m; cases c <;> simp [BitVec.getLsbD_one]
  have h2 : ∀ (c : Bool) (m : Nat) (h : m < 8), (if c then 1#8 else 0#8 : BitVec 8)[m] = (c && decide (m = 0)) := by
    intro c m h; rw [← BitVec.getLsbD_eq_getElem]; exact h1 c m
  simp only [packByte, hr, List.foldl]
  have : k = 0 ∨ k = 1 ∨ k = 2 ∨ k = 3 ∨ k = 4 ∨ k = 5 ∨ k = 6 ∨ k = 7 := by omega
  rcases this with rfl | rfl | rfl | rfl | rfl | rfl | rfl | rfl <;>
    simp [h2]

theorem word_toNat (a b : Byte) : (a ++ b : BitVec 16).toNat = a.toNat * 256 + b.toNat := by
  have h := BitVec.toNat_append a b
  rw [Nat.shiftLeft_eq, show 2 ^ 8 = 256 from rfl] at h
  refine h.trans ?_
  have := Nat.two_pow_add_eq_or_of_lt (show b.toNat < 2 ^ 8 from b.isLt) a.toNat
  rw [show a.toNat * 256 = 2 ^ 8 * a.toNat by omega, ← this]

theorem wordAt_toNat (l : List Byte) (i : Nat) : (wordAt l i).toNat = (l.getD i 0).toNat * 256 + (l.getD (i + 1) 0).toNat :=
  word_toNat _ _

/-- The bytes of a message in the buffer. -/
theorem put_zero (b : Buf) (l : List Byte) (i : Nat) (h : i < l.length) : put b 0 l i = l.getD i 0 := by
  rw [Tcp.put_in _ _ _ _ (Nat.zero_le _) (by omega)]; simp

theorem get_put (b : Buf) (l : List Byte) : Tcp.get (put b 0 l) 0 l.length = l := by
  apply List.ext_getElem
  · simp [Tcp.get]
  · intro i h1 h2
    simp only [Tcp.get, List.getElem_map, List.getElem_range, Nat.zero_add]
    rw [put_zero _ _ _ h2]; simp [List.getD, List.getElem?_eq_getElem h2]

theorem getD_left (a b : List Byte) (i : Nat) (h : i < a.length) : (a ++ b).getD i 0 = a.getD i 0 := by
  simp [List.getD, List.getElem?_append_left h]

theorem getD_right (a b : List Byte) (i : Nat) : (a ++ b).getD (a.length + i) 0 = b.getD i 0 := by
  simp [List.getD, List.getElem?_append_right (Nat.le_add_right a.length i)]

theorem reply_len {code : Byte} {data got : List Byte} (h : Reply code data got) : got.length = data.length + 9 := by
  obtain ⟨hd, h7, _, rfl⟩ := h
  simp [IsHead] at h7 ⊢; omega

theorem reply_code {code : Byte} {data got : List Byte} (h : Reply code data got) : got.getD 7 0 = code := by
  obtain ⟨hd, h7, _, rfl⟩ := h
  rw [List.append_assoc, ← h7]
  rw [show hd.length = hd.length + 0 from rfl, getD_right]; rfl

theorem reply_size {code : Byte} {data got : List Byte} (h : Reply code data got) : (got.getD 8 0).toNat = data.length := by
  obtain ⟨hd, h7, hl, rfl⟩ := h
  have := getD_right hd ([code, BitVec.ofNat 8 data.length] ++ data) 1
  have h8 : hd.length + 1 = 8 := by rw [h7]
  rw [h8] at this
  rw [List.append_assoc, this]
  simp [Nat.mod_eq_of_lt hl]

theorem reply_data {code : Byte} {data got : List Byte} (h : Reply code data got) (i : Nat) :
    got.getD (9 + i) 0 = data.getD i 0 := by
  obtain ⟨hd, h7, hl, rfl⟩ := h
  have := getD_right (hd ++ [code, BitVec.ofNat 8 data.length]) data i
  rw [show 9 + i = (hd ++ [code, BitVec.ofNat 8 data.length]).length + i by simp [h7], this]

theorem refusal_len {code : Byte} {got : List Byte} (h : Refusal code got) : got.length = 9 := by
  obtain ⟨hd, r, h7, rfl⟩ := h; simp [h7]

theorem refusal_code {code : Byte} {got : List Byte} (h : Refusal code got) : got.getD 7 0 = code ||| 0x80 := by
  obtain ⟨hd, r, h7, rfl⟩ := h
  rw [← h7, show hd.length = hd.length + 0 from rfl, getD_right]; rfl

/-- The result of reading the digital inputs. -/
theorem readDi_eq (b : Buf) (nd : Node) (e : Net) (hc : bytesOf nd.diCnt ≤ 253) :
    readDi b nd e =
      let t := talk nd.link nd.num e
      let b1 := put b 0 (reqDi nd.diCnt)
      let b2 := if t.ok then put b1 0 (e.got.take (bytesOf nd.diCnt + 9)) else b1
      some (⟨b2, t, if t.sent then [reqDi nd.diCnt] else []⟩,
        if t.ok ∧ b2 7 = 0x02 ∧ (b2 8).toNat = bytesOf nd.diCnt then
          { nd with
            link := t.link
            di := fun i => if i < nd.diCnt then (b2 (9 + i / 8)).getLsbD (i % 8) else nd.di i }
        else { nd with link := t.link }) := by
  have hg : Tcp.get (put b 0 (reqDi nd.diCnt)) 0 12 = reqDi nd.diCnt := get_put b (reqDi nd.diCnt)
  simp only [readDi, exchange_some _ _ _ 12 (bytesOf nd.diCnt + 9) e (by omega) (by omega), Option.bind_some, hg]
  generalize (if (talk nd.link nd.num e).ok = true then
    put (put b 0 (reqDi nd.diCnt)) 0 (List.take (bytesOf nd.diCnt + 9) e.got) else put b 0 (reqDi nd.diCnt)) = b2
  by_cases hh : (talk nd.link nd.num e).ok = true ∧ b2 7 = 0x02 ∧ (b2 8).toNat = bytesOf nd.diCnt
  · rw [if_pos hh, if_pos hh]
  · rw [if_neg hh, if_neg hh]

theorem place_mono (ty : Nat → Nat) {a b : Nat} (h : a ≤ b) : place ty a ≤ place ty b := by
  induction h with
  | refl => exact Nat.le_refl _
  | step _ ih => exact Nat.le_trans ih (Nat.le_add_right _ _)

theorem regsData_length (w : Nat → BitVec 16) (s n : Nat) : (regsData w s n).length = 2 * n := by
  induction n with
  | zero => rfl
  | succ n ih =>
    rw [regsData, List.range_succ, List.flatMap_append, List.length_append]
    rw [regsData] at ih
    rw [ih]; simp [wordBytes]; omega

theorem regsData_get (w : Nat → BitVec 16) (s n j : Nat) (h : j < n) :
    (regsData w s n).getD (2 * j) 0 = (w (s + j)).extractLsb' 8 8 ∧
    (regsData w s n).getD (2 * j + 1) 0 = (w (s + j)).extractLsb' 0 8 := by
  induction n with
  | zero => omega
  | succ n ih =>
    have hs : regsData w s (n + 1) = regsData w s n ++ wordBytes (w (s + n)) := by
      simp [regsData, List.range_succ, List.flatMap_append]
    rw [hs]
    have hl := regsData_length w s n
    by_cases hj : j < n
    · rw [getD_left _ _ _ (by omega), getD_left _ _ _ (by omega)]
      exact ih hj
    · have : j = n := by omega
      subst this
      have h0 := getD_right (regsData w s j) (wordBytes (w (s + j))) 0
      have h1 := getD_right (regsData w s j) (wordBytes (w (s + j))) 1
      rw [hl] at h0 h1
      exact ⟨h0, h1⟩

theorem swapped_eq (v : BitVec 16) : v.extractLsb' 8 8 ++ v.extractLsb' 0 8 = v := by
  apply BitVec.eq_of_getLsbD_eq
  intro i hi
  rw [BitVec.getLsbD_append]
  by_cases h : i < 8
  · simp [h]
  · have : i - 8 < 8 := by omega
    simp [h, this, show 8 + (i - 8) = i by omega]

theorem isIol_iff (ty : Nat) : isIol ty = true ↔ IolMaster ty := by simp [isIol, IolMaster]

theorem asks_regs (a n : Nat) (ha : a < 65536) (hn : n < 65536) : Asks (reqRegs a n) 0x04 a n := by
  refine ⟨rfl, rfl, ?_, ?_⟩ <;> rw [wordAt_toNat] <;> simp [reqRegs] <;> omega

/-- The inputs after one part. -/
theorem takeRegs_eq (w : Nat → BitVec 16) (x : Buf) (nd : Node) (s n : Nat)
    (hx : ∀ i < 2 * n, x (9 + i) = (regsData w s n).getD i 0) :
    (∀ i, (takeRegs x nd s n).ai i =
      if s ≤ i ∧ i < s + n then (if IolMaster (nd.aiType i) then swapped (w i) else w i) else nd.ai i) ∧
    (∀ i, (takeRegs x nd s n).di i =
      if 16 * s ≤ i ∧ i < 16 * (s + n) then regBit (w (i / 16)) (i % 16) else nd.di i) := by
  constructor
  · intro i
    simp only [takeRegs]
    by_cases h : s ≤ i ∧ i < s + n
    · rw [if_pos h, if_pos h]
      obtain ⟨g1, g2⟩ := regsData_get w s n (i - s) (by omega)
      rw [show s + (i - s) = i by omega] at g1 g2
      rw [hx _ (by omega), show 9 + 2 * (i - s) + 1 = 9 + (2 * (i - s) + 1) by omega, hx _ (by omega), g1, g2]
      by_cases hi : IolMaster (nd.aiType i)
      · rw [if_pos ((isIol_iff _).mpr hi), if_pos hi]; rfl
      · rw [if_neg (fun c => hi ((isIol_iff _).mp c)), if_neg hi]; exact swapped_eq _
    · rw [if_neg h, if_neg h]
  · intro i
    simp only [takeRegs]
    by_cases h : 16 * s ≤ i ∧ i < 16 * (s + n)
    · rw [if_pos h, if_pos h, hx _ (by omega)]
      obtain ⟨g1, g2⟩ := regsData_get w s n (i / 16 - s) (by omega)
      rw [show s + (i / 16 - s) = i / 16 by omega] at g1 g2
      unfold regBit
      by_cases h8 : i % 16 < 8
      · rw [if_pos h8, show (i - 16 * s) / 8 = 2 * (i / 16 - s) by omega, g1, show (i - 16 * s) % 8 = i % 16 by omega]
        simp [h8]
      · rw [if_neg h8, show (i - 16 * s) / 8 = 2 * (i / 16 - s) + 1 by omega, g2, show (i - 16 * s) % 8 = i % 16 - 8 by omega]
        have : i % 16 - 8 < 8 := by omega
        simp [this]
    · rw [if_neg h, if_neg h]

theorem noData_code {b : Buf} {l : Link} {num : BitVec 64} {e : Net} {code : Byte} {nr : Nat} (h : NoData code e) (hnr : 9 ≤ nr)
    (hc : code ||| 0x80 ≠ code) : ¬ ((talk l num e).ok = true ∧
      (if (talk l num e).ok = true then put b 0 (e.got.take nr) else b) 7 = code) := by
  rintro ⟨ht, h7⟩
  obtain ⟨_, hs, hg⟩ := (talk_ok _ _ _).mp ht
  rw [if_pos ht] at h7
  rcases h with h | h | h
  · rw [hs] at h; simp at h
  · exact hg h
  · have hl := refusal_len h
    rw [List.take_of_length_le (by omega), put_zero _ _ _ (by omega), refusal_code h] at h7
    exact hc h7

/-- `m` parts are answered, the next one (if there is one) is not. -/
theorem readPhoenix_parts (w : Nat → BitVec 16) (ev : Nat → Net) (m : Nat) : ∀ (b : Buf) (nd : Node) (k start : Nat),
    nd.aiCnt ≤ 2016 → 16 * nd.aiCnt ≤ nd.diCnt → nd.link.ok = true →
    (∀ j < m, start + 123 * j < nd.aiCnt ∧ (ev (k + j)).sends = true ∧
      Reply 0x04 (regsData w (start + 123 * j) (min 123 (nd.aiCnt - (start + 123 * j)))) (ev (k + j)).got) →
    (start + 123 * m < nd.aiCnt → NoData 0x04 (ev (k + m))) →
    ∃ x nd' sent, readPhoenix b nd ev k start = some (x, nd', sent) ∧
      (∀ i, nd'.ai i = if start ≤ i ∧ i < min nd.aiCnt (start + 123 * m) then
        (if IolMaster (nd.aiType i) then swapped (w i) else w i) else nd.ai i) ∧
      (∀ i, nd'.di i = if 16 * start ≤ i ∧ i < 16 * min nd.aiCnt (start + 123 * m) then regBit (w (i / 16)) (i % 16)
        else nd.di i) ∧
      nd' = { nd with link := nd'.link, ai := nd'.ai, di := nd'.di } ∧
      (∀ j < m, ∃ req, sent[j]? = some req ∧
        Asks req 0x04 (8000 + start + 123 * j) (min 123 (nd.aiCnt - (start + 123 * j)))) ∧ sent.length ≤ m + 1 ∧
      (nd.aiCnt ≤ start + 123 * m → sent.length = m) := by
  induction m with
  | zero =>
    intro b nd k start hc hd hok _ hbad
    by_cases hs : nd.aiCnt ≤ start
    · refine ⟨b, nd, [], ?_, ?_, ?_, rfl, ?_, by simp, by simp⟩
      · rw [readPhoenix, dif_pos hs]
      · intro i; rw [if_neg]; omega
      · intro i; rw [if_neg]; omega
      · intro j hj; omega
    · have hb := hbad (by omega)
      rw [readPhoenix, dif_neg hs]
      have hp : part nd.aiCnt start ≤ 123 := Nat.min_le_left _ _
      simp only [exchange_some _ _ _ 12 (2 * part nd.aiCnt start + 9) _ (by omega) (by omega)]
      have hno := noData_code (b := put b 0 (reqRegs (8000 + start) (part nd.aiCnt start))) (l := nd.link) (num := nd.num)
        (nr := 2 * part nd.aiCnt start + 9) hb (by omega) (by decide)
      rw [if_neg (fun c => hno ⟨c.1, c.2.1⟩)]
      refine ⟨_, _, _, rfl, ?_, ?_, rfl, ?_, ?_, ?_⟩
      · intro i; rw [if_neg]; omega
      · intro i; rw [if_neg]; omega
      · intro j hj; omega
      · split <;> simp
      · omega
  | succ m ih =>
    intro b nd k start hc hd hok hgood hbad
    obtain ⟨h1, h2, h3⟩ := hgood 0 (by omega)
    simp only [Nat.mul_zero, Nat.add_zero] at h1 h2 h3
    rw [readPhoenix, dif_neg (by omega)]
    have hpd : part nd.aiCnt start = min 123 (nd.aiCnt - start) := rfl
    generalize hp : part nd.aiCnt start = n at *
    rw [← hpd] at h3
    have hlen := reply_len h3
    rw [regsData_length] at hlen
    have htok : (talk nd.link nd.num (ev k)).ok = true := by
      rw [talk_ok]
      refine ⟨Or.inl hok, h2, ?_⟩
      intro c; rw [c] at hlen; simp at hlen
    have htake : (ev k).got.take (2 * n + 9) = (ev k).got := List.take_of_length_le (by omega)
    have hat : ∀ i, i < (ev k).got.length → put (put b 0 (reqRegs (8000 + start) n)) 0 (ev k).got i = (ev k).got.getD i 0 :=
      fun i hi => put_zero _ _ _ hi
    have h7 := (hat 7 (by omega)).trans (reply_code h3)
    have h8 : (put (put b 0 (reqRegs (8000 + start) n)) 0 (ev k).got 8).toNat = 2 * n := by
      rw [hat 8 (by omega), reply_size h3, regsData_length]
    have hcond : start + n ≤ analogSize ∧ 16 * (start + n) ≤ nd.diCnt := by simp only [analogSize]; omega
    have hsent : Tcp.get (put b 0 (reqRegs (8000 + start) n)) 0 12 = reqRegs (8000 + start) n :=
      get_put b (reqRegs (8000 + start) n)
    simp only [exchange_some _ _ _ 12 (2 * n + 9) _ (by omega) (show 2 * n + 9 ≤ 262 by omega), htok, if_true, htake, h7, h8,
      and_self, hcond, talk_sent htok, hsent]
    obtain ⟨t1, t2⟩ := takeRegs_eq w (put (put b 0 (reqRegs (8000 + start) n)) 0 (ev k).got)
      { nd with link := (talk nd.link nd.num (ev k)).link } start n (by
        intro i hi; rw [hat _ (by omega), reply_data h3])
    generalize hnd1 : takeRegs (put (put b 0 (reqRegs (8000 + start) n)) 0 (ev k).got)
      { nd with link := (talk nd.link nd.num (ev k)).link } start n = nd1 at t1 t2
    have hf : nd1 = { nd with link := (talk nd.link nd.num (ev k)).link, ai := nd1.ai, di := nd1.di } := by rw [← hnd1]; rfl
    have hai : nd1.aiCnt = nd.aiCnt := by rw [hf]
    have hty : nd1.aiType = nd.aiType := by rw [hf]
    have hlk : nd1.link.ok = true := by rw [hf]; simp only [talk_ok_link htok]
    have hmn : n = 123 ∨ (m = 0 ∧ start + n = nd.aiCnt) := by
      rcases Nat.eq_zero_or_pos m with h | h
      · omega
      · have := (hgood 1 (by omega)).1; omega
    have hpos : ∀ j, j < m → start + n + 123 * j = start + 123 * (j + 1) := by intro j hj; omega
    obtain ⟨x, nd', sent, r1, r2, r3, r4, r5, r6, r7⟩ := ih (put (put b 0 (reqRegs (8000 + start) n)) 0 (ev k).got) nd1 (k + 1)
      (start + n) (by omega) (by rw [hf]; omega) hlk
      (by
        intro j hj
        rw [hai, hpos j hj, show k + 1 + j = k + (j + 1) by omega]
        exact hgood (j + 1) (by omega))
      (by
        intro h
        rw [hai] at h
        rw [show k + 1 + m = k + (m + 1) by omega]
        exact hbad (by omega))
    rw [hai] at r2 r3 r5 r7
    rw [hty] at r2
    refine ⟨x, nd', reqRegs (8000 + start) n :: sent, by rw [r1]; rfl, ?_, ?_, ?_, ?_, ?_, ?_⟩
    · intro i
      rw [r2 i, t1 i]
      by_cases a1 : start + n ≤ i ∧ i < min nd.aiCnt (start + n + 123 * m)
      · have a3 : start ≤ i ∧ i < min nd.aiCnt (start + 123 * (m + 1)) := by omega
        rw [if_pos a1, if_pos a3]
      · rw [if_neg a1]
        by_cases a2 : start ≤ i ∧ i < start + n
        · have a3 : start ≤ i ∧ i < min nd.aiCnt (start + 123 * (m + 1)) := by omega
          rw [if_pos a2, if_pos a3]
        · rw [if_neg a2, if_neg (by omega)]
    · intro i
      rw [r3 i, t2 i]
      by_cases a1 : 16 * (start + n) ≤ i ∧ i < 16 * min nd.aiCnt (start + n + 123 * m)
      · rw [if_pos a1, if_pos (by omega)]
      · rw [if_neg a1]
        by_cases a2 : 16 * start ≤ i ∧ i < 16 * (start + n)
        · rw [if_pos a2, if_pos (by omega)]
        · rw [if_neg a2, if_neg (by omega)]
    · rw [r4, hf]
    · intro j hj
      cases j with
      | zero =>
        refine ⟨_, rfl, ?_⟩
        rw [Nat.mul_zero, Nat.add_zero, Nat.add_zero, ← hpd]
        exact asks_regs _ _ (by omega) (by omega)
      | succ j =>
        obtain ⟨req, q1, q2⟩ := r5 j (by omega)
        refine ⟨req, by simpa using q1, ?_⟩
        rw [hpos j (by omega)] at q2
        rw [show 8000 + start + 123 * (j + 1) = 8000 + (start + n) + 123 * j by have := hpos j (by omega); omega]
        exact q2
    · simp; omega
    · intro h
      have := r7 (by omega)
      simp [this]

theorem bytesOf_eq (n : Nat) : bytesOf n = (n + 7) / 8 := by unfold bytesOf; split <;> omega

theorem reqDo_length (cnt : Nat) (o : Nat → Byte) : (reqDo cnt o).length = 13 + bytesOf cnt := by simp [reqDo]; omega

theorem reqDo_sets (cnt : Nat) (o : Nat → Byte) (hc : cnt ≤ 255) :
    SetsBits (reqDo cnt o) cnt fun i => (o i).getLsbD 0 := by
  have hz : (BitVec.ofNat 8 cnt : Byte) >>> 8 = 0#8 := by
    apply BitVec.eq_of_toNat_eq
    rw [BitVec.toNat_ushiftRight, Nat.shiftRight_eq_div_pow]
    exact Nat.div_eq_of_lt (BitVec.isLt _)
  refine ⟨by rw [reqDo_length, bytesOf_eq], ?_, rfl, by rw [wordAt_toNat]; simp [reqDo], ?_, ?_, ?_⟩
  · rw [reqDo_length, bytesOf_eq, wordAt_toNat]
    simp [reqDo, bytesOf_eq]; omega
  · rw [wordAt_toNat]; simp [reqDo, hz]; omega
  · simp [reqDo, bytesOf_eq]; omega
  · intro i hi
    have hd : (reqDo cnt o).drop 13 = (List.range (bytesOf cnt)).map fun j =>
      packByte fun k => decide (8 * j + k < cnt) && (o (8 * j + k)).getLsbD 0 := by simp [reqDo]
    rw [hd, bitOf]
    have hj : i / 8 < bytesOf cnt := by rw [bytesOf_eq]; omega
    have : ((List.range (bytesOf cnt)).map fun j => packByte fun k => decide (8 * j + k < cnt) && (o (8 * j + k)).getLsbD 0).getD
        (i / 8) 0 = packByte fun k => decide (8 * (i / 8) + k < cnt) && (o (8 * (i / 8) + k)).getLsbD 0 := by
      simp [List.getD, hj]
    rw [this, packByte_bit _ _ (by omega), show 8 * (i / 8) + i % 8 = i by omega]

/-- Writing digital outputs. -/
theorem writeDo_eq (b : Buf) (nd : Node) (e : Net) (hc : bytesOf nd.doCnt ≤ 249) :
    writeDo b nd e =
      let t := talk nd.link nd.num e
      let b1 := put b 0 (reqDo nd.doCnt nd.dReq)
      let b2 := if t.ok then put b1 0 (e.got.take 12) else b1
      some (⟨b2, t, if t.sent then [reqDo nd.doCnt nd.dReq] else []⟩,
        if t.ok ∧ b2 7 = 0x0F then
          { nd with
            link := t.link
            dCur := fun i => if i < nd.doCnt then nd.dReq i else nd.dCur i }
        else { nd with link := t.link }) := by
  have hg : Tcp.get (put b 0 (reqDo nd.doCnt nd.dReq)) 0 (bytesOf nd.doCnt + 13) = reqDo nd.doCnt nd.dReq := by
    rw [show bytesOf nd.doCnt + 13 = (reqDo nd.doCnt nd.dReq).length by rw [reqDo_length]; omega]; exact get_put b _
  have hn : ¬ buffSize < 13 + bytesOf nd.doCnt := by simp only [buffSize]; omega
  simp only [writeDo, if_neg hn, exchange_some _ _ _ (bytesOf nd.doCnt + 13) 12 e (by omega) (by omega), Option.bind_some, hg]
  generalize (if (talk nd.link nd.num e).ok = true then
    put (put b 0 (reqDo nd.doCnt nd.dReq)) 0 (List.take 12 e.got) else put b 0 (reqDo nd.doCnt nd.dReq)) = b2
  by_cases hh : (talk nd.link nd.num e).ok = true ∧ b2 7 = 0x0F
  · rw [if_pos hh, if_pos hh]
  · rw [if_neg hh, if_neg hh]

theorem confirm_len {code : Byte} {got : List Byte} (h : Confirm code got) : got.length = 12 := by
  obtain ⟨hd, w, h7, hw, rfl⟩ := h; simp [h7, hw]

theorem confirm_code {code : Byte} {got : List Byte} (h : Confirm code got) : got.getD 7 0 = code := by
  obtain ⟨hd, w, h7, hw, rfl⟩ := h
  rw [List.append_assoc, ← h7, show hd.length = hd.length + 0 from rfl, getD_right]; rfl

theorem confirms_code {l : Link} {num : BitVec 64} {e : Net} {code : Byte} (b : Buf) (h : Confirms code e) (hok : l.ok = true) :
    (talk l num e).ok = true ∧
      (if (talk l num e).ok = true then put b 0 (e.got.take 12) else b) 7 = code := by
  have hlen := confirm_len h.2
  have ht : (talk l num e).ok = true := by
    rw [talk_ok]
    refine ⟨Or.inl hok, h.1, ?_⟩
    intro c; rw [c] at hlen; simp at hlen
  refine ⟨ht, ?_⟩
  rw [if_pos ht, List.take_of_length_le (by omega), put_zero _ _ _ (by omega), confirm_code h.2]

theorem modState_fst (ty : Nat → Nat) (i : Nat) : (modState ty i).1 = ty i := by
  induction i with
  | zero =>
    simp only [modState]
    by_cases hz : ty 0 = 0
    · simp [hz, isIol]
    · rw [if_pos hz]; split <;> [rfl; (split <;> rfl)]
  | succ i ih =>
    rw [modState]
    by_cases hz : ty (i + 1) = (modState ty i).1
    · rw [if_neg (not_not.mpr hz), hz]; split <;> [rfl; (split <;> rfl)]
    · rw [if_pos hz]; split <;> [rfl; (split <;> rfl)]

theorem modState_run (ty : Nat → Nat) (s i : Nat) (h : RunStart ty s i) :
    (IolMaster (ty i) → (modState ty i).2 = (i - s) % 32) ∧ (ty i = 2688093 → (modState ty i).2 = (i - s) % 14) := by
  have hx : ∀ t, ty t = 2688093 → ¬ isIol (ty t) = true := by
    intro t ht; rw [ht]; decide
  induction i with
  | zero =>
    have hs : s = 0 := by have := h.1; omega
    subst hs
    constructor
    · intro hi
      have h0 : ty 0 ≠ 0 := by rcases hi with hi | hi <;> omega
      simp only [modState, if_pos h0]
      rw [if_pos ((isIol_iff _).mpr hi)]
    · intro hi
      have h0 : ty 0 ≠ 0 := by omega
      simp only [modState, if_pos h0]
      rw [if_neg (hx 0 hi), if_pos hi]
  | succ i ih =>
    obtain ⟨h1, h2, h3⟩ := h
    by_cases hsi : s = i + 1
    · subst hsi
      have hne : ty (i + 1) ≠ (modState ty i).1 := by
        rw [modState_fst]
        rcases h3 with h3 | h3
        · omega
        · simpa using h3.symm
      rw [modState]
      rw [if_pos hne]
      constructor
      · intro hi; rw [if_pos ((isIol_iff _).mpr hi)]; simp
      · intro hi; rw [if_neg (hx _ hi), if_pos hi]; simp
    · have he : ty i = ty (i + 1) := h2 i (by omega) (by omega)
      have hr : RunStart ty s i := ⟨by omega, fun j a b => by rw [he]; exact h2 j a (by omega), by rw [he]; exact h3⟩
      obtain ⟨i1, i2⟩ := ih hr
      have hne : ¬ ty (i + 1) ≠ (modState ty i).1 := by rw [modState_fst, he]; simp
      rw [modState]
      rw [if_neg hne, modState_fst, he]
      rw [he] at i1 i2
      constructor
      · intro hi
        rw [if_pos ((isIol_iff _).mpr hi)]
        dsimp only
        rw [i1 hi]; omega
      · intro hi
        rw [if_neg (hx _ hi), if_pos hi]
        dsimp only
        rw [i2 hi]; omega

theorem runStart_exists (ty : Nat → Nat) (i : Nat) : ∃ s, RunStart ty s i := by
  induction i with
  | zero => exact ⟨0, Nat.le_refl _, fun j _ b => by rw [show j = 0 by omega], Or.inl rfl⟩
  | succ i ih =>
    by_cases h : ty i = ty (i + 1)
    · obtain ⟨s, h1, h2, h3⟩ := ih
      refine ⟨s, by omega, ?_, ?_⟩
      · intro j a b
        by_cases hj : j = i + 1
        · rw [hj]
        · rw [← h]; exact h2 j a (by omega)
      · rw [← h]; exact h3
    · exact ⟨i + 1, Nat.le_refl _, fun j a b => by rw [show j = i + 1 by omega], Or.inr (by simpa using h)⟩

theorem regBytes_length (nd : Node) (i : Nat) : (regBytes nd i).length = 2 := by
  unfold regBytes bitBytes be; dsimp only
  split
  · split <;> rfl
  · split
    · split <;> rfl
    · split <;> rfl

theorem regBit_bits (o : Nat → Byte) (i k : Nat) (hk : k < 16) :
    regBit ((bitBytes o i).getD 0 0 ++ (bitBytes o i).getD 1 0) k = (o (16 * i + k)).getLsbD 0 := by
  simp only [bitBytes, List.getD_cons_zero, List.getD_cons_succ, regBit]
  by_cases h : k < 8
  · rw [if_pos h, BitVec.getLsbD_append, if_neg (by omega), show 8 + k - 8 = k by omega, packByte_bit _ _ h]
  · rw [if_neg h, BitVec.getLsbD_append, if_pos (by omega), packByte_bit _ _ (by omega), show 16 * i + 8 + (k - 8) = 16 * i + k by omega]

theorem be_word (v : BitVec 16) : (be v).getD 0 0 ++ (be v).getD 1 0 = v := swapped_eq v

theorem outWord_reg (nd : Node) (i : Nat) : OutWord nd i ((regBytes nd i).getD 0 0 ++ (regBytes nd i).getD 1 0) := by
  obtain ⟨s, hs⟩ := runStart_exists nd.aoType i
  refine ⟨s, hs, ?_⟩
  obtain ⟨m1, m2⟩ := modState_run nd.aoType s i hs
  have mf := modState_fst nd.aoType i
  unfold regBytes
  dsimp only
  rw [mf]
  by_cases hi : IolMaster (nd.aoType i)
  · have hx : ¬ nd.aoType i = 2688093 := by rcases hi with hi | hi <;> omega
    have ha : ¬ AnalogOut (nd.aoType i) := by rcases hi with hi | hi <;> rw [hi] <;> decide
    rw [if_pos ((isIol_iff _).mpr hi), m1 hi]
    by_cases h2 : 2 < (i - s) % 32
    · rw [if_pos ⟨hi, h2⟩, if_pos h2]; rfl
    · rw [if_neg (fun c => h2 c.2), if_neg h2, if_neg hx, if_neg ha]
      exact fun k hk => regBit_bits _ _ _ hk
  · rw [if_neg (fun c => hi c.1), if_neg (fun c => hi ((isIol_iff _).mp c))]
    by_cases hx : nd.aoType i = 2688093
    · rw [if_pos hx, if_pos hx, m2 hx]
      by_cases h0 : (i - s) % 14 = 0
      · rw [if_pos h0, if_pos h0]; decide
      · rw [if_neg h0, if_neg h0]; decide
    · rw [if_neg hx, if_neg hx]
      have hao : isAo (nd.aoType i) = true ↔ AnalogOut (nd.aoType i) := by simp [isAo, AnalogOut, or_assoc]
      by_cases ha : AnalogOut (nd.aoType i)
      · rw [if_pos ha, if_pos (hao.mpr ha)]; exact be_word _
      · rw [if_neg ha, if_neg (fun c => ha (hao.mp c))]
        exact fun k hk => regBit_bits _ _ _ hk

theorem flat_length (f : Nat → List Byte) (hf : ∀ i, (f i).length = 2) (n : Nat) :
    ((List.range n).flatMap f).length = 2 * n := by
  induction n with
  | zero => rfl
  | succ n ih => rw [List.range_succ, List.flatMap_append, List.length_append, ih]; simp [hf]; omega

theorem flat_get (f : Nat → List Byte) (hf : ∀ i, (f i).length = 2) (n j : Nat) (h : j < n) (t : Nat) (ht : t < 2) :
    ((List.range n).flatMap f).getD (2 * j + t) 0 = (f j).getD t 0 := by
  induction n with
  | zero => omega
  | succ n ih =>
    have hl := flat_length f hf n
    have hs : (List.range (n + 1)).flatMap f = (List.range n).flatMap f ++ f n := by
      simp [List.range_succ, List.flatMap_append]
    rw [hs]
    by_cases hj : j < n
    · rw [getD_left _ _ _ (by omega)]; exact ih hj
    · have : j = n := by omega
      subst this
      rw [← hl]; exact getD_right _ _ _

theorem reqOut_length (nd : Node) (s n : Nat) : (reqOut nd s n).length = 13 + 2 * n := by
  rw [reqOut, List.length_append, flat_length _ (fun _ => regBytes_length nd _)]; simp [headRegs]

/-- The message of one part is complete, and sets exactly the registers of the part to the right words. -/
theorem reqOut_sets (nd : Node) (s n : Nat) (hs : s + n ≤ 2016) (hn : n ≤ 123) :
    WellFormed (reqOut nd s n) ∧
    (∀ i, s ≤ i → i < s + n → ∃ v, Sets (reqOut nd s n) (9000 + i) v ∧ OutWord nd i v) ∧
    (∀ a v, Sets (reqOut nd s n) a v → ∃ i, s ≤ i ∧ i < s + n ∧ a = 9000 + i ∧ OutWord nd i v) := by
  have hl := reqOut_length nd s n
  have h8 : (wordAt (reqOut nd s n) 8).toNat = 9000 + s := by
    rw [wordAt_toNat]; simp [reqOut, headRegs]; omega
  have h10 : (wordAt (reqOut nd s n) 10).toNat = n := by
    rw [wordAt_toNat]; simp [reqOut, headRegs]; omega
  have hw : ∀ i, s ≤ i → i < s + n → OutWord nd i (wordAt (reqOut nd s n) (13 + 2 * (9000 + i - (9000 + s)))) := by
    intro i h1 h2
    have hg : ∀ t < 2, (reqOut nd s n).getD (13 + 2 * (i - s) + t) 0 = (regBytes nd i).getD t 0 := by
      intro t ht
      have := getD_right (headRegs (9000 + s) n (2 * n)) ((List.range n).flatMap fun j => regBytes nd (s + j)) (2 * (i - s) + t)
      rw [flat_get _ (fun _ => regBytes_length nd _) n (i - s) (by omega) t ht, show s + (i - s) = i by omega] at this
      rw [← this]
      simp only [reqOut]
      congr 1
      simp [headRegs]; omega
    have g0 := hg 0 (by omega)
    have g1 := hg 1 (by omega)
    rw [Nat.add_zero] at g0
    rw [show 9000 + i - (9000 + s) = i - s by omega, wordAt, g0, g1]
    exact outWord_reg nd i
  refine ⟨⟨?_, rfl, by rw [hl, h10], ?_⟩, ?_, ?_⟩
  · rw [hl, wordAt_toNat]; simp [reqOut, headRegs]; omega
  · rw [h10]; simp [reqOut, headRegs]; omega
  · intro i h1 h2
    exact ⟨_, ⟨rfl, by omega, by omega, by rw [h8]⟩, hw i h1 h2⟩
  · rintro a v ⟨_, a1, a2, rfl⟩
    refine ⟨a - 9000, by omega, by omega, by omega, ?_⟩
    have := hw (a - 9000) (by omega) (by omega)
    rw [h8]
    rwa [show 9000 + (a - 9000) - (9000 + s) = a - (9000 + s) by omega] at this

theorem settle_same (x : Ex) (nd : Node) (s n : Nat) :
    settle x nd s n = { nd with link := x.talk.link, aCur := (settle x nd s n).aCur, dCur := (settle x nd s n).dCur } := by
  unfold settle; split <;> rfl

theorem reqOut_same (nd : Node) (l : Link) (a : Nat → BitVec 16) (d : Nat → Byte) (s n : Nat) :
    reqOut { nd with link := l, aCur := a, dCur := d } s n = reqOut nd s n := rfl

/-- All parts, whatever happens on the network. -/
theorem writePhoenix_parts (ev : Nat → Net) (m : Nat) : ∀ (b : Buf) (nd : Node) (k start : Nat),
    nd.aoCnt ≤ start + 123 * m → nd.aoCnt ≤ 2016 → 16 * nd.aoCnt ≤ nd.doCnt →
    ∃ x nd' sent, writePhoenix b nd ev k start = some (x, nd', sent) ∧
      nd' = { nd with link := nd'.link, aCur := nd'.aCur, dCur := nd'.dCur } ∧
      (∀ i, ¬ (start ≤ i ∧ i < nd.aoCnt) → nd'.aCur i = nd.aCur i) ∧
      (∀ i, ¬ (16 * start ≤ i ∧ i < 16 * nd.aoCnt) → nd'.dCur i = nd.dCur i) ∧
      (∀ j i, start + 123 * j ≤ i → i < start + 123 * (j + 1) → NoData 0x10 (ev (k + j)) →
        nd'.aCur i = nd.aCur i ∧ ∀ t < 16, nd'.dCur (16 * i + t) = nd.dCur (16 * i + t)) ∧
      (∀ j i, start + 123 * j ≤ i → i < start + 123 * (j + 1) → i < nd.aoCnt → nd.link.ok = true →
        (∀ j' ≤ j, Confirms 0x10 (ev (k + j'))) →
        nd'.aCur i = nd.aReq i ∧ (∀ t < 16, nd'.dCur (16 * i + t) = nd.dReq (16 * i + t)) ∧
        sent[j]? = some (reqOut nd (start + 123 * j) (min 123 (nd.aoCnt - (start + 123 * j))))) ∧
      (∀ req ∈ sent, ∃ j, start + 123 * j < nd.aoCnt ∧
        req = reqOut nd (start + 123 * j) (min 123 (nd.aoCnt - (start + 123 * j)))) := by
  have stop : ∀ (b : Buf) (nd : Node) (k start : Nat), nd.aoCnt ≤ start →
    ∃ x nd' sent, writePhoenix b nd ev k start = some (x, nd', sent) ∧
      nd' = { nd with link := nd'.link, aCur := nd'.aCur, dCur := nd'.dCur } ∧
      (∀ i, ¬ (start ≤ i ∧ i < nd.aoCnt) → nd'.aCur i = nd.aCur i) ∧
      (∀ i, ¬ (16 * start ≤ i ∧ i < 16 * nd.aoCnt) → nd'.dCur i = nd.dCur i) ∧
      (∀ j i, start + 123 * j ≤ i → i < start + 123 * (j + 1) → NoData 0x10 (ev (k + j)) →
        nd'.aCur i = nd.aCur i ∧ ∀ t < 16, nd'.dCur (16 * i + t) = nd.dCur (16 * i + t)) ∧
      (∀ j i, start + 123 * j ≤ i → i < start + 123 * (j + 1) → i < nd.aoCnt → nd.link.ok = true →
        (∀ j' ≤ j, Confirms 0x10 (ev (k + j'))) →
        nd'.aCur i = nd.aReq i ∧ (∀ t < 16, nd'.dCur (16 * i + t) = nd.dReq (16 * i + t)) ∧
        sent[j]? = some (reqOut nd (start + 123 * j) (min 123 (nd.aoCnt - (start + 123 * j))))) ∧
      (∀ req ∈ sent, ∃ j, start + 123 * j < nd.aoCnt ∧
        req = reqOut nd (start + 123 * j) (min 123 (nd.aoCnt - (start + 123 * j)))) := by
    intro b nd k start hs
    refine ⟨b, nd, [], by rw [writePhoenix, dif_pos hs], rfl, fun _ _ => rfl, fun _ _ => rfl, fun _ _ _ _ _ => ⟨rfl, fun _ _ => rfl⟩,
      ?_, by simp⟩
    intro j i h1 h2 h3; omega
  induction m with
  | zero => intro b nd k start h _ _; exact stop b nd k start (by omega)
  | succ m ih =>
    intro b nd k start hm hc hd
    by_cases hs : nd.aoCnt ≤ start
    · exact stop b nd k start hs
    rw [writePhoenix, dif_neg hs]
    have hpd : part nd.aoCnt start = min 123 (nd.aoCnt - start) := rfl
    generalize hp : part nd.aoCnt start = n at *
    have hcond : start + n ≤ analogSize ∧ 16 * (start + n) ≤ nd.doCnt := by simp only [analogSize]; omega
    have hsent : Tcp.get (put b 0 (reqOut nd start n)) 0 (2 * n + 13) = reqOut nd start n := by
      rw [show 2 * n + 13 = (reqOut nd start n).length by rw [reqOut_length]; omega]; exact get_put b _
    have hno := @noData_code (put b 0 (reqOut nd start n)) nd.link nd.num (ev k) 0x10 12
    have hyes := @confirms_code nd.link nd.num (ev k) 0x10 (put b 0 (reqOut nd start n))
    simp only [hcond, and_self, if_true, exchange_some _ _ _ (2 * n + 13) 12 _ (show 2 * n + 13 ≤ 262 by omega) (show 12 ≤ 262 by omega),
      hsent]
    generalize hx : (⟨if (talk nd.link nd.num (ev k)).ok = true then put (put b 0 (reqOut nd start n)) 0 (List.take 12 (ev k).got)
      else put b 0 (reqOut nd start n), talk nd.link nd.num (ev k),
      if (talk nd.link nd.num (ev k)).sent = true then [reqOut nd start n] else []⟩ : Ex) = x
    have hxb : x.buf = if (talk nd.link nd.num (ev k)).ok = true then put (put b 0 (reqOut nd start n)) 0 (List.take 12 (ev k).got)
      else put b 0 (reqOut nd start n) := by rw [← hx]
    have hxt : x.talk = talk nd.link nd.num (ev k) := by rw [← hx]
    have hxs : x.sent = if (talk nd.link nd.num (ev k)).sent = true then [reqOut nd start n] else [] := by rw [← hx]
    have hsame := settle_same x nd start n
    have hset : settle x nd start n =
        if (talk nd.link nd.num (ev k)).ok = true ∧ x.buf 7 = 0x10 then confirm { nd with link := (talk nd.link nd.num (ev k)).link } start n
        else { nd with link := (talk nd.link nd.num (ev k)).link } := by rw [settle, hxt]
    generalize settle x nd start n = nd1 at hsame hset
    have e1 : nd1.aoCnt = nd.aoCnt := by rw [hsame]
    have e2 : nd1.doCnt = nd.doCnt := by rw [hsame]
    have e3 : nd1.aReq = nd.aReq := by rw [hsame]
    have e4 : nd1.dReq = nd.dReq := by rw [hsame]
    have e5 : ∀ s n, reqOut nd1 s n = reqOut nd s n := by intro s n; rw [hsame]; rfl
    have eout : ∀ i, ¬ (start ≤ i ∧ i < start + n) → nd1.aCur i = nd.aCur i := by
      intro i hi; rw [hset]; split
      · simp only [confirm]; rw [if_neg hi]
      · rfl
    have eoutd : ∀ i, ¬ (16 * start ≤ i ∧ i < 16 * (start + n)) → nd1.dCur i = nd.dCur i := by
      intro i hi; rw [hset]; split
      · simp only [confirm]; rw [if_neg hi]
      · rfl
    have eno : NoData 0x10 (ev k) → nd1.aCur = nd.aCur ∧ nd1.dCur = nd.dCur := by
      intro h
      have := hno h (by omega) (by decide)
      rw [← hxb] at this
      rw [hset, if_neg this]; exact ⟨rfl, rfl⟩
    have eyes : nd.link.ok = true → Confirms 0x10 (ev k) →
        (∀ i, start ≤ i → i < start + n → nd1.aCur i = nd.aReq i ∧ ∀ t < 16, nd1.dCur (16 * i + t) = nd.dReq (16 * i + t)) ∧
        nd1.link.ok = true ∧ x.sent = [reqOut nd start n] := by
      intro hok h
      have hy := hyes h hok
      rw [← hxb] at hy
      refine ⟨?_, ?_, ?_⟩
      · intro i h1 h2
        rw [hset, if_pos hy]
        simp only [confirm]
        refine ⟨by rw [if_pos ⟨h1, h2⟩], ?_⟩
        intro t ht
        rw [if_pos (by omega)]
      · rw [hset, if_pos hy]; simp only [confirm, talk_ok_link hy.1]
      · rw [hxs, talk_sent hy.1]; rfl
    have hmn : n = 123 ∨ start + n = nd.aoCnt := by omega
    obtain ⟨y, nd', sent, r1, r2, r3, r4, r5, r6, r7⟩ := ih x.buf nd1 (k + 1) (start + n) (by omega) (by omega) (by omega)
    rw [e1] at r3 r4 r6 r7
    rw [← hxb, r1, ← hxs]
    refine ⟨y, nd', x.sent ++ sent, rfl, ?_, ?_, ?_, ?_, ?_, ?_⟩
    · rw [r2, hsame]
    · intro i hi
      rw [r3 i (by omega), eout i (by omega)]
    · intro i hi
      rw [r4 i (by omega), eoutd i (by omega)]
    · intro j i h1 h2 hnd
      cases j with
      | zero =>
        obtain ⟨n1, n2⟩ := eno hnd
        have hn123 : n = 123 ∨ nd.aoCnt ≤ start + n := by omega
        rw [r3 i (by omega), n1]
        refine ⟨rfl, fun t ht => ?_⟩
        rw [r4 _ (by omega), n2]
      | succ j =>
        by_cases hn : n = 123
        · obtain ⟨a1, a2⟩ := r5 j i (by omega) (by omega) (by rwa [show k + 1 + j = k + (j + 1) by omega])
          rw [a1, eout i (by omega)]
          refine ⟨rfl, fun t ht => ?_⟩
          rw [a2 t ht, eoutd _ (by omega)]
        · rw [r3 i (by omega), eout i (by omega)]
          refine ⟨rfl, fun t ht => ?_⟩
          rw [r4 _ (by omega), eoutd _ (by omega)]
    · intro j i h1 h2 h3 hok hcf
      obtain ⟨y1, y2, y3⟩ := eyes hok (hcf 0 (by omega))
      cases j with
      | zero =>
        obtain ⟨a1, a2⟩ := y1 i (by omega) (by omega)
        refine ⟨by rw [r3 i (by omega), a1], fun t ht => ?_, ?_⟩
        · rw [r4 _ (by omega), a2 t ht]
        · rw [y3, Nat.mul_zero, Nat.add_zero, ← hpd]; rfl
      | succ j =>
        have hn : n = 123 := by omega
        obtain ⟨a1, a2, a3⟩ := r6 j i (by omega) (by omega) h3 y2 (by
          intro j' hj'; rw [show k + 1 + j' = k + (j' + 1) by omega]; exact hcf (j' + 1) (by omega))
        rw [e3] at a1
        rw [e4] at a2
        refine ⟨a1, a2, ?_⟩
        rw [y3]
        rw [e5, show start + n + 123 * j = start + 123 * (j + 1) by omega] at a3
        simpa using a3
    · intro req hreq
      rw [List.mem_append] at hreq
      rcases hreq with hreq | hreq
      · have : req = reqOut nd start n := by
          rw [hxs] at hreq; revert hreq; split <;> simp
        exact ⟨0, by omega, by rw [this, hpd]; simp⟩
      · obtain ⟨j, j1, j2⟩ := r7 req hreq
        have hn : n = 123 := by omega
        refine ⟨j + 1, by omega, ?_⟩
        rw [j2, e5, show start + n + 123 * j = start + 123 * (j + 1) by omega]

theorem aoBytes_length (ty : Nat → Nat) (o : Nat → BitVec 16) (n : Nat) : (aoBytes n ty o).length = place ty n := by
  induction n with
  | zero => rfl
  | succ n ih =>
    simp only [aoBytes] at ih ⊢
    rw [List.range_succ, List.flatMap_append, List.length_append, ih]
    simp only [place, width, List.flatMap_cons, List.flatMap_nil, List.append_nil]
    split <;> rfl

theorem aoBytes_get (ty : Nat → Nat) (o : Nat → BitVec 16) (n l t : Nat) (h : l < n) (hty : ty l ≠ 638) (ht : t < 2) :
    (aoBytes n ty o).getD (place ty l + t) 0 = (be (o l)).getD t 0 := by
  induction n with
  | zero => omega
  | succ n ih =>
    have hl := aoBytes_length ty o n
    have hs : aoBytes (n + 1) ty o = aoBytes n ty o ++ (if ty n = 638 then [0, 0, 0, 0] else be (o n)) := by
      simp [aoBytes, List.range_succ, List.flatMap_append]
    rw [hs]
    by_cases hj : l < n
    · have := place_mono ty (show l + 1 ≤ n by omega)
      simp only [place, width, if_neg hty] at this
      rw [getD_left _ _ _ (by omega)]; exact ih hj
    · have : l = n := by omega
      subst this
      rw [if_neg hty, ← hl]; exact getD_right _ _ _

theorem mem_step_set (m : Mgr) (c s : BitVec 32) (p : BitVec 64) (k : CritErr.Err) :
    k ∈ (m.step (.set c s p)).errors ↔ k = key c s p ∨ k ∈ m.errors := by
  simp only [Mgr.step]
  split
  · rename_i h
    rw [CritErr.any_iff] at h
    constructor
    · exact Or.inr
    · rintro (rfl | h') <;> assumption
  · simp [or_comm]

theorem mem_step_reset (m : Mgr) (hn : m.errors.Nodup) (c s : BitVec 32) (p : BitVec 64) (k : CritErr.Err) :
    k ∈ (m.step (.reset c s p)).errors ↔ k ≠ key c s p ∧ k ∈ m.errors := by
  simp only [Mgr.step]
  split
  · rw [hn.mem_erase_iff]
  · rename_i h
    rw [CritErr.any_iff] at h
    constructor
    · intro hk; exact ⟨fun c => h (c ▸ hk), hk⟩
    · exact And.right

theorem nodup_step (m : Mgr) (hn : m.errors.Nodup) (c : Call) : (m.step c).errors.Nodup := by
  cases c with
  | set c s p =>
    simp only [Mgr.step]
    split
    · exact hn
    · rename_i h
      rw [CritErr.any_iff] at h
      rw [List.nodup_append]
      refine ⟨hn, by simp, ?_⟩
      intro a ha b hb
      simp only [List.mem_singleton] at hb
      subst hb
      exact fun c => h (c ▸ ha)
  | reset c s p =>
    simp only [Mgr.step]
    split
    · exact hn.erase _
    · exact hn

theorem key_service_ne (num num' : BitVec 64) : key noConnection ioCoupler num ≠ key service ioCoupler num' := by
  simp [key, noConnection, service]

/-- What does not change in the history of a node. -/
structure Inv (num : BitVec 64) (s : Bool × Link × Mgr) : Prop where
  nodup : s.2.2.errors.Nodup
  alarm : s.2.1.alarm = true ↔ Reported s.2.2 num
  off : s.1 = false → s.2.1.alarm = false

theorem watch_calls (l : Link) (num : BitVec 64) (now : Tm) :
    (6000 < Time.deltaMs now l.lastPoll ∧ l.alarm = false ∧ l.watch num now = ({ l with alarm := true }, [.set noConnection ioCoupler num])) ∨
    (6000 < Time.deltaMs now l.lastPoll ∧ l.alarm = true ∧ l.watch num now = (l, [])) ∨
    (¬ 6000 < Time.deltaMs now l.lastPoll ∧ l.alarm = true ∧ l.watch num now = ({ l with alarm := false }, [.reset noConnection ioCoupler num])) ∨
    (¬ 6000 < Time.deltaMs now l.lastPoll ∧ l.alarm = false ∧ l.watch num now = (l, [])) := by
  unfold Link.watch
  by_cases h : 6000 < Time.deltaMs now l.lastPoll
  · rw [if_pos h]
    by_cases ha : l.alarm = false
    · rw [if_pos ha]; exact Or.inl ⟨h, ha, rfl⟩
    · rw [if_neg ha]; exact Or.inr (Or.inl ⟨h, by simpa using ha, rfl⟩)
  · rw [if_neg h]
    by_cases ha : l.alarm = true
    · rw [if_pos ha]; exact Or.inr (Or.inr (Or.inl ⟨h, ha, rfl⟩))
    · rw [if_neg ha]; exact Or.inr (Or.inr (Or.inr ⟨h, by simpa using ha, rfl⟩))

theorem talk_calls (l : Link) (num : BitVec 64) (e : Net) :
    (talk l num e).calls = (l.watch num e.now).2 ∧ (talk l num e).link.alarm = (l.watch num e.now).1.alarm := by
  simp only [talk]
  split
  · simp
  · split
    · simp
    · split
      · simp
      · split <;> simp

theorem watch_poll (l : Link) (num : BitVec 64) (now : Tm) : (l.watch num now).1.lastPoll = l.lastPoll := by
  unfold Link.watch; split <;> split <;> rfl

theorem talk_poll (l : Link) (num : BitVec 64) (e : Net) :
    (talk l num e).link.lastPoll = if (talk l num e).ok then e.after else l.lastPoll := by
  by_cases h : (talk l num e).ok = true
  · rw [talk_ok_link h, if_pos h]
  · rw [if_neg h]
    revert h
    have := watch_poll l num e.now
    simp only [talk]
    split
    · simp [this]
    · split
      · simp [this]
      · split
        · simp [this]
        · split <;> simp [this]

/-- An exchange: whether the loss is reported afterwards, and the other entries. -/
theorem talk_mgr (l : Link) (num : BitVec 64) (e : Net) (m : Mgr) (hn : m.errors.Nodup) (ha : l.alarm = true ↔ Reported m num) :
    (m.run (talk l num e).calls).errors.Nodup ∧
    ((talk l num e).link.alarm = true ↔ 6000 < Time.deltaMs e.now l.lastPoll) ∧
    (Reported (m.run (talk l num e).calls) num ↔ 6000 < Time.deltaMs e.now l.lastPoll) ∧
    ∀ k, k ≠ key noConnection ioCoupler num → (k ∈ (m.run (talk l num e).calls).errors ↔ k ∈ m.errors) := by
  rw [(talk_calls l num e).1, (talk_calls l num e).2]
  rcases watch_calls l num e.now with ⟨h1, h2, h3⟩ | ⟨h1, h2, h3⟩ | ⟨h1, h2, h3⟩ | ⟨h1, h2, h3⟩ <;> rw [h3] <;>
    simp only [Mgr.run, List.foldl]
  · refine ⟨nodup_step _ hn _, iff_of_true trivial h1, iff_of_true ?_ h1, ?_⟩
    · simp only [Reported, mem_step_set, true_or]
    · intro k hk; rw [mem_step_set]; simp [hk]
  · exact ⟨hn, iff_of_true h2 h1, iff_of_true (ha.mp h2) h1, fun _ _ => trivial⟩
  · refine ⟨nodup_step _ hn _, iff_of_false (by simp) h1, iff_of_false ?_ h1, ?_⟩
    · simp only [Reported, mem_step_reset _ hn, ne_eq, not_true_eq_false, false_and, not_false_eq_true]
    · intro k hk; rw [mem_step_reset _ hn]; simp [hk]
  · exact ⟨hn, iff_of_false (by simp [h2]) h1, iff_of_false (fun c => by rw [ha.mpr c] at h2; simp at h2) h1, fun _ _ => trivial⟩

theorem inv_step (num : BitVec 64) (s : Bool × Link × Mgr) (h : Inv num s) (ev : Ev) : Inv num (evStep num s ev) := by
  obtain ⟨act, l, m⟩ := s
  obtain ⟨hn, ha, ho⟩ := h
  cases ev with
  | talk e =>
    cases act with
    | false => exact ⟨hn, ha, ho⟩
    | true =>
      obtain ⟨t1, t2, t3, _⟩ := talk_mgr l num e m hn ha
      exact ⟨t1, t2.trans t3.symm, by simp [evStep]⟩
  | cmd c =>
    have hne := key_service_ne num num
    cases c with
    | enable =>
      refine ⟨nodup_step _ hn (.reset service ioCoupler num), ?_, by simp [evStep, Cmd.run]⟩
      simp only [evStep, Cmd.run, Mgr.run, List.foldl, Reported, mem_step_reset _ hn, ne_eq, hne, not_false_eq_true, true_and]
      exact ha
    | disable =>
      have hn1 := nodup_step _ hn (.set service ioCoupler num)
      refine ⟨nodup_step _ hn1 (.reset noConnection ioCoupler num), ?_, by cases act <;> simp [evStep, Cmd.run]⟩
      simp only [evStep, Cmd.run, Mgr.run, List.foldl, Reported, mem_step_reset _ hn1]
      cases act <;> simp
    | clear =>
      have hn1 := nodup_step _ hn (.reset service ioCoupler num)
      refine ⟨nodup_step _ hn1 (.reset noConnection ioCoupler num), ?_, by simp [evStep, Cmd.run]⟩
      simp only [evStep, Cmd.run, Mgr.run, List.foldl, Reported, mem_step_reset _ hn1]
      simp

theorem inv_run (num : BitVec 64) (h : List Ev) (s : Bool × Link × Mgr) (hi : Inv num s) : Inv num (evRun num s h) := by
  induction h generalizing s with
  | nil => exact hi
  | cons ev h ih => exact ih _ (inv_step num s hi ev)

theorem heard_eq (num : BitVec 64) (h : List Ev) (s : Bool × Link × Mgr) :
    (evRun num s h).2.1.lastPoll = heard num s s.2.1.lastPoll h := by
  induction h generalizing s with
  | nil => rfl
  | cons ev h ih =>
    obtain ⟨act, l, m⟩ := s
    show (evRun num (evStep num (act, l, m) ev) h).2.1.lastPoll = _
    rw [ih]
    cases ev with
    | talk e =>
      cases act with
      | false => simp [heard, evStep]
      | true =>
        simp only [heard, evStep, if_true, true_and]
        rw [talk_poll]
    | cmd c =>
      simp only [heard, evStep]
      congr 1
      cases c <;> cases act <;> rfl

theorem init_inv (num : BitVec 64) (t0 : Tm) (m : Mgr) (hn : m.errors.Nodup) (hm : ¬ Reported m num) : Inv num (evInit t0 m) :=
  ⟨hn, by simp [evInit, Link.init, hm], by simp [evInit]⟩

theorem watch_rest (l : Link) (num : BitVec 64) (now : Tm) : (l.watch num now).1.ok = l.ok ∧ (l.watch num now).1.lastInit = l.lastInit ∧
    (l.watch num now).1.delay = l.delay := by
  unfold Link.watch; split <;> split <;> simp

/-- One exchange, as far as connecting is concerned. -/
theorem talk_retry (l : Link) (num : BitVec 64) (e : Net) :
    ((talk l num e).tried = true ↔ l.ok = false ∧ ¬ Time.deltaMs e.now l.lastInit < l.delay) ∧
    ((talk l num e).tried = false → l.ok = false →
      (talk l num e).link.ok = false ∧ (talk l num e).link.lastInit = l.lastInit ∧ (talk l num e).link.delay = l.delay) ∧
    ((talk l num e).tried = true → e.connects = false → (talk l num e).link.ok = false ∧ (talk l num e).link.lastInit = e.after ∧
      (talk l num e).link.delay = if l.delay < 60000 then l.delay + l.delay else l.delay) ∧
    (l.ok = true ∨ (talk l num e).tried = true ∧ e.connects = true →
      (talk l num e).link.ok = (e.sends && !e.got.isEmpty) ∧ (talk l num e).link.lastInit = l.lastInit ∧
      (talk l num e).link.delay = 500) := by
  obtain ⟨w1, w2, w3⟩ := watch_rest l num e.now
  simp only [talk, w1, w2, w3]
  by_cases h1 : l.ok = true
  · by_cases h2 : e.sends = true <;> by_cases h3 : e.got = [] <;> simp [h1, h2, h3]
  · simp only [Bool.not_eq_true] at h1
    by_cases h4 : Time.deltaMs e.now l.lastInit < l.delay
    · simp [h1, h4, w1, w2, w3]
    · by_cases h5 : e.connects = true
      · by_cases h2 : e.sends = true <;> by_cases h3 : e.got = [] <;> simp [h1, h2, h3, h4, h5]
      · simp [h1, h4, h5]

theorem delay_run (num : BitVec 64) (h : List Net) (l : Link) (n : Nat) (hd : l.delay.toNat = 500 * 2 ^ min n 7)
    (hok : l.ok = true → n = 0) :
    (talks num l h).delay.toNat = 500 * 2 ^ min (failures num l n h) 7 ∧ ((talks num l h).ok = true → failures num l n h = 0) := by
  induction h generalizing l n with
  | nil => exact ⟨hd, hok⟩
  | cons e h ih =>
    simp only [talks, failures]
    obtain ⟨r1, r2, r3, r4⟩ := talk_retry l num e
    by_cases ht : (talk l num e).tried = true
    · rw [if_pos ht]
      by_cases hc : e.connects = true
      · rw [if_pos hc]
        obtain ⟨_, _, q3⟩ := r4 (Or.inr ⟨ht, hc⟩)
        exact ih _ 0 (by rw [q3]; rfl) (fun _ => rfl)
      · rw [if_neg hc]
        obtain ⟨q1, _, q3⟩ := r3 ht (by simpa using hc)
        refine ih _ (n + 1) ?_ (by rw [q1]; simp)
        rw [q3]
        by_cases h7 : n < 7
        · have hmin : min n 7 = n := by omega
          have hmin' : min (n + 1) 7 = n + 1 := by omega
          rw [hmin] at hd
          have hb : 2 ^ n ≤ 2 ^ 6 := Nat.pow_le_pow_right (by omega) (by omega)
          have hlt : l.delay < 60000 := by
            rw [BitVec.lt_def, hd]
            show 500 * 2 ^ n < 60000
            omega
          rw [if_pos hlt, hmin', BitVec.toNat_add, hd, Nat.pow_succ, Nat.mod_eq_of_lt (by omega)]
          omega
        · have hmin : min n 7 = 7 := by omega
          have hmin' : min (n + 1) 7 = 7 := by omega
          rw [hmin] at hd
          have hge : ¬ l.delay < 60000 := by
            rw [BitVec.lt_def, hd]
            show ¬ 500 * 2 ^ 7 < 60000
            omega
          rw [if_neg hge, hd, hmin']
    · rw [if_neg ht]
      simp only [Bool.not_eq_true] at ht
      by_cases ho : l.ok = true
      · obtain ⟨_, _, q3⟩ := r4 (Or.inl ho)
        have := hok ho
        subst this
        exact ih _ 0 (by rw [q3]; rfl) (fun _ => rfl)
      · simp only [Bool.not_eq_true] at ho
        obtain ⟨q1, _, q3⟩ := r2 ht ho
        exact ih _ n (by rw [q3]; exact hd) (by rw [q1]; simp)

theorem idle_run (num : BitVec 64) (l : Link) (mid : List Net) (ho : l.ok = false) (hm : attempts num l mid = 0) :
    (talks num l mid).ok = false ∧ (talks num l mid).lastInit = l.lastInit ∧ (talks num l mid).delay = l.delay := by
  induction mid generalizing l with
  | nil => exact ⟨ho, rfl, rfl⟩
  | cons e mid ih =>
    simp only [attempts] at hm
    have ht : (talk l num e).tried = false := by
      cases h : (talk l num e).tried
      · rfl
      · rw [h] at hm; simp at hm
    obtain ⟨q1, q2, q3⟩ := (talk_retry l num e).2.1 ht ho
    obtain ⟨a1, a2, a3⟩ := ih (talk l num e).link q1 (by omega)
    exact ⟨a1, a2.trans q2, a3.trans q3⟩

theorem talks_append (num : BitVec 64) (l : Link) (a b : List Net) : talks num l (a ++ b) = talks num (talks num l a) b := by
  induction a generalizing l with
  | nil => rfl
  | cons e a ih => exact ih _

theorem failures_append (num : BitVec 64) (l : Link) (n : Nat) (a b : List Net) :
    failures num l n (a ++ b) = failures num (talks num l a) (failures num l n a) b := by
  induction a generalizing l n with
  | nil => rfl
  | cons e a ih => exact ih _ _

theorem configure_snoc (find : Nat → Nat → Option (Nat × Nat)) (n : Nat) (calls : List (Nat × Nat × Nat)) (c : Nat × Nat × Nat) :
    configure find n (calls ++ [c]) = initChannel (configure find n calls) c.1 (find c.2.1 c.2.2) := by
  simp [configure]

theorem configure_length (find : Nat → Nat → Option (Nat × Nat)) (n : Nat) (calls : List (Nat × Nat × Nat)) :
    (configure find n calls).length = n := by
  induction calls using List.reverseRecOn with
  | nil => simp [configure]
  | append_singleton calls c ih =>
    rw [configure_snoc, initChannel]
    split <;> simp [ih]

theorem others_run (num : BitVec 64) (s : Bool × Link × Mgr) (hi : Inv num s) (h : List Ev) (k : CritErr.Err)
    (h1 : k ≠ key noConnection ioCoupler num) (h2 : k ≠ key service ioCoupler num) :
    k ∈ (evRun num s h).2.2.errors ↔ k ∈ s.2.2.errors := by
  induction h generalizing s with
  | nil => exact Iff.rfl
  | cons ev h ih =>
    refine (ih _ (inv_step num s hi ev)).trans ?_
    obtain ⟨act, l, m⟩ := s
    obtain ⟨hn, ha, ho⟩ := hi
    cases ev with
    | talk e =>
      cases act with
      | false => exact Iff.rfl
      | true => exact (talk_mgr l num e m hn ha).2.2.2 k h1
    | cmd c =>
      cases c with
      | enable =>
        simp only [evStep, Cmd.run, Mgr.run, List.foldl, mem_step_reset _ hn]
        simp [h2]
      | disable =>
        have hn1 := nodup_step _ hn (.set service ioCoupler num)
        simp only [evStep, Cmd.run, Mgr.run, List.foldl, mem_step_reset _ hn1, mem_step_set]
        simp [h1, h2]
      | clear =>
        have hn1 := nodup_step _ hn (.reset service ioCoupler num)
        simp only [evStep, Cmd.run, Mgr.run, List.foldl, mem_step_reset _ hn1, mem_step_reset _ hn]
        simp [h1, h2]

end Ptusa.Coupler
