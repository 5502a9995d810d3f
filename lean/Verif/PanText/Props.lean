import Verif.PanText.Lemmas

/-!
# C223 — Texts of washing lines reach the panel
-/
namespace Ptusa.PanText
open Tcp (Byte Buf)
open Text (cp utf8 Plain)

/-- **C223.**  Whichever block of registers is read: a text of a line whose first register is in the block stands there character by character, with
a closing zero. -/
theorem C223_texts_partial {s : St} (hs : ∀ l ∈ s.lines, Proper l) {start n t l : Nat} (h0 : 1000 ≤ start) (ht : t < n) (b : Buf) (L : Line)
    (hl : s.lines[l]? = some L) {x : Nat × Nat × List Byte} (hx : x ∈ texts L) (ha : start + t = 1000 * (l + 1) + x.1) {c : List Byte}
    (hc : Written x.2.1 x.2.2 c) :
    ∃ r, read s start n b = some r ∧ (∀ k (hk : k < c.length), register r (t + k) = cp c[k]) ∧ register r (t + c.length) = 0 := by
  obtain ⟨hk, hh, h32⟩ := known_of_texts L x hx
  have e := content_of_texts s L x hx
  rw [text_written h32 hc] at e
  have hlen : ((c.map cp ++ [0]).flatMap word).length = 2 * (c.length + 1) := by
    rw [words_length, List.length_append, List.length_map]
    rfl
  obtain ⟨r, er, hr⟩ := read_at (room := x.2.1) hs h0 ht b L hl ha hh hk _ e (by have := hc.2.2; omega)
    (by
      simp only [texts, List.mem_cons, List.not_mem_nil, or_false] at hx
      rcases hx with rfl | rfl | rfl | rfl | rfl | rfl | rfl <;> simp)
    (by
      intro o h1 h2
      cases ho : known o with
      | false => rfl
      | true =>
        have hh : o = 0 ∨ o = 20 ∨ o = 40 ∨ o = 60 ∨ o = 199 ∨ o = 200 ∨ o = 224 ∨ o = 248 ∨ o = 300 := by simpa [known] using ho
        simp only [texts, List.mem_cons, List.not_mem_nil, or_false] at hx
        rcases hx with rfl | rfl | rfl | rfl | rfl | rfl | rfl <;> simp only at h1 h2 <;> omega)
  have val : ∀ k (hk : k < (c.map cp ++ [0]).length), (c.map cp ++ [0])[k] < 65536 → register r (t + k) = (c.map cp ++ [0])[k] := by
    intro k hk hv
    have hk' : k < c.length + 1 := by simpa using hk
    have w := words_getD (c.map cp ++ [0]) k hk
    unfold register
    rw [show 3 + 2 * (t + k) = 3 + 2 * t + 2 * k by omega, show 4 + 2 * (t + k) = 3 + 2 * t + (2 * k + 1) by omega, hr _ (by omega), hr _ (by omega),
      w.1, w.2]
    exact word_val hv
  refine ⟨r, er, fun k hk => ?_, ?_⟩
  · have e : (c.map cp ++ [0])[k]'(by simp; omega) = cp c[k] := by
      rw [List.getElem_append_left (by simpa using hk), List.getElem_map]
    rw [val k (by simp; omega) (by rw [e]; exact cp_lt _), e]
  · have e : (c.map cp ++ [0])[c.length]'(by simp) = 0 := by simp
    rw [val c.length (by simp) (by rw [e]; decide), e]

/-- **C223.**  Likewise the number of caustic washes, as a word of 16 bits. -/
theorem C223_count {s : St} (hs : ∀ l ∈ s.lines, Proper l) {start n t l : Nat} (h0 : 1000 ≤ start) (ht : t < n) (b : Buf) (L : Line)
    (hl : s.lines[l]? = some L) (ha : start + t = 1000 * (l + 1) + 199) :
    ∃ r, read s start n b = some r ∧ register r t = (L.caustic % 65536).toNat := by
  obtain ⟨r, er, hr⟩ := read_at (room := 1) hs h0 ht b L hl ha (by omega) rfl _ rfl (by simp [word]) (by omega) (by intro o h1 h2; omega)
  refine ⟨r, er, ?_⟩
  have h1 := hr 0 (by simp [word])
  have h2 := hr 1 (by simp [word])
  unfold register
  rw [show 3 + 2 * t = 3 + 2 * t + 0 by omega, show 4 + 2 * t = 3 + 2 * t + 1 by omega, h1, h2]
  have e := word_val (w := (BitVec.ofInt 16 L.caustic).toNat) (BitVec.isLt _)
  have e2 : (BitVec.ofInt 16 L.caustic).toNat = (L.caustic % 65536).toNat := by rw [BitVec.toNat_ofInt]; rfl
  rw [← e2]
  exact e

/-- **C223.**  Likewise the time, two characters in a register, the first one in the lower byte. -/
theorem C223_time {s : St} (hs : ∀ l ∈ s.lines, Proper l) (h16 : s.time.length = 16) {start n t l : Nat} (h0 : 1000 ≤ start) (ht : t < n) (b : Buf) (L : Line)
    (hl : s.lines[l]? = some L) (ha : start + t = 1000 * (l + 1) + 300) :
    ∃ r, read s start n b = some r ∧
      ∀ k, k < 8 → register r (t + k) = (s.time.getD (2 * k + 1) 0).toNat * 256 + (s.time.getD (2 * k) 0).toNat := by
  have hpl : (packString s.time).length = 16 := by rw [packString_length, h16]
  obtain ⟨r, er, hr⟩ := read_at (room := 8) hs h0 ht b L hl ha (by omega) rfl _ rfl (by omega) (by omega)
    (by
      intro o h1 h2
      cases ho : known o with
      | false => rfl
      | true =>
        have hh : o = 0 ∨ o = 20 ∨ o = 40 ∨ o = 60 ∨ o = 199 ∨ o = 200 ∨ o = 224 ∨ o = 248 ∨ o = 300 := by simpa [known] using ho
        omega)
  refine ⟨r, er, fun k hk => ?_⟩
  have w := packString_getD s.time k (by omega)
  unfold register
  rw [show 3 + 2 * (t + k) = 3 + 2 * t + 2 * k by omega, show 4 + 2 * (t + k) = 3 + 2 * t + (2 * k + 1) by omega, hr _ (by omega), hr _ (by omega),
    w.1, w.2]

/-- **C223 (violated).**  A block that begins inside a text (or holds no first register) leaves the registers as the memory was: what stood there in the
request before, or in an earlier one, is sent. -/
theorem C223_inside_violated (s : St) (start n : Nat) (b : Buf) (h : ∀ t, t < n → known ((start + t) % 1000) = false) : read s start n b = some b := by
  have : ∀ f i, readLoop s start n f i b = some b := by
    intro f
    induction f with
    | zero => exact fun _ => rfl
    | succ f ih =>
      intro i
      unfold readLoop
      by_cases c : i < n
      · rw [if_pos c]
        have e : readOne s start b i = some (b, i + 1) := by
          unfold readOne
          simp only
          by_cases c1 : s.lines.length < (i + start) / 1000
          · rw [if_pos c1]
          · rw [if_neg c1]
            have em : i + start - (i + start) / 1000 * 1000 = (start + i) % 1000 := by omega
            rw [em, h i c]
            rfl
        rw [e]
        exact ih (i + 1)
      · rw [if_neg c]
  exact this n 0

/-- **C223 (violated).**  A name of 24 characters, such as that of the program “Опол.чист.водой в канал.”, fills its field, but the closing zero falls into
the register behind: for the time of the last acid wash that is the first register of the time of the last wash, which overwrites it. -/
theorem C223_long_violated :
    ∃ s : St, ∃ L, s.lines = [L] ∧ L.acid = List.replicate 24 0x41 ∧ L.wash = [0x42] ∧
      (read s 1200 48 fun _ => 0).map (fun r => (List.range 26).map (register r)) = some (List.replicate 24 0x41 ++ [0x42, 0]) :=
  ⟨⟨[⟨fun _ => [], 0, List.replicate 24 0x41, [0x42], []⟩], []⟩, _, rfl, rfl, rfl, by decide +kernel⟩

/-- **C223 (violated).**  The block of registers below 1000 has no line: the program reads before its list. -/
theorem C223_zero_violated (s : St) (n : Nat) (b : Buf) : read s 0 (n + 1) b = none := by
  unfold read readLoop
  rw [if_pos (Nat.succ_pos n)]
  rfl

/-- A station with two lines. -/
private def demo : St :=
  ⟨[⟨fun _ => [], 0, [], [], []⟩, ⟨fun i => if i = 0 then [0xD0, 0x90, 0x37] else [], 70000, [], [0x31, 0x32], []⟩], "17-11-2026 23:30".toList.map fun c => BitVec.ofNat 8 c.toNat⟩

private theorem empty_written {n : Nat} (h : 0 < n) : Written n [] [] := ⟨rfl, fun _ h => absurd h List.not_mem_nil, h⟩

/-- The hypotheses are met: the number “А7” of the first place of the second line, in a block of 30 registers. -/
example : (∀ l ∈ demo.lines, Proper l) ∧ 
    (read demo 1995 30 fun _ => 0x55).map (fun r => [register r 5, register r 6, register r 7]) = some [0x410, 0x37, 0] := by
  refine ⟨?_, ?_⟩
  · intro l hl
    simp only [demo, List.mem_cons, List.not_mem_nil, or_false] at hl
    rcases hl with rfl | rfl <;> intro x hx <;> simp only [texts, List.mem_cons, List.not_mem_nil, or_false] at hx <;>
      rcases hx with rfl | rfl | rfl | rfl | rfl | rfl | rfl <;>
      first
        | exact ⟨[], empty_written (by simp)⟩
        | exact ⟨[0xC0, 0x37], by decide +kernel, by decide +kernel, by simp⟩
        | exact ⟨[0x31, 0x32], by decide +kernel, by decide +kernel, by simp⟩
  · decide +kernel

/-- The count is that modulo 65536. -/
example : (read demo 2190 20 fun _ => 0).map (register · 9) = some 4464 := by decide +kernel

/-- The time: '1', '7', '-', '1'. -/
example : (read demo 2290 20 fun _ => 0).map (fun r => [register r 10, register r 11]) = some [0x3731, 0x312D] := by decide +kernel

end Ptusa.PanText
