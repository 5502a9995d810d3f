import Verif.PanText.Spec
import Verif.Text.Props

namespace Ptusa.PanText
open Tcp (Byte Buf put)
open Text (cp utf8 Plain utf8ToWide)

theorem put_below (b : Buf) (off : Nat) (l : List Byte) (j : Nat) (h : j < off) : put b off l j = b j := by
  unfold put
  exact if_neg (fun x => by omega)

theorem put_at (b : Buf) (off : Nat) (l : List Byte) (k : Nat) (h : k < l.length) : put b off l (off + k) = l.getD k 0 := by
  unfold put
  rw [if_pos ⟨by omega, by omega⟩, Nat.add_sub_cancel_left]

theorem text_written {room : Nat} (hr : room ≤ 32) {u l : List Byte} (h : Written room u l) :
    text u = some ((l.map cp ++ [0]).flatMap word) := by
  obtain ⟨rfl, hp, hl⟩ := h
  have hT : Text.IsText l := fun b hb => ⟨(hp b hb).1, (hp b hb).2.1⟩
  have h3 := Text.toUtf8_three l
  have e := Text.C72_shown_partial l hp (by omega) (l.length + 1) (by omega) []
  rw [Text.C72_typed l hT (l.length + 1) (by omega) []] at e
  unfold text
  rw [e]
  rfl

/-- One pass, when the texts of all lines can be shown. -/
theorem readOne_some {s : St} (hs : ∀ l ∈ s.lines, Proper l) {start : Nat} (h0 : 1000 ≤ start) (b : Buf) (i : Nat) :
    ∃ c next, readOne s start b i = some (c, next) ∧ i < next ∧ (∀ j, j < 3 + i * 2 → c j = b j) ∧
      (next ≤ i + 1 ∨ next = i + skip ((i + start) % 1000) + 1) := by
  unfold readOne
  simp only
  by_cases c1 : s.lines.length < (i + start) / 1000
  · rw [if_pos c1]
    exact ⟨b, i + 1, rfl, by omega, fun _ _ => rfl, Or.inl (Nat.le_refl _)⟩
  rw [if_neg c1]
  have em : i + start - (i + start) / 1000 * 1000 = (i + start) % 1000 := by omega
  rw [em]
  by_cases c2 : known ((i + start) % 1000) = true
  · rw [if_pos c2, if_neg (by omega)]
    have hl : (i + start) / 1000 - 1 < s.lines.length := by omega
    rw [List.getElem?_eq_getElem hl]
    have hp := hs _ (List.getElem_mem hl)
    generalize s.lines[(i + start) / 1000 - 1] = L at hp
    have ht : ∀ x ∈ texts L, ∃ c, text x.2.2 = some c := by
      intro x hx
      obtain ⟨c, hc⟩ := hp x hx
      refine ⟨_, text_written (room := x.2.1) ?_ hc⟩
      simp only [texts, List.mem_cons, List.not_mem_nil, or_false] at hx
      rcases hx with rfl | rfl | rfl | rfl | rfl | rfl | rfl <;> simp
    have hc : ∃ c, content s L ((i + start) % 1000) = some c := by
      generalize (i + start) % 1000 = o at c2
      have : o = 0 ∨ o = 20 ∨ o = 40 ∨ o = 60 ∨ o = 199 ∨ o = 200 ∨ o = 224 ∨ o = 248 ∨ o = 300 := by
        simpa [known] using c2
      rcases this with rfl | rfl | rfl | rfl | rfl | rfl | rfl | rfl | rfl
      · exact ht (0, 20, L.car 0) (by simp [texts])
      · exact ht (20, 20, L.car 1) (by simp [texts])
      · exact ht (40, 20, L.car 2) (by simp [texts])
      · exact ht (60, 32, L.car 3) (by simp [texts])
      · exact ⟨_, rfl⟩
      · exact ht (200, 24, L.acid) (by simp [texts])
      · exact ht (224, 24, L.wash) (by simp [texts])
      · exact ht (248, 31, L.prog) (by simp [texts])
      · exact ⟨_, rfl⟩
    obtain ⟨c, hc⟩ := hc
    simp only [hc, Option.map_some]
    exact ⟨_, _, rfl, by omega, fun j hj => put_below _ _ _ _ hj, Or.inr rfl⟩
  · rw [if_neg c2]
    exact ⟨b, i + 1, rfl, by omega, fun _ _ => rfl, Or.inl (Nat.le_refl _)⟩

theorem readLoop_below {s : St} (hs : ∀ l ∈ s.lines, Proper l) {start : Nat} (h0 : 1000 ≤ start) (n f i : Nat) (b : Buf) :
    ∃ r, readLoop s start n f i b = some r ∧ ∀ j, j < 3 + i * 2 → r j = b j := by
  induction f generalizing i b with
  | zero => exact ⟨b, rfl, fun _ _ => rfl⟩
  | succ f ih =>
    unfold readLoop
    by_cases c : i < n
    · rw [if_pos c]
      obtain ⟨d, next, e, hn, hd, -⟩ := readOne_some hs h0 b i
      rw [e]
      obtain ⟨r, er, hr⟩ := ih next d
      exact ⟨r, er, fun j hj => by rw [hr j (by omega), hd j hj]⟩
    · rw [if_neg c]
      exact ⟨b, rfl, fun _ _ => rfl⟩

/-- No text is leapt over. -/
theorem skip_le (o h : Nat) (hk : known h = true) (hlt : o < h) : o + skip o + 1 ≤ h := by
  have hh : h = 0 ∨ h = 20 ∨ h = 40 ∨ h = 60 ∨ h = 199 ∨ h = 200 ∨ h = 224 ∨ h = 248 ∨ h = 300 := by simpa [known] using hk
  unfold skip
  by_cases c1 : o = 0 ∨ o = 20 ∨ o = 40 ∨ o = 60
  · rw [if_pos c1]; omega
  rw [if_neg c1]
  by_cases c2 : o = 200 ∨ o = 224 ∨ o = 248
  · rw [if_pos c2]; omega
  rw [if_neg c2]
  by_cases c3 : o = 300
  · rw [if_pos c3]; omega
  rw [if_neg c3]; omega

theorem skip_small (o : Nat) : skip o ≤ 23 ∧ (0 < skip o → o ≤ 300) := by
  unfold skip
  by_cases c1 : o = 0 ∨ o = 20 ∨ o = 40 ∨ o = 60
  · rw [if_pos c1]; omega
  rw [if_neg c1]
  by_cases c2 : o = 200 ∨ o = 224 ∨ o = 248
  · rw [if_pos c2]; omega
  rw [if_neg c2]
  by_cases c3 : o = 300
  · rw [if_pos c3]; omega
  rw [if_neg c3]; omega

/-- The loop comes to the beginning of each text. -/
theorem readLoop_at {s : St} (hs : ∀ l ∈ s.lines, Proper l) {start : Nat} (h0 : 1000 ≤ start) (n t : Nat) (ht : t < n)
    (hk : known ((t + start) % 1000) = true) (f i : Nat) (b : Buf) (hi : i ≤ t) (hf : n ≤ f + i) :
    ∃ c g, readLoop s start n f i b = (readOne s start c t).bind fun r => readLoop s start n g r.2 r.1 := by
  induction f generalizing i b with
  | zero => omega
  | succ f ih =>
    have e : readLoop s start n (f + 1) i b = (readOne s start b i).bind fun r => readLoop s start n f r.2 r.1 := by
      rw [readLoop]
      exact if_pos (by omega)
    by_cases c : i = t
    · subst c
      exact ⟨b, f, e⟩
    · obtain ⟨d, next, e1, hn, -, hor⟩ := readOne_some hs h0 b i
      rw [e, e1]
      refine ih next d ?_ (by omega)
      rcases hor with h | h
      · omega
      · rw [h]
        have sm := skip_small ((i + start) % 1000)
        by_cases same : (i + start) / 1000 = (t + start) / 1000
        · have := skip_le ((i + start) % 1000) _ hk (by omega)
          omega
        · by_cases z : skip ((i + start) % 1000) = 0
          · omega
          · have := sm.2 (by omega)
            omega

theorem known_of_texts (l : Line) : ∀ x ∈ texts l, known x.1 = true ∧ x.1 < 1000 ∧ x.2.1 ≤ 32 := by
  intro x hx
  simp only [texts, List.mem_cons, List.not_mem_nil, or_false] at hx
  rcases hx with rfl | rfl | rfl | rfl | rfl | rfl | rfl <;> exact ⟨rfl, by simp, by simp⟩

theorem content_of_texts (s : St) (l : Line) : ∀ x ∈ texts l, content s l x.1 = text x.2.2 := by
  intro x hx
  simp only [texts, List.mem_cons, List.not_mem_nil, or_false] at hx
  rcases hx with rfl | rfl | rfl | rfl | rfl | rfl | rfl <;> rfl

/-- What a known register of a line writes is there as long as no later one is reached: bytes before the next known register. -/
theorem later {s : St} (hs : ∀ l ∈ s.lines, Proper l) {start : Nat} (h0 : 1000 ≤ start) (n : Nat) (room : Nat) (f i : Nat) (b : Buf)
    (hgap : ∀ j, i ≤ j → j < room → known ((j + start) % 1000) = false) :
    ∃ r, readLoop s start n f i b = some r ∧ ∀ j, j < 3 + room * 2 → r j = b j := by
  induction f generalizing i b with
  | zero => exact ⟨b, rfl, fun _ _ => rfl⟩
  | succ f ih =>
    by_cases big : room ≤ i
    · obtain ⟨r, e, hr⟩ := readLoop_below hs h0 n (f + 1) i b
      exact ⟨r, e, fun j hj => hr j (by omega)⟩
    unfold readLoop
    by_cases c : i < n
    · rw [if_pos c]
      have e : readOne s start b i = some (b, i + 1) := by
        unfold readOne
        simp only
        by_cases c1 : s.lines.length < (i + start) / 1000
        · rw [if_pos c1]
        · rw [if_neg c1]
          have em : i + start - (i + start) / 1000 * 1000 = (i + start) % 1000 := by omega
          rw [em, hgap i (Nat.le_refl _) (by omega)]
          rfl
      rw [e]
      exact ih (i + 1) b (fun j hj => hgap j (by omega))
    · rw [if_neg c]
      exact ⟨b, rfl, fun _ _ => rfl⟩

/-- The bytes of a known register, up to the next known one. -/
theorem read_at {s : St} (hs : ∀ l ∈ s.lines, Proper l) {start n t l h room : Nat} (h0 : 1000 ≤ start) (ht : t < n) (b : Buf) (L : Line)
    (hl : s.lines[l]? = some L) (ha : start + t = 1000 * (l + 1) + h) (hh : h < 1000) (hk : known h = true) (c : List Byte) (hc : content s L h = some c)
    (hfit : c.length ≤ 2 * room) (hroom : h + room ≤ 1000) (hgap : ∀ o, h < o → o < h + room → known o = false) :
    ∃ r, read s start n b = some r ∧ ∀ k, k < c.length → r (3 + 2 * t + k) = c.getD k 0 := by
  have em : (t + start) % 1000 = h := by omega
  have ed : (t + start) / 1000 = l + 1 := by omega
  obtain ⟨d, g, e⟩ := readLoop_at hs h0 n t ht (by rw [em]; exact hk) n 0 b (by omega) (by omega)
  have hlen : l < s.lines.length := by
    rcases Nat.lt_or_ge l s.lines.length with x | x
    · exact x
    · rw [List.getElem?_eq_none x] at hl
      exact absurd hl (by simp)
  have e1 : readOne s start d t = some (put d (3 + t * 2) c, t + skip h + 1) := by
    unfold readOne
    simp only [ed]
    rw [if_neg (by omega), show t + start - (l + 1) * 1000 = h by omega, if_pos hk, if_neg (by omega), Nat.add_sub_cancel, hl]
    simp only [hc, Option.map_some]
  unfold read
  rw [e, e1]
  obtain ⟨r, er, hr⟩ := later hs h0 n (t + room) g (t + skip h + 1) (put d (3 + t * 2) c) (fun j hj1 hj2 => by
    have : (j + start) % 1000 = h + (j - t) := by omega
    rw [this]
    exact hgap _ (by omega) (by omega))
  refine ⟨r, er, fun k hk => ?_⟩
  rw [hr _ (by omega), show 3 + 2 * t + k = 3 + t * 2 + k by omega, put_at _ _ _ _ hk]

theorem words_getD (ws : List Nat) (k : Nat) (hk : k < ws.length) :
    (ws.flatMap word).getD (2 * k) 0 = BitVec.ofNat 8 (ws[k] / 256) ∧ (ws.flatMap word).getD (2 * k + 1) 0 = BitVec.ofNat 8 ws[k] := by
  induction ws generalizing k with
  | nil => exact absurd hk (by simp)
  | cons w ws ih =>
    cases k with
    | zero => exact ⟨rfl, rfl⟩
    | succ k =>
      have := ih k (by simpa using hk)
      exact this

theorem words_length (ws : List Nat) : (ws.flatMap word).length = 2 * ws.length := by
  induction ws with
  | nil => rfl
  | cons w ws ih => rw [List.flatMap_cons, List.length_append, ih, List.length_cons]; simp [word]; omega

theorem cp_lt (b : Byte) : cp b < 65536 := by
  have : ∀ b : BitVec 8, cp b < 65536 := by decide +kernel
  exact this b

theorem word_val {w : Nat} (h : w < 65536) : (BitVec.ofNat 8 (w / 256)).toNat * 256 + (BitVec.ofNat 8 w).toNat = w := by
  rw [BitVec.toNat_ofNat, BitVec.toNat_ofNat]
  omega

theorem packString_getD (t : List Byte) (k : Nat) (hk : 2 * k + 1 < t.length) :
    (packString t).getD (2 * k) 0 = t.getD (2 * k + 1) 0 ∧ (packString t).getD (2 * k + 1) 0 = t.getD (2 * k) 0 := by
  induction k generalizing t with
  | zero =>
    match t, hk with
    | a :: b :: t, _ => exact ⟨rfl, rfl⟩
  | succ k ih =>
    match t, hk with
    | a :: b :: t, hk =>
      have := ih t (by simp at hk; omega)
      exact this

theorem packString_length (t : List Byte) : (packString t).length = (t.length + 1) / 2 * 2 := by
  match t with
  | [] => rfl
  | [a] => simp [packString]
  | a :: b :: t =>
    have := packString_length t
    simp only [packString, List.length_cons, this]
    omega

end Ptusa.PanText
