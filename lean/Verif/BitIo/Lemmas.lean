import Verif.BitIo.Spec
import Mathlib.Data.List.Induction

namespace Ptusa.BitIo

theorem change_some {m m' : Mem} {b off : Nat} {f : BitVec 8 → BitVec 8} (h : change m b off f = some m') :
    off < (m b).length ∧ ∀ i o, (m' i)[o]?.getD 0 = if i = b ∧ o = off then f ((m b)[off]?.getD 0)
      else (m i)[o]?.getD 0 := by
  unfold change at h
  split at h
  · rename_i hl
    simp only [Option.some.injEq] at h
    subst h
    refine ⟨hl, fun i o => ?_⟩
    by_cases hi : i = b
    · subst hi
      simp only [if_true, List.getElem?_modify, true_and]
      by_cases ho : o = off
      · subst ho
        simp [List.getElem?_eq_getElem hl]
      · rw [if_neg ho]
        have : ¬ off = o := fun h => ho h.symm
        simp [this]
    · simp [hi]
  · simp at h

theorem change_length {m m' : Mem} {b off : Nat} {f : BitVec 8 → BitVec 8} (h : change m b off f = some m') (i : Nat) :
    (m' i).length = (m i).length := by
  unfold change at h
  split at h
  · simp only [Option.some.injEq] at h
    subst h
    by_cases hi : i = b
    · subst hi; simp
    · simp [hi]
  · simp at h

theorem byteBit (x : BitVec 8) (on : Bool) (k i : Nat) (hk : k < 8) (hi : i < 8) :
    (if on then x ||| (1#8 <<< k) else x &&& ~~~ (1#8 <<< k)).getLsbD i = if i = k then on else x.getLsbD i := by
  have h1 : (1#8 <<< k).getLsbD i = decide (i = k) := by
    rw [BitVec.getLsbD_shiftLeft, BitVec.getLsbD_one]
    by_cases h : i = k
    · subst h; simp [hi]
    · by_cases h2 : i < k
      · simp [h2, h]
      · have : i - k ≠ 0 := by omega
        simp [h2, h, hi, this]
  cases on
  · simp only [Bool.false_eq_true, if_false]
    rw [BitVec.getLsbD_and, BitVec.getLsbD_not, h1]
    by_cases h : i = k <;> simp [h, hi, hk]
  · simp only [if_true]
    rw [BitVec.getLsbD_or, h1]
    by_cases h : i = k <;> simp [h]

theorem writeBit_bit {m m' : Mem} {a : Addr} {on : Bool} (ha : a.id > 0) (h : writeBit m a on = some m') (a' : Addr)
    (ha' : a'.id > 0) : bit m' a' = if a' = a then on else bit m a' := by
  obtain ⟨_, hc⟩ := change_some h
  unfold bit
  rw [hc]
  by_cases he : a'.img = a.img ∧ (a'.id - 1) / 8 = (a.id - 1) / 8
  · rw [if_pos he, byteBit _ _ _ _ (by omega) (by omega)]
    by_cases hk : (a'.id - 1) % 8 = (a.id - 1) % 8
    · have : a' = a := by
        obtain ⟨i, n⟩ := a; obtain ⟨i', n'⟩ := a'
        simp only [Addr.mk.injEq] at *
        exact ⟨he.1, by omega⟩
      simp [this]
    · have : a' ≠ a := by rintro rfl; exact hk rfl
      rw [if_neg hk, if_neg this, he.1, he.2]
  · rw [if_neg he]
    have : a' ≠ a := by rintro rfl; exact he ⟨rfl, rfl⟩
    rw [if_neg this]

theorem writeAll_bit (l : List (Addr × Bool)) : ∀ m m' : Mem, (∀ p ∈ l, p.1.id > 0) → writeAll m l = some m' →
    ∀ a', a'.id > 0 → ((∀ on, (a', on) ∉ l) → bit m' a' = bit m a') ∧
      (∀ on, (l.map Prod.fst).Nodup → (a', on) ∈ l → bit m' a' = on) := by
  induction l with
  | nil =>
    intro m m' _ h a' _
    simp only [writeAll, Option.some.injEq] at h
    subst h
    exact ⟨fun _ => rfl, fun _ _ h => by simp at h⟩
  | cons p l ih =>
    intro m m' hp h a' ha'
    obtain ⟨a, on⟩ := p
    simp only [writeAll, Option.bind_eq_some_iff] at h
    obtain ⟨w, hw, h⟩ := h
    obtain ⟨i1, i2⟩ := ih w m' (fun p hm => hp p (List.mem_cons_of_mem _ hm)) h a' ha'
    have hb := writeBit_bit (hp _ List.mem_cons_self) hw a' ha'
    constructor
    · intro hn
      rw [i1 (fun o hm => hn o (List.mem_cons_of_mem _ hm)), hb, if_neg]
      rintro rfl
      exact hn on List.mem_cons_self
    · intro o hnd hm
      simp only [List.map_cons, List.nodup_cons] at hnd
      rcases List.mem_cons.mp hm with h2 | h2
      · simp only [Prod.mk.injEq] at h2
        obtain ⟨rfl, rfl⟩ := h2
        rw [i1, hb, if_pos rfl]
        intro o hm'
        exact hnd.1 (List.mem_map.mpr ⟨_, hm', rfl⟩)
      · exact i2 o hnd.2 h2

theorem writeBit_length {m m' : Mem} {a : Addr} {on : Bool} (h : writeBit m a on = some m') (i : Nat) :
    (m' i).length = (m i).length := change_length h i

theorem writeAll_length (l : List (Addr × Bool)) : ∀ m m' : Mem, writeAll m l = some m' → ∀ i,
    (m' i).length = (m i).length := by
  induction l with
  | nil => intro m m' h i; simp only [writeAll, Option.some.injEq] at h; subst h; rfl
  | cons p l ih =>
    intro m m' h i
    obtain ⟨a, on⟩ := p
    simp only [writeAll, Option.bind_eq_some_iff] at h
    obtain ⟨w, hw, h⟩ := h
    rw [ih w m' h i, writeBit_length hw i]

theorem command_length {m m' : Mem} {outs : List Addr} {c : Cmd} (h : command m outs c = some m') (i : Nat) :
    (m' i).length = (m i).length := by
  unfold command at h
  split at h
  · exact writeAll_length _ _ _ h i
  · simp only [Option.some.injEq] at h; subst h; rfl

theorem configured_congr {m m' : Mem} (h : ∀ i, (m' i).length = (m i).length) (outs : List Addr) :
    configured m' outs = configured m outs := by
  unfold configured
  congr 1
  funext a
  have : (m' a.img).isEmpty = (m a.img).isEmpty := by
    have := h a.img
    rw [Bool.eq_iff_iff, List.isEmpty_iff_length_eq_zero, List.isEmpty_iff_length_eq_zero, this]
  rw [this]

theorem command_bit {m m' : Mem} {outs : List Addr} {c : Cmd} (h : command m outs c = some m') (a' : Addr)
    (ha' : a'.id > 0) :
    (a' ∉ outs → bit m' a' = bit m a') ∧
    (configured m outs = false → m' = m) ∧
    (configured m outs = true → outs.Nodup → ∀ p, outs[p]? = some a' → bit m' a' = decide (c.out = some p)) := by
  unfold command at h
  cases hc : configured m outs
  · rw [hc] at h
    simp only [Bool.false_eq_true, if_false, Option.some.injEq] at h
    subst h
    exact ⟨fun _ => rfl, fun _ => rfl, fun h => by simp at h⟩
  · rw [hc] at h
    simp only [if_true] at h
    have hid : ∀ p ∈ outs.mapIdx (fun i a => (a, decide (c.out = some i))), p.1.id > 0 := by
      intro p hp
      simp only [List.mem_mapIdx] at hp
      obtain ⟨i, hi, rfl⟩ := hp
      unfold configured at hc
      rw [List.all_eq_true] at hc
      have := hc _ (List.getElem_mem hi)
      simp only [Bool.and_eq_true, decide_eq_true_eq] at this
      exact this.2
    obtain ⟨h1, h2⟩ := writeAll_bit _ m m' hid h a' ha'
    refine ⟨fun hn => h1 ?_, fun h => by simp at h, fun _ hnd p hp => h2 _ ?_ ?_⟩
    · intro on hm
      simp only [List.mem_mapIdx, Prod.mk.injEq] at hm
      obtain ⟨i, hi, rfl, _⟩ := hm
      exact hn (List.getElem_mem hi)
    · have e : (outs.mapIdx fun i a => (a, decide (c.out = some i))).map Prod.fst = outs := by
        apply List.ext_getElem
        · simp
        · intro i h1 h2; simp
      rw [e]; exact hnd
    · obtain ⟨hl, rfl⟩ := List.getElem?_eq_some_iff.mp hp
      exact List.mem_mapIdx.mpr ⟨p, hl, rfl⟩

theorem run_append (cfg : Nat → List Addr) (l l' : List (Nat × Cmd)) : ∀ m : Mem,
    run cfg m (l ++ l') = (run cfg m l).bind fun m => run cfg m l' := by
  induction l with
  | nil => intro m; rfl
  | cons p l ih =>
    intro m
    obtain ⟨i, c⟩ := p
    simp only [List.cons_append, run]
    cases command m (cfg i) c with
    | none => rfl
    | some w => simp [ih w]

theorem run_length (cfg : Nat → List Addr) (l : List (Nat × Cmd)) : ∀ m m' : Mem, run cfg m l = some m' → ∀ i,
    (m' i).length = (m i).length := by
  induction l with
  | nil => intro m m' h i; simp only [run, Option.some.injEq] at h; subst h; rfl
  | cons p l ih =>
    intro m m' h i
    obtain ⟨j, c⟩ := p
    simp only [run, Option.bind_eq_some_iff] at h
    obtain ⟨w, hw, h⟩ := h
    rw [ih w m' h i, command_length hw i]

theorem last_append (i j : Nat) (c : Cmd) (l : List (Nat × Cmd)) :
    last i (l ++ [(j, c)]) = if j = i then some c else last i l := by
  unfold last
  rw [List.filter_append]
  by_cases h : j = i
  · subst h; simp
  · simp [h]

theorem wired_nodup (cfg : Nat → List Addr) (h : Wired cfg) (i : Nat) : (cfg i).Nodup := by
  rw [List.nodup_iff_pairwise_ne, List.pairwise_iff_getElem]
  intro p q hp hq hpq he
  have hq' : (cfg i)[q]? = some (cfg i)[q] := List.getElem?_eq_getElem hq
  have hp' : (cfg i)[p]? = some (cfg i)[q] := by rw [List.getElem?_eq_getElem hp, he]
  have := (h i i p q _ hp' hq').2
  omega

/-! ## AS-i -/

theorem As.shift_cases (v : As) : v.shift = 0 ∨ v.shift = 4 := by
  unfold As.shift; split <;> simp

/-- The half byte of a number. -/
theorem As.place_inj (v w : As) (h1 : v.off = w.off) (h2 : v.shift = w.shift) : v.n = w.n := by
  unfold As.off at h1
  unfold As.shift at h2
  split at h1 <;> split at h1 <;> split at h2 <;> split at h2 <;> omega

/-- The half byte of a byte. -/
def half (x : BitVec 8) (s : Nat) : BitVec 4 := (x >>> s).truncate 4

theorem byte_other (v : As) (x : BitVec 8) (c : Cmd) (s : Nat) (hs : s = 0 ∨ s = 4) (hn : s ≠ v.shift) :
    half (v.byte x c) s = half x s := by
  unfold half As.byte As.offB As.onB As.up As.lo
  rcases v.shift_cases with h | h <;> rcases hs with rfl | rfl <;> rw [h] at hn ⊢ <;>
    first
    | exact absurd rfl hn
    | (cases v.rev <;> cases c <;> simp only [Bool.false_eq_true, if_false, if_true] <;> revert x <;> decide +kernel)

/-- What a command leaves in the half byte of its valve. -/
theorem byte_own (v : As) (x : BitVec 8) (c : Cmd) :
    let s := half (v.byte x c) v.shift
    (s &&& 2 ≠ 0 ↔ c = .on) ∧ (s &&& v.lo.truncate 4 ≠ 0 ↔ c = .lower) ∧ (s &&& v.up.truncate 4 ≠ 0 ↔ c = .upper) := by
  unfold half As.byte As.offB As.onB As.up As.lo
  rcases v.shift_cases with h | h <;> rw [h] <;> cases v.rev <;> cases c <;>
    simp only [Bool.false_eq_true, if_false, if_true] <;> revert x <;> decide +kernel

theorem As.nibble_half (m : Mem) (v : As) : v.nibble m = half ((m v.img)[v.off]?.getD 0) v.shift := rfl

theorem asCommand_other {m m' : Mem} {v w : As} {c : Cmd} (h : v.command m c = some m')
    (hn : ¬ (w.img = v.img ∧ w.n = v.n)) : w.nibble m' = w.nibble m := by
  obtain ⟨_, hc⟩ := change_some h
  rw [As.nibble_half, As.nibble_half, hc]
  by_cases he : w.img = v.img ∧ w.off = v.off
  · rw [if_pos he, he.1, he.2]
    apply byte_other v _ c _ w.shift_cases
    intro hs
    exact hn ⟨he.1, As.place_inj w v he.2 hs⟩
  · rw [if_neg he]

theorem asCommand_own {m m' : Mem} {v : As} {c : Cmd} (h : v.command m c = some m') :
    v.valveState m' = c.state := by
  obtain ⟨_, hc⟩ := change_some h
  have hb := byte_own v ((m v.img)[v.off]?.getD 0) c
  unfold As.valveState
  have e := hc v.img v.off
  rw [if_pos ⟨rfl, rfl⟩] at e
  rw [As.nibble_half, e]
  simp only [] at hb ⊢
  simp only [hb.1, hb.2.1, hb.2.2]
  cases c <;> simp [Cmd.state]

theorem asRun_append (cfg : Nat → As) (l l' : List (Nat × Cmd)) : ∀ m : Mem,
    asRun cfg m (l ++ l') = (asRun cfg m l).bind fun m => asRun cfg m l' := by
  induction l with
  | nil => intro m; rfl
  | cons p l ih =>
    intro m
    obtain ⟨i, c⟩ := p
    simp only [List.cons_append, asRun]
    cases (cfg i).command m c with
    | none => rfl
    | some w => simp [ih w]

theorem valveState_congr {m m' : Mem} {v : As} (h : v.nibble m' = v.nibble m) : v.valveState m' = v.valveState m := by
  unfold As.valveState; rw [h]

theorem change_defined {m : Mem} {b off : Nat} {f : BitVec 8 → BitVec 8} (h : off < (m b).length) :
    ∃ m', change m b off f = some m' := by
  unfold change; rw [if_pos h]; exact ⟨_, rfl⟩

theorem writeAll_defined (l : List (Addr × Bool)) : ∀ m : Mem,
    (∀ p ∈ l, 0 < p.1.id ∧ p.1.id ≤ 8 * (m p.1.img).length) → ∃ m', writeAll m l = some m' := by
  induction l with
  | nil => intro m _; exact ⟨m, rfl⟩
  | cons p l ih =>
    intro m h
    obtain ⟨a, on⟩ := p
    obtain ⟨w, hw⟩ : ∃ w, writeBit m a on = some w := by
      have := h _ List.mem_cons_self
      exact change_defined (by simp only at this; omega)
    obtain ⟨u, hu⟩ := ih w (fun p hp => by
      rw [writeBit_length hw]; exact h p (List.mem_cons_of_mem _ hp))
    exact ⟨u, by simp [writeAll, hw, hu]⟩

theorem asRun_length (cfg : Nat → As) (l : List (Nat × Cmd)) : ∀ m m' : Mem, asRun cfg m l = some m' → ∀ i,
    (m' i).length = (m i).length := by
  induction l with
  | nil => intro m m' h i; simp only [asRun, Option.some.injEq] at h; subst h; rfl
  | cons p l ih =>
    intro m m' h i
    obtain ⟨j, c⟩ := p
    simp only [asRun, Option.bind_eq_some_iff] at h
    obtain ⟨w, hw, h⟩ := h
    rw [ih w m' h i]
    exact change_length hw i

end Ptusa.BitIo
