import Verif.Boot.Spec

namespace Ptusa.Boot

theorem stages_ok {l : List (Ev × Verdict)} : (stages l).2 = .ok ↔ ∀ x ∈ l, x.2 = .ok := by
  induction l with
  | nil => simp [stages]
  | cons x l ih =>
    obtain ⟨e, v⟩ := x
    cases v with
    | ok => simp [stages, ih]
    | exit c => simp [stages]
    | ub => simp [stages]

theorem stages_prefix (l : List (Ev × Verdict)) : (stages l).1 <+: l.map Prod.fst := by
  induction l with
  | nil => simp [stages]
  | cons x l ih =>
    obtain ⟨e, v⟩ := x
    cases v with
    | ok => simpa [stages] using ih
    | exit c => simp [stages]
    | ub => simp [stages]

theorem stages_all {l : List (Ev × Verdict)} (h : (stages l).2 = .ok) : (stages l).1 = l.map Prod.fst := by
  induction l with
  | nil => simp [stages]
  | cons x l ih =>
    obtain ⟨e, v⟩ := x
    cases v with
    | ok => simp only [stages] at h ⊢; rw [ih h]; rfl
    | exit c => simp [stages] at h
    | ub => simp [stages] at h

/-- What is done after a number of parts needs all of them to end well. -/
theorem stages_append {l m : List (Ev × Verdict)} :
    stages (l ++ m) = if (stages l).2 = .ok then ((stages l).1 ++ (stages m).1, (stages m).2) else stages l := by
  induction l with
  | nil => simp [stages]
  | cons x l ih =>
    obtain ⟨e, v⟩ := x
    cases v with
    | ok =>
      have h1 : stages ((e, .ok) :: l) = (e :: (stages l).1, (stages l).2) := rfl
      have h2 : stages ((e, .ok) :: l ++ m) = (e :: (stages (l ++ m)).1, (stages (l ++ m)).2) := rfl
      rw [h1, h2, ih]
      by_cases h : (stages l).2 = .ok
      · simp [h]
      · simp [h]
    | exit c => simp [stages]
    | ub => simp [stages]

theorem stages_ub {l : List (Ev × Verdict)} (h : ∀ x ∈ l, x.2 ≠ .ub) : (stages l).2 ≠ .ub := by
  induction l with
  | nil => simp [stages]
  | cons x l ih =>
    obtain ⟨e, v⟩ := x
    have hx := h (e, v) List.mem_cons_self
    cases v with
    | ok => simpa [stages] using ih fun x hx => h x (List.mem_cons_of_mem _ hx)
    | exit c => simp [stages]
    | ub => exact absurd rfl hx

theorem must_ok (b : Bool) : must b = .ok ↔ b = true := by cases b <;> simp [must]

theorem must_ne_ub (b : Bool) : must b ≠ .ub := by cases b <;> simp [must]

theorem path_eq (a : Args) (i : Nat) : path a i = if (place a i).length < 100 then some (place a i) else none := rfl

theorem versions_needed : ∀ i, i < 8 → versions.getD i 0 = needed i := by decide

theorem needed_ne : ∀ i, i < 8 → needed i ≠ -1 ∧ needed i ≠ 0 := by decide

theorem look_ok (a : Args) (w : World) (i : Nat) (hi : i < 8) :
    (look a w i).2 = .ok ↔ (place a i).length < 100 ∧ Right a w i := by
  unfold look Right
  rw [path_eq, versions_needed i hi]
  by_cases hl : (place a i).length < 100
  · simp only [hl, if_true, true_and]
    cases hf : w.file (place a i) with
    | none => simp [checkFile]
    | some t =>
      simp only [Option.some.injEq, exists_eq_left']
      cases hc : checkFile (some t) with
      | none => simp
      | some v =>
        have hv := (needed_ne i hi).1
        simp only [Option.some.injEq]
        by_cases h1 : v = -1
        · simp only [h1, if_true]
          constructor
          · simp
          · intro h; exact absurd h.symm hv
        · simp only [if_neg h1]
          by_cases h2 : needed i = v
          · rw [if_neg (not_not_intro h2)]
            exact ⟨fun _ => h2.symm, fun _ => rfl⟩
          · rw [if_pos h2]
            constructor
            · simp
            · intro h; exact absurd h.symm h2
  · simp [hl]

theorem exec_ok (a : Args) (w : World) (i : Nat) :
    (exec a w i).2 = .ok ↔ (place a i).length < 100 ∧ w.runs i = true := by
  unfold exec
  rw [path_eq]
  by_cases hl : (place a i).length < 100
  · simp [hl, must_ok]
  · simp [hl]

/-! ## Versions -/

theorem takeWhile_digits (ds rest : Text) (hd : ∀ d ∈ ds, isDigit d = true) (hr : ∀ c, rest.head? = some c → isDigit c = false) :
    (ds ++ rest).takeWhile isDigit = ds := by
  induction ds with
  | nil =>
    cases rest with
    | nil => rfl
    | cons c r => simp [hr c rfl]
  | cons d ds ih =>
    rw [List.cons_append, List.takeWhile_cons, if_pos (hd d List.mem_cons_self), ih fun x hx => hd x (List.mem_cons_of_mem _ hx)]

theorem strip_append (p s : Text) : strip p (p ++ s) = some s := by
  induction p with
  | nil => cases s <;> rfl
  | cons x p ih => simp [strip, ih]

theorem strip_some {p s r : Text} (h : strip p s = some r) : s = p ++ r := by
  induction p generalizing s with
  | nil => cases s <;> (simp only [strip, Option.some.injEq] at h; subst h; rfl)
  | cons x p ih =>
    cases s with
    | nil => simp [strip] at h
    | cons c s =>
      simp only [strip] at h
      split at h
      · rename_i hx; subst hx; rw [ih h]; rfl
      · cases h

/-- Bytes without a line feed or a zero in the first 99 are kept. -/
theorem fgets_keep (s rest : Text) (n : Nat) (h : ∀ c ∈ s, c ≠ 10) (hl : s.length ≤ n) :
    fgets n (s ++ rest) = s ++ fgets (n - s.length) rest := by
  induction s generalizing n with
  | nil => simp
  | cons c s ih =>
    cases n with
    | zero => simp at hl
    | succ n =>
      have hc := h c List.mem_cons_self
      simp only [List.cons_append, fgets, if_neg hc]
      rw [ih n (fun x hx => h x (List.mem_cons_of_mem _ hx)) (by simpa using hl)]
      simp

theorem fgets_head (n : Nat) (s : Text) : ∀ c, (fgets n s).head? = some c → s.head? = some c := by
  intro c h
  cases n with
  | zero => simp [fgets] at h
  | succ n =>
    cases s with
    | nil => simp [fgets] at h
    | cons x s =>
      simp only [fgets] at h
      split at h <;> simpa using h

theorem takeWhile_keep (p : Nat → Bool) (s rest : Text) (h : ∀ c ∈ s, p c = true) :
    (s ++ rest).takeWhile p = s ++ rest.takeWhile p := by
  induction s with
  | nil => rfl
  | cons c s ih =>
    rw [List.cons_append, List.takeWhile_cons, if_pos (h c List.mem_cons_self), ih fun x hx => h x (List.mem_cons_of_mem _ hx)]
    rfl

theorem takeWhile_head (p : Nat → Bool) (s : Text) : ∀ c, (s.takeWhile p).head? = some c → s.head? = some c := by
  intro c h
  cases s with
  | nil => simp at h
  | cons x s =>
    rw [List.takeWhile_cons] at h
    split at h
    · simpa using h
    · simp at h

/-- A prefix of what `fgets` returns is a prefix of the file. -/
theorem fgets_prefix (n : Nat) (s : Text) : fgets n s <+: s := by
  induction n generalizing s with
  | zero => simp [fgets]
  | succ n ih =>
    cases s with
    | nil => simp [fgets]
    | cons x s =>
      simp only [fgets]
      split
      · exact ⟨s, rfl⟩
      · exact (List.prefix_cons_inj x).mpr (ih s)

/-! ## The check sum -/

/-- The step of the check sum backwards. -/
def uncrc (c : BitVec 16) : BitVec 16 := if c.getLsbD 15 then ((c ^^^ 0xA001#16) <<< 1) ||| 1#16 else c <<< 1

theorem uncrc_crc (c : BitVec 16) : uncrc (crcBit c) = c := by
  unfold uncrc crcBit
  cases h : c.getLsbD 0 with
  | true =>
    have h15 : ((c >>> 1) ^^^ 0xA001#16).getLsbD 15 = true := by
      simp [BitVec.getLsbD_xor, BitVec.getLsbD_ushiftRight]
    simp only [if_true, h15]
    rw [BitVec.xor_assoc, BitVec.xor_self, BitVec.xor_zero]
    apply BitVec.eq_of_getLsbD_eq
    intro i hi
    cases i with
    | zero => simp [h]
    | succ i =>
      simp only [BitVec.getLsbD_or, BitVec.getLsbD_shiftLeft, BitVec.getLsbD_ushiftRight]
      simp [BitVec.getLsbD_one, hi, Nat.add_comm 1 i]
  | false =>
    have h15 : (c >>> 1).getLsbD 15 = false := by
      simp [BitVec.getLsbD_ushiftRight]
    simp only [Bool.false_eq_true, if_false, h15]
    apply BitVec.eq_of_getLsbD_eq
    intro i hi
    cases i with
    | zero => rw [h]; simp
    | succ i =>
      simp only [BitVec.getLsbD_shiftLeft, BitVec.getLsbD_ushiftRight]
      simp [hi, Nat.add_comm 1 i]

theorem crcBit_inj {c d : BitVec 16} (h : crcBit c = crcBit d) : c = d := by
  rw [← uncrc_crc c, h, uncrc_crc]

theorem signExtend_inj {a b : BitVec 8} (h : a.signExtend 16 = b.signExtend 16) : a = b := by
  apply BitVec.eq_of_getLsbD_eq
  intro i hi
  have h2 := congrArg (fun x : BitVec 16 => x.getLsbD i) h
  have h16 : i < 16 := by omega
  simp only [BitVec.getLsbD_signExtend, hi, h16, if_true, decide_true, Bool.true_and] at h2
  exact h2

theorem crcByte_inj_left {c d : BitVec 16} {b : BitVec 8} (h : crcByte c b = crcByte d b) : c = d := by
  unfold crcByte at h
  have h2 := crcBit_inj (crcBit_inj (crcBit_inj (crcBit_inj (crcBit_inj (crcBit_inj (crcBit_inj (crcBit_inj h)))))))
  have := congrArg (fun x => x ^^^ b.signExtend 16) h2
  simpa [BitVec.xor_assoc] using this

theorem crcByte_inj_right {c : BitVec 16} {a b : BitVec 8} (h : crcByte c a = crcByte c b) : a = b := by
  unfold crcByte at h
  have h2 := crcBit_inj (crcBit_inj (crcBit_inj (crcBit_inj (crcBit_inj (crcBit_inj (crcBit_inj (crcBit_inj h)))))))
  have := congrArg (fun x => c ^^^ x) h2
  simp only [← BitVec.xor_assoc, BitVec.xor_self, BitVec.zero_xor] at this
  exact signExtend_inj this

theorem fold_inj (l : List (BitVec 8)) {c d : BitVec 16} (h : l.foldl crcByte c = l.foldl crcByte d) : c = d := by
  induction l generalizing c d with
  | nil => exact h
  | cons b l ih => exact crcByte_inj_left (ih h)

/-- Eight steps without a byte. -/
def crc8 (c : BitVec 16) : BitVec 16 := crcBit (crcBit (crcBit (crcBit (crcBit (crcBit (crcBit (crcBit c)))))))

theorem crcByte_eq (c : BitVec 16) (b : BitVec 8) : crcByte c b = crc8 (c ^^^ b.signExtend 16) := rfl

theorem crcBit_xor (x y : BitVec 16) : crcBit (x ^^^ y) = crcBit x ^^^ crcBit y := by
  unfold crcBit
  rw [BitVec.getLsbD_xor]
  cases hx : x.getLsbD 0 <;> cases hy : y.getLsbD 0
  · simp [BitVec.ushiftRight_xor_distrib]
  · simp [BitVec.ushiftRight_xor_distrib, BitVec.xor_assoc]
  · simp only [Bool.true_bne, Bool.not_false, if_true, Bool.false_eq_true, if_false, BitVec.ushiftRight_xor_distrib]
    rw [BitVec.xor_assoc, BitVec.xor_comm (y >>> 1), ← BitVec.xor_assoc]
  · simp only [bne_self_eq_false, Bool.false_eq_true, if_false, if_true, BitVec.ushiftRight_xor_distrib]
    rw [BitVec.xor_assoc (x >>> 1), ← BitVec.xor_assoc 0xA001#16, BitVec.xor_comm 0xA001#16, BitVec.xor_assoc (y >>> 1),
      BitVec.xor_self, BitVec.xor_zero]

theorem crc8_xor (x y : BitVec 16) : crc8 (x ^^^ y) = crc8 x ^^^ crc8 y := by
  simp only [crc8, crcBit_xor]

theorem crc8_inj {x y : BitVec 16} (h : crc8 x = crc8 y) : x = y :=
  crcBit_inj (crcBit_inj (crcBit_inj (crcBit_inj (crcBit_inj (crcBit_inj (crcBit_inj (crcBit_inj h)))))))

theorem crc8_apart : ∀ d : BitVec 8, crc8 (d.signExtend 16) = ((crc8 (d.signExtend 16)).truncate 8 : BitVec 8).signExtend 16 → d = 0 := by
  decide +kernel

theorem signExtend_xor (a b : BitVec 8) : a.signExtend 16 ^^^ b.signExtend 16 = (a ^^^ b).signExtend 16 := by
  apply BitVec.eq_of_getLsbD_eq
  intro i hi
  simp only [BitVec.getLsbD_xor, BitVec.getLsbD_signExtend, hi, decide_true, Bool.true_and]
  split
  · rfl
  · simp [BitVec.msb_eq_getLsbD_last]

/-- Two bytes at the end. -/
theorem crc_two {c : BitVec 16} {a b a' b' : BitVec 8} (h : crcByte (crcByte c a) b = crcByte (crcByte c a') b') : a = a' ∧ b = b' := by
  simp only [crcByte_eq] at h
  have h1 := crc8_inj h
  rw [crc8_xor, crc8_xor] at h1
  have h2 : crc8 (a.signExtend 16) ^^^ crc8 (a'.signExtend 16) = b.signExtend 16 ^^^ b'.signExtend 16 := by
    generalize crc8 c = z at h1
    generalize crc8 (a.signExtend 16) = p at h1 ⊢
    generalize crc8 (a'.signExtend 16) = q at h1 ⊢
    generalize b.signExtend 16 = r at h1 ⊢
    generalize b'.signExtend 16 = s at h1 ⊢
    rw [BitVec.xor_assoc, BitVec.xor_assoc] at h1
    have h3 := congrArg (fun x => z ^^^ x) h1
    simp only [← BitVec.xor_assoc, BitVec.xor_self, BitVec.zero_xor] at h3
    have h4 := congrArg (fun x => x ^^^ (q ^^^ r)) h3
    have e1 : p ^^^ r ^^^ (q ^^^ r) = p ^^^ q := by
      rw [BitVec.xor_comm q r, ← BitVec.xor_assoc, BitVec.xor_assoc p r r, BitVec.xor_self, BitVec.xor_zero]
    have e2 : q ^^^ s ^^^ (q ^^^ r) = r ^^^ s := by
      rw [BitVec.xor_comm q s, BitVec.xor_assoc s q, ← BitVec.xor_assoc q q, BitVec.xor_self, BitVec.zero_xor, BitVec.xor_comm]
    rw [e1, e2] at h4
    exact h4
  rw [← crc8_xor, signExtend_xor, signExtend_xor] at h2
  have h3 := crc8_apart (a ^^^ a') (by
    rw [h2]
    congr 1
    apply BitVec.eq_of_getLsbD_eq
    intro i hi
    have h16 : i < 16 := by omega
    rw [BitVec.truncate_eq_setWidth, BitVec.getLsbD_setWidth, BitVec.getLsbD_signExtend]
    simp only [hi, h16, decide_true, Bool.true_and, if_true])
  have ha : a = a' := by
    have := congrArg (fun x => x ^^^ a') h3
    simpa [BitVec.xor_assoc] using this
  subst ha
  exact ⟨rfl, crcByte_inj_right (c := crcByte c a) (by simpa only [crcByte_eq] using h)⟩

end Ptusa.Boot
