import Verif.Profibus.Spec

/-!
# C183, C184: the PROFIBUS slave

* C183: the program reads what the master has sent last.
* C184: the master gets what the program has set last.
-/
namespace Ptusa.Profibus

/-! ## Lemmas -/

theorem eval_inp (d : Dev) (l : Lib) (i : Nat) (hi : i < 244) : (eval d l).1.inp i = if l.Gave then l.data i else d.inp i := by
  unfold eval Lib.Gave allCalls
  simp only [calls]
  by_cases h1 : l.ok .watchdog = true <;> by_cases h2 : l.ok .readStart = true <;> by_cases h3 : l.ok .readBytes = true <;>
    simp [hi, h1, h2, h3]

theorem eval_out (d : Dev) (l : Lib) : (eval d l).1.out = d.out := by
  unfold eval
  dsimp only
  split <;> rfl

theorem step_inp {d d' : Dev} {e : Ev} (h : step d e = some d') (i : Nat) (hi : i < 244) :
    d'.inp i = match e with | .cycle l => if l.Gave then l.data i else d.inp i | _ => d.inp i := by
  cases e with
  | setInt o v =>
    simp only [step, setInt] at h
    split at h
    · split at h
      · cases h
      · injection h with h; subst h; rfl
    · injection h with h; subst h; rfl
  | setBool o b v =>
    simp only [step, setBool] at h
    split at h
    · split at h
      · cases h
      · injection h with h; subst h; rfl
    · injection h with h; subst h; rfl
  | cycle l =>
    injection h with h
    subst h
    exact eval_inp d l i hi

/-- What the image of the inputs holds after a history. -/
theorem run_inp (h : List Ev) (d d' : Dev) (hr : run d h = some d') (i : Nat) (hi : i < 244) :
    d'.inp i = if h.any Ev.gave then received h i else d.inp i := by
  induction h generalizing d with
  | nil =>
    injection hr with hr
    subst hr
    rfl
  | cons e h ih =>
    cases hs : step d e with
    | none => simp [run, hs] at hr
    | some m =>
      have h1 := ih m (by simpa [run, hs] using hr)
      have h2 := step_inp hs i hi
      rw [h1, h2]
      by_cases hh : h.any Ev.gave = true
      · cases e with
        | cycle l => simp only [List.any_cons, hh, Bool.or_true, if_true, received]
        | setInt o v => simp only [List.any_cons, hh, Bool.or_true, if_true, received]
        | setBool o b v => simp only [List.any_cons, hh, Bool.or_true, if_true, received]
      · cases e with
        | cycle l =>
          have hh' : h.any Ev.gave = false := by simpa using hh
          by_cases hg : l.Gave <;> simp [List.any_cons, hh', received, Ev.gave, hg]
        | setInt o v =>
          have hh' : h.any Ev.gave = false := by simpa using hh
          simp [List.any_cons, hh', Ev.gave]
        | setBool o b v =>
          have hh' : h.any Ev.gave = false := by simpa using hh
          simp [List.any_cons, hh', Ev.gave]

theorem received_none (h : List Ev) (hh : h.any Ev.gave = false) (i : Nat) :
    received h i = 0 := by
  induction h with
  | nil => rfl
  | cons e h ih =>
    simp only [List.any_cons, Bool.or_eq_false_iff] at hh
    cases e with
    | cycle l =>
      have : ¬l.Gave := by simpa [Ev.gave] using hh.1
      simp [received, hh.2, this]
    | setInt o v => exact ih hh.2
    | setBool o b v => exact ih hh.2

theorem inp_received (h : List Ev) (d : Dev) (hr : run {} h = some d) (i : Nat) (hi : i < 244) : d.inp i = received h i := by
  rw [run_inp h {} d hr i hi]
  split
  · rfl
  · rename_i hh
    rw [received_none h (by simpa using hh)]

theorem setInt_bit (d d' : Dev) (o : Int) (v : BitVec 32) (h : setInt d o v = some d') (b k : Nat) (hk : k < 8) :
    (d'.out b).getLsbD k = if o < 242 ∧ o = b then v.getLsbD (k + 8) else if o < 242 ∧ o + 1 = b then v.getLsbD k
      else (d.out b).getLsbD k := by
  unfold setInt at h
  by_cases h1 : o < 242
  · rw [if_pos h1] at h
    by_cases h2 : o < 0
    · rw [if_pos h2] at h; cases h
    · rw [if_neg h2] at h
      injection h with h
      subst h
      simp only [Dev.put]
      by_cases e1 : b = o.toNat + 1
      · rw [if_pos e1, if_neg (by omega), if_pos ⟨h1, by omega⟩]
        simp [hk]
      · rw [if_neg e1]
        by_cases e2 : b = o.toNat
        · rw [if_pos e2, if_pos ⟨h1, by omega⟩]
          simp [hk, BitVec.getLsbD_sshiftRight, show 8 + k < 32 by omega, show k + 8 < 32 by omega, Nat.add_comm 8 k]
          omega
        · rw [if_neg e2, if_neg (by omega), if_neg (by omega)]
  · rw [if_neg h1] at h
    injection h with h
    subst h
    rw [if_neg (by omega), if_neg (by omega)]

theorem setBool_bit (d d' : Dev) (o i : Int) (v : Bool) (h : setBool d o i v = some d') (b k : Nat) (hb : b < 244) (hk : k < 8) :
    (d'.out b).getLsbD k = if o = b ∧ i = k then v else (d.out b).getLsbD k := by
  unfold setBool at h
  by_cases h1 : o < 244 ∧ i < 8
  · rw [if_pos h1] at h
    by_cases h2 : o < 0 ∨ i < 0
    · rw [if_pos h2] at h; cases h
    · rw [if_neg h2] at h
      injection h with h
      subst h
      obtain ⟨n, rfl⟩ := Int.eq_ofNat_of_zero_le (by omega : 0 ≤ o)
      obtain ⟨m, rfl⟩ := Int.eq_ofNat_of_zero_le (by omega : 0 ≤ i)
      simp only [Dev.put, Int.toNat_natCast, Int.natCast_inj]
      by_cases e1 : b = n
      · subst e1
        simp only [if_true, true_and]
        by_cases e2 : m = k
        · subst e2
          simp only [if_true]
          cases v <;> simp [hk]
        · simp only [if_neg e2]
          have hm : m < 8 := by omega
          have hbit : (1#8 <<< m).getLsbD k = false := by
            have : ∀ m < 8, ∀ k < 8, m ≠ k → (1#8 <<< m).getLsbD k = false := by decide
            exact this m hm k hk e2
          cases v
          · simp only [Bool.false_eq_true, if_false, BitVec.getLsbD_and, BitVec.getLsbD_not, hbit, hk]
            simp
          · simp only [if_true, BitVec.getLsbD_or, hbit, Bool.or_false]
      · rw [if_neg e1, if_neg (by omega)]
  · rw [if_neg h1] at h
    injection h with h
    subst h
    rw [if_neg (by omega)]

theorem out_wanted (h : List Ev) (d d' : Dev) (hr : run d h = some d') (b k : Nat) (hb : b < 244) (hk : k < 8) :
    (d'.out b).getLsbD k = wanted b k ((d.out b).getLsbD k) h := by
  induction h generalizing d with
  | nil =>
    injection hr with hr
    subst hr
    rfl
  | cons e h ih =>
    cases hs : step d e with
    | none => simp [run, hs] at hr
    | some m =>
      rw [ih m (by simpa [run, hs] using hr)]
      cases e with
      | cycle l =>
        injection hs with hs
        subst hs
        rw [eval_out]
        rfl
      | setInt o v => rw [setInt_bit d m o v hs b k hk]; rfl
      | setBool o i v => rw [setBool_bit d m o i v hs b k hb hk]; rfl

/-- Legal events are defined. -/
theorem run_legal (h : List Ev) (d : Dev) (hl : ∀ e ∈ h, e.Legal) : ∃ d', run d h = some d' := by
  induction h generalizing d with
  | nil => exact ⟨d, rfl⟩
  | cons e h ih =>
    have : ∃ m, step d e = some m := by
      have := hl e (by simp)
      cases e with
      | cycle l => exact ⟨_, rfl⟩
      | setInt o v =>
        simp only [Ev.Legal] at this
        simp only [step, setInt]
        split
        · rw [if_neg (by omega)]; exact ⟨_, rfl⟩
        · exact ⟨_, rfl⟩
      | setBool o i v =>
        simp only [Ev.Legal] at this
        simp only [step, setBool]
        split
        · rw [if_neg (by omega)]; exact ⟨_, rfl⟩
        · exact ⟨_, rfl⟩
    obtain ⟨m, hm⟩ := this
    obtain ⟨d', hd⟩ := ih m fun e he => hl e (by simp [he])
    exact ⟨d', by simp [run, hm, hd]⟩

/-! ## C183 -/

/-- Bits, words, double words below 2^31 and floats are those which the master sent last. -/
theorem C183_reads_partial (h : List Ev) (d : Dev) (hr : run {} h = some d) (o : Nat) :
    (∀ k : Nat, k < 8 → o < 244 → getBool d o k = some ((received h o).getLsbD k)) ∧
    (o < 242 → getInt d o = some (word (received h) o)) ∧
    (o < 240 → dword (received h) o < 2147483648 → getInt4 d o = some (dword (received h) o)) ∧
    (o < 240 → ∃ v, getFloat d o = some v ∧ v.toNat = dword (received h) o) := by
  refine ⟨fun k hk ho => ?_, fun ho => ?_, fun ho hv => ?_, fun ho => ?_⟩
  · rw [← inp_received h d hr o ho]
    unfold getBool
    rw [if_pos (by omega), if_neg (by omega)]
    rfl
  · unfold getInt word
    rw [if_pos (by omega), if_neg (by omega), ← inp_received h d hr o (by omega), ← inp_received h d hr (o + 1) (by omega)]
    simp [Nat.mul_comm]
  · unfold dword word at *
    rw [← inp_received h d hr o (by omega), ← inp_received h d hr (o + 1) (by omega), ← inp_received h d hr (o + 2) (by omega),
      ← inp_received h d hr (o + 2 + 1) (by omega)] at *
    rw [show o + 2 + 1 = o + 3 from rfl] at *
    unfold getInt4
    rw [if_pos (by omega), if_neg (by omega)]
    dsimp only
    simp only [Int.toNat_natCast]
    rw [if_pos (by omega)]
    congr 1
    omega
  · refine ⟨_, by unfold getFloat; rw [if_pos (by omega), if_neg (by omega)], ?_⟩
    unfold dword word
    rw [← inp_received h d hr o (by omega), ← inp_received h d hr (o + 1) (by omega), ← inp_received h d hr (o + 2) (by omega),
      ← inp_received h d hr (o + 2 + 1) (by omega)]
    simp only [Int.toNat_natCast, BitVec.toNat_append]
    rw [show o + 2 + 1 = o + 3 from rfl]
    have h1 := (d.inp (o + 3)).isLt
    have h2 := (d.inp (o + 2)).isLt
    have h3 := (d.inp (o + 1)).isLt
    rw [← Nat.shiftLeft_add_eq_or_of_lt h3, ← Nat.shiftLeft_add_eq_or_of_lt h2, ← Nat.shiftLeft_add_eq_or_of_lt h1]
    simp only [Nat.shiftLeft_eq]
    omega

/-- A cycle in which all goes well, for the examples. -/
def good (data : Nat → Byte) : Lib := ⟨fun _ => true, data⟩

def hist0 : List Ev := [.cycle (good fun i => BitVec.ofNat 8 i), .setInt 10 0x1234, .setBool 244 0 true,
  .cycle ⟨fun c => c ≠ .readBytes, fun _ => 255⟩]

example : ∃ d, run {} hist0 = some d ∧ getInt d 2 = some 515 ∧ getBool d 3 1 = some true := by
  obtain ⟨d, hd⟩ := run_legal hist0 {} (by simp [hist0, Ev.Legal])
  have h := C183_reads_partial hist0 d hd
  refine ⟨d, hd, ?_, ?_⟩
  · have := (h 2).2.1 (by decide)
    rw [show word (received hist0) 2 = 515 by decide +kernel] at this
    exact this
  · have := (h 3).1 1 (by decide) (by decide)
    rw [show (received hist0 3).getLsbD 1 = true by decide +kernel] at this
    exact this

/-- The last word and the last double word of the image are never read: the program gets 0. -/
theorem C183_last_violated (d : Dev) (l : Lib) (hl : l.Gave) : getInt (eval d l).1 242 = some 0 ∧ getInt4 (eval d l).1 240 = some 0 ∧
    getFloat (eval d l).1 240 = some 0 ∧
    ((eval d l).1.inp 242 = l.data 242 ∧ (eval d l).1.inp 243 = l.data 243) := by
  refine ⟨rfl, rfl, rfl, ?_, ?_⟩ <;> rw [eval_inp _ _ _ (by decide), if_pos hl]

example : getInt (eval {} (good fun _ => 1)).1 242 = some 0 := (C183_last_violated {} (good fun _ => 1) ⟨rfl, rfl, rfl⟩).1

/-- A double word from 2^31 on, a negative number of the master for instance, is undefined behaviour. -/
theorem C183_negative_violated (h : List Ev) (d : Dev) (hr : run {} h = some d) (o : Nat) (ho : o < 240)
    (hv : 2147483648 ≤ dword (received h) o) : getInt4 d o = none := by
  unfold dword word at hv
  rw [← inp_received h d hr o (by omega), ← inp_received h d hr (o + 1) (by omega), ← inp_received h d hr (o + 2) (by omega),
    ← inp_received h d hr (o + 2 + 1) (by omega), show o + 2 + 1 = o + 3 from rfl] at hv
  unfold getInt4
  rw [if_pos (by omega), if_neg (by omega)]
  dsimp only
  simp only [Int.toNat_natCast]
  rw [if_neg (by omega)]

example : ∃ d, run {} [.cycle (good fun _ => 255)] = some d ∧ getInt4 d 0 = none :=
  ⟨_, rfl, C183_negative_violated [.cycle (good fun _ => 255)] _ rfl 0 (by decide) (by decide +kernel)⟩

/-- A negative place is undefined behaviour. -/
theorem C183_place_violated (d : Dev) (o : Int) (ho : o < 0) : getInt d o = none ∧ getInt4 d o = none ∧ getFloat d o = none ∧
    (∀ k < 8, getBool d o k = none) ∧ (∀ v, setInt d o v = none) ∧ ∀ k v, k < 8 → setBool d o k v = none := by
  refine ⟨?_, ?_, ?_, fun k hk => ?_, fun v => ?_, fun k v hk => ?_⟩
  · unfold getInt; rw [if_pos (by omega), if_pos ho]
  · unfold getInt4; rw [if_pos (by omega), if_pos ho]
  · unfold getFloat; rw [if_pos (by omega), if_pos ho]
  · unfold getBool; rw [if_pos (by omega), if_pos (.inl ho)]
  · unfold setInt; rw [if_pos (by omega), if_pos ho]
  · unfold setBool; rw [if_pos (by omega), if_pos (.inl ho)]

example : getInt {} (-1) = none := (C183_place_violated {} (-1) (by decide)).1

/-! ## C184 -/

/-- After any history of legal commands a cycle in which the library works sends exactly what the program has set last, and
reports success. -/
theorem C184_sent_partial (h : List Ev) (hl : ∀ e ∈ h, e.Legal) (l : Lib) (hg : ∀ c, l.ok c = true) : ∃ d, run {} h = some d ∧
    (eval d l).2.1 = true ∧ ∃ f, (eval d l).2.2.2 = some f ∧ ∀ b < 244, ∀ k < 8, (f b).getLsbD k = wanted b k false h := by
  obtain ⟨d, hd⟩ := run_legal h {} hl
  refine ⟨d, hd, ?_, fun i => if i < 244 then d.out i else 0, ?_, fun b hb k hk => ?_⟩
  · simp [eval, calls, allCalls, hg]
  · simp [eval, calls, allCalls, hg]
  · simp only [if_pos hb]
    rw [out_wanted h {} d hd b k hb hk]
    simp

example : ∃ d, run {} hist0 = some d ∧ ∃ f, (eval d (good fun _ => 0)).2.2.2 = some f ∧ (f 10).getLsbD 4 = true ∧ (f 11).getLsbD 4 = true ∧
    (f 12).getLsbD 4 = false := by
  obtain ⟨d, h1, _, f, h2, h3⟩ := C184_sent_partial hist0 (by simp [hist0, Ev.Legal]) (good fun _ => 0) (fun _ => rfl)
  refine ⟨d, h1, f, h2, ?_, ?_, ?_⟩ <;> rw [h3 _ (by decide) _ (by decide)] <;> decide +kernel

/-- Success is reported exactly if all functions of the library succeed. -/
theorem C184_result (d : Dev) (l : Lib) : (eval d l).2.1 = true ↔ ∀ c, l.ok c = true := by
  constructor
  · intro h c
    simp only [eval, allCalls, calls] at h
    revert h
    cases h1 : l.ok .watchdog <;> cases h2 : l.ok .readStart <;> cases h3 : l.ok .readBytes <;> cases h4 : l.ok .readEnd <;>
      cases h5 : l.ok .writeStart <;> cases h6 : l.ok .writeBytes <;> cases h7 : l.ok .writeEnd <;> simp
    cases c <;> assumption
  · intro h
    simp [eval, calls, allCalls, h]

example : (eval {} (good fun _ => 3)).2.1 = true := (C184_result {} (good fun _ => 3)).2 fun _ => rfl

/-- If reading or the watchdog fails, nothing is sent, whatever the program has set; and if the bytes cannot be read, the lock
taken by `ReadStart` is not given back. -/
theorem C184_blocked_violated (d : Dev) (l : Lib) :
    ((∃ c ∈ [Call.watchdog, .readStart, .readBytes, .readEnd], l.ok c = false) → (eval d l).2.2.2 = none) ∧
    (l.ok .watchdog = true → l.ok .readStart = true → l.ok .readBytes = false →
      .readStart ∈ (eval d l).2.2.1 ∧ .readEnd ∉ (eval d l).2.2.1) := by
  constructor
  · intro h
    simp only [List.mem_cons, List.not_mem_nil, or_false, exists_eq_or_imp, exists_eq_left] at h
    rcases h with h | h | h | h <;> by_cases h1 : l.ok .watchdog = true <;> by_cases h2 : l.ok .readStart = true <;>
      by_cases h3 : l.ok .readBytes = true <;> simp_all [eval, calls, allCalls]
  · intro h1 h2 h3
    simp [eval, calls, allCalls, h1, h2, h3]

example : (eval {} ⟨fun c => c ≠ .readBytes, fun _ => 0⟩).2.2.2 = none :=
  (C184_blocked_violated {} _).1 ⟨.readBytes, by decide, rfl⟩

/-- The last word cannot be set. -/
theorem C184_last_violated (d : Dev) (v : BitVec 32) : setInt d 242 v = some d := rfl

example : ∃ d, setInt {} 242 0x1234 = some d ∧ d.out 242 = 0 ∧ d.out 243 = 0 := ⟨_, C184_last_violated {} 0x1234, rfl, rfl⟩

end Ptusa.Profibus
