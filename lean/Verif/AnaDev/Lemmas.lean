import Verif.AnaDev.Spec

/-!
# Lemmas
-/
namespace Ptusa.AnaDev
open Analog

theorem ne_fault (raw : Int) (h : -2731 ≤ raw) : ¬ (-1000 : Rat) = raw / 10 := by
  intro hc
  have h2 : (raw : Rat) = -10000 := by linarith
  have h3 : raw = -10000 := by exact_mod_cast h2
  omega

theorem scaleIn_eq (raw : Int) (f min max : Rat) : scaleIn raw f min max = scaled (4 + raw / f) min max := by
  simp only [scaleIn, scaled]
  split
  · rfl
  · ring

theorem put_in (m : Nat → Byte) (p n : Nat) (b : Nat → Byte) (k : Nat) (h : k < n) : put m p n b (p + k) = b k := by
  simp only [put]
  rw [if_pos (by omega)]
  congr 1
  omega

theorem put_out (m : Nat → Byte) (p n : Nat) (b : Nat → Byte) (q : Nat) (h : q < p ∨ p + n ≤ q) : put m p n b q = m q := by
  simp only [put]
  rw [if_neg (by omega)]

theorem bytes_join (f : BitVec 32) : bytesOf f 0 ++ bytesOf f 1 ++ bytesOf f 2 ++ bytesOf f 3 = f := by
  simp only [bytesOf]
  apply BitVec.eq_of_getLsbD_eq
  intro i hi
  simp only [BitVec.getLsbD_append, BitVec.getLsbD_extractLsb']
  by_cases h0 : i < 8
  · simp [h0]
  · by_cases h1 : i < 16
    · have : i - 8 < 8 := by omega
      simp [h0, this, show 8 + (i - 8) = i by omega]
    · by_cases h2 : i < 24
      · have a : ¬ i - 8 < 8 := by omega
        have b : i - 8 - 8 < 8 := by omega
        simp [h0, a, b, show 16 + (i - 8 - 8) = i by omega]
      · have a : ¬ i - 8 < 8 := by omega
        have b : ¬ i - 8 - 8 < 8 := by omega
        have d : i - 8 - 8 - 8 < 8 := by omega
        simp [h0, a, b, d, show 24 + (i - 8 - 8 - 8) = i by omega]

theorem run_append (c : Conf) (s : Sys) (h h' : List Ev) : run c s (h ++ h') = (run c s h).bind fun s => run c s h' := by
  induction h generalizing s with
  | nil => rfl
  | cons e h ih =>
    simp only [List.cons_append, run]
    cases step c s e with
    | none => rfl
    | some s1 => exact ih s1

/-- A pointer into the image is the configured place. -/
def Inv (c : Conf) (s : Sys) : Prop := ∀ i p, (s.vc i).ptr = .at p → c.outAt i = some p

theorem inv_init (c : Conf) : Inv c init := by
  intro i p h
  simp [init] at h

theorem setValue_vc (s s' : Sys) (i : Nat) (f : BitVec 32) (h : setValue s i f = some s') : s'.vc = s.vc := by
  simp only [setValue] at h
  split at h
  · injection h with h; rw [← h]
  · cases h
  · injection h with h; rw [← h]

theorem setBlink_ptr (s s' : Sys) (i j : Nat) (b : Bool) (h : setBlink s i b = some s') : (s'.vc j).ptr = (s.vc j).ptr := by
  simp only [setBlink] at h
  split at h
  · injection h with h
    rw [← h]; simp only; split
    · next e => rw [e]
    · rfl
  · cases h
  · injection h with h
    rw [← h]; simp only; split
    · next e => rw [e]
    · rfl

theorem setBlink_info (s s' : Sys) (i j : Nat) (b : Bool) (h : setBlink s i b = some s') : (s'.vc j).info = (s.vc j).info := by
  simp only [setBlink] at h
  split at h
  · injection h with h
    rw [← h]; simp only; split
    · next e => rw [e]
    · rfl
  · cases h
  · injection h with h
    rw [← h]; simp only; split
    · next e => rw [e]
    · rfl

theorem eval_ptr_self (c : Conf) (s : Sys) (i p : Nat) (input : Nat → Byte) (h : c.outAt i = some p) :
    ((evaluate c s i input).vc i).ptr = .at p := by
  simp [evaluate, h]

theorem eval_vc_other (c : Conf) (s : Sys) (i j : Nat) (input : Nat → Byte) (h : j ≠ i) : (evaluate c s i input).vc j = s.vc j := by
  simp [evaluate, h]

/-- Once a bound valve points to its place, it does so for good. -/
theorem ptr_step (c : Conf) (s s' : Sys) (e : Ev) (i p : Nat) (hb : c.outAt i = some p) (h : (s.vc i).ptr = .at p)
    (hs : step c s e = some s') : (s'.vc i).ptr = .at p := by
  cases e with
  | evaluate j input =>
    simp only [step, Option.some.injEq] at hs
    rw [← hs]
    by_cases e : i = j
    · subst e; exact eval_ptr_self c s i p input hb
    · rw [eval_vc_other c s j i input e]; exact h
  | set j f => rw [setValue_vc _ _ _ _ hs]; exact h
  | on j => rw [setValue_vc _ _ _ _ hs]; exact h
  | off j => rw [setValue_vc _ _ _ _ hs]; exact h
  | blink j b => rw [setBlink_ptr _ _ _ _ _ hs]; exact h

theorem ptr_run (c : Conf) (i p : Nat) (hb : c.outAt i = some p) (h : List Ev) : ∀ s s', (s.vc i).ptr = .at p →
    run c s h = some s' → (s'.vc i).ptr = .at p := by
  induction h with
  | nil => intro s s' h1 h2; simp only [run, Option.some.injEq] at h2; rw [← h2]; exact h1
  | cons e h ih =>
    intro s s' h1 h2
    simp only [run, Option.bind_eq_some_iff] at h2
    obtain ⟨s1, h3, h4⟩ := h2
    exact ih s1 s' (ptr_step c s s1 e i p hb h1 h3) h4

theorem inv_step (c : Conf) (s s' : Sys) (e : Ev) (hi : Inv c s) (hs : step c s e = some s') : Inv c s' := by
  intro i p hp
  cases e with
  | evaluate j input =>
    simp only [step, Option.some.injEq] at hs
    rw [← hs] at hp
    by_cases e : i = j
    · subst e
      cases ho : c.outAt i with
      | none => simp [evaluate, ho] at hp
      | some q => rw [eval_ptr_self c s i q input ho] at hp; injection hp with hp; rw [hp]
    · rw [eval_vc_other c s j i input e] at hp; exact hi i p hp
  | set j f => rw [setValue_vc _ _ _ _ hs] at hp; exact hi i p hp
  | on j => rw [setValue_vc _ _ _ _ hs] at hp; exact hi i p hp
  | off j => rw [setValue_vc _ _ _ _ hs] at hp; exact hi i p hp
  | blink j b => rw [setBlink_ptr _ _ _ _ _ hs] at hp; exact hi i p hp

theorem inv_run (c : Conf) (h : List Ev) : ∀ s s', Inv c s → run c s h = some s' → Inv c s' := by
  induction h with
  | nil => intro s s' h1 h2; simp only [run, Option.some.injEq] at h2; rw [← h2]; exact h1
  | cons e h ih =>
    intro s s' h1 h2
    simp only [run, Option.bind_eq_some_iff] at h2
    obtain ⟨s1, h3, h4⟩ := h2
    exact ih s1 s' (inv_step c s s1 e h1 h3) h4

theorem setValue_out (c : Conf) (ha : Apart c) (s s' : Sys) (hi : Inv c s) (i j p : Nat) (hij : i ≠ j) (hb : c.outAt i = some p)
    (f : BitVec 32) (hs : setValue s j f = some s') (k : Nat) (hk : k < 5) : s'.out (p + k) = s.out (p + k) := by
  simp only [setValue] at hs
  split at hs
  · injection hs with hs; rw [← hs]
  · cases hs
  · next q hq =>
    injection hs with hs
    rw [← hs]
    have := ha i j p q hij hb (hi j q hq)
    exact put_out _ _ _ _ _ (by omega)

theorem setValue_wink (s s' : Sys) (i p : Nat) (hp : (s.vc i).ptr = .at p)
    (f : BitVec 32) (hs : setValue s i f = some s') : s'.out (p + 4) = s.out (p + 4) := by
  simp only [setValue, hp, Option.some.injEq] at hs
  rw [← hs]
  exact put_out _ _ _ _ _ (by omega)

theorem setBlink_out (c : Conf) (ha : Apart c) (s s' : Sys) (hi : Inv c s) (i j p : Nat) (hb : c.outAt i = some p)
    (b : Bool) (hs : setBlink s j b = some s') (k : Nat) (hk : k < 5) (hne : i ≠ j ∨ k < 4) : s'.out (p + k) = s.out (p + k) := by
  simp only [setBlink] at hs
  split at hs
  · injection hs with hs; rw [← hs]
  · cases hs
  · next q hq =>
    injection hs with hs
    rw [← hs]
    have hj := hi j q hq
    by_cases e : i = j
    · subst e
      rw [hb, Option.some.injEq] at hj
      dsimp only
      apply put_out
      omega
    · have := ha i j p q e hb hj
      dsimp only
      apply put_out
      omega

/-- The set point of a valve is left alone by all calls that do not set this valve. -/
theorem keep_step (c : Conf) (ha : Apart c) (s s' : Sys) (hi : Inv c s) (i p : Nat) (hb : c.outAt i = some p) (e : Ev)
    (he : e.sets ≠ some i) (hs : step c s e = some s') (k : Nat) (hk : k < 4) : s'.out (p + k) = s.out (p + k) := by
  cases e with
  | evaluate j input => simp only [step, Option.some.injEq] at hs; rw [← hs]; rfl
  | set j f => exact setValue_out c ha s s' hi i j p (fun h => he (by rw [h]; rfl)) hb f hs k (by omega)
  | on j => exact setValue_out c ha s s' hi i j p (fun h => he (by rw [h]; rfl)) hb _ hs k (by omega)
  | off j => exact setValue_out c ha s s' hi i j p (fun h => he (by rw [h]; rfl)) hb _ hs k (by omega)
  | blink j b => exact setBlink_out c ha s s' hi i j p hb b hs k (by omega) (Or.inr hk)

theorem keep_run (c : Conf) (ha : Apart c) (i p : Nat) (hb : c.outAt i = some p) (h : List Ev) (he : ∀ e ∈ h, e.sets ≠ some i) (k : Nat)
    (hk : k < 4) : ∀ s s', Inv c s → run c s h = some s' → s'.out (p + k) = s.out (p + k) := by
  induction h with
  | nil => intro s s' _ h2; simp only [run, Option.some.injEq] at h2; rw [h2]
  | cons e h ih =>
    intro s s' hi h2
    simp only [run, Option.bind_eq_some_iff] at h2
    obtain ⟨s1, h3, h4⟩ := h2
    rw [ih (fun e he' => he e (List.mem_cons_of_mem _ he')) s1 s' (inv_step c s s1 e hi h3) h4]
    exact keep_step c ha s s1 hi i p hb e (he e List.mem_cons_self) h3 k hk

/-- The same for the byte of the indication. -/
theorem keepW_step (c : Conf) (ha : Apart c) (s s' : Sys) (hi : Inv c s) (i p : Nat) (hb : c.outAt i = some p) (e : Ev)
    (hp : (s.vc i).ptr = .at p)
    (he : e.blinks ≠ some i) (hs : step c s e = some s') : s'.out (p + 4) = s.out (p + 4) := by
  have key : ∀ j f, setValue s j f = some s' → s'.out (p + 4) = s.out (p + 4) := by
    intro j f hs
    by_cases e : i = j
    · subst e; exact setValue_wink s s' i p hp f hs
    · exact setValue_out c ha s s' hi i j p e hb f hs 4 (by omega)
  cases e with
  | evaluate j input => simp only [step, Option.some.injEq] at hs; rw [← hs]; rfl
  | set j f => exact key j f hs
  | on j => exact key j _ hs
  | off j => exact key j _ hs
  | blink j b => exact setBlink_out c ha s s' hi i j p hb b hs 4 (by omega) (Or.inl fun h => he (by rw [h]; rfl))

theorem keepW_run (c : Conf) (ha : Apart c) (i p : Nat) (hb : c.outAt i = some p) (h : List Ev) (he : ∀ e ∈ h, e.blinks ≠ some i) :
    ∀ s s', Inv c s → (s.vc i).ptr = .at p → run c s h = some s' → s'.out (p + 4) = s.out (p + 4) := by
  induction h with
  | nil => intro s s' _ _ h2; simp only [run, Option.some.injEq] at h2; rw [h2]
  | cons e h ih =>
    intro s s' hi hp h2
    simp only [run, Option.bind_eq_some_iff] at h2
    obtain ⟨s1, h3, h4⟩ := h2
    rw [ih (fun e he' => he e (List.mem_cons_of_mem _ he')) s1 s' (inv_step c s s1 e hi h3) (ptr_step c s s1 e i p hb hp h3) h4]
    exact keepW_step c ha s s1 hi i p hb e hp (he e List.mem_cons_self) h3

/-- The input data of a valve change only with its own evaluation. -/
theorem info_step (c : Conf) (s s' : Sys) (i : Nat) (e : Ev) (he : ∀ input, e ≠ .evaluate i input) (hs : step c s e = some s') :
    (s'.vc i).info = (s.vc i).info := by
  cases e with
  | evaluate j input =>
    simp only [step, Option.some.injEq] at hs
    rw [← hs, eval_vc_other c s j i input (fun h => he input (by rw [h]))]
  | set j f => rw [setValue_vc _ _ _ _ hs]
  | on j => rw [setValue_vc _ _ _ _ hs]
  | off j => rw [setValue_vc _ _ _ _ hs]
  | blink j b => exact setBlink_info _ _ _ _ _ hs

theorem info_run (c : Conf) (i : Nat) (h : List Ev) (he : ∀ e ∈ h, ∀ input, e ≠ .evaluate i input) :
    ∀ s s', run c s h = some s' → (s'.vc i).info = (s.vc i).info := by
  induction h with
  | nil => intro s s' h2; simp only [run, Option.some.injEq] at h2; rw [h2]
  | cons e h ih =>
    intro s s' h2
    simp only [run, Option.bind_eq_some_iff] at h2
    obtain ⟨s1, h3, h4⟩ := h2
    rw [ih (fun e he' => he e (List.mem_cons_of_mem _ he')) s1 s' h4, info_step c s s1 i e (he e List.mem_cons_self) h3]

/-- With all valves bound nothing undefined happens. -/
def NoNull (s : Sys) : Prop := ∀ i, (s.vc i).ptr ≠ .null

theorem noNull_step (c : Conf) (hb : ∀ i, c.outAt i ≠ none) (s : Sys) (hn : NoNull s) (e : Ev) :
    ∃ s', step c s e = some s' ∧ NoNull s' := by
  have key : ∀ j f, ∃ s', setValue s j f = some s' ∧ NoNull s' := by
    intro j f
    have : ∃ s', setValue s j f = some s' := by
      simp only [setValue]
      split
      · exact ⟨_, rfl⟩
      · next h => exact absurd h (hn j)
      · exact ⟨_, rfl⟩
    obtain ⟨s', h⟩ := this
    exact ⟨s', h, fun i => by rw [setValue_vc _ _ _ _ h]; exact hn i⟩
  cases e with
  | evaluate j input =>
    refine ⟨_, rfl, fun i => ?_⟩
    by_cases e : i = j
    · subst e
      cases ho : c.outAt i with
      | none => exact absurd ho (hb i)
      | some p => rw [eval_ptr_self c s i p input ho]; simp
    · rw [eval_vc_other c s j i input e]; exact hn i
  | set j f => exact key j f
  | on j => exact key j _
  | off j => exact key j _
  | blink j b =>
    have : ∃ s', setBlink s j b = some s' := by
      simp only [setBlink]
      split
      · exact ⟨_, rfl⟩
      · next h => exact absurd h (hn j)
      · exact ⟨_, rfl⟩
    obtain ⟨s', h⟩ := this
    exact ⟨s', h, fun i => by rw [setBlink_ptr _ _ _ _ _ h]; exact hn i⟩

theorem noNull_run (c : Conf) (hb : ∀ i, c.outAt i ≠ none) (h : List Ev) : ∀ s, NoNull s → ∃ s', run c s h = some s' := by
  induction h with
  | nil => intro s _; exact ⟨s, rfl⟩
  | cons e h ih =>
    intro s hn
    obtain ⟨s1, h1, h2⟩ := noNull_step c hb s hn e
    obtain ⟨s2, h3⟩ := ih s1 h2
    exact ⟨s2, by simp [run, h1, h3]⟩

end Ptusa.AnaDev
