import Verif.ColDir.Lemmas
import Verif.Column.Props

/-!
# C195: a command of a signal column switches its light and no other
-/
namespace Ptusa.ColDir
open Column (Lamp)

/-- The column of an IO-Link device with the given sequence of signals, after a history. -/
def iolink (s : List Char) (es : List Ev) : St := (St.init 5).run (sequence (fun _ => 0) s) es

/-- **C195** An output of an IO-Link column is that of the lamp which its letter stands for, driven by its own commands only; an output
without a light is never on. -/
theorem C195_outputs (s : List Char) (es : List Ev) (i : Nat) (hi : i < 5) :
    (iolink s es).outs[i]? = some (match lightAt s i with | some x => (alone x es).out | none => false) := by
  have h := (sim_run (seq_inj s) 5 es).1
  unfold iolink
  cases hl : lightAt s i with
  | some x => exact h.out x i (seq_iff.2 hl) hi
  | none =>
    refine h.rest i hi fun x hx => ?_
    rw [seq_iff.1 hx] at hl
    cases hl

/-- Red, siren, red again: red on, siren on, red off, all lamps off. -/
example : (iolink ['R', 'A', 'R'] [.cmd 5 0, .cmd 19 3]).outs = [true, true, false, false, false] ∧
    (iolink ['R', 'A', 'R'] [.cmd 5 0, .cmd 19 3, .cmd 2 4, .cmd 77 5]).outs = [false, true, false, false, false] := by decide

/-- **C195** The outputs of a discrete column: red, yellow, green, siren. -/
theorem C195_discrete (n : Nat) (es : List Ev) (i : Nat) (hi : i < n) :
    ((St.init n).run discrete es).outs[i]? = some (match i with
      | 0 => (alone .red es).out
      | 1 => (alone .yellow es).out
      | 2 => (alone .green es).out
      | 3 => (alone .siren es).out
      | _ => false) := by
  have h := (sim_run discrete_inj n es).1
  match i with
  | 0 => exact h.out .red 0 rfl hi
  | 1 => exact h.out .yellow 1 rfl hi
  | 2 => exact h.out .green 2 rfl hi
  | 3 => exact h.out .siren 3 rfl hi
  | i + 4 => exact h.rest (i + 4) hi fun x => by cases x <;> simp [discrete]

example : ((St.init 4).run discrete [.cmd 1 0, .cmd 4 1, .cmd 6 2]).outs = [false, true, true, false] := by decide

/-- **C195** A light whose last order is "on" ("off") is lit (dark) until the next order for it, whatever is ordered for the others, and is
published so; a light without orders is dark. -/
theorem C195_steady_partial (s : List Char) (x : Light) (i : Nat) (hi : i < 5) (hx : lightAt s i = some x) (a b : List Ev) (e : Ev)
    (hb : orders x (a ++ [e]) b = []) :
    (orderOf a x e = some .on → (iolink s (a ++ [e] ++ b)).outs[i]? = some true ∧ (iolink s (a ++ [e] ++ b)).flag x = true) ∧
    (orderOf a x e = some .off → (iolink s (a ++ [e] ++ b)).outs[i]? = some false ∧ (iolink s (a ++ [e] ++ b)).flag x = false) ∧
    (orders x [] a = [] → (iolink s a).outs[i]? = some false ∧ (iolink s a).flag x = false) := by
  have hf := fun es => (sim_run (seq_inj s) 5 es).1.info x
  refine ⟨fun ho => ?_, fun ho => ?_, fun ho => ?_⟩
  · have hl := alone_last x a b e .on ho hb
    rw [C195_outputs s _ i hi, hx]
    refine ⟨by simp only; rw [hl]; rfl, ?_⟩
    unfold St.flag iolink
    rw [hf, hl]
    split <;> rfl
  · have hl := alone_last x a b e .off ho hb
    rw [C195_outputs s _ i hi, hx]
    refine ⟨by simp only; rw [hl]; rfl, ?_⟩
    unfold St.flag iolink
    rw [hf, hl]
    split <;> rfl
  · have hl : alone x a = {} := by unfold alone; rw [ho]; rfl
    rw [C195_outputs s _ i hi, hx]
    refine ⟨by simp only; rw [hl], ?_⟩
    unfold St.flag iolink
    rw [hf, hl]
    split <;> rfl

example : orderOf [.cmd 3 0] .yellow (.cmd 4 1) = some .on ∧ orders .yellow ([.cmd 3 0] ++ [.cmd 4 1]) [.cmd 7 2, .cmd 12 3] ≠ [] ∧
    orders .yellow ([.cmd 3 0] ++ [.cmd 4 1]) [.cmd 7 2, .cmd 5 3] = [] := by
  refine ⟨rfl, ?_, rfl⟩
  intro h
  cases h

/-- **C195** A light which is ordered to blink again and again is lit in the first half of the period, as long as its delay is not over. -/
theorem C195_blink_partial (s : List Char) (x : Light) (i : Nat) (hi : i < 5) (hx : lightAt s i = some x) (es : List Ev) (pre : List Order)
    (d t0 t : BitVec 64) (ts : List (BitVec 64)) (ho : orders x [] es = pre ++ (t0 :: (ts ++ [t])).map fun t => Order.blink t d)
    (hpre : ∀ q u, pre.getLast? ≠ some (.blink q u)) (ht : ∀ t ∈ ts, t0.toNat ≤ t.toNat ∧ t.toNat ≤ t0.toNat + d.toNat)
    (h0 : t0.toNat ≤ t.toNat) : (iolink s es).outs[i]? = some true := by
  rw [C195_outputs s _ i hi, hx]
  simp only [Option.some.injEq]
  have hb : ∀ (l : Lamp) (us : List (BitVec 64)), (us.map fun t => Order.blink t d).foldl (fun l o => obey l (some o)) l = l.blinks d us := by
    intro l us
    induction us generalizing l with
    | nil => rfl
    | cons u us ih => exact ih _
  have hs : (pre.foldl (fun l o => obey l (some o)) ({} : Lamp)).step = .off ∨
      (pre.foldl (fun l o => obey l (some o)) ({} : Lamp)).step = .on := by
    rcases List.eq_nil_or_concat pre with h | ⟨l, o, h⟩
    · rw [h]; exact .inl rfl
    · rw [h, List.concat_eq_append, List.foldl_append, List.foldl_cons, List.foldl_nil]
      cases o with
      | off => exact .inl rfl
      | on => exact .inr rfl
      | blink q u => exact absurd (by rw [h]; simp) (hpre q u)
  unfold alone
  rw [ho, List.foldl_append, hb]
  exact (Column.C36_lit _ hs t0 d ts ht t h0).1

example : (iolink ['G'] [.cmd 11 0, .cmd 11 100, .cmd 11 240]).outs = [true, false, false, false, false] := by decide

/-- What is missing in `C195_steady_partial`: a light which is ordered to blink once stays dark but is published as lit. -/
theorem C195_once_violated (s : List Char) (x : Light) (i : Nat) (hi : i < 5) (hx : lightAt s i = some x) (hsir : x ≠ .siren) (a b : List Ev)
    (e : Ev) (t d : BitVec 64) (ha : orders x [] a = []) (he : orderOf a x e = some (.blink t d)) (hb : orders x (a ++ [e]) b = []) :
    (iolink s (a ++ [e] ++ b)).outs[i]? = some false ∧ (iolink s (a ++ [e] ++ b)).flag x = true := by
  have hl := alone_last x a b e _ he hb
  have h0 : alone x a = {} := by unfold alone; rw [ha]; rfl
  rw [h0] at hl
  rw [C195_outputs s _ i hi, hx]
  refine ⟨by simp only; rw [hl]; rfl, ?_⟩
  unfold St.flag iolink
  rw [(sim_run (seq_inj s) 5 _).1.info x, hl, if_neg hsir]
  rfl

example : (iolink ['G'] [.cmd 11 0, .cmd 5 100000]).outs = [false, false, false, false, false] ∧
    (iolink ['G'] [.cmd 11 0, .cmd 5 100000]).flag .green = true := by decide

/-- **C195** The column is on exactly when the last order of some light is not "off". -/
theorem C195_state (s : List Char) (es : List Ev) :
    (iolink s es).state = true ↔ ∃ x o, (orders x [] es).getLast? = some o ∧ o ≠ .off := by
  have hf := fun x => (sim_run (seq_inj s) 5 es).1.info x
  have : (iolink s es).state = true ↔ ∃ x, (alone x es).step ≠ .off := by
    unfold St.state iolink
    simp only [hf, Bool.or_eq_true, bne_iff_ne]
    constructor
    · rintro ((((h | h) | h) | h) | h) <;> exact ⟨_, h⟩
    · rintro ⟨x, h⟩
      cases x <;> simp [h]
  rw [this]
  simp only [alone_off]

example : (iolink [] [.cmd 1 0]).state = true ∧ (iolink [] [.cmd 1 0, .cmd 7 5]).state = false := by decide

/-- **C195** Numbers which are no commands change nothing. -/
theorem C195_unknown (c : Light → Nat) (s : St) (n : Int) (now : BitVec 64) (h : n < 0 ∨ 20 < n) : s.step c (.cmd n now) = s := by
  simp only [St.step, St.direct]
  iterate 21 rw [if_neg (by omega)]

example : ((St.init 5).step discrete (.cmd 21 0)).outs = [false, false, false, false, false] := by decide

/-- A sequence which is set again keeps the outputs of lights which it does not name: two lights on one output, red is published as lit and
is dark. -/
theorem C195_again_violated :
    let c := sequence (sequence (fun _ => 0) ['R', 'G']) ['Y']
    let s := (St.init 5).run c [.cmd 5 0, .cmd 8 1]
    c .red = 1 ∧ c .yellow = 1 ∧ s.flag .red = true ∧ s.outs = [false, false, false, false, false] := by decide

end Ptusa.ColDir
