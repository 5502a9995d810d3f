import Verif.ColDir.Spec
import Mathlib.Data.List.Induction

/-!
# Lemmas: outputs of a signal column
-/
namespace Ptusa.ColDir
open Column (Lamp LStep)

/-- Different lights have different channels. -/
def Inj (c : Light → Nat) : Prop := ∀ x y, c x = c y → c x ≠ 0 → x = y

/-- The column behaves as the lamps `f`. -/
structure Sim (c : Light → Nat) (n : Nat) (s : St) (f : Light → Lamp) : Prop where
  info : ∀ x, s.info x = ⟨(f x).step, (f x).start, (f x).wait⟩
  len : s.outs.length = n
  out : ∀ x i, c x = i + 1 → i < n → s.outs[i]? = some (f x).out
  rest : ∀ i, i < n → (∀ x, c x ≠ i + 1) → s.outs[i]? = some false

theorem sim_init (c : Light → Nat) (n : Nat) : Sim c n (St.init n) fun _ => {} := by
  refine ⟨fun _ => rfl, by simp [St.init], fun x i _ h => ?_, fun i h _ => ?_⟩ <;> simp [St.init, List.getElem?_replicate, h]

/-- One light gets a value and a new memory. -/
theorem sim_put {c : Light → Nat} (hc : Inj c) {n : Nat} {s : St} {f : Light → Lamp} (h : Sim c n s f) (x : Light) (l : Lamp) (cr : Bool) :
    Sim c n ⟨upd s.info x ⟨l.step, l.start, l.wait⟩, processDO (c x) l.out s.outs, cr⟩ (upd f x l) := by
  have hlen : (processDO (c x) l.out s.outs).length = n := by
    unfold processDO
    split
    · exact h.len
    · split
      · rw [List.length_set]; exact h.len
      · exact h.len
  have hget : ∀ i, i < n → (processDO (c x) l.out s.outs)[i]? = if c x = i + 1 then some l.out else s.outs[i]? := by
    intro i hi
    unfold processDO
    by_cases h0 : c x = 0
    · rw [if_pos h0, if_neg (by omega)]
    rw [if_neg h0, h.len]
    by_cases h1 : c x - 1 < n
    · rw [if_pos h1, List.getElem?_set, h.len]
      by_cases h2 : c x = i + 1
      · rw [if_pos h2, if_pos (by omega), if_pos h1]
      · rw [if_neg h2, if_neg (by omega)]
    · rw [if_neg h1, if_neg (by omega)]
  refine ⟨fun y => ?_, hlen, fun y i hy hi => ?_, fun i hi hr => ?_⟩
  · simp only [upd]
    split
    · rfl
    · exact h.info y
  · rw [hget i hi]
    simp only [upd]
    by_cases hxy : y = x
    · subst hxy; rw [if_pos hy, if_pos rfl]
    · rw [if_neg hxy, if_neg, h.out y i hy hi]
      intro hx
      exact hxy (hc y x (by omega) (by omega))
  · rw [hget i hi, if_neg (hr x)]
    exact h.rest i hi hr

theorem sim_off {c : Light → Nat} (hc : Inj c) {n : Nat} {s : St} {f : Light → Lamp} (h : Sim c n s f) (x : Light) :
    Sim c n (s.turnOff c x) (upd f x (f x).turnOff) := by
  have := sim_put hc h x (f x).turnOff s.constRed
  unfold St.turnOff
  rw [h.info x]
  exact this

theorem sim_on {c : Light → Nat} (hc : Inj c) {n : Nat} {s : St} {f : Light → Lamp} (h : Sim c n s f) (x : Light) :
    Sim c n (s.turnOn c x) (upd f x (f x).turnOn) := by
  have := sim_put hc h x (f x).turnOn s.constRed
  unfold St.turnOn
  rw [h.info x]
  exact this

theorem sim_blink {c : Light → Nat} (hc : Inj c) {n : Nat} {s : St} {f : Light → Lamp} (h : Sim c n s f) (x : Light)
    (now delay : BitVec 64) : Sim c n (s.blink c x now delay) (upd f x ((f x).blink now delay)) := by
  have start : (f x).step = .off ∨ (f x).step = .on →
      Sim c n { s with info := upd s.info x { s.info x with start := now, step := .blinkOn } } (upd f x ((f x).blink now delay)) := by
    intro hs
    have e : (f x).blink now delay = { f x with start := now, step := .blinkOn } := by
      unfold Lamp.blink
      rcases hs with hs | hs <;> rw [hs]
    rw [e, h.info x]
    refine ⟨fun y => ?_, h.len, fun y i hy hi => ?_, h.rest⟩
    · simp only [upd]; split
      · rfl
      · exact h.info y
    · simp only [upd]
      split
      · next hxy => subst hxy; exact h.out y i hy hi
      · exact h.out y i hy hi
  have put := sim_put hc h x ((f x).blink now delay) s.constRed
  unfold St.blink
  have hi := h.info x
  simp only [hi]
  cases hs : (f x).step with
  | off => have := start (.inl hs); rw [hi, hs] at this; exact this
  | on => have := start (.inr hs); rw [hi, hs] at this; exact this
  | blinkOn =>
    simp only
    unfold Lamp.blink at put ⊢
    rw [hs] at put ⊢
    simp only at put ⊢
    split at put <;> rename_i hd
    · rw [if_pos hd, if_pos hd]; exact put
    · rw [if_neg hd, if_neg hd]; simp only [hs] at put; exact put
  | blinkOff =>
    simp only
    unfold Lamp.blink at put ⊢
    rw [hs] at put ⊢
    simp only at put ⊢
    split at put <;> rename_i hd
    · rw [if_pos hd, if_pos hd]; exact put
    · rw [if_neg hd, if_neg hd]; simp only [hs] at put; exact put

theorem sim_congr {c : Light → Nat} {n : Nat} {s : St} {f g : Light → Lamp} (h : Sim c n s f) (e : ∀ x, f x = g x) : Sim c n s g := by
  have : f = g := funext e
  exact this ▸ h

theorem sim_red {c : Light → Nat} (hc : Inj c) {n : Nat} {s : St} {f : Light → Lamp} (h : Sim c n s f) (now delay : BitVec 64) :
    Sim c n (s.blinkRed c now delay)
      (upd f .red (obey (f .red) (some (if s.constRed = false then .on else .blink now delay)))) := by
  unfold St.blinkRed
  cases s.constRed
  · exact sim_on hc h .red
  · exact sim_blink hc h .red now delay

theorem keep_off (c : Light → Nat) (s : St) (x : Light) : (s.turnOff c x).constRed = s.constRed := rfl
theorem keep_on (c : Light → Nat) (s : St) (x : Light) : (s.turnOn c x).constRed = s.constRed := rfl
theorem keep_blink (c : Light → Nat) (s : St) (x : Light) (now delay : BitVec 64) : (s.blink c x now delay).constRed = s.constRed := by
  unfold St.blink; simp only; split <;> rfl

theorem keep_direct (c : Light → Nat) (now : BitVec 64) (m : Int) (s : St) : (s.direct c now m).constRed = s.constRed := by
  have hr : ∀ d, (s.blinkRed c now d).constRed = s.constRed := by
    intro d; unfold St.blinkRed; split
    · exact keep_blink ..
    · rfl
  unfold St.direct
  by_cases e0 : m = 0
  · rw [if_pos e0]; first | rfl | exact keep_blink .. | exact hr _
  rw [if_neg e0]
  by_cases e1 : m = 1
  · rw [if_pos e1]; first | rfl | exact keep_blink .. | exact hr _
  rw [if_neg e1]
  by_cases e2 : m = 2
  · rw [if_pos e2]; first | rfl | exact keep_blink .. | exact hr _
  rw [if_neg e2]
  by_cases e3 : m = 3
  · rw [if_pos e3]; first | rfl | exact keep_blink .. | exact hr _
  rw [if_neg e3]
  by_cases e4 : m = 4
  · rw [if_pos e4]; first | rfl | exact keep_blink .. | exact hr _
  rw [if_neg e4]
  by_cases e5 : m = 5
  · rw [if_pos e5]; first | rfl | exact keep_blink .. | exact hr _
  rw [if_neg e5]
  by_cases e6 : m = 6
  · rw [if_pos e6]; first | rfl | exact keep_blink .. | exact hr _
  rw [if_neg e6]
  by_cases e11 : m = 11
  · rw [if_pos e11]; first | rfl | exact keep_blink .. | exact hr _
  rw [if_neg e11]
  by_cases e7 : m = 7
  · rw [if_pos e7]; first | rfl | exact keep_blink .. | exact hr _
  rw [if_neg e7]
  by_cases e8 : m = 8
  · rw [if_pos e8]; first | rfl | exact keep_blink .. | exact hr _
  rw [if_neg e8]
  by_cases e9 : m = 9
  · rw [if_pos e9]; first | rfl | exact keep_blink .. | exact hr _
  rw [if_neg e9]
  by_cases e10 : m = 10
  · rw [if_pos e10]; first | rfl | exact keep_blink .. | exact hr _
  rw [if_neg e10]
  by_cases e12 : m = 12
  · rw [if_pos e12]; first | rfl | exact keep_blink .. | exact hr _
  rw [if_neg e12]
  by_cases e13 : m = 13
  · rw [if_pos e13]; first | rfl | exact keep_blink .. | exact hr _
  rw [if_neg e13]
  by_cases e14 : m = 14
  · rw [if_pos e14]; first | rfl | exact keep_blink .. | exact hr _
  rw [if_neg e14]
  by_cases e15 : m = 15
  · rw [if_pos e15]; first | rfl | exact keep_blink .. | exact hr _
  rw [if_neg e15]
  by_cases e16 : m = 16
  · rw [if_pos e16]; first | rfl | exact keep_blink .. | exact hr _
  rw [if_neg e16]
  by_cases e17 : m = 17
  · rw [if_pos e17]; first | rfl | exact keep_blink .. | exact hr _
  rw [if_neg e17]
  by_cases e18 : m = 18
  · rw [if_pos e18]; first | rfl | exact keep_blink .. | exact hr _
  rw [if_neg e18]
  by_cases e19 : m = 19
  · rw [if_pos e19]; first | rfl | exact keep_blink .. | exact hr _
  rw [if_neg e19]
  by_cases e20 : m = 20
  · rw [if_pos e20]; first | rfl | exact keep_blink .. | exact hr _
  rw [if_neg e20]

theorem sim_direct {c : Light → Nat} (hc : Inj c) {n : Nat} {s : St} {f : Light → Lamp} (h : Sim c n s f) (now : BitVec 64) (m : Int) :
    Sim c n (s.direct c now m) fun x => obey (f x) (order s.constRed now m x) := by
  have lamps := sim_off hc (sim_off hc (sim_off hc (sim_off hc h .red) .yellow) .green) .blue
  have all := sim_off hc lamps .siren
  unfold St.direct
  by_cases e0 : m = 0
  · rw [if_pos e0]
    exact sim_congr all fun x => by subst e0; cases x <;> rfl
  rw [if_neg e0]
  by_cases e1 : m = 1
  · rw [if_pos e1]
    exact sim_congr (sim_on hc all .green) fun x => by subst e1; cases x <;> rfl
  rw [if_neg e1]
  by_cases e2 : m = 2
  · rw [if_pos e2]
    exact sim_congr lamps fun x => by subst e2; cases x <;> rfl
  rw [if_neg e2]
  by_cases e3 : m = 3
  · rw [if_pos e3]
    exact sim_congr (sim_on hc h .green) fun x => by subst e3; cases x <;> rfl
  rw [if_neg e3]
  by_cases e4 : m = 4
  · rw [if_pos e4]
    exact sim_congr (sim_on hc h .yellow) fun x => by subst e4; cases x <;> rfl
  rw [if_neg e4]
  by_cases e5 : m = 5
  · rw [if_pos e5]
    exact sim_congr (sim_on hc h .red) fun x => by subst e5; cases x <;> rfl
  rw [if_neg e5]
  by_cases e6 : m = 6
  · rw [if_pos e6]
    exact sim_congr (sim_on hc h .blue) fun x => by subst e6; cases x <;> rfl
  rw [if_neg e6]
  by_cases e11 : m = 11
  · rw [if_pos e11]
    exact sim_congr (sim_blink hc h .green now _) fun x => by subst e11; cases x <;> rfl
  rw [if_neg e11]
  by_cases e7 : m = 7
  · rw [if_pos e7]
    exact sim_congr (sim_off hc h .green) fun x => by subst e7; cases x <;> rfl
  rw [if_neg e7]
  by_cases e8 : m = 8
  · rw [if_pos e8]
    exact sim_congr (sim_off hc h .yellow) fun x => by subst e8; cases x <;> rfl
  rw [if_neg e8]
  by_cases e9 : m = 9
  · rw [if_pos e9]
    exact sim_congr (sim_off hc h .red) fun x => by subst e9; cases x <;> rfl
  rw [if_neg e9]
  by_cases e10 : m = 10
  · rw [if_pos e10]
    exact sim_congr (sim_off hc h .blue) fun x => by subst e10; cases x <;> rfl
  rw [if_neg e10]
  by_cases e12 : m = 12
  · rw [if_pos e12]
    exact sim_congr (sim_blink hc h .yellow now _) fun x => by subst e12; cases x <;> rfl
  rw [if_neg e12]
  by_cases e13 : m = 13
  · rw [if_pos e13]
    exact sim_congr (sim_red hc h now _) fun x => by subst e13; cases s.constRed <;> cases x <;> rfl
  rw [if_neg e13]
  by_cases e14 : m = 14
  · rw [if_pos e14]
    exact sim_congr (sim_blink hc h .blue now _) fun x => by subst e14; cases x <;> rfl
  rw [if_neg e14]
  by_cases e15 : m = 15
  · rw [if_pos e15]
    exact sim_congr (sim_blink hc h .green now _) fun x => by subst e15; cases x <;> rfl
  rw [if_neg e15]
  by_cases e16 : m = 16
  · rw [if_pos e16]
    exact sim_congr (sim_blink hc h .yellow now _) fun x => by subst e16; cases x <;> rfl
  rw [if_neg e16]
  by_cases e17 : m = 17
  · rw [if_pos e17]
    exact sim_congr (sim_red hc h now _) fun x => by subst e17; cases s.constRed <;> cases x <;> rfl
  rw [if_neg e17]
  by_cases e18 : m = 18
  · rw [if_pos e18]
    exact sim_congr (sim_blink hc h .blue now _) fun x => by subst e18; cases x <;> rfl
  rw [if_neg e18]
  by_cases e19 : m = 19
  · rw [if_pos e19]
    exact sim_congr (sim_on hc h .siren) fun x => by subst e19; cases x <;> rfl
  rw [if_neg e19]
  by_cases e20 : m = 20
  · rw [if_pos e20]
    exact sim_congr (sim_off hc h .siren) fun x => by subst e20; cases x <;> rfl
  rw [if_neg e20]
  have : ∀ x, order s.constRed now m x = none := fun x => by
    cases x <;> simp [order, place, *]
  exact sim_congr h fun x => by rw [this x]; rfl

/-! ### Histories -/

theorem constRed_snoc (es : List Ev) (e : Ev) : constRed (es ++ [e]) = match e with | .constRed v => v | .cmd .. => constRed es := by
  simp only [constRed, List.foldl_append, List.foldl_cons, List.foldl_nil]
  cases e <;> rfl

theorem orders_snoc (x : Light) (es : List Ev) (e : Ev) : ∀ b,
    orders x b (es ++ [e]) = orders x b es ++ (orderOf (b ++ es) x e).toList := by
  induction es with
  | nil => intro b; simp [orders]
  | cons a es ih => intro b; simp [orders, ih, List.append_assoc]

theorem alone_snoc (x : Light) (es : List Ev) (e : Ev) : alone x (es ++ [e]) = obey (alone x es) (orderOf es x e) := by
  unfold alone
  rw [orders_snoc, List.foldl_append, List.nil_append]
  cases orderOf es x e <;> rfl

theorem sim_run {c : Light → Nat} (hc : Inj c) (n : Nat) (es : List Ev) :
    Sim c n ((St.init n).run c es) (fun x => alone x es) ∧ ((St.init n).run c es).constRed = constRed es := by
  induction es using List.reverseRecOn with
  | nil => exact ⟨sim_init c n, rfl⟩
  | append_singleton es e ih =>
    obtain ⟨h, hcr⟩ := ih
    have hs : (St.init n).run c (es ++ [e]) = ((St.init n).run c es).step c e := by
      simp [St.run, List.foldl_append]
    rw [hs, constRed_snoc]
    cases e with
    | cmd m now =>
      refine ⟨sim_congr (sim_direct hc h now m) fun x => ?_, (keep_direct c now m _).trans hcr⟩
      rw [alone_snoc, hcr]
      rfl
    | constRed v =>
      refine ⟨?_, rfl⟩
      have : Sim c n { (St.init n).run c es with constRed := v } fun x => alone x es := ⟨h.info, h.len, h.out, h.rest⟩
      exact sim_congr this fun x => by rw [alone_snoc]; rfl

/-! ### Sequences of signals -/

theorem letter_inj {x y : Light} (h : letter x = letter y) : x = y := by
  cases x <;> cases y <;> first | rfl | exact absurd h (by decide)

theorem lightOf_iff {ch : Char} {x : Light} : lightOf ch = some x ↔ ch = letter x := by
  constructor
  · intro h
    unfold lightOf at h
    iterate 5 (split at h; · next e => simp only [Option.some.injEq] at h; subst h; exact e)
    simp at h
  · rintro rfl
    cases x <;> decide

theorem idxOf_some {s : List Char} {ch : Char} {i : Nat} : s.idxOf? ch = some i ↔ s[i]? = some ch ∧ ch ∉ s.take i := by
  induction s generalizing i with
  | nil => simp
  | cons a s ih =>
    rw [List.idxOf?_cons]
    by_cases h : a = ch
    · subst h
      cases i with
      | zero => simp
      | succ i => simp
    · cases i with
      | zero => simp [h]
      | succ i => simp [h, ih, Ne.symm h]

theorem seq_iff {s : List Char} {x : Light} {i : Nat} : sequence (fun _ => 0) s x = i + 1 ↔ lightAt s i = some x := by
  unfold sequence lightAt
  have h := idxOf_some (s := s) (ch := letter x) (i := i)
  cases hs : s[i]? with
  | none =>
    simp only [reduceCtorEq, iff_false]
    rw [hs] at h
    split
    · next j hj =>
      intro e
      have : j = i := by omega
      rw [hj, this] at h
      simp at h
    · simp
  | some ch =>
    rw [hs] at h
    simp only
    by_cases hm : ch ∈ s.take i
    · rw [if_pos hm]
      simp only [reduceCtorEq, iff_false]
      split
      · next j hj =>
        intro e
        have : j = i := by omega
        rw [hj, this] at h
        have := h.1 rfl
        simp only [Option.some.injEq] at this
        exact this.2 (this.1 ▸ hm)
      · simp
    · rw [if_neg hm, lightOf_iff]
      constructor
      · intro e
        split at e
        · next j hj =>
          have : j = i := by omega
          rw [hj, this] at h
          simpa using (h.1 rfl).1
        · simp at e
      · intro e
        rw [h.2 ⟨by rw [e], e ▸ hm⟩]

theorem seq_inj (s : List Char) : Inj (sequence (fun _ => 0) s) := by
  intro x y h h0
  obtain ⟨i, hi⟩ : ∃ i, sequence (fun _ => 0) s x = i + 1 := ⟨_, (Nat.succ_pred_eq_of_ne_zero h0).symm⟩
  have hx := seq_iff.1 hi
  have hy := seq_iff.1 (h ▸ hi)
  simpa using hx.symm.trans hy

theorem discrete_inj : Inj discrete := by
  intro x y
  cases x <;> cases y <;> simp [discrete]

/-! ### Last orders -/

theorem orders_append (x : Light) (es fs : List Ev) : ∀ b, orders x b (es ++ fs) = orders x b es ++ orders x (b ++ es) fs := by
  induction es with
  | nil => intro b; simp [orders]
  | cons a es ih => intro b; simp [orders, ih, List.append_assoc]

/-- The lamp after its last order. -/
theorem alone_last (x : Light) (a b : List Ev) (e : Ev) (o : Order) (ho : orderOf a x e = some o) (hb : orders x (a ++ [e]) b = []) :
    alone x (a ++ [e] ++ b) = obey (alone x a) (some o) := by
  unfold alone
  rw [orders_append, List.nil_append, hb, List.append_nil, orders_snoc, List.nil_append, ho, Option.toList_some, List.foldl_append]
  rfl

theorem obey_step (l : Lamp) (o : Order) : (obey l (some o)).step = .off ↔ o = .off := by
  cases o with
  | off => simp [obey, Lamp.turnOff]
  | on => simp [obey, Lamp.turnOn]
  | blink t d =>
    simp only [obey, Lamp.blink, reduceCtorEq, iff_false]
    cases l.step with
    | off => simp
    | on => simp
    | blinkOff => simp only; split <;> simp_all
    | blinkOn => simp only; split <;> simp_all

theorem alone_off (x : Light) (es : List Ev) : (alone x es).step ≠ .off ↔ ∃ o, (orders x [] es).getLast? = some o ∧ o ≠ .off := by
  unfold alone
  rcases List.eq_nil_or_concat (orders x [] es) with h | ⟨l, o, h⟩
  · rw [h]; simp
  · rw [h, List.concat_eq_append, List.foldl_append, List.foldl_cons, List.foldl_nil]
    simp [obey_step]

end Ptusa.ColDir
