import Verif.Siren.Spec
import Verif.Alarm.Lemmas
import Verif.Alarm.Props
import Verif.Timer.Lemmas
import Verif.CritErr.Props

namespace Ptusa.Siren

open Ptusa.Timer (Tm)
open Ptusa.Alarm (Erring Unacked isSuppressed Items Item Dev Obj Flags evalItems)

/-! ### Flags of the alarm list -/

/-- A device at position `i` makes the flag "new error" true / false / leaves it. -/
def effNew (neg : Nat → Bool) (i : Nat) : Item → Option Bool
  | .dev d =>
    if neg i then
      if isSuppressed d.par then some false
      else if d.st = .normal ∨ d.st = .ret then some true else none
    else none
  | .obj _ => none

theorem evalItems_new (neg : Nat → Bool) : ∀ (l : Items) (i : Nat) (f : Flags),
    (evalItems neg i l f).2.newError = true ↔
      (∃ (a : Nat) (x : (Nat × Nat) × Item), l[a]? = some x ∧ effNew neg (i + a) x.2 = some true ∧
        ∀ (b : Nat) (y : (Nat × Nat) × Item), a < b → l[b]? = some y → effNew neg (i + b) y.2 ≠ some false) ∨
      (f.newError = true ∧ ∀ (b : Nat) (y : (Nat × Nat) × Item), l[b]? = some y → effNew neg (i + b) y.2 ≠ some false)
  | [], i, f => by simp [evalItems]
  | (k, it) :: rest, i, f => by
    have one : ∃ g : Flags, (evalItems neg i ((k, it) :: rest) f).2 = (evalItems neg (i + 1) rest g).2 ∧
        g.newError = (effNew neg i it).getD f.newError := by
      cases it with
      | obj o =>
        refine ⟨(o.evaluate f).2, rfl, ?_⟩
        simp only [effNew, Option.getD_none, Obj.evaluate]
        split <;> split <;> rfl
      | dev d =>
        refine ⟨(d.evaluate (neg i) f).2, rfl, ?_⟩
        cases hn : neg i <;> cases hs : isSuppressed d.par <;> cases hst : d.st <;>
          simp [effNew, Dev.evaluate, hn, hs, hst]
    obtain ⟨g, h1, h2⟩ := one
    rw [h1, evalItems_new neg rest (i + 1) g, h2]
    have hsh : ∀ a : Nat, i + 1 + a = i + (a + 1) := by intro a; omega
    simp only [hsh]
    constructor
    · rintro (⟨a, x, ha, he, hb⟩ | ⟨hg, hb⟩)
      · refine Or.inl ⟨a + 1, x, by simpa using ha, he, ?_⟩
        intro b y hlt hy
        cases b with
        | zero => omega
        | succ b => exact hb b y (by omega) (by simpa using hy)
      · cases he : effNew neg i it with
        | none =>
          rw [he] at hg
          refine Or.inr ⟨hg, ?_⟩
          intro b y hy
          cases b with
          | zero =>
            simp only [List.getElem?_cons_zero, Option.some.injEq] at hy
            rw [← hy]
            simp [he]
          | succ b => exact hb b y (by simpa using hy)
        | some v =>
          rw [he] at hg
          simp only [Option.getD_some] at hg
          subst hg
          refine Or.inl ⟨0, (k, it), rfl, he, ?_⟩
          intro b y hlt hy
          cases b with
          | zero => omega
          | succ b => exact hb b y (by simpa using hy)
    · rintro (⟨a, x, ha, he, hb⟩ | ⟨hg, hb⟩)
      · cases a with
        | zero =>
          simp only [List.getElem?_cons_zero, Option.some.injEq] at ha
          subst ha
          simp only [Nat.add_zero] at he
          rw [he]
          exact Or.inr ⟨rfl, fun b y hy => hb (b + 1) y (by omega) (by simpa using hy)⟩
        | succ a =>
          exact Or.inl ⟨a, x, by simpa using ha, he,
            fun b y hlt hy => hb (b + 1) y (by omega) (by simpa using hy)⟩
      · refine Or.inr ⟨?_, fun b y hy => hb (b + 1) y (by simpa using hy)⟩
        have h0 := hb 0 (k, it) rfl
        simp only [Nat.add_zero] at h0
        cases he : effNew neg i it with
        | none => simpa using hg
        | some v =>
          cases v with
          | true => rfl
          | false => exact absurd he h0

theorem eff_true (m : Alarm.Mgr) (neg : Nat → Bool) (i : Nat) :
    (∃ x, m.items[i]? = some x ∧ effNew neg i x.2 = some true) ↔ Fresh m neg i := by
  constructor
  · rintro ⟨⟨k, it⟩, hx, he⟩
    cases it with
    | obj o => simp [effNew] at he
    | dev d =>
      simp only [effNew] at he
      split at he
      · split at he
        · simp at he
        · split at he
          · rename_i h1 h2 h3
            exact ⟨k, d, hx, h1, by simpa using h2, h3⟩
          · simp at he
      · simp at he
  · rintro ⟨k, d, hx, hn, hs, hst⟩
    exact ⟨(k, .dev d), hx, by simp [effNew, hn, hs, hst]⟩

theorem eff_false (m : Alarm.Mgr) (neg : Nat → Bool) (i : Nat) :
    (∃ x, m.items[i]? = some x ∧ effNew neg i x.2 = some false) ↔ Erring m neg i true := by
  constructor
  · rintro ⟨⟨k, it⟩, hx, he⟩
    cases it with
    | obj o => simp [effNew] at he
    | dev d =>
      simp only [effNew] at he
      split at he
      · split at he
        · rename_i h1 h2
          exact ⟨k, d, hx, h1, h2⟩
        · split at he <;> simp at he
      · simp at he
  · rintro ⟨k, d, hx, hn, hs⟩
    exact ⟨(k, .dev d), hx, by simp [effNew, hn, hs]⟩

/-- When the flag "new error" is set. -/
theorem new_flag (m : Alarm.Mgr) (neg : Nat → Bool) :
    (m.evaluate neg).flags.newError = true ↔ ∃ i, Fresh m neg i ∧ NotHidden m neg i := by
  have := evalItems_new neg m.items 0 Flags.clear
  simp only [Nat.zero_add, Flags.clear, Bool.false_eq_true, false_and, or_false] at this
  simp only [Alarm.Mgr.evaluate]
  rw [show Flags.clear = ⟨false, false, false, false, false⟩ from rfl, this]
  constructor
  · rintro ⟨a, x, hx, he, hb⟩
    refine ⟨a, (eff_true m neg a).1 ⟨x, hx, he⟩, ?_⟩
    intro j hj hE
    obtain ⟨y, hy, hz⟩ := (eff_false m neg j).2 hE
    exact hb j y hj hy hz
  · rintro ⟨a, hF, hN⟩
    obtain ⟨x, hx, he⟩ := (eff_true m neg a).2 hF
    exact ⟨a, x, hx, he, fun b y hb hy hz => hN b hb ((eff_false m neg b).1 ⟨y, hy, hz⟩)⟩

theorem evalItems_msg (neg : Nat → Bool) : ∀ (l : Items) (i : Nat) (f : Flags),
    (evalItems neg i l f).2.anyMessage = true ↔
      f.anyMessage = true ∨ ∃ (a : Nat) (k : Nat × Nat) (o : Obj), l[a]? = some (k, .obj o) ∧ o.msgs ≠ []
  | [], i, f => by simp [evalItems]
  | (k, it) :: rest, i, f => by
    cases it with
    | dev d =>
      simp only [evalItems]
      rw [evalItems_msg neg rest]
      have : (d.evaluate (neg i) f).2.anyMessage = f.anyMessage := by
        cases hn : neg i <;> cases hs : isSuppressed d.par <;> cases hst : d.st <;>
          simp [Dev.evaluate, hs, hst]
      rw [this]
      constructor
      · rintro (h | ⟨a, k', o, h1, h2⟩)
        · exact Or.inl h
        · exact Or.inr ⟨a + 1, k', o, by simpa using h1, h2⟩
      · rintro (h | ⟨a, k', o, h1, h2⟩)
        · exact Or.inl h
        · cases a with
          | zero => simp at h1
          | succ a => exact Or.inr ⟨a, k', o, by simpa using h1, h2⟩
    | obj o =>
      simp only [evalItems]
      rw [evalItems_msg neg rest]
      have : (o.evaluate f).2.anyMessage = true ↔ f.anyMessage = true ∨ o.msgs ≠ [] := by
        simp only [Obj.evaluate]
        cases o.msgs with
        | nil => simp; split <;> simp
        | cons x xs => simp
      rw [this]
      constructor
      · rintro ((h | h) | ⟨a, k', o', h1, h2⟩)
        · exact Or.inl h
        · exact Or.inr ⟨0, k, o, rfl, h⟩
        · exact Or.inr ⟨a + 1, k', o', by simpa using h1, h2⟩
      · rintro (h | ⟨a, k', o', h1, h2⟩)
        · exact Or.inl (Or.inl h)
        · cases a with
          | zero =>
            simp only [List.getElem?_cons_zero, Option.some.injEq, Prod.mk.injEq, Item.obj.injEq] at h1
            rw [← h1.2] at h2
            exact Or.inl (Or.inr h2)
          | succ a => exact Or.inr ⟨a, k', o', by simpa using h1, h2⟩

/-- When the flag "there is a message" is set. -/
theorem msg_flag (m : Alarm.Mgr) (neg : Nat → Bool) :
    (m.evaluate neg).flags.anyMessage = true ↔ HasMessage m := by
  have := evalItems_msg neg m.items 0 Flags.clear
  simp only [Alarm.Mgr.evaluate]
  rw [this]
  simp [Flags.clear, HasMessage]

theorem crit_any (s : Sys) : s.crit.isAnyError = true ↔ Critical s := by
  unfold Critical CritErr.Mgr.isAnyError
  cases h : s.crit.errors with
  | nil => simp
  | cons a l => simp

/-! ### One cycle in service -/

theorem inService_late {s : Sys} {now : Tm} (h : InService s now) :
    ¬ Time.deltaMs now s.sir.startT < 5000 := by
  obtain ⟨-, -, h3⟩ := h
  intro hlt
  have h5 : (Time.deltaMs now s.sir.startT).toNat < (5000 : BitVec 64).toNat := hlt
  rw [Timer.delta_eq (by omega)] at h5
  have : (5000 : BitVec 64).toNat = 5000 := rfl
  omega

theorem eval_inService {s : Sys} {now : Tm} (h : InService s now) (f : Alarm.Flags)
    (objs : List TObj) : s.sir.eval now s.crit f objs =
      ((((s.sir.evalRed now (s.crit.isAnyError || f.anyError)).evalOn (critId s.crit)
        f.newError).evalYellow now f.anyMessage).evalOff s.crit.isAnyError f.anyNoAck).evalGreen
        objs := by
  have h5 := inService_late h
  obtain ⟨h1, h2, -⟩ := h
  unfold Sir.eval
  rw [if_neg (by simp [h1]), if_neg h5, if_neg (by simp [h2])]

end Ptusa.Siren
