import Verif.Debounce.Spec
import Verif.Timer.Lemmas

namespace Ptusa.Debounce

open Valve (Tm toUnsigned)

theorem trunc_toNat (t : Tm) (h : t.toNat < 2 ^ 32) : (t.truncate 32).toNat = t.toNat := by
  simp
  omega

theorem ext_toNat (t : BitVec 32) : (t.zeroExtend 64).toNat = t.toNat := by
  have := t.isLt
  simp
  omega

theorem run_append (pDt : Fl) (h : List (Tm × Bool)) : ∀ (d : Di) (p : Tm × Bool),
    d.run pDt (h ++ [p]) = (d.run pDt h).bind fun e => e.poll pDt p := by
  induction h with
  | nil => intro d p; simp [Di.run]
  | cons a h ih =>
    intro d p
    simp only [List.cons_append, Di.run]
    cases d.poll pDt a with
    | none => rfl
    | some e => simp [ih]

/-- One call, with a filter time. -/
def next (dt : Nat) (d : Di) (p : Tm × Bool) : Di :=
  if d.cur ≠ p.2 then
    if (Time.deltaMs p.1 (d.time.zeroExtend 64)).toNat > dt then { cur := p.2, time := p.1.truncate 32 } else d
  else { d with time := p.1.truncate 32 }

theorem poll_pos {pDt : Fl} {dt : Nat} (h : toUnsigned 32 pDt = some dt) (hd : 0 < dt) (d : Di) (p : Tm × Bool) :
    d.poll pDt p = some (next dt d p) := by
  simp [Di.poll, h, next, hd]

theorem run_pos {pDt : Fl} {dt : Nat} (h : toUnsigned 32 pDt = some dt) (hd : 0 < dt) (ps : List (Tm × Bool)) :
    ∀ d : Di, d.run pDt ps = some (ps.foldl (next dt) d) := by
  induction ps with
  | nil => intro d; rfl
  | cons p ps ih => intro d; simp [Di.run, poll_pos h hd, ih]

theorem next_time_le (dt : Nat) (d : Di) (p : Tm × Bool) (hp : p.1.toNat < 2 ^ 32) (hd : d.time.toNat ≤ p.1.toNat) :
    (next dt d p).time.toNat ≤ p.1.toNat := by
  have := trunc_toNat p.1 hp
  unfold next
  split
  · split
    · exact Nat.le_of_eq this
    · exact hd
  · exact Nat.le_of_eq this

/-- The shown state is the input of every call made after the time kept, which is not in the future. -/
def Inv (h : List (Tm × Bool)) (d : Di) : Prop :=
  (∀ p ∈ h, d.time.toNat < p.1.toNat → p.2 ≠ d.cur)

theorem inv_fold (dt : Nat) (d0 : Di) (h : List (Tm × Bool)) : InOrder h → Early h →
    (∀ p ∈ h, d0.time.toNat ≤ p.1.toNat) →
    Inv h (h.foldl (next dt) d0) ∧ (∀ m : Nat, d0.time.toNat ≤ m → (∀ p ∈ h, p.1.toNat ≤ m) → (h.foldl (next dt) d0).time.toNat ≤ m) := by
  induction h using List.reverseRecOn with
  | nil =>
    intro _ _ _
    refine ⟨by intro p hp; simp at hp, ?_⟩
    intro m hm _
    exact hm
  | append_singleton h p ih =>
    intro ho he hd0
    have hpw := List.pairwise_append.mp ho
    have hprev : ∀ x ∈ h, x.1.toNat ≤ p.1.toNat := fun x hx => hpw.2.2 x hx p (by simp)
    have hpe : p.1.toNat < 2 ^ 32 := he p (by simp)
    obtain ⟨hi, ht⟩ := ih hpw.1 (fun x hx => he x (by simp [hx])) (fun x hx => hd0 x (by simp [hx]))
    rw [List.foldl_append]
    simp only [List.foldl_cons, List.foldl_nil]
    generalize h.foldl (next dt) d0 = d at hi ht
    have hdp := ht p.1.toNat (hd0 p (by simp)) hprev
    have hn := next_time_le dt d p hpe hdp
    refine ⟨?_, fun m _ hm => Nat.le_trans hn (hm p (by simp))⟩
    have htr := trunc_toNat p.1 hpe
    unfold next
    by_cases hc : d.cur = p.2
    · rw [if_neg (by simp [hc])]
      intro x hx hlt
      simp only at hlt
      rw [htr] at hlt
      rcases List.mem_append.mp hx with hx | hx
      · have := hprev x hx; omega
      · simp at hx; subst hx; omega
    · rw [if_pos hc]
      split
      · intro x hx hlt
        simp only at hlt
        rw [htr] at hlt
        rcases List.mem_append.mp hx with hx | hx
        · have := hprev x hx; omega
        · simp at hx; subst hx; omega
      · intro x hx hlt
        rcases List.mem_append.mp hx with hx | hx
        · exact hi x hx hlt
        · simp at hx; subst hx; exact fun h => hc h.symm

theorem fresh_le {d : Di} {h : List (Tm × Bool)} (hf : Fresh d h) : ∀ p ∈ h, d.time.toNat ≤ p.1.toNat := by
  obtain ⟨s, rfl | ⟨t, rfl, ht, hall⟩⟩ := hf
  · intro p _; simp [Di.init]
  · intro p hp
    have := hall p hp
    have h2 := trunc_toNat t ht
    simp only [Di.initIolink]
    omega

theorem delta_ext {now : Tm} {t : BitVec 32} (h : t.toNat ≤ now.toNat) :
    (Time.deltaMs now (t.zeroExtend 64)).toNat = now.toNat - t.toNat := by
  rw [Timer.delta_eq (by rw [ext_toNat]; exact h), ext_toNat]

/-- A steady input: either it is shown, or the time kept is not later than the beginning of the steady time. -/
theorem steady_fold (dt : Nat) (b : Bool) (t : Nat) (h : List (Tm × Bool)) (hb : ∀ p ∈ h, p.2 = b) :
    ∀ d : Di, (d.cur = b ∨ d.time.toNat ≤ t) →
      (h.foldl (next dt) d).cur = b ∨ (h.foldl (next dt) d).time.toNat ≤ t := by
  induction h with
  | nil => intro d hd; exact hd
  | cons p h ih =>
    intro d hd
    simp only [List.foldl_cons]
    apply ih (fun x hx => hb x (by simp [hx]))
    have hp := hb p (by simp)
    unfold next
    by_cases hc : d.cur = p.2
    · rw [if_neg (by simp [hc])]
      left
      simp [hc, hp]
    · rw [if_pos hc]
      split
      · left; exact hp
      · rcases hd with hd | hd
        · exact absurd (hd.trans hp.symm) hc
        · right; exact hd

theorem runIolink_eq (pDt : Fl) (max : Bool) (ps : List (Bool × Tm × Bool)) : ∀ (d e : Di) (shown : List Bool),
    d.runIolink pDt max ps = some (shown, e) →
      d.run pDt ((ps.filter (·.1)).map (·.2)) = some e ∧ shown.length = ps.length ∧
      ∀ (i : Nat) (p : Bool × Tm × Bool), ps[i]? = some p →
        shown[i]? = if p.1 then (d.run pDt (((ps.take (i + 1)).filter (·.1)).map (·.2))).map Di.cur else some max := by
  induction ps with
  | nil =>
    intro d e shown h
    simp only [Di.runIolink, Option.some.injEq, Prod.mk.injEq] at h
    obtain ⟨rfl, rfl⟩ := h
    refine ⟨rfl, rfl, ?_⟩
    intro i p hp
    simp at hp
  | cons a ps ih =>
    intro d e shown h
    obtain ⟨ok, q⟩ := a
    simp only [Di.runIolink, Option.bind_eq_some_iff, Option.map_eq_some_iff] at h
    obtain ⟨⟨s, d'⟩, hd, ⟨rest, e'⟩, hr, heq⟩ := h
    simp only [Prod.mk.injEq] at heq
    obtain ⟨rfl, rfl⟩ := heq
    obtain ⟨h1, h2, h3⟩ := ih d' e' rest hr
    cases ok with
    | true =>
      simp only [Di.pollIolink, if_true, Option.map_eq_some_iff, Prod.mk.injEq] at hd
      obtain ⟨d'', hp, hs, rfl⟩ := hd
      refine ⟨by simp [Di.run, hp, h1], by simp [h2], ?_⟩
      intro i p hi
      cases i with
      | zero =>
        simp only [List.getElem?_cons_zero, Option.some.injEq] at hi
        subst hi
        simp [Di.run, hp, hs]
      | succ i =>
        simp only [List.getElem?_cons_succ] at hi
        have := h3 i p hi
        simp only [List.getElem?_cons_succ, this]
        simp [Di.run, hp]
    | false =>
      simp only [Di.pollIolink, Bool.false_eq_true, if_false, Option.some.injEq, Prod.mk.injEq] at hd
      obtain ⟨rfl, rfl⟩ := hd
      refine ⟨by simp [h1], by simp [h2], ?_⟩
      intro i p hi
      cases i with
      | zero =>
        simp only [List.getElem?_cons_zero, Option.some.injEq] at hi
        subst hi
        simp
      | succ i =>
        simp only [List.getElem?_cons_succ] at hi
        have := h3 i p hi
        simp only [List.getElem?_cons_succ, this]
        simp

end Ptusa.Debounce
