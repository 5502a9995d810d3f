import Verif.CipLines.Spec
import Mathlib.Data.List.Induction
import Mathlib.Data.List.Perm.Subperm
import Mathlib.Data.List.Nodup

namespace Ptusa.CipLines.Lemmas

open CipLines Spec

theorem setUp_append (s : St) (a b : List (Nat × Int)) : s.setUp (a ++ b) = (s.setUp a).bind (fun s => s.setUp b) := by
  induction a generalizing s with
  | nil => rfl
  | cons x t ih =>
    obtain ⟨id, n⟩ := x
    show (s.init id n).bind (fun s => s.setUp (t ++ b)) = ((s.init id n).bind (fun s => s.setUp t)).bind (fun s => s.setUp b)
    cases s.init id n with
    | none => rfl
    | some s' => exact ih s'

/-- The last line set up under a number. -/
def lastOf (k : Nat) (ls : List (Nat × Int)) : Option Nat :=
  ls.reverse.findSome? (fun x => if x.2 = (k : Int) + 1 then some x.1 else none)

theorem lastOf_snoc (k : Nat) (ls : List (Nat × Int)) (x : Nat × Int) :
    lastOf k (ls ++ [x]) = if x.2 = (k : Int) + 1 then some x.1 else lastOf k ls := by
  unfold lastOf
  rw [List.reverse_append]
  show List.findSome? _ (x :: ls.reverse) = _
  rw [List.findSome?_cons]
  by_cases e : x.2 = (k : Int) + 1
  · rw [if_pos e, if_pos e]
  · rw [if_neg e, if_neg e]

theorem setUp_some (ls : List (Nat × Int)) :
    (∀ s, St.setUp {} ls = some s → (∀ x ∈ ls, 1 ≤ x.2 ∧ x.2 ≤ 10) ∧ s.cnt = ls.length ∧ s.freed = [] ∧ s.slots.length = 10 ∧
      ∀ k < 10, s.slots[k]? = some (lastOf k ls)) ∧
      ((∀ x ∈ ls, 1 ≤ x.2 ∧ x.2 ≤ 10) → ∃ s, St.setUp {} ls = some s) := by
  induction ls using List.reverseRecOn with
  | nil =>
    refine ⟨fun s hs => ?_, fun _ => ⟨{}, rfl⟩⟩
    have : s = {} := by simpa [St.setUp] using hs.symm
    subst this
    refine ⟨by simp, rfl, rfl, rfl, fun k hk => ?_⟩
    show (List.replicate 10 none)[k]? = some none
    rw [List.getElem?_replicate, if_pos hk]
  | append_singleton ls x ih =>
    obtain ⟨i1, i2⟩ := ih
    obtain ⟨id, n⟩ := x
    have hu : ∀ s, St.setUp s [(id, n)] = s.init id n := by
      intro s; show (s.init id n).bind (fun s => some s) = _; cases s.init id n <;> rfl
    refine ⟨fun s hs => ?_, fun hall => ?_⟩
    · rw [setUp_append] at hs
      cases h1 : St.setUp {} ls with
      | none => rw [h1] at hs; exact absurd hs (by simp)
      | some s' =>
        rw [h1, Option.bind_some, hu] at hs
        unfold St.init at hs
        by_cases hn : 1 ≤ n ∧ n ≤ 10
        · rw [if_pos hn] at hs
          have hs := (Option.some.inj hs).symm
          subst hs
          obtain ⟨a, b, c, d, e⟩ := i1 s' h1
          refine ⟨?_, ?_, c, by simpa using d, fun k hk => ?_⟩
          · intro y hy
            rcases List.mem_append.1 hy with hy | hy
            · exact a y hy
            · have : y = (id, n) := by simpa using hy
              rw [this]; exact hn
          · simp [b]
          · rw [lastOf_snoc]
            show (s'.slots.set (n - 1).toNat (some id))[k]? = _
            rw [List.getElem?_set]
            by_cases e2 : n = (k : Int) + 1
            · rw [if_pos e2, if_pos (by omega), if_pos (by omega)]
            · rw [if_neg e2, if_neg (by omega)]; exact e k hk
        · rw [if_neg hn] at hs; exact absurd hs (by simp)
    · obtain ⟨s', hs'⟩ := i2 (fun y hy => hall y (List.mem_append_left _ hy))
      have hn := hall (id, n) (by simp)
      refine ⟨{ s' with slots := s'.slots.set (n - 1).toNat (some id), cnt := s'.cnt + 1 }, ?_⟩
      rw [setUp_append, hs', Option.bind_some, hu]
      exact if_pos hn

theorem loop_spec (s : St) (k i : Nat) (l : List Nat) :
    s.loop i k = some l ↔ l.length = k ∧ ∀ j < k, s.line (i + j) = l[j]? := by
  induction k generalizing i l with
  | zero =>
    constructor
    · intro h; have : l = [] := by simpa [St.loop] using h.symm
      subst this; exact ⟨rfl, fun j hj => absurd hj (Nat.not_lt_zero _)⟩
    · rintro ⟨h, _⟩; rw [List.length_eq_zero_iff.1 h]; rfl
  | succ k ih =>
    constructor
    · intro h
      unfold St.loop at h
      cases h1 : s.line i with
      | none => rw [h1] at h; exact absurd h (by simp)
      | some id =>
        rw [h1, Option.bind_some] at h
        cases h2 : s.loop (i + 1) k with
        | none => rw [h2] at h; exact absurd h (by simp)
        | some t =>
          rw [h2] at h
          have h : id :: t = l := by simpa using h
          subst h
          obtain ⟨a, b⟩ := (ih (i + 1) t).1 h2
          refine ⟨by simp [a], fun j hj => ?_⟩
          cases j with
          | zero => simpa using h1
          | succ j =>
            have := b j (by omega)
            rw [show i + (j + 1) = i + 1 + j by omega]; simpa using this
    · rintro ⟨a, b⟩
      cases l with
      | nil => simp at a
      | cons id t =>
        have h1 : s.line i = some id := by simpa using b 0 (by omega)
        have h2 : s.loop (i + 1) k = some t := by
          refine (ih (i + 1) t).2 ⟨by simpa using a, fun j hj => ?_⟩
          have := b (j + 1) (by omega)
          rw [show i + 1 + j = i + (j + 1) by omega]; simpa using this
        unfold St.loop
        rw [h1, h2]; rfl

theorem line_of (ls : List (Nat × Int)) (s : St) (hs : St.setUp {} ls = some s) (k : Nat) :
    s.line k = if k < 10 then lastOf k ls else none := by
  obtain ⟨_, _, c, d, e⟩ := (setUp_some ls).1 s hs
  unfold St.line
  by_cases hk : k < 10
  · rw [e k hk, if_pos hk]
    cases lastOf k ls with
    | none => rfl
    | some id => simp [c]
  · rw [if_neg hk, List.getElem?_eq_none (by omega)]

theorem lastOf_some (k : Nat) (ls : List (Nat × Int)) : (lastOf k ls).isSome = true ↔ ((k : Int) + 1) ∈ ls.map Prod.snd := by
  unfold lastOf
  rw [List.findSome?_isSome_iff]
  constructor
  · rintro ⟨x, hx, h⟩
    by_cases e : x.2 = (k : Int) + 1
    · exact List.mem_map.2 ⟨x, List.mem_reverse.1 hx, e⟩
    · rw [if_neg e] at h; exact absurd h (by simp)
  · intro h
    obtain ⟨x, hx, e⟩ := List.mem_map.1 h
    exact ⟨x, List.mem_reverse.2 hx, by rw [if_pos e]; rfl⟩

theorem lastOf_mem (k id : Nat) (ls : List (Nat × Int)) (h : lastOf k ls = some id) : (id, (k : Int) + 1) ∈ ls := by
  unfold lastOf at h
  obtain ⟨x, hx, h⟩ := List.exists_of_findSome?_eq_some h
  by_cases e : x.2 = (k : Int) + 1
  · rw [if_pos e] at h
    have : x = (id, (k : Int) + 1) := Prod.ext (Option.some.inj h) e
    rw [← this]; exact List.mem_reverse.1 hx
  · rw [if_neg e] at h; exact absurd h (by simp)

theorem nodup_numbers (n : Nat) : ((List.range n).map (fun k : Nat => (k : Int) + 1)).Nodup :=
  List.Nodup.map (fun a b (h : (a : Int) + 1 = (b : Int) + 1) => by omega) List.nodup_range

/-- The loop over the lines can be done exactly when the lines are numbered without gaps. -/
theorem visit_iff (ls : List (Nat × Int)) :
    (∃ s l, St.setUp {} ls = some s ∧ s.visit = some l) ↔ Numbered ls := by
  constructor
  · rintro ⟨s, l, hs, hv⟩
    obtain ⟨a, b, _, _, _⟩ := (setUp_some ls).1 s hs
    unfold St.visit at hv
    rw [b] at hv
    obtain ⟨hl, hj⟩ := (loop_spec s _ 0 l).1 hv
    have hk : ∀ k < ls.length, k < 10 ∧ ((k : Int) + 1) ∈ ls.map Prod.snd := by
      intro k hk
      have h1 := hj k hk
      rw [Nat.zero_add, line_of ls s hs, List.getElem?_eq_getElem (by omega)] at h1
      by_cases h10 : k < 10
      · rw [if_pos h10] at h1
        exact ⟨h10, (lastOf_some k ls).1 (by rw [h1]; rfl)⟩
      · rw [if_neg h10] at h1; exact absurd h1 (by simp)
    refine ⟨?_, ?_⟩
    · rcases Nat.lt_or_ge 10 ls.length with h | h
      · exact absurd (hk 10 h).1 (by omega)
      · exact h
    · have hsub : List.Subperm ((List.range ls.length).map (fun k : Nat => (k : Int) + 1)) (ls.map Prod.snd) := by
        refine (nodup_numbers _).subperm (fun x hx => ?_)
        obtain ⟨k, hk', rfl⟩ := List.mem_map.1 hx
        exact (hk k (List.mem_range.1 hk')).2
      exact (hsub.perm_of_length_le (by simp)).symm
  · rintro ⟨h10, hp⟩
    have hall : ∀ x ∈ ls, 1 ≤ x.2 ∧ x.2 ≤ 10 := by
      intro x hx
      have := hp.mem_iff.1 (List.mem_map.2 ⟨x, hx, rfl⟩)
      obtain ⟨k, hk, e⟩ := List.mem_map.1 this
      have := List.mem_range.1 hk
      omega
    obtain ⟨s, hs⟩ := (setUp_some ls).2 hall
    have hb := ((setUp_some ls).1 s hs).2.1
    have hk : ∀ k < ls.length, ∃ id, lastOf k ls = some id := by
      intro k hk
      have : ((k : Int) + 1) ∈ ls.map Prod.snd := hp.mem_iff.2 (List.mem_map.2 ⟨k, List.mem_range.2 hk, rfl⟩)
      exact Option.isSome_iff_exists.1 ((lastOf_some k ls).2 this)
    refine ⟨s, (List.range ls.length).map (fun k => (lastOf k ls).getD 0), hs, ?_⟩
    unfold St.visit
    rw [hb]
    refine (loop_spec s _ 0 _).2 ⟨by simp, fun j hj => ?_⟩
    obtain ⟨id, hid⟩ := hk j hj
    rw [Nat.zero_add, line_of ls s hs, if_pos (by omega), List.getElem?_map, List.getElem?_range hj]
    simp [hid]

end Ptusa.CipLines.Lemmas
