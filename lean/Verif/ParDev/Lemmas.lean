import Verif.ParDev.Spec

/-!
# Lemmas about the parameters of devices
-/
namespace Ptusa.ParDev

open Ptusa.Registry (Cls)
open Spec

variable {α : Type}

theorem new_names (stored : List α) (s : α) : (new stored s).names = List.replicate stored.length none := by
  simp [new, List.map_const']

/-- The calls of `set_par_name` concern the names alone. -/
def nameList (l : List (Option String)) : List (BitVec 32 × BitVec 32 × String) → List (Option String)
  | [] => l
  | (i, o, n) :: cs =>
    let p : Par Unit := { names := l, vals := [], saved := [], stub := () }
    nameList (p.setName i o n).names cs

theorem setName_vals (p : Par α) (i o : BitVec 32) (n : String) :
    (p.setName i o n).vals = p.vals ∧ (p.setName i o n).saved = p.saved ∧ (p.setName i o n).stub = p.stub ∧
    (p.setName i o n).names = (({ names := p.names, vals := [], saved := [], stub := () } : Par Unit).setName i o n).names := by
  unfold Par.setName
  simp only
  split
  · split
    · simp
    · split <;> simp_all
  · simp

theorem nameAll_eq (cs : List (BitVec 32 × BitVec 32 × String)) (p : Par α) :
    (p.nameAll cs).vals = p.vals ∧ (p.nameAll cs).saved = p.saved ∧ (p.nameAll cs).stub = p.stub ∧
    (p.nameAll cs).names = nameList p.names cs := by
  induction cs generalizing p with
  | nil => simp [Par.nameAll, nameList]
  | cons c cs ih =>
    obtain ⟨i, o, n⟩ := c
    obtain ⟨h1, h2, h3, h4⟩ := setName_vals p i o n
    obtain ⟨g1, g2, g3, g4⟩ := ih (p.setName i o n)
    simp only [Par.nameAll, nameList]
    exact ⟨g1.trans h1, g2.trans h2, g3.trans h3, by rw [g4, h4]⟩

theorem ctor_count (c : Cls) : (ctor c).1 = (paramNames c).length := by
  cases c <;> rfl

theorem ctor_names (c : Cls) :
    nameList (List.replicate (paramNames c).length none) (ctor c).2 = (paramNames c).map some := by
  cases c <;> decide +kernel

theorem paramNames_nodup (c : Cls) : (paramNames c).Nodup := by
  cases c <;> decide +kernel

theorem make_eq (c : Cls) (stored : List α) (s : α) (hl : stored.length = (ctor c).1) :
    make c stored s = { names := (paramNames c).map some, vals := stored, saved := stored, stub := s } := by
  obtain ⟨h1, h2, h3, h4⟩ := nameAll_eq (ctor c).2 (new stored s)
  have h5 : (make c stored s).names = (paramNames c).map some := by
    unfold make
    rw [h4, new_names, hl, ctor_count, ctor_names]
  cases hm : make c stored s with
  | mk a b d e =>
    unfold make at hm h5
    rw [hm] at h1 h2 h3 h5
    simp [new] at h1 h2 h3 h5
    simp [h1, h2, h3, h5]

theorem lookup_eq (n : String) (l : List String) (k : Nat) :
    lookup n (l.map some) k = some (if n ∈ l then some (k + l.idxOf n) else none) := by
  induction l generalizing k with
  | nil => simp [lookup]
  | cons a l ih =>
    simp only [List.map_cons, lookup]
    by_cases h : a = n
    · subst h; simp
    · rw [if_neg h, ih, List.idxOf_cons]
      have : (a == n) = false := by simpa using h
      simp only [this, cond_false, List.mem_cons]
      have h' : n ≠ a := fun e => h e.symm
      simp only [h', false_or]
      congr 1
      split
      · congr 1; omega
      · rfl

/-- The parameters of a device, all named. -/
def Named (l : List String) (p : Par α) : Prop :=
  p.names = l.map some ∧ p.vals.length = l.length ∧ p.saved.length = l.length

theorem Named.step {l : List String} {p : Par α} (hp : Named l p) (hn : l.Nodup) (o : Op α) :
    ∃ q, p.step o = some q ∧ Named l q ∧
      (∀ (i : Nat) (n : String), l[i]? = some n → q.vals[i]? = p.vals[i]?.map fun v => holds (i + 1) n [o] v) ∧
      (∀ (i : Nat) (n : String), l[i]? = some n → q.saved[i]? = p.saved[i]?.map fun v => saves n [o] v) := by
  obtain ⟨h1, h2, h3⟩ := hp
  cases o with
  | cmd m w =>
    simp only [Par.step, Par.setByName, h1, lookup_eq, Option.map_some, Nat.zero_add]
    by_cases hm : m ∈ l
    · rw [if_pos hm]
      refine ⟨_, rfl, ⟨by simp, by simp [h2], by simp [h3]⟩, ?_, ?_⟩
      all_goals
        intro i n hi
        have hlt : i < l.length := (List.getElem?_eq_some_iff.1 hi).1
        have hg : l[i] = n := (List.getElem?_eq_some_iff.1 hi).2
        simp only [List.getElem?_set, holds, saves]
        by_cases e : l.idxOf m = i
        · have : m = n := by subst e; rw [← hg]; exact (List.getElem_idxOf hlt).symm
          rw [e]; simp [this, h2, h3, hlt]
        · have : m ≠ n := by
            intro e'; apply e; subst e'
            rw [← hg]; exact hn.idxOf_getElem i hlt
          simp [e, this]
    · rw [if_neg hm]
      refine ⟨_, rfl, ⟨h1, h2, h3⟩, ?_, ?_⟩
      all_goals
        intro i n hi
        have : m ≠ n := fun e => hm (e ▸ List.mem_of_getElem? hi)
        simp [holds, saves, this]
  | set k o w =>
    simp only [Par.step, Par.setPar]
    have hcomm : o + k = k + o := BitVec.add_comm _ _
    rw [hcomm]
    split
    · rename_i he
      have : l = [] := by simpa [h1] using he
      subst this
      refine ⟨_, rfl, ⟨h1, h2, h3⟩, ?_, ?_⟩ <;> intro i n hi <;> simp at hi
    · split
      · rename_i hr
        refine ⟨_, rfl, ⟨h1, by simp [h2], h3⟩, ?_, ?_⟩
        · intro i n hi
          have hlt : i < l.length := (List.getElem?_eq_some_iff.1 hi).1
          simp only [List.getElem?_set, holds]
          by_cases e : (k + o).toNat - 1 = i
          · have : (k + o).toNat = i + 1 := by omega
            simp [this, h2, hlt]
          · have : (k + o).toNat ≠ i + 1 := by omega
            simp only [if_neg e, if_neg this, Option.map_id']
        · intro i n _; simp [saves]
      · rename_i hr
        refine ⟨_, rfl, ⟨h1, h2, h3⟩, ?_, ?_⟩
        · intro i n hi
          have hlt : i < l.length := (List.getElem?_eq_some_iff.1 hi).1
          have : (k + o).toNat ≠ i + 1 := by
            intro e; apply hr; rw [h1, List.length_map]; omega
          simp only [holds, if_neg this, Option.map_id']
        · intro i n _; simp [saves]

theorem holds_cons (k : Nat) (n : String) (o : Op α) (h : List (Op α)) (v : α) :
    holds k n (o :: h) v = holds k n h (holds k n [o] v) := by
  cases o <;> simp [holds]

theorem saves_cons (n : String) (o : Op α) (h : List (Op α)) (v : α) :
    saves n (o :: h) v = saves n h (saves n [o] v) := by
  cases o <;> simp [saves]

theorem Named.run {l : List String} {p : Par α} (hp : Named l p) (hn : l.Nodup) (h : List (Op α)) :
    ∃ q, p.run h = some q ∧ Named l q ∧
      (∀ (i : Nat) (n : String), l[i]? = some n → q.vals[i]? = p.vals[i]?.map fun v => holds (i + 1) n h v) ∧
      (∀ (i : Nat) (n : String), l[i]? = some n → q.saved[i]? = p.saved[i]?.map fun v => saves n h v) := by
  induction h generalizing p with
  | nil => exact ⟨p, rfl, hp, by simp [holds], by simp [saves]⟩
  | cons o h ih =>
    obtain ⟨q, e, hq, a, b⟩ := hp.step hn o
    obtain ⟨r, e', hr, a', b'⟩ := ih hq
    refine ⟨r, by simp [Par.run, e, e'], hr, ?_, ?_⟩
    · intro i n hi
      rw [a' i n hi, a i n hi, Option.map_map]
      congr 1; funext v; exact (holds_cons _ _ _ _ _).symm
    · intro i n hi
      rw [b' i n hi, b i n hi, Option.map_map]
      congr 1; funext v; exact (saves_cons _ _ _ _).symm

end Ptusa.ParDev
