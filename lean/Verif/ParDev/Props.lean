import Verif.ParDev.Lemmas

/-!
# C83: a parameter of a device is set by its name
-/
namespace Ptusa.ParDev

open Ptusa.Registry (Cls)
open Spec

variable {α : Type}

/-- C83.  After every history of commands of the server and assignments of the program, on a device of any class: every
parameter holds what was last written to its name or its number, else what was found in the memory at the start; what is
saved is what the last command to its name gave.  No command has undefined behaviour, whatever its name. -/
theorem C83_holds (c : Cls) (stored : List α) (s zero : α) (hl : stored.length = (ctor c).1) (h : List (Op α)) :
    ∃ p, (make c stored s).run h = some p ∧
      ∀ (i : Nat) (n : String) (v : α), (paramNames c)[i]? = some n → stored[i]? = some v →
        (∀ (a b : BitVec 32), (a + b).toNat = i + 1 → p.getPar zero a b = holds (i + 1) n h v) ∧
        p.saved[i]? = some (saves n h v) := by
  have h0 : Named (paramNames c) (make c stored s) := by
    rw [make_eq c stored s hl]
    exact ⟨rfl, by simp [hl, ctor_count], by simp [hl, ctor_count]⟩
  obtain ⟨p, e, hp, a, b⟩ := h0.run (paramNames_nodup c) h
  refine ⟨p, e, ?_⟩
  intro i n v hi hv
  have hm := make_eq c stored s hl
  rw [hm] at a b
  have ha := a i n hi
  have hb := b i n hi
  simp only [hv, Option.map_some] at ha hb
  refine ⟨?_, hb⟩
  intro x y hxy
  have hlt : i < (paramNames c).length := (List.getElem?_eq_some_iff.1 hi).1
  have hne : p.names ≠ [] := by
    rw [hp.1]; intro e'
    have : (paramNames c) = [] := by simpa using e'
    rw [this] at hlt; simp at hlt
  unfold Par.getPar
  rw [BitVec.add_comm y x, hxy, if_neg hne, if_pos ⟨by rw [hp.1, List.length_map]; omega, by omega⟩]
  simp [ha]

/-- A temperature sensor: the program sets the shift, the server sets the value in case of an error twice. -/
example : ((make .tempE [(5 : Int), 7] 0).run [.set 1 0 9, .cmd "P_ERR_T" 20, .cmd "P_X" 4, .cmd "P_ERR_T" 30]).map
    (fun p => (p.vals, p.saved)) = some ([9, 30], [5, 30]) := by decide +kernel

/-- C83.  The command says whether the device has a parameter of the name; one that it has not changes nothing. -/
theorem C83_result (c : Cls) (stored : List α) (s : α) (hl : stored.length = (ctor c).1) (pre : List (Op α))
    (n : String) (v : α) :
    ∃ p q r, (make c stored s).run pre = some p ∧ p.setByName n v = some (q, r) ∧
      (n ∈ paramNames c → r = 0) ∧ (n ∉ paramNames c → r = 1 ∧ q = p) := by
  have h0 : Named (paramNames c) (make c stored s) := by
    rw [make_eq c stored s hl]
    exact ⟨rfl, by simp [hl, ctor_count], by simp [hl, ctor_count]⟩
  obtain ⟨p, e, hp, -, -⟩ := h0.run (paramNames_nodup c) pre
  refine ⟨p, ?_⟩
  by_cases hn : n ∈ paramNames c
  · exact ⟨{ p with vals := p.vals.set ((paramNames c).idxOf n) v, saved := p.saved.set ((paramNames c).idxOf n) v }, 0, e,
      by simp [Par.setByName, hp.1, lookup_eq, hn], by simp, fun h => absurd hn h⟩
  · exact ⟨p, 1, e, by simp [Par.setByName, hp.1, lookup_eq, hn], fun h => absurd h hn, by simp⟩

example : ((make .wagesPxc [(1 : Int), 2, 3] 0).setByName "P_K" 8).map (fun x => (x.1.vals, x.2)) = some ([1, 2, 8], 0)
    := by decide +kernel
example : ((make .wagesPxc [(1 : Int), 2, 3] 0).setByName "P_RKP" 8).map (fun x => (x.1.vals, x.2)) = some ([1, 2, 3], 1)
    := by decide +kernel

/-- C83.  After a restart the device has in every parameter what the last command to its name gave, and nothing of what
the program assigned. -/
theorem C83_restart (c : Cls) (stored : List α) (s s' zero : α) (hl : stored.length = (ctor c).1) (h : List (Op α)) :
    ∃ p, (make c stored s).run h = some p ∧
      ∀ (i : Nat) (n : String) (v : α), (paramNames c)[i]? = some n → stored[i]? = some v →
        ∀ (a b : BitVec 32), (a + b).toNat = i + 1 → (make c p.saved s').getPar zero a b = saves n h v := by
  have h0 : Named (paramNames c) (make c stored s) := by
    rw [make_eq c stored s hl]
    exact ⟨rfl, by simp [hl, ctor_count], by simp [hl, ctor_count]⟩
  obtain ⟨p, e, hp, -, b⟩ := h0.run (paramNames_nodup c) h
  refine ⟨p, e, ?_⟩
  intro i n v hi hv x y hxy
  have hlen : p.saved.length = (ctor c).1 := by rw [hp.2.2, ctor_count]
  obtain ⟨q, e2, H⟩ := C83_holds c p.saved s' zero hlen []
  have : q = make c p.saved s' := by simpa [Par.run] using e2.symm
  subst this
  have hb := b i n hi
  rw [make_eq c stored s hl] at hb
  simp only [hv, Option.map_some] at hb
  have := (H i n _ hi hb).1 x y hxy
  simpa [holds] using this

example : (((make .tempE [(5 : Int), 7] 0).run [.set 1 0 9, .cmd "P_ERR_T" 20]).map
    fun p => (make .tempE p.saved 0).vals) = some [5, 20] := by decide +kernel

/-- The full C83 fails for a device of the program that leaves a parameter without a name — a forgotten call, or a name
of more than 25 bytes, which is refused without any notice but in debug mode: a command that does not find its name
before the nameless parameter compares with a null pointer. -/
theorem C83_nameless_violated (p : Par α) (pre : List String) (post : List (Option String))
    (hp : p.names = pre.map some ++ none :: post) (n : String) (hn : n ∉ pre) (v : α) : p.setByName n v = none := by
  have : ∀ k, lookup n p.names k = none := by
    rw [hp]
    clear hp
    induction pre with
    | nil => intro k; rfl
    | cons a pre ih =>
      intro k
      have h1 : a ≠ n := fun e => hn (by simp [e])
      have h2 : n ∉ pre := fun e => hn (by simp [e])
      simp only [List.map_cons, List.cons_append, lookup, if_neg h1]
      exact ih h2 _
  simp [Par.setByName, this]

example : (((new [(1 : Int), 2] 0).nameAll [(1, 0, "P_CZ"), (2, 0, "P_A_NAME_THAT_IS_FAR_TOO_LONG")]).setByName "P_K" 1)
    = none := by decide +kernel

/-- The full C83 fails in the reading of numbers that do not exist: it should give 0 and gives what the program last
assigned to any number that does not exist. -/
theorem C83_stub_violated (c : Cls) (stored : List α) (s zero v : α) (hl : stored.length = (ctor c).1)
    (hc : 0 < (ctor c).1) (i j : BitVec 32) (hi : (ctor c).1 < i.toNat) (hj : (ctor c).1 < j.toNat) :
    ((make c stored s).setPar i 0 v).getPar zero j 0 = v := by
  rw [make_eq c stored s hl]
  rw [ctor_count] at hc hi hj
  have hne : (paramNames c) ≠ [] := by intro e; simp [e] at hc
  have h1 : ¬ (i.toNat ≤ (paramNames c).length ∧ 0 < i.toNat) := by omega
  have h2 : ¬ (j.toNat ≤ (paramNames c).length ∧ 0 < j.toNat) := by omega
  simp [Par.setPar, Par.getPar, hne, h1, h2]

example : ((make .motor [(3 : Int)] 0).setPar 2 0 9).getPar 0 7 0 = 9 := by decide +kernel

end Ptusa.ParDev
