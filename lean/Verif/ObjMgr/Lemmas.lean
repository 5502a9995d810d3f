import Verif.ObjMgr.Spec
import Mathlib.Data.List.Induction

namespace Ptusa.ObjMgr.Lemmas

open ObjMgr Spec

theorem run_snoc (s : St) (h : List Ev) (e : Ev) : s.run (h ++ [e]) = ((s.run h).step e).1 := by
  simp [St.run, List.foldl_append]

theorem objs_run (h : List Ev) : (St.run {} h).objs = added h := by
  induction h using List.reverseRecOn with
  | nil => rfl
  | append_singleton h e ih =>
    rw [run_snoc]
    cases e with
    | add o => simp [St.step, St.add, ih, added]
    | define b => simpa [St.step, added] using ih
    | eval => simpa [St.step, St.eval, added] using ih

theorem fn_run (h : List Ev) : (St.run {} h).fn = defined h := by
  induction h using List.reverseRecOn with
  | nil => rfl
  | append_singleton h e ih =>
    rw [run_snoc]
    cases e with
    | add o => simpa [St.step, St.add, defined] using ih
    | define b => simp [St.step, defined]
    | eval => simpa [St.step, St.eval, defined] using ih

theorem fixed_left (h : List Ev) (e : Ev) (hf : Fixed (h ++ [e])) : Fixed h := by
  intro h1 h2 he b hb
  exact hf h1 (h2 ++ [e]) (by rw [he]; simp) b (List.mem_append_left _ hb)

/-- The answer kept from the first evaluation is the present one. -/
theorem cache_run (h : List Ev) (hf : Fixed h) : (St.run {} h).cache = none ∨ (St.run {} h).cache = some (defined h) := by
  suffices hs : ((St.run {} h).cache = none ∧ Ev.eval ∉ h) ∨ ((St.run {} h).cache = some (defined h) ∧ Ev.eval ∈ h) from
    hs.imp And.left And.left
  induction h using List.reverseRecOn with
  | nil => exact .inl ⟨rfl, by simp⟩
  | append_singleton h e ih =>
    have ih := ih (fixed_left h e hf)
    rw [run_snoc]
    cases e with
    | add o =>
      have : defined (h ++ [.add o]) = defined h := by simp [defined]
      rw [this]; simpa [St.step, St.add] using ih
    | define b =>
      rcases ih with ⟨i1, i2⟩ | ⟨_, i2⟩
      · exact .inl ⟨i1, by simp [i2]⟩
      · obtain ⟨h1, h2, he⟩ := List.append_of_mem i2
        exact absurd (List.mem_append_right h2 (List.mem_singleton_self (Ev.define b))) (hf h1 (h2 ++ [.define b]) (by rw [he]; simp) b)
    | eval =>
      have hd : defined (h ++ [.eval]) = defined h := by simp [defined]
      rw [hd]
      right
      refine ⟨?_, by simp⟩
      rcases ih with ⟨i1, _⟩ | ⟨i1, _⟩
      · simp only [St.step, St.eval, i1, fn_run]
      · simp only [St.step, St.eval, i1]

theorem right_acts (h : List Ev) (fn : Bool) : Right h fn ((added h).map .obj ++ (if fn then [.luaEval] else [])) := by
  refine ⟨?_, ?_, ?_⟩
  · rw [List.filterMap_append, List.filterMap_map]
    cases fn <;> simp [Function.comp_def]
  · rw [List.count_append]
    have : ((added h).map Act.obj).count .luaEval = 0 := List.count_eq_zero.2 (by simp)
    rw [this]; cases fn <;> simp
  · intro pre post he
    have hno : Act.luaEval ∉ (added h).map Act.obj := by simp
    cases fn with
    | false =>
      simp only [Bool.false_eq_true, if_false, List.append_nil] at he
      exact absurd (he ▸ List.mem_append_right pre List.mem_cons_self) hno
    | true =>
      simp only [if_true] at he
      cases post using List.reverseRecOn with
      | nil => rfl
      | append_singleton p x =>
        have : (added h).map Act.obj ++ [Act.luaEval] = (pre ++ .luaEval :: p) ++ [x] := by rw [he]; simp
        have := (List.append_inj' this rfl).1
        exact absurd (this ▸ List.mem_append_right pre List.mem_cons_self) hno

theorem serial_run (h : List Ev) (hn : (added h).Nodup) (i o : Nat) (ho : (added h)[i]? = some o) :
    (St.run {} h).serial o = i + 1 := by
  induction h using List.reverseRecOn with
  | nil => simp [added] at ho
  | append_singleton h e ih =>
    rw [run_snoc]
    cases e with
    | add x =>
      have ha : added (h ++ [.add x]) = added h ++ [x] := by simp [added]
      rw [ha] at ho hn
      simp only [St.step, St.add, objs_run]
      rcases Nat.lt_or_ge i (added h).length with hl | hl
      · rw [List.getElem?_append_left hl] at ho
        have hne : ¬ o = x := by
          intro e
          have := (List.nodup_append.1 hn).2.2 o (List.mem_of_getElem? ho) x (by simp)
          exact this e
        rw [if_neg hne]
        exact ih (List.nodup_append.1 hn).1 ho
      · rw [List.getElem?_append_right hl] at ho
        have hi : i - (added h).length = 0 := by
          cases hk : i - (added h).length with
          | zero => rfl
          | succ k => rw [hk] at ho; simp at ho
        rw [hi] at ho
        have hx : x = o := by simpa using ho
        rw [if_pos hx.symm]; omega
    | define b =>
      have ha : added (h ++ [.define b]) = added h := by simp [added]
      rw [ha] at ho hn; exact ih hn ho
    | eval =>
      have ha : added (h ++ [.eval]) = added h := by simp [added]
      rw [ha] at ho hn; exact ih hn ho

theorem search_spec (on : List Bool) (i last : Nat) :
    (∀ k : Nat, search on i last = (k : Int) ↔ Lowest on i last k) ∧
      (search on i last = -1 ↔ ∀ k, i ≤ k → k ≤ last → on[k]? ≠ some true) := by
  induction hm : on.length - i generalizing i with
  | zero =>
    have hn : ¬ (i ≤ last ∧ i < on.length) := by omega
    have hs : search on i last = -1 := by unfold search; exact dif_neg hn
    rw [hs]
    refine ⟨fun k => ⟨fun e => by omega, fun hk => ?_⟩, fun _ k hk _ => ?_, fun _ => rfl⟩
    · have h1 := hk.1
      have h2 := hk.2.2.1
      rw [List.getElem?_eq_none (by omega)] at h2; exact absurd h2 (by simp)
    · rw [List.getElem?_eq_none (by omega)]; simp
  | succ m ih =>
    by_cases hn : i ≤ last ∧ i < on.length
    · by_cases ho : on[i]'hn.2 = true
      · have hs : search on i last = (i : Int) := by unfold search; rw [dif_pos hn, if_pos ho]
        have hg : on[i]? = some true := by rw [List.getElem?_eq_getElem hn.2, ho]
        rw [hs]
        refine ⟨fun k => ⟨fun e => ?_, fun hk => ?_⟩, fun e => by omega, fun hk => ?_⟩
        · have : k = i := by omega
          subst this
          exact ⟨Nat.le_refl _, hn.1, hg, fun j h1 h2 => absurd h1 (by omega)⟩
        · rcases Nat.lt_or_ge i k with hlt | hge
          · have := hk.2.2.2 i (Nat.le_refl _) hlt
            rw [hg] at this; exact absurd this (by simp)
          · have := hk.1; omega
        · exact absurd hg (hk i (Nat.le_refl _) hn.1)
      · have hs : search on i last = search on (i + 1) last := by
          conv => lhs; unfold search
          rw [dif_pos hn, if_neg ho]
        have hg : on[i]? = some false := by
          rw [List.getElem?_eq_getElem hn.2]; simpa using ho
        obtain ⟨i1, i2⟩ := ih (i + 1) (by omega)
        rw [hs]
        refine ⟨fun k => ?_, ?_⟩
        · rw [i1 k]
          constructor
          · rintro ⟨a, b, c, d⟩
            refine ⟨by omega, b, c, fun j h1 h2 => ?_⟩
            rcases Nat.eq_or_lt_of_le h1 with e | e
            · rw [← e]; exact hg
            · exact d j e h2
          · rintro ⟨a, b, c, d⟩
            rcases Nat.eq_or_lt_of_le a with e | e
            · rw [← e, hg] at c; exact absurd c (by simp)
            · exact ⟨e, b, c, fun j h1 h2 => d j (by omega) h2⟩
        · rw [i2]
          constructor
          · intro hk k h1 h2
            rcases Nat.eq_or_lt_of_le h1 with e | e
            · rw [← e, hg]; simp
            · exact hk k e h2
          · intro hk k h1 h2; exact hk k (by omega) h2
    · have hs : search on i last = -1 := by unfold search; exact dif_neg hn
      rw [hs]
      refine ⟨fun k => ⟨fun e => by omega, fun hk => ?_⟩, fun _ k h1 h2 => ?_, fun _ => rfl⟩
      · have h1 := hk.1; have h2 := hk.2.1; exact absurd ⟨by omega, by omega⟩ hn
      · exact absurd ⟨by omega, by omega⟩ hn

end Ptusa.ObjMgr.Lemmas
