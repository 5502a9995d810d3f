import Verif.CipLua.Spec

namespace Ptusa.CipLua

open Ptusa.LuaCall (Val Text)

variable {σ : Type}

theorem key_name (f : Fn) : f.row.key = f.name := by cases f <;> rfl

/-- The functions whose flag `initline` sets. -/
def Checked (f : Fn) : Prop := f ∈ checks.map (·.2)

instance (f : Fn) : Decidable (Checked f) := by unfold Checked; infer_instance

theorem checks_names : ∀ c ∈ checks, c.1 = c.2.name := by decide

theorem checks_nodup : (checks.map (·.2)).Nodup := by decide

/-! ### Flags -/

theorem check_rest (w : World σ) (n : String) (f : Fn) (s : Sys σ) :
    (s.check w n f).line = s.line ∧ (s.check w n f).stack = s.stack ∧ (s.check w n f).printed = s.printed := by
  unfold Sys.check
  repeat' split
  all_goals exact ⟨rfl, rfl, rfl⟩

theorem check_other (w : World σ) (n : String) (f g : Fn) (s : Sys σ) (h : g ≠ f) :
    (s.check w n f).flag g = s.flag g := by
  unfold Sys.check
  repeat' split
  all_goals simp [h]

/-- The flag of a function after its check. -/
noncomputable def flagOf (w : World σ) (f : Fn) (old : Nat) : Nat :=
  open Classical in
  if old = 0 then
    if ∃ t, w.object = .tbl t then (if w.defines f then 2 else 1) else 0
  else old

theorem check_self (w : World σ) (f : Fn) (s : Sys σ) :
    (s.check w f.name f).flag f = flagOf w f (s.flag f) := by
  unfold Sys.check flagOf
  by_cases h0 : s.flag f = 0
  · simp only [h0, if_true]
    cases ho : w.object with
    | tbl t =>
      simp only [Val.tbl.injEq, exists_eq', if_true]
      by_cases hd : w.defines f
      · obtain ⟨t', g, h1, h2⟩ := id hd
        rw [ho] at h1
        injection h1 with h1
        subst h1
        simp [h2, hd]
      · rw [if_neg hd]
        cases hf : w.field t f.name with
        | fn g => exact absurd ⟨t, g, ho, hf⟩ hd
        | _ => simp
    | _ => simp [h0]
  · simp [h0]

theorem foldl_rest (w : World σ) : ∀ (l : List (String × Fn)) (s : Sys σ),
    (l.foldl (fun s c => s.check w c.1 c.2) s).line = s.line ∧
    (l.foldl (fun s c => s.check w c.1 c.2) s).stack = s.stack ∧
    (l.foldl (fun s c => s.check w c.1 c.2) s).printed = s.printed := by
  intro l
  induction l with
  | nil => intro s; exact ⟨rfl, rfl, rfl⟩
  | cons c l ih =>
    intro s
    have := ih (s.check w c.1 c.2)
    have h2 := check_rest w c.1 c.2 s
    simp only [List.foldl_cons]
    exact ⟨this.1.trans h2.1, this.2.1.trans h2.2.1, this.2.2.trans h2.2.2⟩

theorem foldl_flag_other (w : World σ) (g : Fn) : ∀ (l : List (String × Fn)) (s : Sys σ),
    g ∉ l.map (·.2) → (l.foldl (fun s c => s.check w c.1 c.2) s).flag g = s.flag g := by
  intro l
  induction l with
  | nil => intro s _; rfl
  | cons c l ih =>
    intro s h
    simp only [List.map_cons, List.mem_cons, not_or] at h
    simp only [List.foldl_cons]
    rw [ih _ h.2, check_other _ _ _ _ _ h.1]

theorem foldl_flag (w : World σ) (g : Fn) : ∀ (l : List (String × Fn)) (s : Sys σ),
    (∀ c ∈ l, c.1 = c.2.name) → (l.map (·.2)).Nodup → g ∈ l.map (·.2) →
    (l.foldl (fun s c => s.check w c.1 c.2) s).flag g = flagOf w g (s.flag g) := by
  intro l
  induction l with
  | nil => intro s _ _ h; cases h
  | cons c l ih =>
    intro s hn hd hm
    simp only [List.map_cons, List.nodup_cons] at hd
    simp only [List.foldl_cons]
    by_cases hg : g = c.2
    · rw [foldl_flag_other w g l _ (by rw [hg]; exact hd.1)]
      rw [hn c (List.mem_cons_self ..), hg]
      exact check_self w c.2 s
    · have hm' : g ∈ l.map (·.2) := by
        simp only [List.map_cons, List.mem_cons] at hm
        exact hm.resolve_left hg
      rw [ih _ (fun c hc => hn c (List.mem_cons_of_mem _ hc)) hd.2 hm', check_other _ _ _ _ _ hg]

theorem init_flag (w : World σ) (s : Sys σ) (f : Fn) :
    (s.init w).flag f = if Checked f then flagOf w f (s.flag f) else s.flag f := by
  unfold Sys.init
  by_cases h : Checked f
  · rw [if_pos h]; exact foldl_flag w f checks s checks_names checks_nodup h
  · rw [if_neg h]; exact foldl_flag_other w f checks s h

/-! ### The branch of the script -/

theorem push_keeps (args : List Int) : ∀ (l : List Nat) (st st' : List Val), pushArgs args l st = some st' →
    st'.drop l.length = st ∧ st'.length = st.length + l.length := by
  intro l
  induction l with
  | nil => intro st st' h; cases h; simp
  | cons i l ih =>
    intro st st' h
    simp only [pushArgs] at h
    split at h
    · have := ih _ _ h
      constructor
      · rw [List.length_cons, ← List.drop_drop, this.1]; rfl
      · rw [this.2]; simp; omega
    · cases h

theorem row_args (f : Fn) : f.row.nargs = f.row.push.length + 1 := by cases f <;> rfl

theorem row_nres (f : Fn) : f.row.nres = if f.answers then 1 else 0 := by cases f <;> rfl

/-- The script leaves the stack, the flags as they were. -/
theorem lua_keeps (w : World σ) (f : Fn) (args : List Int) (s s' : Sys σ) (n : Int)
    (h : s.lua w f.row args = some (n, s')) : s'.stack = s.stack ∧ s'.flag = s.flag := by
  unfold Sys.lua at h
  split at h
  · cases h
  rename_i st hst
  have h1 : st.drop 2 = s.stack ∧ 2 ≤ st.length := by
    unfold prepare at hst
    split at hst
    · injection hst with hst; subst hst; simp
    · cases hst
  split at h
  · cases h
  rename_i st2 hst2
  have h2 := push_keeps _ _ _ _ hst2
  have h3 : st2.drop (f.row.nargs + 1) = s.stack := by
    rw [row_args, ← h1.1, ← h2.1, List.drop_drop]
  split at h
  · cases h
  · rename_i st3 line hp
    unfold pcall at hp
    split at hp
    · cases hp
    · split at hp
      · injection hp with hp
        injection hp with _ hp
        injection hp with hp _
        rw [h3] at hp
        split at h
        · rename_i h0
          rw [if_pos h0] at hp
          injection h with h; injection h with _ h; subst h
          exact ⟨hp.symm, rfl⟩
        · rename_i h0
          rw [if_neg h0] at hp
          rw [Option.map_eq_some_iff] at h
          obtain ⟨m, _, hm⟩ := h
          injection hm with _ hm; subst hm; subst hp
          exact ⟨rfl, rfl⟩
      · injection hp with hp
        injection hp with hp _
        cases hp
    · injection hp with hp
      injection hp with hp _
      cases hp
  · rename_i st3 line hp
    rw [Option.map_eq_some_iff] at h
    obtain ⟨m, _, hm⟩ := h
    injection hm with _ hm; subst hm
    unfold pcall at hp
    split at hp
    · cases hp
    · split at hp
      · injection hp with hp
        injection hp with hp _
        cases hp
      · injection hp with hp
        injection hp with _ hp
        injection hp with hp _
        subst hp
        exact ⟨h3, rfl⟩
    · injection hp with hp
      injection hp with _ hp
      injection hp with hp _
      subst hp
      exact ⟨h3, rfl⟩

/-- The stack in front of `lua_pcall`. -/
theorem pushed (f : Fn) (args : List Int) (hl : args.length = f.arity) (st : List Val) :
    pushArgs args f.row.push st = some ((vals (f.passed args)).reverse ++ st) ∧
      (f.passed args).length = f.row.push.length := by
  cases f <;> rcases args with _ | ⟨a0, _ | ⟨a1, _ | ⟨a2, _ | ⟨a3, _ | ⟨a4, _ | ⟨a5, _ | ⟨a6, args⟩⟩⟩⟩⟩⟩⟩ <;>
    first
    | (exfalso; simp [Fn.arity] at hl; done)
    | exact ⟨rfl, rfl⟩

/-- What the branch of the script does. -/
theorem lua_eq (w : World σ) (f : Fn) (args : List Int) (s : Sys σ) (hl : args.length = f.arity) (t : Nat)
    (ho : w.object = .tbl t) :
    s.lua w f.row args =
      match (match w.field t f.name with
        | .fn g => w.act f t g args s.line
        | _ => (.error (.str w.noFun), s.line)) with
      | (.ok v, line) =>
        (if f.answers then wholeOf v else some 0).map fun n => (n, { s with line := line })
      | (.error e, line) =>
        (errText w e).map fun x => (0, { s with line := line, printed := s.printed ++ [(f.name, x)] }) := by
  have hp := pushed f args hl
  have hk := key_name f
  have hr := row_args f
  have hn := row_nres f
  unfold Sys.lua prepare
  simp only [ho, List.eraseIdx_cons_succ, List.eraseIdx_cons_zero]
  rw [(hp _).1, hk]
  simp only
  unfold pcall
  have hlen : f.row.nargs = ((vals (f.passed args)).reverse ++ [Val.tbl t]).length := by
    rw [hr, ← (hp []).2]; simp [vals]
  generalize hst : (vals (f.passed args)).reverse = ps at *
  have e1 : ps ++ Val.tbl t :: w.field t f.name :: s.stack = (ps ++ [Val.tbl t]) ++ (w.field t f.name :: s.stack) := by
    simp
  have e2 : (ps ++ Val.tbl t :: w.field t f.name :: s.stack)[f.row.nargs]? = some (w.field t f.name) := by
    rw [e1, List.getElem?_append_right (by omega), hlen]; simp
  have e3 : (ps ++ Val.tbl t :: w.field t f.name :: s.stack).take f.row.nargs = ps ++ [Val.tbl t] := by
    rw [e1, List.take_left' (by omega)]
  have e4 : (ps ++ Val.tbl t :: w.field t f.name :: s.stack).drop (f.row.nargs + 1) = s.stack := by
    rw [← List.drop_drop, e1, List.drop_left' (by omega)]; rfl
  have e5 : (ps ++ [Val.tbl t]).reverse = .tbl t :: vals (f.passed args) := by
    rw [← hst]; simp
  rw [e2, e3, e4, e5]
  cases w.field t f.name with
  | fn g =>
    simp only [World.act]
    rcases w.call g (.tbl t :: vals (f.passed args)) s.line with ⟨r, line⟩
    cases r with
    | ok v =>
      simp only [hn]
      cases f.answers with
      | true => cases v <;> simp [toInteger, wholeOf]
      | false => simp
    | error e => cases e <;> simp [toText, errText]
  | _ => simp [toText, errText]

end Ptusa.CipLua
