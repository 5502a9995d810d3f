import Verif.LuaCall.Spec

namespace Ptusa.LuaCall

/-! ### Order of texts -/

theorem lt_irrefl : ∀ a : Text, a.lt a = false
  | [] => rfl
  | a :: s => by simp [Text.lt, lt_irrefl s]

theorem lt_trans : ∀ a b c : Text, a.lt b = true → b.lt c = true → a.lt c = true
  | [], [], _, h, _ => by simp [Text.lt] at h
  | [], _ :: _, [], _, h => by simp [Text.lt] at h
  | [], _ :: _, _ :: _, _, _ => rfl
  | _ :: _, [], _, h, _ => by simp [Text.lt] at h
  | _ :: _, _ :: _, [], _, h => by simp [Text.lt] at h
  | a :: s, b :: t, c :: u, h1, h2 => by
    simp only [Text.lt] at h1 h2 ⊢
    by_cases hab : a < b
    · by_cases hbc : b < c
      · rw [if_pos (by omega)]
      · rw [if_neg hbc] at h2
        by_cases hcb : c < b
        · rw [if_pos hcb] at h2; simp at h2
        · rw [if_pos (by omega)]
    · rw [if_neg hab] at h1
      by_cases hba : b < a
      · rw [if_pos hba] at h1; simp at h1
      · rw [if_neg hba] at h1
        by_cases hbc : b < c
        · rw [if_pos (by omega)]
        · rw [if_neg hbc] at h2
          by_cases hcb : c < b
          · rw [if_pos hcb] at h2; simp at h2
          · rw [if_neg hcb] at h2
            rw [if_neg (by omega), if_neg (by omega)]
            exact lt_trans s t u h1 h2

theorem lt_antisymm : ∀ a b : Text, a.lt b = false → b.lt a = false → a = b
  | [], [], _, _ => rfl
  | [], _ :: _, h, _ => by simp [Text.lt] at h
  | _ :: _, [], _, h => by simp [Text.lt] at h
  | a :: s, b :: t, h1, h2 => by
    simp only [Text.lt] at h1 h2
    by_cases hab : a < b
    · rw [if_pos hab] at h1; simp at h1
    · rw [if_neg hab] at h1
      by_cases hba : b < a
      · rw [if_pos hba] at h2; simp at h2
      · rw [if_neg hba] at h1 h2
        rw [if_neg hab] at h2
        rw [show a = b by omega, lt_antisymm s t h1 h2]

/-- Sorted: no later text is smaller. -/
def Sorted (l : List Text) : Prop := l.Pairwise fun a b => b.lt a = false

theorem mem_insert (t x : Text) : ∀ l : List Text, x ∈ insert t l ↔ x = t ∨ x ∈ l
  | [] => by simp [insert]
  | y :: rest => by
    simp only [insert]
    split
    · simp only [List.mem_cons, mem_insert t x rest]
      constructor
      · rintro (h | h | h)
        · exact Or.inr (Or.inl h)
        · exact Or.inl h
        · exact Or.inr (Or.inr h)
      · rintro (h | h | h)
        · exact Or.inr (Or.inl h)
        · exact Or.inl h
        · exact Or.inr (Or.inr h)
    · simp

theorem mem_sort (x : Text) : ∀ l : List Text, x ∈ sort l ↔ x ∈ l
  | [] => by simp [sort]
  | y :: rest => by simp [sort, mem_insert, mem_sort x rest]

theorem length_insert (t : Text) : ∀ l : List Text, (insert t l).length = l.length + 1
  | [] => rfl
  | y :: rest => by
    simp only [insert]
    split
    · simp [length_insert t rest]
    · simp

theorem length_sort : ∀ l : List Text, (sort l).length = l.length
  | [] => rfl
  | y :: rest => by simp [sort, length_insert, length_sort rest]

theorem sorted_insert (t : Text) : ∀ l : List Text, Sorted l → Sorted (insert t l)
  | [], _ => by simp [insert, Sorted]
  | y :: rest, h => by
    unfold Sorted at h ⊢
    rw [List.pairwise_cons] at h
    simp only [insert]
    split
    · rename_i hy
      rw [List.pairwise_cons]
      refine ⟨?_, sorted_insert t rest h.2⟩
      intro x hx
      rcases (mem_insert t x rest).1 hx with rfl | hx
      · cases hxy : x.lt y with
        | false => rfl
        | true =>
          have := lt_trans _ _ _ hy hxy
          rw [lt_irrefl] at this
          exact this.symm
      · exact h.1 x hx
    · rename_i hy
      rw [List.pairwise_cons]
      refine ⟨?_, List.pairwise_cons.2 h⟩
      intro x hx
      have hyt : y.lt t = false := by simpa using hy
      rcases List.mem_cons.1 hx with rfl | hx
      · exact hyt
      · cases hxt : x.lt t with
        | false => rfl
        | true =>
          -- x < t, and x is not smaller than y; so y is not greater than ... contradiction
          have hxy := h.1 x hx
          cases hyx : y.lt x with
          | true => rw [lt_trans _ _ _ hyx hxt] at hyt; exact hyt
          | false =>
            rw [lt_antisymm _ _ hyx hxy] at hyt
            rw [hyt] at hxt
            exact hxt.symm

theorem sorted_sort : ∀ l : List Text, Sorted (sort l)
  | [] => List.Pairwise.nil
  | y :: rest => sorted_insert y _ (sorted_sort rest)

/-- Binary search in a sorted vector finds exactly its elements. -/
theorem bsearch_iff (t : Text) : ∀ l : List Text, Sorted l → (bsearch l t = true ↔ t ∈ l)
  | [], _ => by simp [bsearch]
  | y :: rest, h => by
    have h' := h
    unfold Sorted at h
    rw [List.pairwise_cons] at h
    have ih := bsearch_iff t rest h.2
    unfold bsearch at ih ⊢
    by_cases hy : y.lt t = true
    · rw [List.dropWhile_cons, if_pos hy, ih, List.mem_cons]
      constructor
      · exact Or.inr
      · rintro (rfl | h1)
        · rw [lt_irrefl] at hy; simp at hy
        · exact h1
    · rw [List.dropWhile_cons, if_neg hy]
      have hyt : y.lt t = false := by simpa using hy
      simp only [Bool.not_eq_true', List.mem_cons]
      constructor
      · intro hty
        exact Or.inl (lt_antisymm _ _ hty hyt)
      · rintro (rfl | h1)
        · exact lt_irrefl _
        · exact h.1 t h1

/-! ### The error handler -/

/-- The remembered texts are sorted and not too many. -/
def Good (l : Lua) : Prop := Sorted l.memo ∧ l.memo.length ≤ maxErrors

theorem note_cases {l l' : Lua} {t : Text} (hg : Good l) (h : l.noteError t = some l') :
    (t ∈ l.memo ∧ l' = l) ∨
    (t ∉ l.memo ∧ prefixLen + t.length < logSize ∧ l'.stack = l.stack ∧ l'.log = l.log ++ [noLf t] ∧
      t ∈ l'.memo ∧ (∀ x ∈ l'.memo, x = t ∨ x ∈ l.memo) ∧ Good l' ∧
      (l.memo.length < maxErrors → ∀ x ∈ l.memo, x ∈ l'.memo) ∧ 
      (l.memo.length < maxErrors → l'.memo.length = l.memo.length + 1)) := by
  unfold Lua.noteError at h
  have hb := bsearch_iff t l.memo hg.1
  split at h
  · rename_i hs
    simp only [Option.some.injEq] at h
    exact Or.inl ⟨hb.1 hs, h.symm⟩
  · rename_i hs
    split at h
    · rename_i hfit
      simp only [Option.some.injEq] at h
      subst h
      have hlen : (l.memo ++ [t]).length = l.memo.length + 1 := by simp
      have hle := hg.2
      refine Or.inr ⟨fun hm => hs (hb.2 hm), hfit, rfl, rfl, ?_, ?_, ⟨sorted_sort _, ?_⟩, ?_, ?_⟩
      · simp only [mem_sort]
        split
        · rename_i hbig
          rw [List.drop_append_of_le_length (by rw [hlen]; simp only [maxErrors] at *; omega)]
          simp
        · simp
      · intro x hx
        simp only [mem_sort] at hx
        have : x ∈ l.memo ++ [t] := by
          split at hx
          · exact List.mem_of_mem_drop hx
          · exact hx
        rcases List.mem_append.1 this with h1 | h1
        · exact Or.inr h1
        · exact Or.inl (by simpa using h1)
      · simp only [length_sort]
        split
        · rw [List.length_drop]
          simp only [maxErrors] at *
          omega
        · omega
      · intro hlt x hx
        simp only [mem_sort]
        rw [if_neg (by omega)]
        exact List.mem_append_left _ hx
      · intro hlt
        simp only [length_sort]
        rw [if_neg (by omega), hlen]
    · simp at h

theorem trace_text {l l' : Lua} {w : World} {e : Val} (h : l.errorTrace w e = some l') :
    ∃ t, e.text w = some t ∧ l.noteError t = some l' := by
  cases e <;> simp only [Lua.errorTrace] at h <;> first | exact ⟨_, rfl, h⟩ | simp at h

/-- The handler does not touch the stack of the caller. -/
theorem note_stack {l l' : Lua} {t : Text} (h : l.noteError t = some l') (s : List Val) :
    ({ l with stack := s }).noteError t = some { l' with stack := s } ∧ l'.stack = l.stack := by
  unfold Lua.noteError at h ⊢
  dsimp only at h ⊢
  split at h
  · rename_i hs
    rw [if_pos hs]
    simp only [Option.some.injEq] at h
    subst h
    exact ⟨rfl, rfl⟩
  · rename_i hs
    rw [if_neg hs]
    split at h
    · rename_i hf
      rw [if_pos hf]
      simp only [Option.some.injEq] at h
      subst h
      exact ⟨rfl, rfl⟩
    · simp at h

theorem trace_withStack (l : Lua) (w : World) (e : Val) (s : List Val) :
    ({ l with stack := s }).errorTrace w e = (l.errorTrace w e).map fun l' => { l' with stack := s } := by
  have key : ∀ t : Text, ({ l with stack := s }).noteError t =
      (l.noteError t).map fun l' => { l' with stack := s } := by
    intro t
    unfold Lua.noteError
    dsimp only
    split
    · rfl
    · split <;> rfl
  cases e <;> simp only [Lua.errorTrace, key] <;> rfl

/-! ### Calls -/

theorem pushAll_stack (ps : List Int) : ∀ l : Lua,
    l.pushAll ps = { l with stack := (nums ps).reverse ++ l.stack } := by
  induction ps with
  | nil => intro l; rfl
  | cons p ps ih =>
    intro l
    rw [Lua.pushAll, ih]
    simp [Lua.push, nums]

/-- `finish` on a stack that holds the handler, the function and the values pushed so far. -/
theorem finish_eq (l : Lua) (w : World) (ret : Bool) (pre : List Val) (params : List Int) (v : Val)
    (st : List Val) (hst : l.stack = pre.reverse ++ v :: .trace :: st) :
    l.finish w ret pre.length params (st.length + 1) =
      match w.callVal (pre ++ nums params) v with
      | .answer r => some (false, { l with stack := if ret then r :: st else st })
      | .failed e => (l.errorTrace w e).map fun l' =>
          (true, { l' with stack := (if ret then .nil else .trace) :: st })
      | _ => none := by
  unfold Lua.finish
  rw [pushAll_stack]
  have hs : (nums params).reverse ++ l.stack = (pre ++ nums params).reverse ++ v :: .trace :: st := by
    rw [hst]; simp
  have hn : pre.length + params.length = (pre ++ nums params).length := by simp [nums]
  rw [hs, hn]
  generalize pre ++ nums params = args
  unfold Lua.pcall
  dsimp only
  have h1 : (args.reverse ++ v :: Val.trace :: st)[args.length]? = some v := by
    rw [List.getElem?_append_right (by simp)]
    simp
  have h2 : (List.take args.length (args.reverse ++ v :: Val.trace :: st)).reverse = args := by
    rw [List.take_append_of_le_length (by simp), List.take_of_length_le (by simp), List.reverse_reverse]
  have h3 : List.drop (args.length + 1) (args.reverse ++ v :: Val.trace :: st) = .trace :: st := by
    rw [List.drop_append]
    simp
  have h4 : (Lua.mk (args.reverse ++ v :: Val.trace :: st) l.memo l.log).at (st.length + 1) =
      some .trace := by
    unfold Lua.at
    simp
  rw [h1, h2, h3]
  rw [show ({ l with stack := args.reverse ++ v :: Val.trace :: st } : Lua) =
    Lua.mk (args.reverse ++ v :: Val.trace :: st) l.memo l.log from rfl]
  simp only [h4, if_true]
  have hf : ∀ e : Val, (match
      ((Lua.mk (args.reverse ++ v :: Val.trace :: st) l.memo l.log).errorTrace w e).map
        fun l' => (true, ({ l' with stack := .nil :: .trace :: st } : Lua)) with
      | none => none
      | some (res, l) => (l.remove (if ret then 1 else 0)).map fun l => (res, l)) =
      (l.errorTrace w e).map fun l' =>
          (true, ({ l' with stack := (if ret then .nil else .trace) :: st } : Lua)) := by
    intro e
    have := trace_withStack l w e (args.reverse ++ v :: Val.trace :: st)
    rw [show ({ l with stack := args.reverse ++ v :: Val.trace :: st } : Lua) =
      Lua.mk (args.reverse ++ v :: Val.trace :: st) l.memo l.log from rfl] at this
    rw [this]
    cases l.errorTrace w e with
    | none => rfl
    | some l' => cases ret <;> rfl
  cases v with
  | fn f =>
    dsimp only [World.callVal]
    cases w.call f args with
    | ok r => cases ret <;> rfl
    | error e => exact hf e
  | nil => exact hf _
  | num q => exact hf _
  | str t => exact hf _
  | tbl t => exact hf _
  | trace => exact hf _
  | other k => exact hf _

/-- What a call does, by its outcome. -/
theorem exec_eq (l : Lua) (w : World) (obj : Option Nat) (fn : Nat) (ret : Bool) (params : List Int) :
    l.exec w obj fn ret params =
      match w.outcome obj fn params with
      | .answer r => some (false, { l with stack := if ret then r :: l.stack else l.stack })
      | .noObject => some (true, { l with stack := .nil :: .trace :: l.stack })
      | .noFunction t => some (true, { l with stack := .nil :: .tbl t :: .trace :: l.stack })
      | .failed e => (l.errorTrace w e).map fun l' =>
          (true, { l' with stack := (if ret then .nil else .trace) :: l.stack })
      | .broken => none := by
  have hcall : ∀ (args : List Val) (v : Val), ∃ x, w.callVal args v = x ∧
      ((∃ r, x = .answer r) ∨ ∃ e, x = .failed e) := by
    intro args v
    refine ⟨_, rfl, ?_⟩
    cases v with
    | fn f =>
      dsimp only [World.callVal]
      cases w.call f args with
      | ok r => exact Or.inl ⟨r, rfl⟩
      | error e => exact Or.inr ⟨e, rfl⟩
    | _ => exact Or.inr ⟨_, rfl⟩
  cases obj with
  | none =>
    have h := finish_eq ((l.push .trace).push (w.global fn)) w ret [] params (w.global fn) l.stack rfl
    have h2 : l.exec w none fn ret params =
        ((l.push .trace).push (w.global fn)).finish w ret ([] : List Val).length params (l.stack.length + 1) := rfl
    rw [h2, h]
    show _ = match w.callVal (nums params) (w.global fn) with
      | .answer r => _ | .noObject => _ | .noFunction t => _ | .failed e => _ | .broken => _
    rw [List.nil_append]
    obtain ⟨x, hx, ⟨r, rfl⟩ | ⟨e, rfl⟩⟩ := hcall (nums params) (w.global fn)
    · rw [hx]; rfl
    · rw [hx]
      dsimp only
      rw [show ((l.push .trace).push (w.global fn)) = { l with stack := w.global fn :: .trace :: l.stack } from rfl,
        trace_withStack]
      cases l.errorTrace w e <;> rfl
  | some o =>
    unfold Lua.exec
    dsimp only [World.outcome]
    cases hg : w.global o with
    | nil => rfl
    | tbl t =>
      dsimp only [Lua.push, Lua.getField]
      rw [if_neg (by simp)]
      cases hf : w.field t fn with
      | nil => rfl
      | _ =>
        dsimp only
        rw [if_neg (by simp)]
        simp only [Lua.remove, List.length_cons, Nat.lt_add_left_iff_pos, Nat.zero_lt_succ, if_true,
          List.eraseIdx_cons_succ, List.eraseIdx_zero, List.tail_cons,
          show 1 < l.stack.length + 1 + 1 + 1 by omega]
        rw [show (1 : Nat) = [Val.tbl t].length from rfl]
        have := finish_eq (Lua.mk ([Val.tbl t].reverse ++ w.field t fn :: .trace :: l.stack) l.memo l.log)
          w ret [Val.tbl t] params (w.field t fn) l.stack rfl
        rw [hf] at this
        refine this.trans ?_
        obtain ⟨x, hx, ⟨r, rfl⟩ | ⟨e, rfl⟩⟩ := hcall ([Val.tbl t] ++ nums params) (w.field t fn)
        · rw [hf] at hx
          rw [List.cons_append, List.nil_append] at hx ⊢
          rw [hx]
        · rw [hf] at hx
          rw [List.cons_append, List.nil_append] at hx ⊢
          rw [hx]
          dsimp only
          rw [show (Lua.mk ([Val.tbl t].reverse ++ _ :: .trace :: l.stack) l.memo l.log) =
            { l with stack := [Val.tbl t].reverse ++ _ :: .trace :: l.stack } from rfl, trace_withStack]
          cases l.errorTrace w e <;> rfl
    | num q => rfl
    | str t => rfl
    | fn f => rfl
    | trace => rfl
    | other k => rfl

end Ptusa.LuaCall
