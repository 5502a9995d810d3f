import Verif.LuaCall.Lemmas

namespace Ptusa.LuaCall

/-- A call that asks for a number. -/
theorem int_eq (l : Lua) (w : World) (obj : Option Nat) (fn : Nat) (params : List Int) (bad : Int) :
    Lua.intResult bad (l.exec w obj fn true params) =
      match w.outcome obj fn params with
      | .answer v => v.whole.map fun n => (n, l)
      | .noObject => some (bad, { l with stack := .nil :: .trace :: l.stack })
      | .noFunction t => some (bad, { l with stack := .nil :: .tbl t :: .trace :: l.stack })
      | .failed e => (l.errorTrace w e).map fun l' => (bad, { l' with stack := .nil :: l.stack })
      | .broken => none := by
  rw [exec_eq]
  cases w.outcome obj fn params with
  | answer v =>
    cases v with
    | num q =>
      simp only [Lua.intResult, Lua.topNumber, Val.whole, if_true]
      cases Device.toInt32 q with
      | none => rfl
      | some n => rfl
    | _ => rfl
  | noObject => rfl
  | noFunction t => rfl
  | broken => rfl
  | failed e =>
    dsimp only
    cases l.errorTrace w e with
    | none => rfl
    | some l' => rfl

/-- What is known of a call that came back. -/
structure Did (l : Lua) (w : World) (o : Outcome) (extra : Nat) (expected : Option Int) (n : Int)
    (l' : Lua) : Prop where
  result : expected = some n
  depth : l'.stack.length = l.stack.length + o.left + extra
  keep : o.left + extra = 0 → l'.stack = l.stack
  below : ∃ top, l'.stack = top ++ l.stack
  quiet : o.error = none → l'.memo = l.memo ∧ l'.log = l.log
  error : ∀ e, o.error = some e → ∃ t l1, e.text w = some t ∧ l.noteError t = some l1 ∧
    l'.memo = l1.memo ∧ l'.log = l1.log

theorem int_did {l l' : Lua} {w : World} {obj : Option Nat} {fn : Nat} {params : List Int}
    {bad n : Int} (h : Lua.intResult bad (l.exec w obj fn true params) = some (n, l')) :
    Did l w (w.outcome obj fn params) 0 ((w.outcome obj fn params).int bad) n l' := by
  rw [int_eq] at h
  cases ho : w.outcome obj fn params with
  | answer v =>
    rw [ho] at h
    dsimp only at h
    cases hv : v.whole with
    | none => rw [hv] at h; simp at h
    | some k =>
      rw [hv] at h
      simp only [Option.map_some, Option.some.injEq, Prod.mk.injEq] at h
      obtain ⟨rfl, rfl⟩ := h
      exact ⟨hv, rfl, fun _ => rfl, ⟨[], rfl⟩, fun _ => ⟨rfl, rfl⟩, fun e he => by simp [Outcome.error] at he⟩
  | noObject =>
    rw [ho] at h
    simp only [Option.some.injEq, Prod.mk.injEq] at h
    obtain ⟨rfl, rfl⟩ := h
    exact ⟨rfl, rfl, fun h0 => by simp [Outcome.left] at h0, ⟨[_, _], rfl⟩, fun _ => ⟨rfl, rfl⟩, fun e he => by simp [Outcome.error] at he⟩
  | noFunction t =>
    rw [ho] at h
    simp only [Option.some.injEq, Prod.mk.injEq] at h
    obtain ⟨rfl, rfl⟩ := h
    exact ⟨rfl, rfl, fun h0 => by simp [Outcome.left] at h0, ⟨[_, _, _], rfl⟩, fun _ => ⟨rfl, rfl⟩, fun e he => by simp [Outcome.error] at he⟩
  | broken => rw [ho] at h; simp at h
  | failed e =>
    rw [ho] at h
    dsimp only at h
    cases he : l.errorTrace w e with
    | none => rw [he] at h; simp at h
    | some l1 =>
      rw [he] at h
      simp only [Option.map_some, Option.some.injEq, Prod.mk.injEq] at h
      obtain ⟨rfl, rfl⟩ := h
      obtain ⟨t, ht1, ht2⟩ := trace_text he
      refine ⟨rfl, rfl, fun h0 => by simp [Outcome.left] at h0, ⟨[_], rfl⟩, fun h0 => by simp [Outcome.error] at h0, ?_⟩
      intro e' he'
      simp only [Outcome.error, Option.some.injEq] at he'
      subst he'
      exact ⟨t, l1, ht1, ht2, rfl, rfl⟩

theorem void_did {l l' : Lua} {w : World} {obj : Option Nat} {fn : Nat} {n : Int}
    (h : l.voidExec w obj fn = some (n, l')) :
    Did l w (w.outcome obj fn []) 0 ((Call.void obj fn).expected w) n l' := by
  unfold Lua.voidExec at h
  rw [exec_eq] at h
  cases ho : w.outcome obj fn [] with
  | answer v =>
    rw [ho] at h
    simp only [Bool.false_eq_true, if_false, Option.map_some, Option.some.injEq, Prod.mk.injEq] at h
    obtain ⟨rfl, rfl⟩ := h
    exact ⟨by simp [Call.expected, ho], rfl, fun _ => rfl, ⟨[], rfl⟩, fun _ => ⟨rfl, rfl⟩, fun e he => by simp [Outcome.error] at he⟩
  | noObject =>
    rw [ho] at h
    simp only [Option.map_some, Option.some.injEq, Prod.mk.injEq, if_true] at h
    obtain ⟨rfl, rfl⟩ := h
    exact ⟨by simp [Call.expected, ho], rfl, fun h0 => by simp [Outcome.left] at h0, ⟨[_, _], rfl⟩, fun _ => ⟨rfl, rfl⟩, fun e he => by simp [Outcome.error] at he⟩
  | noFunction t =>
    rw [ho] at h
    simp only [Option.map_some, Option.some.injEq, Prod.mk.injEq, if_true] at h
    obtain ⟨rfl, rfl⟩ := h
    exact ⟨by simp [Call.expected, ho], rfl, fun h0 => by simp [Outcome.left] at h0, ⟨[_, _, _], rfl⟩, fun _ => ⟨rfl, rfl⟩, fun e he => by simp [Outcome.error] at he⟩
  | broken => rw [ho] at h; simp at h
  | failed e =>
    rw [ho] at h
    dsimp only at h
    cases he : l.errorTrace w e with
    | none => rw [he] at h; simp at h
    | some l1 =>
      rw [he] at h
      simp only [Option.map_some, Option.some.injEq, Prod.mk.injEq, if_true] at h
      obtain ⟨rfl, rfl⟩ := h
      obtain ⟨t, ht1, ht2⟩ := trace_text he
      refine ⟨by simp [Call.expected, ho], rfl, fun h0 => by simp [Outcome.left] at h0, ⟨[_], rfl⟩, fun h0 => by simp [Outcome.error] at h0, ?_⟩
      intro e' he'
      simp only [Outcome.error, Option.some.injEq] at he'
      subst he'
      exact ⟨t, l1, ht1, ht2, rfl, rfl⟩

/-- `lua_check_function` unfolded. -/
theorem check_eq (l : Lua) (w : World) (o f : Nat) (m : Int) (s : Bool) :
    l.checkFunction w o f m s =
      match w.global o with
      | .nil => some (0, l)
      | .tbl t =>
        match w.field t f with
        | .fn g => ({ l with stack := .fn g :: l.stack } : Lua).int2Exec w (some o) f m (if s then 1 else 0)
        | v => some (0, { l with stack := v :: l.stack })
      | _ => none := by
  unfold Lua.checkFunction
  cases hg : w.global o with
  | nil => rfl
  | tbl t =>
    dsimp only [Lua.push, Lua.getField]
    rw [if_neg (by simp)]
    simp only [Lua.remove, List.length_cons, if_true, List.eraseIdx_cons_succ, List.eraseIdx_zero,
      List.tail_cons, show 1 < l.stack.length + 1 + 1 by omega]
    cases hf : w.field t f <;> rfl
  | _ => rfl

/-- What is known of any call that came back. -/
structure Done (l : Lua) (w : World) (c : Call) (n : Int) (l' : Lua) : Prop where
  result : c.expected w = some n
  depth : l'.stack.length = l.stack.length + c.left w
  below : ∃ top, l'.stack = top ++ l.stack
  quiet : c.error w = none → l'.memo = l.memo ∧ l'.log = l.log
  error : ∀ e, c.error w = some e → ∃ t l1, e.text w = some t ∧ l.noteError t = some l1 ∧
    l'.memo = l1.memo ∧ l'.log = l1.log

theorem note_ext {a b : Lua} {t : Text} (h1 : a.memo = b.memo) (h2 : a.log = b.log) {a' : Lua}
    (h : a.noteError t = some a') : ∃ b', b.noteError t = some b' ∧ a'.memo = b'.memo ∧ a'.log = b'.log := by
  have hb := (note_stack h b.stack).1
  have : ({ a with stack := b.stack } : Lua) = b := by
    cases a; cases b; simp_all
  rw [this] at hb
  exact ⟨_, hb, rfl, rfl⟩

theorem step_done {l l' : Lua} {w : World} {c : Call} {n : Int} (h : l.step w c = some (n, l')) :
    Done l w c n l' := by
  cases c with
  | int1 o f p =>
    obtain ⟨a, b, _, d, e, g⟩ := int_did (params := [p]) h
    exact ⟨a, b, d, e, g⟩
  | int2 o f p q =>
    obtain ⟨a, b, _, d, e, g⟩ := int_did (params := [p, q]) h
    exact ⟨a, b, d, e, g⟩
  | int0 o f =>
    obtain ⟨a, b, _, d, e, g⟩ := int_did (params := []) h
    exact ⟨a, b, d, e, g⟩
  | void o f =>
    obtain ⟨a, b, _, d, e, g⟩ := void_did h
    exact ⟨a, b, d, e, g⟩
  | check o f m s =>
    simp only [Lua.step] at h
    rw [check_eq] at h
    cases hg : w.global o with
    | nil =>
      rw [hg] at h
      simp only [Option.some.injEq, Prod.mk.injEq] at h
      obtain ⟨rfl, rfl⟩ := h
      exact ⟨by simp [Call.expected, hg], by simp [Call.left, hg], ⟨[], rfl⟩, fun _ => ⟨rfl, rfl⟩,
        fun e he => by simp [Call.error, hg] at he⟩
    | tbl t =>
      rw [hg] at h
      dsimp only at h
      cases hf : w.field t f with
      | fn g =>
        rw [hf] at h
        dsimp only at h
        obtain ⟨a, b, _, ⟨top, d⟩, e, g'⟩ := int_did (params := [m, if s then 1 else 0]) h
        refine ⟨?_, ?_, ⟨top ++ [.fn g], by rw [d]; simp⟩, ?_, ?_⟩
        · simp only [Call.expected, hg, hf]; exact a
        · simp only [Call.left, hg, hf]
          rw [b]
          simp only [List.length_cons]
          omega
        · intro hq
          simp only [Call.error, hg, hf] at hq
          exact e hq
        · intro x hx
          simp only [Call.error, hg, hf] at hx
          obtain ⟨t', l1, h1, h2, h3, h4⟩ := g' x hx
          obtain ⟨l2, k1, k2, k3⟩ := note_ext (a := { l with stack := .fn g :: l.stack }) (b := l) rfl rfl h2
          exact ⟨t', l2, h1, k1, h3.trans k2, h4.trans k3⟩
      | _ =>
        rw [hf] at h
        simp only [Option.some.injEq, Prod.mk.injEq] at h
        obtain ⟨rfl, rfl⟩ := h
        exact ⟨by simp [Call.expected, hg, hf], by simp [Call.left, hg, hf], ⟨[_], rfl⟩, fun _ => ⟨rfl, rfl⟩,
          fun e he => by simp [Call.error, hg, hf] at he⟩
    | _ => rw [hg] at h; simp at h

theorem run_cons {l l' : Lua} {w : World} {c : Call} {h : List (World × Call)}
    (hr : l.run ((w, c) :: h) = some l') : ∃ n l1, l.step w c = some (n, l1) ∧ l1.run h = some l' := by
  simp only [Lua.run] at hr
  cases hs : l.step w c with
  | none => rw [hs] at hr; simp at hr
  | some r =>
    rw [hs] at hr
    exact ⟨r.1, r.2, rfl, hr⟩

theorem errorsOf_cons (w : World) (c : Call) (h : List (World × Call)) :
    errorsOf ((w, c) :: h) = ((c.error w).bind (Val.text w)).toList ++ errorsOf h := by
  simp only [errorsOf, List.filterMap_cons]
  cases (c.error w).bind (Val.text w) <;> rfl

/-- Either no error, or the text of the error is noted. -/
theorem step_note {l l' : Lua} {w : World} {c : Call} {n : Int} (h : l.step w c = some (n, l')) :
    ((c.error w).bind (Val.text w) = none ∧ l'.memo = l.memo ∧ l'.log = l.log) ∨
    ∃ t l1, (c.error w).bind (Val.text w) = some t ∧ l.noteError t = some l1 ∧
      l'.memo = l1.memo ∧ l'.log = l1.log := by
  have hd := step_done h
  cases he : c.error w with
  | none => exact Or.inl ⟨rfl, hd.quiet he⟩
  | some e =>
    obtain ⟨t, l1, h1, h2⟩ := hd.error e he
    exact Or.inr ⟨t, l1, h1, h2⟩

theorem good_ext {a b : Lua} (h : a.memo = b.memo) (hg : Good b) : Good a := by
  unfold Good at *
  rw [h]
  exact hg

theorem step_good {l l' : Lua} {w : World} {c : Call} {n : Int} (h : l.step w c = some (n, l'))
    (hg : Good l) : Good l' := by
  rcases step_note h with ⟨_, h1, _⟩ | ⟨t, l1, _, h2, h3, _⟩
  · exact good_ext h1 hg
  · rcases note_cases hg h2 with ⟨_, rfl⟩ | ⟨_, _, _, _, _, _, hg', _⟩
    · exact good_ext h3 hg
    · exact good_ext h3 hg'

theorem run_good : ∀ (h : List (World × Call)) (l l' : Lua), l.run h = some l' → Good l → Good l'
  | [], l, l', hr, hg => by
    simp only [Lua.run, Option.some.injEq] at hr
    rw [← hr]; exact hg
  | (w, c) :: h, l, l', hr, hg => by
    obtain ⟨n, l1, hs, hr'⟩ := run_cons hr
    exact run_good h l1 l' hr' (step_good hs hg)

/-- All remembered texts are in the log. -/
def Written (l : Lua) : Prop := ∀ t ∈ l.memo, noLf t ∈ l.log

theorem step_written {l l' : Lua} {w : World} {c : Call} {n : Int} (h : l.step w c = some (n, l'))
    (hg : Good l) (hw : Written l) : Written l' ∧ (∀ t ∈ l.log, t ∈ l'.log) ∧
      ∀ t, (c.error w).bind (Val.text w) = some t → noLf t ∈ l'.log := by
  rcases step_note h with ⟨h0, h1, h2⟩ | ⟨t, l1, h1, h2, h3, h4⟩
  · refine ⟨?_, fun t ht => h2 ▸ ht, fun t ht => by rw [h0] at ht; simp at ht⟩
    intro t ht
    rw [h1] at ht; rw [h2]; exact hw t ht
  · rcases note_cases hg h2 with ⟨hm, rfl⟩ | ⟨_, _, _, hl, _, hm, _, _⟩
    · refine ⟨?_, fun x hx => h4 ▸ hx, ?_⟩
      · intro x hx
        rw [h3] at hx; rw [h4]; exact hw x hx
      · intro x hx
        rw [h1] at hx
        simp only [Option.some.injEq] at hx
        subst hx
        rw [h4]; exact hw _ hm
    · refine ⟨?_, fun x hx => by rw [h4, hl]; exact List.mem_append_left _ hx, ?_⟩
      · intro x hx
        rw [h3] at hx
        rw [h4, hl]
        rcases hm x hx with rfl | hx
        · simp
        · exact List.mem_append_left _ (hw x hx)
      · intro x hx
        rw [h1] at hx
        simp only [Option.some.injEq] at hx
        subst hx
        rw [h4, hl]; simp

theorem run_written : ∀ (h : List (World × Call)) (l l' : Lua), l.run h = some l' → Good l →
    Written l → (∀ t ∈ l.log, t ∈ l'.log) ∧ ∀ t ∈ errorsOf h, noLf t ∈ l'.log
  | [], l, l', hr, _, _ => by
    simp only [Lua.run, Option.some.injEq] at hr
    subst hr
    exact ⟨fun t h => h, fun t h => by simp [errorsOf] at h⟩
  | (w, c) :: h, l, l', hr, hg, hw => by
    obtain ⟨n, l1, hs, hr'⟩ := run_cons hr
    obtain ⟨a1, a2, a3⟩ := step_written hs hg hw
    obtain ⟨b1, b2⟩ := run_written h l1 l' hr' (step_good hs hg) a1
    refine ⟨fun t ht => b1 t (a2 t ht), ?_⟩
    intro t ht
    rw [errorsOf_cons] at ht
    rcases List.mem_append.1 ht with ht | ht
    · exact b1 _ (a3 t (by simpa using ht))
    · exact b2 t ht

/-- The log is what `firsts` says as long as the memory does not overflow. -/
theorem run_log : ∀ (h : List (World × Call)) (l l' : Lua) (seen : List Text), l.run h = some l' →
    Good l → (∀ t, t ∈ seen ↔ t ∈ l.memo) →
    l.memo.length + (firsts seen (errorsOf h)).length ≤ maxErrors →
    l'.log = l.log ++ (firsts seen (errorsOf h)).map noLf
  | [], l, l', seen, hr, _, _, _ => by
    simp only [Lua.run, Option.some.injEq] at hr
    subst hr
    simp [errorsOf, firsts]
  | (w, c) :: h, l, l', seen, hr, hg, hseen, hlen => by
    obtain ⟨n, l1, hs, hr'⟩ := run_cons hr
    rw [errorsOf_cons] at hlen ⊢
    rcases step_note hs with ⟨h0, h1, h2⟩ | ⟨t, l2, h1, h2, h3, h4⟩
    · rw [h0] at hlen ⊢
      simp only [Option.toList_none, List.nil_append] at hlen ⊢
      rw [run_log h l1 l' seen hr' (step_good hs hg) (by rw [h1]; exact hseen) (by rw [h1]; exact hlen), h2]
    · rw [h1] at hlen ⊢
      simp only [Option.toList_some, List.cons_append, List.nil_append, firsts] at hlen ⊢
      rcases note_cases hg h2 with ⟨hm, rfl⟩ | ⟨hm, _, _, hl, hmem, hmem', _, hkeep, hlen'⟩
      · have hin : t ∈ seen := (hseen t).2 hm
        rw [if_pos hin] at hlen ⊢
        rw [run_log h l1 l' seen hr' (step_good hs hg) (by rw [h3]; exact hseen) (by rw [h3]; exact hlen), h4]
      · have hnin : t ∉ seen := fun hx => hm ((hseen t).1 hx)
        rw [if_neg hnin] at hlen ⊢
        simp only [List.length_cons] at hlen
        have hlt : l.memo.length < maxErrors := by omega
        rw [run_log h l1 l' (t :: seen) hr' (step_good hs hg) ?_ ?_, h4, hl]
        · simp
        · intro x
          rw [h3]
          constructor
          · intro hx
            rcases List.mem_cons.1 hx with rfl | hx
            · exact hmem
            · exact hkeep hlt x ((hseen x).1 hx)
          · intro hx
            rcases hmem' x hx with rfl | hx
            · exact List.mem_cons_self
            · exact List.mem_cons_of_mem _ ((hseen x).2 hx)
        · rw [h3, hlen' hlt]
          omega

/-- A text that fits the log can be noted. -/
theorem note_some (l : Lua) (t : Text) (h : t.length < 10229) : ∃ l', l.noteError t = some l' := by
  unfold Lua.noteError
  by_cases hb : bsearch l.memo t = true
  · rw [if_pos hb]; exact ⟨_, rfl⟩
  · rw [if_neg hb, if_pos (by unfold prefixLen logSize; omega)]; exact ⟨_, rfl⟩

theorem trace_some (l : Lua) (w : World) (e : Val) (t : Text) (he : e.text w = some t)
    (h : t.length < 10229) : ∃ l', l.errorTrace w e = some l' := by
  cases e with
  | str s =>
    simp only [Val.text, Option.some.injEq] at he
    subst he
    exact note_some l _ h
  | num q =>
    simp only [Val.text, Option.some.injEq] at he
    subst he
    exact note_some l _ h
  | _ => simp [Val.text] at he

theorem int_some (l : Lua) (w : World) (obj : Option Nat) (fn : Nat) (params : List Int) (bad n : Int)
    (he : (w.outcome obj fn params).int bad = some n)
    (hx : ∀ e, (w.outcome obj fn params).error = some e → ∃ t, e.text w = some t ∧ t.length < 10229) :
    ∃ l', Lua.intResult bad (l.exec w obj fn true params) = some (n, l') := by
  rw [int_eq]
  cases ho : w.outcome obj fn params with
  | answer v =>
    rw [ho] at he
    simp only [Outcome.int] at he
    exact ⟨l, by simp [he]⟩
  | noObject =>
    rw [ho] at he
    simp only [Outcome.int, Option.some.injEq] at he
    exact ⟨_, by rw [he]⟩
  | noFunction t =>
    rw [ho] at he
    simp only [Outcome.int, Option.some.injEq] at he
    exact ⟨_, by rw [he]⟩
  | broken => rw [ho] at he; simp [Outcome.int] at he
  | failed e =>
    rw [ho] at he hx
    simp only [Outcome.int, Option.some.injEq] at he
    obtain ⟨t, h1, h2⟩ := hx e rfl
    obtain ⟨l1, h3⟩ := trace_some l w e t h1 h2
    exact ⟨_, by simp only [h3, Option.map_some, he]; rfl⟩

theorem step_some (l : Lua) (w : World) (c : Call) (n : Int) (he : c.expected w = some n)
    (hx : ∀ e, c.error w = some e → ∃ t, e.text w = some t ∧ t.length < 10229) :
    ∃ l', l.step w c = some (n, l') := by
  cases c with
  | int1 o f p => exact int_some l w o f [p] (-1) n he hx
  | int2 o f p q => exact int_some l w o f [p, q] (-1) n he hx
  | int0 o f => exact int_some l w o f [] 1 n he hx
  | void o f =>
    simp only [Lua.step, Lua.voidExec, exec_eq]
    simp only [Call.expected] at he
    cases ho : w.outcome o f [] with
    | answer v => simp [ho] at he; exact ⟨l, by simp [he]⟩
    | noObject => simp [ho] at he; exact ⟨_, by simp [he]; rfl⟩
    | noFunction t => simp [ho] at he; exact ⟨_, by simp [he]; rfl⟩
    | broken => simp [ho] at he
    | failed e =>
      simp [ho] at he
      obtain ⟨t, h1, h2⟩ := hx e (by simp [Call.error, ho, Outcome.error])
      obtain ⟨l1, h3⟩ := trace_some l w e t h1 h2
      exact ⟨_, by simp only [h3, Option.map_some, if_true, he]; rfl⟩
  | check o f m s =>
    simp only [Lua.step, check_eq]
    simp only [Call.expected] at he
    cases hg : w.global o with
    | nil => simp [hg] at he; exact ⟨l, by simp [he]⟩
    | tbl t =>
      simp only [hg] at he ⊢
      cases hf : w.field t f with
      | fn g =>
        simp only [hf] at he ⊢
        exact int_some _ w (some o) f [m, if s then 1 else 0] (-1) n he (fun e h => hx e (by
          simp only [Call.error, hg, hf]; exact h))
      | _ => simp only [hf, Option.some.injEq] at he ⊢; exact ⟨_, by rw [he]⟩
    | _ => simp [hg] at he

end Ptusa.LuaCall
