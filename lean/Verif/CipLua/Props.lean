import Verif.CipLua.Lemmas

/-!
# Functions a project defines for a washing line (C163) and stopping a line (C164)
-/
namespace Ptusa.CipLua

open Ptusa.LuaCall (Val Text)

variable {σ : Type}

theorem call_keeps (b : Builtin σ) (w : World σ) (f : Fn) (args : List Int) (s s' : Sys σ) (n : Int)
    (h : s.call b w f args = some (n, s')) : s'.stack = s.stack ∧ s'.flag = s.flag := by
  unfold Sys.call at h
  split at h
  · split at h
    · exact lua_keeps w f args s s' n h
    · injection h with h; injection h with _ h; subst h; exact ⟨rfl, rfl⟩
  · split at h
    · exact lua_keeps w f args s s' n h
    · injection h with h; injection h with _ h; subst h; exact ⟨rfl, rfl⟩
  · split at h
    · rw [Option.map_eq_some_iff] at h
      obtain ⟨⟨m, r⟩, hr, hm⟩ := h
      injection hm with _ hm
      have := lua_keeps w f args s r m hr
      subst hm
      exact this
    · injection h with h; injection h with _ h; subst h; exact ⟨rfl, rfl⟩

/-- The flags over a history: what the first script with the object of the line says. -/
theorem run_flag (b : Builtin σ) (f : Fn) : ∀ (h : List (Ev σ)) (s s' : Sys σ), s.run b h = some s' →
    s'.flag f = if Checked f ∧ s.flag f = 0 then
      (match script h with | some w => flagOf w f 0 | none => 0) else s.flag f := by
  intro h
  induction h with
  | nil => intro s s' hr; cases hr; simp only [script]; split <;> omega
  | cons e h ih =>
    intro s s' hr
    simp only [Sys.run] at hr
    cases e with
    | init w =>
      simp only [Sys.step] at hr
      rw [ih _ _ hr, init_flag]
      by_cases hc : Checked f
      · by_cases h0 : s.flag f = 0
        · simp only [hc, h0, true_and, if_true, and_self]
          cases ho : w.object with
          | tbl t =>
            have e : script (.init w :: h) = some w := by simp [script, ho]
            rw [e]
            unfold flagOf
            simp only [if_true, ho, Val.tbl.injEq, exists_eq']
            by_cases hd : w.defines f <;> simp [hd]
          | _ =>
            have e : script (.init w :: h) = script h := by simp [script, ho]
            have e2 : flagOf w f 0 = 0 := by unfold flagOf; simp [ho]
            rw [e, e2]; simp
        · have e2 : flagOf w f (s.flag f) = s.flag f := by unfold flagOf; simp [h0]
          simp [hc, h0, e2]
      · simp [hc]
    | call w g args =>
      simp only [Sys.step] at hr
      cases hcall : s.call b w g args with
      | none => rw [hcall] at hr; cases hr
      | some r =>
        obtain ⟨n, s2⟩ := r
        rw [hcall] at hr
        simp only [Option.map_some] at hr
        have hk := call_keeps b w g args s s2 n hcall
        rw [ih _ _ hr, hk.2]
        rfl

theorem flag_defined (b : Builtin σ) (f : Fn) (h : List (Ev σ)) (l : σ) (st : List Val) (s : Sys σ)
    (hr : (Sys.fresh l st).run b h = some s) : s.flag f = 2 ↔ Checked f ∧ Defined h f := by
  rw [run_flag b f h _ _ hr]
  unfold Defined
  by_cases hc : Checked f
  · simp only [hc, Sys.fresh, and_self, if_true, true_and]
    cases hs : script h with
    | none => simp
    | some w =>
      simp only [Option.some.injEq, exists_eq_left']
      unfold flagOf
      by_cases hd : w.defines f
      · have : ∃ t, w.object = .tbl t := by obtain ⟨t, _, ht, _⟩ := hd; exact ⟨t, ht⟩
        simp [this, hd]
      · simp only [hd, if_false, if_true, iff_false]
        split <;> omega
  · simp [hc, Sys.fresh]

/-- The four functions that `initline` forgets. -/
def forgotten : List Fn := [.fillCirc, .initFillCirc, .oporCirc, .initOporCirc]

theorem checked_iff (f : Fn) : Checked f ↔ f ∉ forgotten := by cases f <;> decide

/-! ## C163 -/

/-- **C163**, a function of the project.  Whatever happened to the line before: for every function but four, if the
project had defined it when the line was initialised and still has it, then it is called with the object of the line
and the arguments, its effect is the whole effect, its answer as a whole number is the answer of the line (0 for the
functions that have none), and nothing is printed.  (`resetLines` goes on with the built-in function, see
`C163_reset`.) -/
theorem C163_defined_partial (b : Builtin σ) (h : List (Ev σ)) (l : σ) (st : List Val) (s : Sys σ)
    (hr : (Sys.fresh l st).run b h = some s) (f : Fn) (hf : f ∉ forgotten) (hx : f ≠ .resetLines) (hd : Defined h f)
    (w : World σ) (t g : Nat) (ho : w.object = .tbl t) (hg : w.field t f.name = .fn g) (args : List Int)
    (hl : args.length = f.arity) (v : Val) (line : σ) (hv : w.act f t g args s.line = (.ok v, line)) (n : Int)
    (hn : (if f.answers then wholeOf v else some 0) = some n) :
    s.call b w f args = some (n, { s with line := line }) := by
  have h2 : s.flag f = 2 := (flag_defined b f h l st s hr).2 ⟨(checked_iff f).2 hf, hd⟩
  have hlua : s.lua w f.row args = some (n, { s with line := line }) := by
    rw [lua_eq w f args s hl t ho, hg]
    simp only [hv, hn, Option.map_some]
  unfold Sys.call
  cases hk : f.row.kind with
  | replace => simp only; rw [if_pos h2, hlua]
  | only => simp only; rw [if_pos h2, hlua]
  | extend => exfalso; revert hk hx; cases f <;> simp [Fn.row]

/-- The line of the examples: a number that functions of the project set to their first argument. -/
def exWorld : World Int where
  object := .tbl 7
  field := fun t k => if t = 7 ∧ (k = "cip_GoToStep" ∨ k = "cip_FillCirc" ∨ k = "cip_Stop") then .fn 3 else .nil
  call := fun _ args _ => match args with
    | [_, .num (.num q)] => (.error (.str [101]), q.floor)
    | [_, .num (.num q), _] => (.ok (.num (.num 42)), q.floor)
    | _ => (.ok .nil, 0)
  numText := fun _ => []
  noFun := []

/-- The built-in functions of the examples. -/
def exBuiltin : Builtin Int := fun _ _ l => (1, l + 100)

example : Defined [Ev.init exWorld] .goToStep ∧ ¬ Defined [Ev.init exWorld] .doStep ∧ Defined [Ev.init exWorld] .fillCirc := by
  refine ⟨⟨exWorld, rfl, 7, 3, rfl, rfl⟩, ?_, ⟨exWorld, rfl, 7, 3, rfl, rfl⟩⟩
  rintro ⟨w, hw, t, g, ho, hg⟩
  injection hw with hw; subst hw
  injection ho with ho; subst ho
  cases hg

example : exWorld.act .goToStep 7 3 [8, 1] 0 = (.ok (.num (.num 42)), 8) := by decide +kernel

example : ((((Sys.fresh 0 []).init exWorld).call exBuiltin exWorld .goToStep [8, 1]).map
    fun r => (r.1, r.2.line, r.2.stack)) = some (42, 8, []) := by decide +kernel

/-- **C163**, no function of the project: if the project had not defined the function when the line was initialised, the
built-in function is carried out and gives the answer (a step of the project and the other extensions do nothing and
answer 0), the interpreter is not touched. -/
theorem C163_builtin (b : Builtin σ) (h : List (Ev σ)) (l : σ) (st : List Val) (s : Sys σ)
    (hr : (Sys.fresh l st).run b h = some s) (f : Fn) (hd : ¬ Defined h f) (w : World σ) (args : List Int) :
    s.call b w f args =
      if f ∈ [.inEvaluate, .inError, .initCustomStep, .doCustomStep, .configureLine] then some (0, s)
      else some ((b f args s.line).1, { s with line := (b f args s.line).2 }) := by
  have h2 : s.flag f ≠ 2 := fun e => hd ((flag_defined b f h l st s hr).1 e).2
  unfold Sys.call
  cases f <;> simp [Fn.row, h2, Sys.builtin]

example : ((((Sys.fresh 0 []).init exWorld).call exBuiltin exWorld .doStep [8]).map
    fun r => (r.1, r.2.line, r.2.stack)) = some (1, 100, []) := by decide +kernel

/-- **C163**, the function that extends the built-in one: both are carried out, first that of the project. -/
theorem C163_reset (b : Builtin σ) (h : List (Ev σ)) (l : σ) (st : List Val) (s : Sys σ)
    (hr : (Sys.fresh l st).run b h = some s) (hd : Defined h .resetLines)
    (w : World σ) (t g : Nat) (ho : w.object = .tbl t) (hg : w.field t "cip_ResetLinesDevicesBeforeReset" = .fn g) :
    (∀ (v : Val) (line : σ), w.act .resetLines t g [] s.line = (.ok v, line) →
      s.call b w .resetLines [] = some ((b .resetLines [] line).1, { s with line := (b .resetLines [] line).2 })) ∧
    (∀ (x : Text) (line : σ), w.act .resetLines t g [] s.line = (.error (.str x), line) →
      (s.call b w .resetLines []).map (fun r => r.2.line) = some (b .resetLines [] line).2) := by
  have h2 : s.flag .resetLines = 2 := (flag_defined b _ h l st s hr).2 ⟨by decide, hd⟩
  have hlua := lua_eq w .resetLines [] s rfl t ho
  have hg' : w.field t (Fn.name .resetLines) = .fn g := hg
  rw [hg'] at hlua
  constructor
  · intro v line hv
    simp only [hv, Fn.answers, Option.map_some] at hlua
    unfold Sys.call
    simp only [Fn.row]
    rw [if_pos h2]
    simp only [Fn.row] at hlua
    rw [hlua]
    rfl
  · intro x line hv
    simp only [hv, errText, Option.map_some] at hlua
    unfold Sys.call
    simp only [Fn.row]
    rw [if_pos h2]
    simp only [Fn.row] at hlua
    rw [hlua]
    rfl

/-- **C163** is violated for four functions: `cip_FillCirc`, `cip_InitFillCirc`, `cip_OporCirc`, `cip_InitOporCirc` of
the project are never called, whatever the project defines; the built-in functions are carried out. -/
theorem C163_forgotten_violated (b : Builtin σ) (h : List (Ev σ)) (l : σ) (st : List Val) (s : Sys σ)
    (hr : (Sys.fresh l st).run b h = some s) (f : Fn)
    (hf : f.name ∈ ["cip_FillCirc", "cip_InitFillCirc", "cip_OporCirc", "cip_InitOporCirc"])
    (w : World σ) (args : List Int) :
    s.call b w f args = some ((b f args s.line).1, { s with line := (b f args s.line).2 }) := by
  have hm : f ∈ forgotten := by revert hf; cases f <;> decide
  have h2 : s.flag f ≠ 2 := fun e => (checked_iff f).1 ((flag_defined b f h l st s hr).1 e).1 hm
  have hk : f.row.kind = .replace := by revert hm; cases f <;> decide
  unfold Sys.call
  rw [hk]
  simp only
  rw [if_neg h2]
  rfl

example : ((((Sys.fresh 0 []).init exWorld).call exBuiltin exWorld .fillCirc [8]).map
    fun r => (r.1, r.2.line)) = some (1, 100) ∧ exWorld.act .fillCirc 7 3 [8] 0 = (.error (.str [101]), 8) := by
  decide +kernel

/-- **C163**, the stack of the interpreter: in no history does a call leave anything on it or take anything off it. -/
theorem C163_stack (b : Builtin σ) : ∀ (h : List (Ev σ)) (s s' : Sys σ), s.run b h = some s' → s'.stack = s.stack := by
  intro h
  induction h with
  | nil => intro s s' hr; cases hr; rfl
  | cons e h ih =>
    intro s s' hr
    simp only [Sys.run] at hr
    cases e with
    | init w =>
      simp only [Sys.step] at hr
      rw [ih _ _ hr]
      exact (foldl_rest w checks s).2.1
    | call w g args =>
      simp only [Sys.step] at hr
      cases hcall : s.call b w g args with
      | none => rw [hcall] at hr; cases hr
      | some r =>
        obtain ⟨n, s2⟩ := r
        rw [hcall] at hr
        rw [ih _ _ hr]
        exact (call_keeps b w g args s s2 n hcall).1

example : (((Sys.fresh 0 [.nil]).run exBuiltin [.init exWorld, .call exWorld .goToStep [8, 1], .call exWorld .stop [9],
    .call exWorld .doStep [3]]).map fun s => (s.line, s.stack, s.printed)) =
      some (109, [.nil], [("cip_Stop", [101])]) := by decide +kernel

/-- **C163** is violated for an object that is no longer a table: the next call of a function that was defined ends the
program. -/
theorem C163_gone_violated (b : Builtin σ) (h : List (Ev σ)) (l : σ) (st : List Val) (s : Sys σ)
    (hr : (Sys.fresh l st).run b h = some s) (f : Fn) (hf : f ∉ forgotten) (hd : Defined h f)
    (w : World σ) (ho : ∀ t, w.object ≠ .tbl t) (args : List Int) : s.call b w f args = none := by
  have h2 : s.flag f = 2 := (flag_defined b f h l st s hr).2 ⟨(checked_iff f).2 hf, hd⟩
  have hlua : s.lua w f.row args = none := by
    unfold Sys.lua prepare
    cases hw : w.object with
    | tbl t => exact absurd hw (ho t)
    | _ => rfl
  unfold Sys.call
  cases f.row.kind <;> simp only <;> rw [if_pos h2, hlua]
  rfl

example : ((((Sys.fresh 0 []).init exWorld).call exBuiltin { exWorld with object := .nil } .goToStep [8, 1]).isNone) = true := by
  decide +kernel

/-! ## C164 -/

/-- **C164**, a function of the project that fails: the text of the error is printed, the answer is 0, the line is as the
function of the project left it: the built-in function does not take its place. -/
theorem C164_failed (b : Builtin σ) (h : List (Ev σ)) (l : σ) (st : List Val) (s : Sys σ)
    (hr : (Sys.fresh l st).run b h = some s) (f : Fn) (hf : f ∉ forgotten) (hx : f ≠ .resetLines) (hd : Defined h f)
    (w : World σ) (t g : Nat) (ho : w.object = .tbl t) (hg : w.field t f.name = .fn g) (args : List Int)
    (hl : args.length = f.arity) (e : Val) (line : σ) (he : w.act f t g args s.line = (.error e, line)) (x : Text)
    (hn : errText w e = some x) :
    s.call b w f args = some (0, { s with line := line, printed := s.printed ++ [(f.name, x)] }) := by
  have h2 : s.flag f = 2 := (flag_defined b f h l st s hr).2 ⟨(checked_iff f).2 hf, hd⟩
  have hlua : s.lua w f.row args = some (0, { s with line := line, printed := s.printed ++ [(f.name, x)] }) := by
    rw [lua_eq w f args s hl t ho, hg]
    simp only [he, hn, Option.map_some]
  unfold Sys.call
  cases hk : f.row.kind with
  | replace => simp only; rw [if_pos h2, hlua]
  | only => simp only; rw [if_pos h2, hlua]
  | extend => exfalso; revert hk hx; cases f <;> simp [Fn.row]

example : ((((Sys.fresh 0 []).init exWorld).call exBuiltin exWorld .stop [9]).map
    fun r => (r.1, r.2.line, r.2.printed)) = some (0, 9, [("cip_Stop", [101])]) := by decide +kernel

variable {δ : Type}

/-- **C164**, a pause without functions of the project for stopping: the devices are stopped in the state the line had,
the line is paused. -/
theorem C164_pause_partial (b : Builtin (Line δ)) (p : Plant δ) (h : List (Ev (Line δ))) (l : Line δ) (st : List Val)
    (s : Sys (Line δ)) (hr : (Sys.fresh l st).run b h = some s) (h1 : ¬ Defined h .stop) (h2 : ¬ Defined h .stopDev)
    (w : World (Line δ)) (hs : 0 < s.line.state) (hc : s.line.curstep ≠ 555) :
    s.pause p w =
      some { s with line := ⟨p.off s.line.state (p.before s.line.curstep s.line.dev), -1, s.line.curstep⟩ } := by
  have f1 : s.flag .stop ≠ 2 := fun e => h1 ((flag_defined b _ h l st s hr).1 e).2
  have f2 : s.flag .stopDev ≠ 2 := fun e => h2 ((flag_defined b _ h l st s hr).1 e).2
  unfold Sys.pause
  rw [if_pos ⟨hs, hc⟩]
  unfold Sys.stop
  rw [if_neg f1]
  simp only [Sys.call, Fn.row, Sys.builtin, Plant.builtin, if_neg f2, Option.map_some]

/-- **C164**, a blocked line without functions of the project for stopping: whatever it did, its devices are stopped. -/
theorem C164_block_partial (b : Builtin (Line δ)) (p : Plant δ) (h : List (Ev (Line δ))) (l : Line δ) (st : List Val)
    (s : Sys (Line δ)) (hr : (Sys.fresh l st).run b h = some s) (h1 : ¬ Defined h .stop) (h2 : ¬ Defined h .stopDev)
    (w₁ w₂ : World (Line δ)) :
    ∃ s', s.block p w₁ w₂ = some s' ∧ s'.line.state = -1000 ∧
      ∃ d, s'.line.dev = p.off (-1000) d := by
  have f1 : s.flag .stop ≠ 2 := fun e => h1 ((flag_defined b _ h l st s hr).1 e).2
  have f2 : s.flag .stopDev ≠ 2 := fun e => h2 ((flag_defined b _ h l st s hr).1 e).2
  unfold Sys.block
  by_cases hs : 0 < s.line.state
  · rw [if_pos hs]
    unfold Sys.stop
    rw [if_neg f1]
    simp only [Sys.call, Fn.row, Sys.builtin, Plant.builtin, if_neg f2, Option.map_some]
    exact ⟨_, rfl, rfl, _, rfl⟩
  · rw [if_neg hs]
    simp only [Sys.call, Fn.row, Sys.builtin, Plant.builtin, if_neg f2, Option.map_some]
    exact ⟨_, rfl, rfl, _, rfl⟩

/-- The devices of the examples: a pump and the steam valve. -/
def exPlant : Plant (Bool × Bool) := ⟨fun _ d => d, fun _ _ => (false, false)⟩

/-- A script without functions, or with functions that fail at once. -/
def exScript (defined : Bool) : World (Line (Bool × Bool)) where
  object := .tbl 1
  field := fun _ k => if defined ∧ (k = "cip_Stop" ∨ k = "cip_StopDev") then .fn 2 else .nil
  call := fun _ _ l => (.error (.str [101]), l)
  numText := fun _ => []
  noFun := []

example : ((((Sys.fresh (⟨(true, true), 1, 8⟩ : Line (Bool × Bool)) []).init (exScript false)).pause exPlant
    (exScript false)).map fun s => s.line) = some ⟨(false, false), -1, 8⟩ := by decide +kernel

/-- **C164** is violated: when the function `cip_Stop` of the project fails, the pause is shown (state -1), but not one
device has been stopped. -/
theorem C164_pause_violated (b : Builtin (Line δ)) (p : Plant δ) (h : List (Ev (Line δ))) (l : Line δ) (st : List Val)
    (s : Sys (Line δ)) (hr : (Sys.fresh l st).run b h = some s) (hd : Defined h .stop)
    (w : World (Line δ)) (t g : Nat) (ho : w.object = .tbl t) (hg : w.field t "cip_Stop" = .fn g) (x : Text)
    (he : w.act .stop t g [s.line.curstep] s.line = (.error (.str x), s.line)) (hs : 0 < s.line.state)
    (hc : s.line.curstep ≠ 555) :
    (s.pause p w).map (fun s => s.line) = some { s.line with state := -1 } := by
  have f1 : s.flag .stop = 2 := (flag_defined b _ h l st s hr).2 ⟨by decide, hd⟩
  have hg' : w.field t (Fn.name .stop) = .fn g := hg
  unfold Sys.pause
  rw [if_pos ⟨hs, hc⟩]
  unfold Sys.stop
  rw [if_pos f1, lua_eq w .stop [s.line.curstep] s rfl t ho, hg']
  simp only [he, errText, Option.map_some]

example : ((((Sys.fresh (⟨(true, true), 1, 8⟩ : Line (Bool × Bool)) []).init (exScript true)).pause exPlant
    (exScript true)).map fun s => s.line) = some ⟨(true, true), -1, 8⟩ := by decide +kernel

/-- **C164** is violated for a blocked line: when `cip_StopDev` of the project fails, the line is shown as blocked
(state -1000) and its devices are not stopped. -/
theorem C164_block_violated (b : Builtin (Line δ)) (p : Plant δ) (h : List (Ev (Line δ))) (l : Line δ) (st : List Val)
    (s : Sys (Line δ)) (hr : (Sys.fresh l st).run b h = some s) (hd : Defined h .stopDev)
    (w₁ w₂ : World (Line δ)) (t g : Nat) (ho : w₂.object = .tbl t) (hg : w₂.field t "cip_StopDev" = .fn g) (x : Text)
    (he : ∀ k, w₂.act .stopDev t g [] k = (.error (.str x), k)) (hs : ¬ 0 < s.line.state) :
    (s.block p w₁ w₂).map (fun s => s.line) = some { s.line with state := -1000 } := by
  have f1 : s.flag .stopDev = 2 := (flag_defined b _ h l st s hr).2 ⟨by decide, hd⟩
  have hg' : w₂.field t (Fn.name .stopDev) = .fn g := hg
  unfold Sys.block
  rw [if_neg hs]
  simp only [Sys.call]
  have hk : (Fn.stopDev).row.kind = .replace := rfl
  rw [hk]
  simp only
  rw [if_pos f1, lua_eq w₂ .stopDev [] _ rfl t ho, hg']
  simp only [he, errText, Option.map_some]

example : ((((Sys.fresh (⟨(true, true), 0, 8⟩ : Line (Bool × Bool)) []).init (exScript true)).block exPlant
    (exScript true) (exScript true)).map fun s => s.line) = some ⟨(true, true), -1000, 8⟩ := by decide +kernel

end Ptusa.CipLua
