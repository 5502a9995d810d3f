import Verif.SysText.Lemmas

/-!
# C126, C127: the parameters of the controller, the reload of the restrictions

* C126: the state of the controller shows under the name of a parameter the value which was set last.
* C127: a reload is answered with success only if the script of the project has been loaded, otherwise with the reason.
-/
namespace Ptusa.SysText
open SaveDev LuaText

/-- The number of a parameter. -/
def index : List (String × Nat) :=
  [("WASH_VALVE_SEAT_PERIOD", 1), ("WASH_VALVE_UPPER_SEAT_TIME", 2), ("WASH_VALVE_LOWER_SEAT_TIME", 3),
   ("P_V_OFF_DELAY_TIME", 4), ("P_V_BOTTOM_ON_DELAY_TIME", 5), ("P_WAGO_TCP_NODE_WARN_ANSWER_AVG_TIME", 6),
   ("P_MAIN_CYCLE_WARN_ANSWER_AVG_TIME", 7), ("P_RESTRICTIONS_MODE", 8), ("P_RESTRICTIONS_MANUAL_TIME", 9),
   ("P_AUTO_PAUSE_OPER_ON_DEV_ERR", 10)]

theorem shown_eq (s : Sys) (h : Clear s) (t : Txt) (ht : save s = some t) :
    ∃ a, s.answer = some a ∧ ∀ key v, (some key.toList, v) ∈ want s a → shown t key = some v := by
  obtain ⟨t', a, e, ha, hr⟩ := save_run s h
  rw [ht] at e
  injection e with e
  subst e
  refine ⟨a, ha, fun key v hm => ?_⟩
  rw [shown, hr]
  simp only [Function.update_self]
  exact ObjText.field_of_nodup (want_nodup s a) hm

theorem shown_par (s : Sys) (h : Clear s) (t : Txt) (ht : save s = some t) (name : String) (i : Nat) (hi : (name, i) ∈ index) :
    shown t name = some (.num (s.par i)) := by
  obtain ⟨a, _, hs⟩ := shown_eq s h t ht
  refine hs name _ ?_
  simp only [index, List.mem_cons, Prod.mk.injEq, List.not_mem_nil, or_false] at hi
  unfold want ObjText.one
  rcases hi with ⟨rfl, rfl⟩ | ⟨rfl, rfl⟩ | ⟨rfl, rfl⟩ | ⟨rfl, rfl⟩ | ⟨rfl, rfl⟩ | ⟨rfl, rfl⟩ | ⟨rfl, rfl⟩ | ⟨rfl, rfl⟩ |
    ⟨rfl, rfl⟩ | ⟨rfl, rfl⟩
  · iterate 6 apply List.mem_cons_of_mem
    exact List.mem_cons_self
  · iterate 7 apply List.mem_cons_of_mem
    exact List.mem_cons_self
  · iterate 8 apply List.mem_cons_of_mem
    exact List.mem_cons_self
  · iterate 9 apply List.mem_cons_of_mem
    exact List.mem_cons_self
  · iterate 10 apply List.mem_cons_of_mem
    exact List.mem_cons_self
  · iterate 11 apply List.mem_cons_of_mem
    exact List.mem_cons_self
  · iterate 12 apply List.mem_cons_of_mem
    exact List.mem_cons_self
  · iterate 13 apply List.mem_cons_of_mem
    exact List.mem_cons_self
  · iterate 14 apply List.mem_cons_of_mem
    exact List.mem_cons_self
  · iterate 15 apply List.mem_cons_of_mem
    exact List.mem_cons_self

/-- Setting a parameter changes it and no other one. -/
theorem setPar_known (s : Sys) (name : String) (i : Nat) (hi : (name, i) ∈ index) (v : Rat) :
    setPar s name v = (ObjText.toUint v).map (s.put i) := by
  simp only [index, List.mem_cons, Prod.mk.injEq, List.not_mem_nil, or_false] at hi
  rcases hi with ⟨rfl, rfl⟩ | ⟨rfl, rfl⟩ | ⟨rfl, rfl⟩ | ⟨rfl, rfl⟩ | ⟨rfl, rfl⟩ | ⟨rfl, rfl⟩ | ⟨rfl, rfl⟩ | ⟨rfl, rfl⟩ |
    ⟨rfl, rfl⟩ | ⟨rfl, rfl⟩ <;> simp [setPar]

theorem setPar_unknown (s : Sys) (name : String) (h : ∀ i, (name, i) ∉ index) (v : Rat) : setPar s name v = some s := by
  simp only [index, List.mem_cons, Prod.mk.injEq, List.not_mem_nil, or_false, not_or, not_and] at h
  have := fun n hn => h n |>.1 hn
  unfold setPar
  rw [if_neg fun e => (h 1).1 e rfl, if_neg fun e => (h 2).2.1 e rfl, if_neg fun e => (h 3).2.2.1 e rfl,
    if_neg fun e => (h 4).2.2.2.1 e rfl, if_neg fun e => (h 5).2.2.2.2.1 e rfl, if_neg fun e => (h 6).2.2.2.2.2.1 e rfl,
    if_neg fun e => (h 7).2.2.2.2.2.2.1 e rfl, if_neg fun e => (h 8).2.2.2.2.2.2.2.1 e rfl,
    if_neg fun e => (h 9).2.2.2.2.2.2.2.2.1 e rfl, if_neg fun e => (h 10).2.2.2.2.2.2.2.2.2 e rfl]

theorem index_unique {p q : String} {i : Nat} (h : (p, i) ∈ index) (h2 : (q, i) ∈ index) : p = q := by
  simp only [index, List.mem_cons, Prod.mk.injEq, List.not_mem_nil, or_false] at h h2
  rcases h with ⟨rfl, rfl⟩ | ⟨rfl, rfl⟩ | ⟨rfl, rfl⟩ | ⟨rfl, rfl⟩ | ⟨rfl, rfl⟩ | ⟨rfl, rfl⟩ | ⟨rfl, rfl⟩ | ⟨rfl, rfl⟩ |
    ⟨rfl, rfl⟩ | ⟨rfl, rfl⟩ <;> simpa [eq_comm] using h2

theorem index_of_known {name : String} {d : Nat} (h : (name, d) ∈ known) : ∃ i, (name, i) ∈ index ∧ defaults i = d := by
  simp only [known, List.mem_cons, Prod.mk.injEq, List.not_mem_nil, or_false] at h
  rcases h with ⟨rfl, rfl⟩ | ⟨rfl, rfl⟩ | ⟨rfl, rfl⟩ | ⟨rfl, rfl⟩ | ⟨rfl, rfl⟩ | ⟨rfl, rfl⟩ | ⟨rfl, rfl⟩ | ⟨rfl, rfl⟩ |
    ⟨rfl, rfl⟩ | ⟨rfl, rfl⟩
  exacts [⟨1, by simp [index], rfl⟩, ⟨2, by simp [index], rfl⟩, ⟨3, by simp [index], rfl⟩, ⟨4, by simp [index], rfl⟩,
    ⟨5, by simp [index], rfl⟩, ⟨6, by simp [index], rfl⟩, ⟨7, by simp [index], rfl⟩, ⟨8, by simp [index], rfl⟩,
    ⟨9, by simp [index], rfl⟩, ⟨10, by simp [index], rfl⟩]

theorem toUint_eq {v : Rat} {n : Nat} (h : ObjText.toUint v = some n) : n = ⌊v⌋₊ := by
  unfold ObjText.toUint at h
  split at h
  · injection h with h
    exact h.symm
  · cases h

theorem par_step {s s' : Sys} {e : Ev} (h : step s e = some s') {name : String} {d i : Nat} (hi : (name, i) ∈ index)
    (hd : defaults i = d) (l : List Ev) :
    lastSet name d (.num (s.par i)) (e :: l) = lastSet name d (.num (s'.par i)) l := by
  cases e with
  | set p v =>
    rw [lastSet]
    by_cases hp : ∃ j, (p, j) ∈ index
    · obtain ⟨j, hj⟩ := hp
      simp only [step, setPar_known s p j hj] at h
      cases hu : ObjText.toUint v with
      | none => simp [hu] at h
      | some n =>
        simp only [hu, Option.map_some, Option.some.injEq] at h
        subst h
        by_cases hpn : p = name
        · subst hpn
          have : i = j := by
            simp only [index, List.mem_cons, Prod.mk.injEq, List.not_mem_nil, or_false] at hi hj
            rcases hi with ⟨rfl, rfl⟩ | ⟨rfl, rfl⟩ | ⟨rfl, rfl⟩ | ⟨rfl, rfl⟩ | ⟨rfl, rfl⟩ | ⟨rfl, rfl⟩ | ⟨rfl, rfl⟩ |
              ⟨rfl, rfl⟩ | ⟨rfl, rfl⟩ | ⟨rfl, rfl⟩ <;> simpa [eq_comm] using hj
          subst this
          simp [Sys.put, toUint_eq hu]
        · have : i ≠ j := fun e => hpn (index_unique (e ▸ hj) hi)
          simp [Sys.put, hpn, this]
    · have hp' : ∀ j, (p, j) ∉ index := fun j hj => hp ⟨j, hj⟩
      simp only [step, setPar_unknown s p hp', Option.some.injEq] at h
      subst h
      have : p ≠ name := fun e => hp' i (e ▸ hi)
      rw [if_neg this]
  | clear =>
    simp only [step, Option.some.injEq] at h
    subst h
    rfl
  | reload f =>
    simp only [step] at h
    cases hr : reload f with
    | none => simp [hr] at h
    | some r =>
      simp only [hr, Option.map_some, Option.some.injEq] at h
      subst h
      rfl
  | defaults =>
    simp only [step, Option.some.injEq] at h
    subst h
    rw [lastSet, ← hd]

/-! ## C126 -/

/-- After any commands, the text shows under every name the value of the last command which concerns it, or that of the beginning. -/
theorem C126_last_partial (s s' : Sys) (es : List Ev) (h : run es s = some s') (hs : Clear s) (hs' : Clear s') (t t' : Txt)
    (ht : save s = some t) (ht' : save s' = some t') (name : String) (d : Nat) (hk : (name, d) ∈ known) :
    ∃ v0, shown t name = some v0 ∧ shown t' name = some (lastSet name d v0 es) := by
  obtain ⟨i, hi, hd⟩ := index_of_known hk
  refine ⟨_, shown_par s hs t ht name i hi, ?_⟩
  rw [shown_par s' hs' t' ht' name i hi]
  congr 1
  clear ht ht' hs hs' t t'
  induction es generalizing s with
  | nil =>
    simp only [run, Option.some.injEq] at h
    subst h
    rfl
  | cons e es ih =>
    unfold run at h
    cases h1 : step s e with
    | none => simp [h1] at h
    | some s1 =>
      simp only [h1] at h
      rw [par_step h1 hi hd, ih s1 h]

/-- Commands with values within the type are carried out and leave a readable text. -/
theorem C126_defined_partial (s : Sys) (es : List Ev) (hs : Clear s) (hr : ∀ e ∈ es, e.InRange) (hn : ∀ e ∈ es, e.NoReload) :
    ∃ s' t, run es s = some s' ∧ Clear s' ∧ save s' = some t := by
  induction es generalizing s with
  | nil =>
    obtain ⟨t, a, e, _⟩ := save_run s hs
    exact ⟨s, t, rfl, hs, e⟩
  | cons e es ih =>
    have : ∃ s1, step s e = some s1 ∧ Clear s1 := by
      cases e with
      | set p v =>
        by_cases hp : ∃ j, (p, j) ∈ index
        · obtain ⟨j, hj⟩ := hp
          have hv : ObjText.toUint v = some ⌊v⌋₊ := if_pos (hr (.set p v) (by simp))
          exact ⟨s.put j ⌊v⌋₊, by simp [step, setPar_known s p j hj, hv], ⟨hs.upTime, hs.version, hs.answer⟩⟩
        · exact ⟨s, by simp [step, setPar_unknown s p fun j hj => hp ⟨j, hj⟩], hs⟩
      | clear => exact ⟨_, rfl, ⟨hs.upTime, hs.version, hs.answer⟩⟩
      | reload f => exact absurd (hn (.reload f) (by simp)) id
      | defaults => exact ⟨_, rfl, ⟨hs.upTime, hs.version, hs.answer⟩⟩
    obtain ⟨s1, h1, hc⟩ := this
    obtain ⟨s', t, e1, e2, e3⟩ := ih s1 hc (fun e he => hr e (by simp [he])) (fun e he => hn e (by simp [he]))
    exact ⟨s', t, by simp [run, h1, e1], e2, e3⟩

/-- The other entries: the text shows the times, the answer and the nodes as they are. -/
theorem C126_state_partial (s : Sys) (h : Clear s) (t : Txt) (ht : save s = some t) :
    shown t "UP_DAYS" = some (.num s.days) ∧ shown t "UP_HOURS" = some (.num s.hours) ∧ shown t "UP_MINS" = some (.num s.mins) ∧
    shown t "UP_SECS" = some (.num s.secs) ∧ shown t "UP_TIME" = some (.str s.upTime) ∧ shown t "RESET_BY" = some (.num s.reset) ∧
    shown t "CMD" = some (.num s.cmd) ∧ shown t "CMD_ANSWER" = s.answer.map .str ∧ shown t "VERSION" = some (.str s.version) ∧
    shown t "NODEENABLED" = some (.table (s.nodes.map fun b => (none, .num (if b then 1 else 0)))) := by
  obtain ⟨a, ha, hs⟩ := shown_eq s h t ht
  have e : ∀ b, ObjText.bit b = Lv.num (if b then 1 else 0) := fun b => by cases b <;> rfl
  refine ⟨hs _ _ ?_, hs _ _ ?_, hs _ _ ?_, hs _ _ ?_, hs _ _ ?_, hs _ _ ?_, hs _ _ ?_, ha ▸ hs _ _ ?_, hs _ _ ?_, hs _ _ ?_⟩ <;>
    unfold want ObjText.one
  · iterate 1 apply List.mem_cons_of_mem
    exact List.mem_cons_self
  · iterate 2 apply List.mem_cons_of_mem
    exact List.mem_cons_self
  · iterate 3 apply List.mem_cons_of_mem
    exact List.mem_cons_self
  · iterate 4 apply List.mem_cons_of_mem
    exact List.mem_cons_self
  · iterate 5 apply List.mem_cons_of_mem
    exact List.mem_cons_self
  · exact List.mem_cons_self
  · iterate 16 apply List.mem_cons_of_mem
    exact List.mem_cons_self
  · iterate 17 apply List.mem_cons_of_mem
    exact List.mem_cons_self
  · iterate 18 apply List.mem_cons_of_mem
    exact List.mem_cons_self
  · iterate 19 apply List.mem_cons_of_mem
    have : ObjText.many "NODEENABLED".toList (s.nodes.map ObjText.bit) =
        (some "NODEENABLED".toList, .table (s.nodes.map fun b => (none, .num (if b then 1 else 0)))) := by
      simp [ObjText.many, e]
    rw [this]
    exact List.mem_cons_self

/-- A value out of range is undefined behaviour, for every parameter. -/
theorem C126_range_violated (s : Sys) (name : String) (d : Nat) (hk : (name, d) ∈ known) (v : Rat) (hv : v ≤ -1 ∨ 4294967296 ≤ v) :
    step s (.set name v) = none := by
  obtain ⟨i, hi, _⟩ := index_of_known hk
  have : ObjText.toUint v = none := by
    unfold ObjText.toUint
    rw [if_neg]
    rintro ⟨h1, h2⟩
    rcases hv with hv | hv
    · exact absurd h1 (not_lt.2 hv)
    · exact absurd h2 (not_lt.2 hv)
  simp [step, setPar_known s name i hi, this]

/-! ## C127 -/

/-- A script of the right version which is executed without an error: success, and no message. -/
theorem C127_success_partial (f : Files) (hv : f.version false = some 1) (hr : f.run false = none) :
    reload f = some (0, some []) := by
  simp [reload, found, check, hv, hr]

/-- Success is answered only if a script of the right version was found and a script was executed without an error. -/
theorem C127_answer_partial (f : Files) (r : Int × Option Txt) (h : reload f = some r) :
    (r.1 = 0 ∨ r.1 = 1) ∧ (r.1 = 0 → (f.version false = some 1 ∨ f.version true = some 1) ∧ (f.run false = none ∨ f.run true = none)) := by
  unfold reload at h
  split at h
  · injection h with h
    subst h
    simp
  · rename_i h1
    split at h
    · split at h
      · injection h with h
        subst h
        simp
      · cases h
    · rename_i h2
      have hv : f.version false = some 1 ∨ f.version true = some 1 := by
        rw [not_not, found] at h2
        split at h2
        · right
          unfold check at h2
          cases hx : f.version true with
          | none => simp [hx] at h2
          | some v => simp [hx] at h2; rw [h2]
        · left
          unfold check at h2
          cases hx : f.version false with
          | none => simp [hx] at h2
          | some v => simp [hx] at h2; rw [h2]
      split at h
      · rename_i hr
        injection h with h
        subst h
        exact ⟨.inl rfl, fun _ => ⟨hv, .inl hr⟩⟩
      · split at h
        · rename_i hr
          injection h with h
          subst h
          exact ⟨.inl rfl, fun _ => ⟨hv, .inr hr⟩⟩
        · injection h with h
          subst h
          simp

theorem cmd_setPar (s s' : Sys) (p : String) (v : Rat) (h : setPar s p v = some s') : s'.cmd = s.cmd := by
  by_cases hp : ∃ j, (p, j) ∈ index
  · obtain ⟨j, hj⟩ := hp
    rw [setPar_known s p j hj, Option.map_eq_some_iff] at h
    obtain ⟨_, _, rfl⟩ := h
    rfl
  · rw [setPar_unknown s p (fun i hi => hp ⟨i, hi⟩)] at h
    cases h
    rfl

/-- The result of the last reload is shown until it is taken away. -/
theorem C127_result_partial (s s' : Sys) (es : List Ev) (h : run es s = some s') (hs' : Clear s') (t : Txt) (ht : save s' = some t) :
    shown t "CMD" = some (.num (lastResult s.cmd es : Int)) := by
  rw [(C126_state_partial s' hs' t ht).2.2.2.2.2.2.1]
  congr 3
  clear ht hs' t
  induction es generalizing s with
  | nil => cases h; rfl
  | cons e es ih =>
    simp only [run] at h
    cases he : step s e with
    | none => simp [he] at h
    | some s1 =>
      rw [he] at h
      rw [ih s1 h]
      cases e with
      | set p v => rw [cmd_setPar s s1 p v he]; rfl
      | clear => cases he; rfl
      | reload f =>
        simp only [step, Option.map_eq_some_iff] at he
        obtain ⟨r, hr, rfl⟩ := he
        simp [lastResult, hr]
      | defaults => cases he; rfl

/-- A missing script: failure without a reason. -/
theorem C127_missing_violated (f : Files) (h1 : f.version false = none) (h2 : f.version true = none) :
    reload f = some (1, some []) := by
  simp [reload, found, check, h1, h2]

/-- A script of the project with an error is answered with success if there is a good one in the current directory. -/
theorem C127_fallback_violated (f : Files) (m : Txt) (hv : f.version false = some 1) (hr : f.run false = some m)
    (h2 : f.run true = none) : reload f = some (0, some []) := by
  simp [reload, found, check, hv, hr, h2]

/-- Otherwise the message is not that of the script of the project but that of the other one; usually it does not exist. -/
theorem C127_message_violated (f : Files) (m m2 : Txt) (hv : f.version false = some 1) (hr : f.run false = some m)
    (h2 : f.run true = some m2) : reload f = some (1, if m2.length < 181 then some ("eload Lua script - ".toList ++ m2) else none) := by
  have e : ("Reload Lua script - ".toList ++ m2).drop 1 = "eload Lua script - ".toList ++ m2 := rfl
  have el : ("eload Lua script - ".toList ++ m2).length = 19 + m2.length := by
    rw [List.length_append]
    rfl
  simp only [reload, found, check, hv, hr, h2, Option.getD_some, e, el]
  by_cases h : m2.length < 181
  · have : 19 + m2.length < 200 := by omega
    simp [h, this]
  · have : ¬ 19 + m2.length < 200 := by omega
    simp [h, this]

theorem natText_len (n k : Nat) (h : 10 ^ k ≤ n) : k < (natText n).length := by
  induction k generalizing n with
  | zero =>
    have := natText_ne n
    exact List.length_pos_iff.2 this
  | succ k ih =>
    have h10 : ¬ n < 10 := by
      have : 1 ≤ 10 ^ k := Nat.one_le_pow _ _ (by decide)
      have : 10 ^ (k + 1) = 10 * 10 ^ k := by ring
      omega
    rw [natText, if_neg h10, List.length_append]
    have := ih (n / 10) (by
      have : 10 ^ (k + 1) = 10 ^ k * 10 := by ring
      omega)
    simp only [List.length_singleton]
    omega

/-- A version of six digits or more overflows the message. -/
theorem C127_overflow_violated (f : Files) (v : Int) (hf : f.version false = some v) (hv : 100000 ≤ v) : reload f = none := by
  have e : (versionText v).length = 41 + (intText v).length + 53 := by
    unfold versionText
    simp only [List.length_append]
    rfl
  have hl : 5 < (intText v).length := by
    unfold intText
    rw [if_neg (by omega)]
    exact natText_len _ 5 (by omega)
  have : found f = v := by
    have : v ≠ -1 := by omega
    simp [found, check, hf, this]
  simp only [reload, this]
  rw [if_neg (by omega : ¬ v = -1), if_pos (by omega : v ≠ 1), if_neg (by omega)]

/-- After a reload of a script of another version the server cannot read the state of the controller any more: the message has
quotation marks. -/
theorem C127_version_violated (s s' : Sys) (hs : Clear s) (f : Files) (v : Int) (hf : f.version false = some v) (h1 : v ≠ 1)
    (h2 : v ≠ -1) (h : step s (.reload f) = some s') (t : Txt) (ht : save s' = some t) (env : Env) : runText t env = none := by
  have hc : found f = v := by simp [found, check, hf, h2]
  have hr : s' = { s with cmd := 1, answer := some (versionText v) } := by
    simp only [step, reload, hc, if_neg h2, if_pos h1] at h
    split at h
    · simpa using h.symm
    · simp at h
  subst hr
  have hm : scan .idle "main.".toList = some (.idle, [.name "main".toList, .sym '.']) := by decide +kernel
  have hw : CleanQ "File ".toList := by decide +kernel
  have e : "File \"main.restrictions.lua\" has version ".toList = "File ".toList ++ '"' :: ("main.".toList ++
      "restrictions.lua\" has version ".toList) := by decide +kernel
  refine unreadable { s with cmd := 1, answer := some (versionText v) } hs.upTime (versionText v) "File ".toList "main.".toList
    ("restrictions.lua\" has version ".toList ++ (intText v ++ ", must be 1 (consider updating program \"ptusa_main\").".toList))
    _ _ _ rfl ?_ hw hm t ht env
  unfold versionText
  rw [e]
  simp only [List.append_assoc, List.cons_append]

/-- A message of 181 characters or more has no end in the answer: the text of the state is undefined behaviour. -/
theorem C127_long_violated (s s' : Sys) (f : Files) (m m2 : Txt) (hv : f.version false = some 1) (hr : f.run false = some m)
    (h2 : f.run true = some m2) (hl : 181 ≤ m2.length) (h : step s (.reload f) = some s') : save s' = none := by
  have := C127_message_violated f m m2 hv hr h2
  rw [if_neg (by omega)] at this
  simp only [step, this, Option.map_some, Option.some.injEq] at h
  subst h
  rfl

/-! ## Concrete cases -/

/-- A controller after its start. -/
def fresh : Sys :=
  { reset := 1, days := 0, hours := 0, mins := 0, secs := 0, upTime := "0 дн. 0:0:0".toList, par := defaults, cmd := 0,
    answer := some [], version := "2026.1".toList, nodes := [true, false] }

example : Clear fresh := ⟨by decide +kernel, by decide +kernel, [], rfl, by decide⟩

example : lastSet "P_V_OFF_DELAY_TIME" 1000 (.num 1000) [.set "P_V_OFF_DELAY_TIME" (5 / 2), .set "P_RESTRICTIONS_MODE" 1, .clear] =
    .num (⌊(5 / 2 : Rat)⌋₊ : Nat) := by
  simp [lastSet]

example : ∃ s, run [.set "P_V_OFF_DELAY_TIME" 2500, .set "P_RESTRICTIONS_MODE" 1] fresh = some s ∧ s.par 4 = 2500 := by
  refine ⟨_, rfl, ?_⟩
  have : ⌊(2500 : Rat)⌋₊ = 2500 := by norm_num
  simp [Sys.put, this]

/-- The files of a project: the script of the project has version 2. -/
def newer : Files := { version := fun h => if h then none else some 2, run := fun _ => none }

example : reload newer = some (1, some (versionText 2)) := by decide +kernel

-- Failure is shown, after that it is taken away.
example : lastResult 0 [.reload newer, .defaults] = 1 ∧ lastResult 0 [.reload newer, .clear] = 0 := by decide +kernel

end Ptusa.SysText
