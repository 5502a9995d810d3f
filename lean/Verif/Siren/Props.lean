import Verif.Siren.LemmasRun

/-!
# C101: lamps and siren tell what is wrong
-/
namespace Ptusa.Siren

open Ptusa.Timer (Tm)
open Ptusa.Alarm (Erring Unacked isSuppressed)

/-! ### Siren -/

/-- C101, the siren after a cycle in service, for every history: it sounds iff there is still
something to tell (a critical error, or an unaccepted alarm that no suppressed device hides) and
either it already sounded, or an alarm has just appeared, or the number of the list of critical
errors is another one than at the previous cycle. -/
theorem C101_siren_partial (t0 : Tm) (builtIn : Bool) (m : Alarm.Mgr) (hist : List Ev)
    (t : Tm) (neg : Nat → Bool) (objs : List TObj) (es : List Ev) (hes : ∀ e ∈ es, e.Between)
    (now : Tm) (neg' : Nat → Bool) (objs' : List TObj) :
    let s := (Sys.start t0 true builtIn m).run (hist ++ [.cycle t neg objs])
    let s' := s.run es
    InService s' now →
    ((s'.step (.cycle now neg' objs')).sir.siren = true ↔
      (Critical s' ∨ ∃ i, Unacked s'.alarm neg' i false ∧ NotHidden s'.alarm neg' i) ∧
      (s'.sir.siren = true ∨ (∃ i, Fresh s'.alarm neg' i ∧ NotHidden s'.alarm neg' i) ∨
        s'.crit.id ≠ s.crit.id)) := by
  intro s s' h
  obtain ⟨-, hs, -⟩ := cycle_out h neg' objs'
  have hn : s'.sir.critN = critId s.crit := by
    show (s.run es).sir.critN = _
    rw [between_run s es hes]
    show (Sys.run _ (hist ++ [_])).sir.critN = critId (Sys.run _ (hist ++ [_])).crit
    rw [run_append]
    exact cycle_noted _ t neg objs (run_const _ hist).1
  have hne : (critId s'.crit != s'.sir.critN) = true ↔ s'.crit.id ≠ s.crit.id := by
    rw [hn, bne_iff_ne]
    exact ⟨fun h1 h2 => h1 (by unfold critId; rw [h2]), fun h1 h2 => h1 (critId_inj h2)⟩
  rw [hs, Bool.and_eq_true, Bool.or_eq_true, Bool.or_eq_true, Bool.or_eq_true, hne, new_flag,
    crit_any, Alarm.C11_noack_flag_partial]
  constructor
  · rintro ⟨(h1 | h1) | h1, h2⟩
    · exact ⟨h2, Or.inl h1⟩
    · exact ⟨h2, Or.inr (Or.inl h1)⟩
    · exact ⟨h2, Or.inr (Or.inr h1)⟩
  · rintro ⟨h2, h1 | h1 | h1⟩
    · exact ⟨Or.inl (Or.inl h1), h2⟩
    · exact ⟨Or.inl (Or.inr h1), h2⟩
    · exact ⟨Or.inr h1, h2⟩

/-- C101: an alarm that appears in service sounds the siren in the same cycle (unless a suppressed
device in error follows in the list). -/
theorem C101_new_alarm_sounds_partial (s : Sys) (now : Tm) (neg : Nat → Bool) (objs : List TObj)
    (h : InService s now) (i : Nat) (hf : Fresh s.alarm neg i) (hh : NotHidden s.alarm neg i) :
    (s.step (.cycle now neg objs)).sir.siren = true := by
  obtain ⟨-, hs, -⟩ := cycle_out h neg objs
  rw [hs, (new_flag s.alarm neg).2 ⟨i, hf, hh⟩]
  have : (s.alarm.evaluate neg).flags.anyNoAck = true := by
    rw [Alarm.C11_noack_flag_partial]
    obtain ⟨k, d, h1, h2, h3, h4⟩ := hf
    refine ⟨i, ⟨k, d, h1, h2, h3, ?_⟩, hh⟩
    rcases h4 with h4 | h4 <;> rw [h4] <;> decide
  rw [this]
  simp

/-- C101: a critical error that appears between two cycles sounds the siren. -/
theorem C101_new_critical_sounds (t0 : Tm) (builtIn : Bool) (m : Alarm.Mgr) (hist : List Ev)
    (t : Tm) (neg : Nat → Bool) (objs : List TObj) (es : List Ev) (hes : ∀ e ∈ es, e.Between)
    (hfew : critCalls es < 65536) (now : Tm) (neg' : Nat → Bool) (objs' : List TObj) :
    let s := (Sys.start t0 true builtIn m).run (hist ++ [.cycle t neg objs])
    let s' := s.run es
    InService s' now → (∃ e, e ∈ s'.crit.errors ∧ e ∉ s.crit.errors) →
    (s'.step (.cycle now neg' objs')).sir.siren = true := by
  intro s s' h hnew
  obtain ⟨e, he, hne⟩ := hnew
  refine (C101_siren_partial t0 builtIn m hist t neg objs es hes now neg' objs' h).2
    ⟨Or.inl ⟨e, he⟩, Or.inr (Or.inr ?_)⟩
  exact crit_changed s es hes hfew (fun heq => hne (heq ▸ he))

/-- C101: outside of service the lamps and the siren do not change, and in service only a command
given to the siren itself can silence it between two cycles. -/
theorem C101_unchanged (s : Sys) (e : Ev) (l : Lamp)
    (h : match e with
      | .cycle now _ _ => s.sir.startT.toNat ≤ now.toNat ∧ ¬ InService s now
      | .force l' _ => l ≠ l'
      | _ => True) :
    (match l with
      | .red => (s.step e).sir.red = s.sir.red
      | .yellow => (s.step e).sir.yellow = s.sir.yellow
      | .green => (s.step e).sir.green = s.sir.green
      | .siren => (s.step e).sir.siren = s.sir.siren) := by
  cases e with
  | cycle now neg objs =>
    obtain ⟨ht, hns⟩ := h
    have heq : s.sir.eval now s.crit (s.alarm.evaluate neg).flags objs = s.sir ∨
        s.sir.eval now s.crit (s.alarm.evaluate neg).flags objs =
          { s.sir with critN := critId s.crit } := by
      unfold Sir.eval
      split
      · exact Or.inl rfl
      · rename_i hi
        split
        · exact Or.inr rfl
        · rename_i hd
          split
          · exact Or.inr rfl
          · rename_i hm
            exfalso
            apply hns
            refine ⟨by simpa using hi, by simpa using hm, ?_⟩
            have : ¬ (Time.deltaMs now s.sir.startT).toNat < (5000 : BitVec 64).toNat := hd
            rw [Timer.delta_eq ht] at this
            have h5 : (5000 : BitVec 64).toNat = 5000 := rfl
            omega
    simp only [Sys.step]
    rcases heq with heq | heq <;> rw [heq] <;> cases l <;> rfl
  | force l' b => cases l <;> cases l' <;> first | rfl | exact absurd rfl h
  | _ => cases l <;> rfl

/-- A device of the alarm list, and one whose alarm is suppressed. -/
def oneDev : Alarm.Mgr := ⟨[((1, 1), .dev ⟨.normal, 0⟩)], Alarm.Flags.clear, 0, 0⟩

/-- Non-vacuity: after 6 s in operation the device fails, the siren sounds; it goes on until the
operator accepts the alarm; then a critical error appears and it sounds again. -/
example :
    let s0 := (Sys.start 0 true true oneDev).run [.cycle 6000 (fun _ => false) []]
    let s1 := s0.run [.cycle 6100 (fun _ => true) []]
    let s2 := s1.run [.post 0 7, .cycle 6200 (fun _ => true) []]
    let s3 := s2.run [.cmd 100 (1, 1) 0, .cycle 6300 (fun _ => true) []]
    let s4 := s3.run [.crit (.set 1 1 3), .cycle 6400 (fun _ => true) []]
    InService s0 6100 ∧ (s0.sir.siren, s1.sir.siren, s2.sir.siren, s3.sir.siren, s4.sir.siren) =
      (false, true, true, false, true) ∧
    (s0.sir.red, s1.sir.red, s3.sir.red, s4.sir.red) = (false, true, true, true) := by
  refine ⟨⟨rfl, rfl, ?_⟩, ?_, ?_⟩ <;> decide +kernel

/-! ### Lamps -/

/-- C101, the red lamp in service: it is lit only if there is a critical error or a visible alarm,
and with a lamp that blinks by itself exactly then. -/
theorem C101_red_partial (s : Sys) (now : Tm) (neg : Nat → Bool) (objs : List TObj)
    (h : InService s now) :
    ((s.step (.cycle now neg objs)).sir.red = true →
      Critical s ∨ ∃ i, Erring s.alarm neg i false ∧ NotHidden s.alarm neg i) ∧
    (s.sir.builtIn = true →
      (Critical s ∨ ∃ i, Erring s.alarm neg i false ∧ NotHidden s.alarm neg i) →
      (s.step (.cycle now neg objs)).sir.red = true) := by
  obtain ⟨⟨hr, -⟩, -⟩ := cycle_out h neg objs
  have he : (s.crit.isAnyError || (s.alarm.evaluate neg).flags.anyError) = true ↔
      Critical s ∨ ∃ i, Erring s.alarm neg i false ∧ NotHidden s.alarm neg i := by
    rw [Bool.or_eq_true, crit_any, Alarm.C11_error_flag_partial]
    rfl
  rw [hr, ← he]
  unfold Sir.evalRed
  constructor
  · intro hh
    split at hh
    · assumption
    · simp at hh
  · intro hb h1
    rw [if_pos h1, if_pos hb]

/-- C101, the yellow lamp in service is lit only if there is a message. -/
theorem C101_yellow_partial (s : Sys) (now : Tm) (neg : Nat → Bool) (objs : List TObj)
    (h : InService s now) (hy : (s.step (.cycle now neg objs)).sir.yellow = true) :
    HasMessage s.alarm := by
  obtain ⟨-, -, ⟨h1, -⟩, -⟩ := cycle_out h neg objs
  rw [h1] at hy
  split at hy
  · rename_i hm
    exact (msg_flag s.alarm neg).1 hm
  · simp at hy

/-- C101, blinking: take any history and after it any stretch of cycles in service during which the
reason persists (error: red, message: yellow).  If the lamp has the same look (lit or dark) after
all these cycles, then all of them but the last lie within one half period.  So the lamp neither
stays dark nor stays lit. -/
theorem C101_blinks (t0 : Tm) (builtIn : Bool) (m : Alarm.Mgr) (hist es : List Ev)
    (l : Blinking) (x : Bool) (ts : List Tm) (hord : Ordered (times hist ++ ts))
    (hst : Steady l x ((Sys.start t0 true builtIn m).run hist) es ts) (first : Tm)
    (hf : ts.head? = some first) :
    ∀ t ∈ ts.dropLast, first.toNat ≤ t.toNat ∧ t.toNat - first.toNat ≤ l.half := by
  unfold Ordered at hord
  rw [List.pairwise_append] at hord
  obtain ⟨ho1, ho2, ho3⟩ := hord
  have hmem : first ∈ ts := List.mem_of_mem_head? hf
  have hne : ts ≠ [] := List.ne_nil_of_mem hmem
  have hinv : BlinkInv ((Sys.start t0 true builtIn m).run hist) first.toNat :=
    blink_run hist _ 0 ⟨Nat.le_refl _, Nat.le_refl _, Nat.le_refl _, Nat.le_refl _⟩
      (fun _ _ => Nat.zero_le _) ho1 _ (Nat.zero_le _) (fun y hy => ho3 y hy first hmem)
  have hge : ∀ t ∈ ts, first.toNat ≤ t.toNat := by
    cases ts with
    | nil => exact absurd rfl hne
    | cons a rest =>
      simp only [List.head?_cons, Option.some.injEq] at hf
      subst hf
      intro t ht
      rcases List.mem_cons.1 ht with rfl | ht
      · exact Nat.le_refl _
      · exact (List.pairwise_cons.1 ho2).1 t ht
  have hsince : (since (machine l ((Sys.start t0 true builtIn m).run hist))).toNat ≤ first.toNat := by
    obtain ⟨i1, i2, i3, i4⟩ := hinv
    have key : ∀ (b : Blink) (n : Nat), b.blinkT.toNat ≤ n → b.waitT.toNat ≤ n →
        (since b).toNat ≤ n := by
      intro b n h1 h2
      unfold since
      by_cases hw : b.wait = true
      · rw [if_pos hw]; exact h2
      · rw [if_neg hw]; exact h1
    cases l
    · exact key _ _ i1 i2
    · exact key _ _ i3 i4
  intro t ht
  have := steady_main hst first.toNat (steady_phase hst hne) hsince hge ho2 t ht
  have h2 := hge t (List.dropLast_subset _ ht)
  omega

/-- C101, blinking is not too fast: when, in a stretch of cycles in service during which the reason persists, the lamp
changes its look, it keeps the new look in all cycles within a half period of the last cycle with the old one. -/
theorem C101_phases (l : Blinking) (s : Sys) (es : List Ev) (a b : Tm) (y : Bool) (ts : List (Tm × Bool))
    (h : Shows l s es ((a, y) :: (b, !y) :: ts))
    (hord : Ordered (a :: b :: ts.map Prod.fst)) :
    ∀ u ∈ ts, u.1.toNat - a.toNat ≤ l.half → u.2 = !y := by
  obtain ⟨s', es', h', ha⟩ := shows_turn h
  unfold Ordered at hord
  rw [List.pairwise_cons] at hord
  intro u hu hle
  have hge : ∀ u ∈ (b, !y) :: ts, a.toNat ≤ u.1.toNat := by
    intro v hv
    rcases List.mem_cons.1 hv with rfl | hv
    · exact hord.1 _ List.mem_cons_self
    · exact hord.1 _ (List.mem_cons_of_mem _ (List.mem_map_of_mem hv))
  have := hge u (List.mem_cons_of_mem _ hu)
  exact shows_main h' (shows_phase h') ha hge hord.2 u (List.mem_cons_of_mem _ hu) (by omega)

/-- Non-vacuity: with cycles every 100 ms the lamp is dark for three cycles, then lit
for three, then dark. -/
example : ((([6000, 6100, 6200, 6300, 6400, 6500, 6600, 6700, 6800] : List Tm).foldl
    (fun (a : Sys × List Bool) t =>
      let s := a.1.step (.cycle t (fun _ => true) [])
      (s, a.2 ++ [s.sir.red])) (Sys.start 0 true false oneDev, [])).2) =
    [true, false, false, false, true, true, true, false, false] := by decide +kernel

/-- A steady stretch as in the theorem. -/
example : ∃ (s : Sys) (es : List Ev), s = (Sys.start 0 true false oneDev).run
      [.cycle 6000 (fun _ => true) []] ∧
    Steady .red false s es [6100, 6200] :=
  ⟨_, [.cycle 6100 (fun _ => true) [], .cmd 100 (1, 1) 0, .cycle 6200 (fun _ => true) []], rfl,
    .cycle ⟨rfl, rfl, by decide⟩
      ⟨rfl, Or.inr ⟨0, ⟨(1, 1), ⟨.alarm, 0⟩, rfl, rfl, rfl⟩, by
        rintro j hj ⟨k, d, h1, h2, h3⟩
        cases j with
        | zero => omega
        | succ j => exact absurd h1 (by simp [Sys.run, Sys.step, Sys.start, oneDev, Alarm.Mgr.evaluate, Alarm.evalItems])⟩⟩
      (by decide +kernel)
      (.other trivial (.cycle ⟨rfl, rfl, by decide⟩
        ⟨rfl, Or.inr ⟨0, ⟨(1, 1), ⟨.accept, 0⟩, rfl, rfl, rfl⟩, by
          rintro j hj ⟨k, d, h1, h2, h3⟩
          cases j with
          | zero => omega
          | succ j => exact absurd h1 (by simp [Sys.run, Sys.step, Sys.start, oneDev, Alarm.Mgr.evaluate, Alarm.evalItems, Alarm.Mgr.setCmd, Alarm.cmdItems])⟩⟩
        (by decide +kernel) (.nil _)))⟩

/-- Every cycle of the history saw objects that all have, or all lack, their own Lua function, and
the function never failed. -/
def Uniform (h : Bool) (es : List Ev) : Prop :=
  ∀ now neg objs, Ev.cycle now neg objs ∈ es →
    ∀ o ∈ objs, o.hasFun = h ∧ (h = true → o.answer ≠ none)

/-- C101, the green lamp in service: lit iff some technological object is important; when either
all objects define `is_any_important_mode` or none does (missing: a mixture, and failing functions,
for which it is false). -/
theorem C101_green_partial (t0 : Tm) (builtIn : Bool) (m : Alarm.Mgr) (hist : List Ev) (h : Bool)
    (now : Tm) (neg : Nat → Bool) (objs : List TObj)
    (hu : Uniform h (hist ++ [.cycle now neg objs])) :
    let s := (Sys.start t0 true builtIn m).run hist
    InService s now →
    ((s.step (.cycle now neg objs)).sir.green = true ↔ ∃ o ∈ objs, o.Important) := by
  intro s hs
  obtain ⟨-, -, -, ⟨hg, -⟩, -⟩ := cycle_out hs neg objs
  rw [hg]
  refine (anyImportant_uniform h objs (hu now neg objs (by simp)) _ ?_).1
  have : ∀ (es : List Ev) (s : Sys), Uniform h es → (s.sir.luaKnown = none ∨ s.sir.luaKnown = some h) →
      ((s.run es).sir.luaKnown = none ∨ (s.run es).sir.luaKnown = some h) := by
    intro es
    induction es with
    | nil => intro s _ hk; exact hk
    | cons e es ih =>
      intro s hu hk
      rw [run_cons]
      apply ih _ (fun now neg objs hm => hu now neg objs (List.mem_cons_of_mem _ hm))
      cases e with
      | cycle now neg objs =>
        simp only [Sys.step]
        unfold Sir.eval
        split
        · exact hk
        · split
          · exact hk
          · split
            · exact hk
            · simp only [Sir.evalGreen, evalOff_known, evalYellow_known, evalOn_known, evalRed_known]
              exact (anyImportant_uniform h objs (hu now neg objs List.mem_cons_self) _ hk).2
      | force l b => cases l <;> exact hk
      | _ => exact hk
  exact this hist _ (fun now neg objs hm => hu now neg objs (List.mem_append_left _ hm)) (Or.inl rfl)

/-- Non-vacuity: two objects without a function of their own, the second runs an operation. -/
example : Uniform false ([] ++ [.cycle 6000 (fun _ => false) [⟨false, none, [0]⟩, ⟨false, none, [0, 4]⟩]]) ∧
    ((Sys.start 0 true true oneDev).step
      (.cycle 6000 (fun _ => false) [⟨false, none, [0]⟩, ⟨false, none, [0, 4]⟩])).sir.green = true := by
  refine ⟨?_, by decide +kernel⟩
  intro now neg objs hm o ho
  simp only [List.nil_append, List.mem_singleton, Ev.cycle.injEq] at hm
  obtain ⟨-, -, rfl⟩ := hm
  simp only [List.mem_cons, List.not_mem_nil, or_false] at ho
  rcases ho with rfl | rfl <;> exact ⟨rfl, by simp⟩

/-! ### Where the code does not keep the promise -/

/-- C101 is false of the code: a device comes into error in service; because a suppressed device
registered later is in error too, the red lamp stays dark and the siren silent. -/
theorem C101_suppressed_hides_violated :
    ∃ (m : Alarm.Mgr) (neg : Nat → Bool) (now : Tm),
      let s := Sys.start 0 true true m
      InService s now ∧ Fresh m neg 0 ∧
      (s.step (.cycle now neg [])).sir.red = false ∧ (s.step (.cycle now neg [])).sir.siren = false :=
  ⟨⟨[((1, 1), .dev ⟨.normal, 0⟩), ((1, 2), .dev ⟨.normal, 4⟩)], Alarm.Flags.clear, 0, 0⟩,
    fun _ => true, 6000, ⟨rfl, rfl, by decide⟩, ⟨(1, 1), ⟨.normal, 0⟩, rfl, rfl, rfl, Or.inl rfl⟩,
    by decide +kernel, by decide +kernel⟩

/-- Cycles in which the device stays in error. -/
def failing (ts : List Tm) : List Ev := ts.map fun t => .cycle t (fun _ => true) []

theorem failing_silent (ts : List Tm) : ∀ s : Sys,
    s.alarm.items = [((1, 1), .dev ⟨.alarm, 0⟩)] → s.crit = CritErr.Mgr.init → s.sir.critN = 0 →
    s.sir.siren = false → (s.run (failing ts)).sir.siren = false ∧
      (s.run (failing ts)).alarm.items = [((1, 1), .dev ⟨.alarm, 0⟩)] := by
  induction ts with
  | nil => intro s h1 _ _ h4; exact ⟨h4, h1⟩
  | cons t ts ih =>
    intro s h1 h2 h3 h4
    have hev : (s.alarm.evaluate fun _ => true).items = [((1, 1), .dev ⟨.alarm, 0⟩)] ∧
        (s.alarm.evaluate fun _ => true).flags.newError = false := by
      simp only [Alarm.Mgr.evaluate, h1]
      constructor <;> decide +kernel
    have hc : critId s.crit = 0 := by rw [h2]; rfl
    refine ih (s.step (.cycle t (fun _ => true) [])) hev.1 h2 ?_ ?_
    · simp only [Sys.step]
      unfold Sir.eval
      split
      · exact h3
      · split
        · exact hc
        · split
          · exact hc
          · simp only [Sir.evalGreen, evalOff_critN, evalYellow_critN, evalOn_critN]
            exact hc
    · simp only [Sys.step]
      unfold Sir.eval
      split
      · exact h4
      · split
        · exact h4
        · split
          · exact h4
          · simp only [Sir.evalGreen, evalOff_siren, evalYellow_siren, evalOn_siren, evalRed_siren,
              evalRed_critN, hev.2, h4, h3, hc]
            simp

/-- C101 is false of the code: an alarm that appears while the lamps are in manual mode (or in the
first 5 s after the start) never sounds the siren, however long it lasts unaccepted after manual
mode has been left. -/
theorem C101_alarm_missed_violated :
    (∀ ts : List Tm, ((Sys.start 0 true true oneDev).run
      ([.manual 1, .cycle 6000 (fun _ => true) [], .manual 0] ++ failing ts)).sir.siren = false) ∧
    (∀ ts : List Tm, ((Sys.start 0 true true oneDev).run
      ([.cycle 4000 (fun _ => true) []] ++ failing ts)).sir.siren = false) ∧
    (∀ ts : List Tm, ∃ k d, ((Sys.start 0 true true oneDev).run
      ([.cycle 4000 (fun _ => true) []] ++ failing ts)).alarm.items = [(k, .dev d)] ∧ d.st = .alarm) := by
  refine ⟨fun ts => ?_, fun ts => ?_, fun ts => ?_⟩
  · rw [run_append]
    exact (failing_silent ts _ (by decide +kernel) (by decide +kernel) (by decide +kernel)
      (by decide +kernel)).1
  · rw [run_append]
    exact (failing_silent ts _ (by decide +kernel) (by decide +kernel) (by decide +kernel)
      (by decide +kernel)).1
  · rw [run_append]
    exact ⟨_, _, (failing_silent ts _ (by decide +kernel) (by decide +kernel) (by decide +kernel)
      (by decide +kernel)).2, rfl⟩

/-- C101 is false of the code: two critical errors, the siren has been silenced by hand; one of the
errors goes away, nothing new appears, and the siren sounds. -/
theorem C101_cleared_error_sounds_violated :
    let s := (Sys.start 0 true true oneDev).run
      [.cycle 6000 (fun _ => false) [], .crit (.set 1 1 1), .crit (.set 1 1 2),
        .cycle 6100 (fun _ => false) [], .force .siren false, .cycle 6200 (fun _ => false) []]
    s.sir.siren = false ∧
    (s.run [.crit (.reset 1 1 2), .cycle 6300 (fun _ => false) []]).sir.siren = true := by
  constructor <;> decide +kernel

/-- C101 is false of the code: whether the objects have a Lua function is remembered from the first
object asked.  With a first object that has one (and answers no) every object without one counts as
important, even if nothing runs; with a first object that has none, the function of the second is
never asked. -/
theorem C101_green_violated :
    ((Sys.start 0 true true oneDev).step
      (.cycle 6000 (fun _ => false) [⟨true, some 0, []⟩, ⟨false, none, [0]⟩])).sir.green = true ∧
    (∀ o ∈ [(⟨true, some 0, []⟩ : TObj), ⟨false, none, [0]⟩], ¬ o.Important) ∧
    ((Sys.start 0 true true oneDev).step
      (.cycle 6000 (fun _ => false) [⟨false, none, [0]⟩, ⟨true, some 1, [0]⟩])).sir.green = false ∧
    (⟨true, some 1, [0]⟩ : TObj).Important := by
  refine ⟨by decide +kernel, ?_, by decide +kernel, ⟨1, rfl, by decide⟩⟩
  intro o ho
  simp only [List.mem_cons, List.not_mem_nil, or_false] at ho
  rcases ho with rfl | rfl
  · rintro ⟨r, h1, h2⟩
    simp only [Option.some.injEq] at h1
    omega
  · rintro ⟨w, h1, h2⟩
    simp only [List.mem_singleton] at h1
    exact h2 h1

end Ptusa.Siren
