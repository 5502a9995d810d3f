import Verif.RetPump.Spec
import Mathlib.Data.List.Induction

/-!
# C226 — The return pump
-/
namespace Ptusa.RetPump

theorem run_snoc (d : Nat) (h : List Ev) (e : Ev) : run d (h ++ [e]) = (run d h).next d e := by
  unfold run
  rw [List.foldl_append]
  rfl

theorem setRet_keep (d : Nat) (i : In) (s : St) (on : Bool) :
    (s.setRet d i on).over = s.over ∧ (s.setRet d i on).timer = s.timer ∧ (s.setRet d i on).running = s.running := by
  unfold St.setRet
  by_cases c : s.over = true
  · rw [if_pos c]
    exact ⟨rfl, rfl, rfl⟩
  · rw [if_neg c]
    exact ⟨rfl, rfl, rfl⟩

theorem calls_keep (d : Nat) (i : In) (calls : List Bool) (s : St) :
    (calls.foldl (St.setRet d i) s).over = s.over ∧ (calls.foldl (St.setRet d i) s).timer = s.timer ∧
      (calls.foldl (St.setRet d i) s).running = s.running := by
  induction calls generalizing s with
  | nil => exact ⟨rfl, rfl, rfl⟩
  | cons c calls ih =>
    obtain ⟨a1, a2, a3⟩ := ih (s.setRet d i c)
    obtain ⟨b1, b2, b3⟩ := setRet_keep d i s c
    exact ⟨a1.trans b1, a2.trans b2, a3.trans b3⟩

theorem calls_over (d : Nat) (i : In) (calls : List Bool) (s : St) (h : s.over = true) : calls.foldl (St.setRet d i) s = s := by
  induction calls with
  | nil => rfl
  | cons c calls ih =>
    rw [List.foldl_cons]
    have : s.setRet d i c = s := if_pos h
    rw [this, ih]

theorem timer_eq (d : Nat) (h : List Ev) : (run d h).timer = wetAt h.reverse := by
  induction h using List.reverseRecOn with
  | nil => rfl
  | append_singleton h e ih =>
    rw [run_snoc, List.reverse_append, List.reverse_cons, List.reverse_nil, List.nil_append, List.singleton_append]
    cases e with
    | step i calls => exact (calls_keep d i calls _).2.1
    | cycle i calls =>
      refine (calls_keep d i calls _).2.1.trans ?_
      show (if i.wet then i.t else (run d h).timer) = if i.wet then i.t else wetAt h.reverse
      rw [ih]
    | force i on =>
      show (if (run d h).running then (run d h).forceRet d i on else run d h).timer = wetAt h.reverse
      by_cases c : (run d h).running = true
      · rw [if_pos c]
        exact (setRet_keep d i _ on).2.1.trans ih
      · rw [if_neg c]
        exact ih
    | stop i => exact (setRet_keep d i _ false).2.1.trans ih
    | pause i => exact (setRet_keep d i _ false).2.1

theorem over_hand (d : Nat) (h : List Ev) (hh : (run d h).over = true) : byHand h.reverse = true := by
  induction h using List.reverseRecOn with
  | nil => exact nomatch hh
  | append_singleton h e ih =>
    rw [run_snoc] at hh
    rw [List.reverse_append, List.reverse_cons, List.reverse_nil, List.nil_append, List.singleton_append]
    cases e with
    | step i calls =>
      rw [show (run d h).next d (.step i calls) = _ from rfl, St.next, (calls_keep d i calls _).1] at hh
      exact nomatch hh
    | cycle i calls =>
      rw [St.next, (calls_keep d i calls _).1] at hh
      exact ih hh
    | force i on => rfl
    | stop i =>
      have := (setRet_keep d i ({ run d h with over := false } : St) false).1
      exact absurd (hh.symm.trans this) (by simp)
    | pause i =>
      have := (setRet_keep d i ({ run d h with over := false, timer := i.t, running := true } : St) false).1
      exact absurd (hh.symm.trans this) (by simp)

theorem calls_dry (d : Nat) (i : In) (calls : List Bool) (s : St) (hc : calls ≠ []) (ho : s.over = false) (hw : i.wet = false) (hd : d < i.t - s.timer) :
    (calls.foldl (St.setRet d i) s).pump = false := by
  induction calls generalizing s with
  | nil => exact absurd rfl hc
  | cons c calls ih =>
    have e : s.setRet d i c = { s with pump := false } := by
      unfold St.setRet
      rw [if_neg (by rw [ho]; decide)]
      simp only [if_pos (And.intro hw hd)]
    rw [List.foldl_cons, e]
    cases calls with
    | nil => rfl
    | cons c' calls => exact ih _ (by simp) ho hd

/-- **C226, in part.**  Without a command of the operator in the current step the pump does not run dry: after a cycle without liquid, when the last liquid, or the
beginning of the step, is longer ago than the delay, and the step calls for the pump or not, it is off. -/
theorem C226_dry_partial (d : Nat) (h : List Ev) (i : In) (calls : List Bool) (hc : calls ≠ []) (hw : i.wet = false) (hh : byHand h.reverse = false)
    (hd : wetAt h.reverse + d < i.t) : (run d (h ++ [.cycle i calls])).pump = false := by
  rw [run_snoc]
  have ho : (run d h).over = false := by
    cases e : (run d h).over with
    | false => rfl
    | true => rw [over_hand d h e] at hh; exact nomatch hh
  refine calls_dry d i calls _ hc ho hw ?_
  show d < i.t - (if i.wet then i.t else (run d h).timer)
  rw [hw, timer_eq]
  show d < i.t - wetAt h.reverse
  omega

/-- **C226.**  While there is liquid, or within the delay, the pump is as the step last wanted. -/
theorem C226_wanted (d : Nat) (h : List Ev) (i : In) (calls : List Bool) (c : Bool) (hh : byHand h.reverse = false)
    (hd : i.wet = true ∨ i.t ≤ wetAt h.reverse + d) : (run d (h ++ [.cycle i (calls ++ [c])])).pump = c := by
  rw [run_snoc]
  have ho : (run d h).over = false := by
    cases e : (run d h).over with
    | false => rfl
    | true => rw [over_hand d h e] at hh; exact nomatch hh
  show ((calls ++ [c]).foldl (St.setRet d i) { run d h with timer := if i.wet then i.t else (run d h).timer }).pump = c
  rw [List.foldl_append]
  have k := calls_keep d i calls { run d h with timer := if i.wet then i.t else (run d h).timer }
  generalize calls.foldl (St.setRet d i) { run d h with timer := if i.wet then i.t else (run d h).timer } = s at k
  obtain ⟨k1, k2, -⟩ := k
  show (s.setRet d i c).pump = c
  unfold St.setRet
  rw [if_neg (by rw [k1]; show ¬ (run d h).over = true; rw [ho]; decide)]
  have : ¬ (i.wet = false ∧ d < i.t - s.timer) := by
    rintro ⟨a, b⟩
    rw [k2] at b
    rcases hd with x | x
    · rw [x] at a
      exact nomatch a
    · simp only [a, timer_eq] at b
      simp at b
      omega
  simp only [if_neg this]

/-- **C226, in part.**  A command of the operator during a wash, given while there is liquid or within the delay, holds until the step ends, whatever the step
does. -/
theorem C226_hand_partial (d : Nat) (h cycles : List Ev) (i : In) (on : Bool) (hr : (run d h).running = true) (hc : ∀ e ∈ cycles, e.isCycle = true)
    (hd : i.wet = true ∨ i.t ≤ wetAt h.reverse + d ∨ on = false) : (run d (h ++ .force i on :: cycles)).pump = on := by
  suffices H : (run d (h ++ .force i on :: cycles)).pump = on ∧ (run d (h ++ .force i on :: cycles)).over = true from H.1
  induction cycles using List.reverseRecOn with
  | nil =>
    rw [run_snoc]
    show (if (run d h).running then (run d h).forceRet d i on else run d h).pump = on ∧ _
    have e : (run d h).next d (.force i on) = (run d h).forceRet d i on := if_pos hr
    rw [if_pos hr, e]
    refine ⟨?_, rfl⟩
    show (({ run d h with over := false } : St).setRet d i on).pump = on
    unfold St.setRet
    rw [if_neg (by simp)]
    simp only
    by_cases c : i.wet = false ∧ d < i.t - (run d h).timer
    · rw [if_pos c]
      rw [timer_eq] at c
      rcases hd with x | x | x
      · rw [x] at c
        exact nomatch c.1
      · have := c.2
        omega
      · exact x.symm
    · rw [if_neg c]
  | append_singleton cs e ih =>
    obtain ⟨a, b⟩ := ih (fun x hx => hc x (by simp [hx]))
    rw [show h ++ Ev.force i on :: (cs ++ [e]) = (h ++ Ev.force i on :: cs) ++ [e] by simp, run_snoc]
    have he := hc e (by simp)
    cases e with
    | cycle j calls =>
      have : (run d (h ++ .force i on :: cs)).next d (.cycle j calls) =
          { run d (h ++ .force i on :: cs) with timer := if j.wet then j.t else (run d (h ++ .force i on :: cs)).timer } := calls_over d j calls _ b
      rw [this]
      exact ⟨a, b⟩
    | step j calls => exact nomatch he
    | force j o => exact nomatch he
    | stop j => exact nomatch he
    | pause j => exact nomatch he

/-- **C226.**  After the end of a wash and in a pause the pump is off, and the operator's command is over. -/
theorem C226_stop (d : Nat) (h : List Ev) (i : In) (e : Ev) (he : e = .stop i ∨ e = .pause i) :
    (run d (h ++ [e])).pump = false ∧ byHand (h ++ [e]).reverse = false := by
  rw [run_snoc, List.reverse_append]
  rcases he with rfl | rfl <;> refine ⟨?_, rfl⟩ <;> simp [St.next, St.setRet]

/-- **C226 (violated).**  The operator switches the pump on, then the liquid ends: however long there is none, and whatever the step calls for, the pump runs on
until the step ends. -/
theorem C226_dry_violated (d : Nat) (h cycles : List Ev) (i : In) (hr : (run d h).running = true) (hw : i.wet = true)
    (hc : ∀ e ∈ cycles, ∃ t calls, e = .cycle ⟨t, false⟩ calls) : (run d (h ++ .force i true :: cycles)).pump = true :=
  C226_hand_partial d h cycles i true hr (fun e he => by obtain ⟨t, calls, rfl⟩ := hc e he; rfl) (Or.inl hw)

/-- **C226 (violated).**  The operator switches the pump on while there is no liquid: it stays off for the rest of the step, even when the liquid is back and the
step wants the pump. -/
theorem C226_hand_violated : ∃ h : List Ev, (run 1000 h).pump = false ∧
    h = [.step ⟨0, true⟩ [true], .cycle ⟨5000, false⟩ [true], .force ⟨5100, false⟩ true, .cycle ⟨5200, true⟩ [true], .cycle ⟨90000, true⟩ [true]] :=
  ⟨_, by decide, rfl⟩

/-- **C226.**  The panel: the coils 100 l and 100 l + 1 of line l show whether its pump runs and whether it has one, during a wash. -/
theorem C226_panel_partial (lines : List (Bool × Option Int × Option Int)) (l : Nat) (r : Bool) (m u : Option Int) (hl : lines[l]? = some (r, m, u))
    (hm : ∀ x, m = some x ∨ u = some x → 0 ≤ x) :
    ∃ a b, coil lines (100 * (l + 1)) = some (some a) ∧ coil lines (100 * (l + 1) + 1) = some (some b) ∧
      (b = true ↔ r = true ∧ (m ≠ none ∨ u ≠ none)) ∧
      (a = true ↔ r = true ∧ ((∃ x, m = some x ∧ 0 < x) ∨ (m = none ∧ ∃ x, u = some x ∧ 0 < x))) := by
  have hlen : l < lines.length := by
    rcases Nat.lt_or_ge l lines.length with x | x
    · exact x
    · rw [List.getElem?_eq_none x] at hl
      exact nomatch hl
  refine ⟨getRetState r m u != 0, hasRet r m u, ?_, ?_, ?_, ?_⟩
  · unfold coil
    simp only [show 100 * (l + 1) / 100 = l + 1 by omega]
    rw [if_pos (by omega), if_pos (by omega), if_neg (by omega), Nat.add_sub_cancel, hl, Option.map_some, if_pos (by omega)]
  · unfold coil
    simp only [show (100 * (l + 1) + 1) / 100 = l + 1 by omega]
    rw [if_pos (by omega), if_pos (by omega), if_neg (by omega), Nat.add_sub_cancel, hl, Option.map_some, if_neg (by omega)]
  · cases r <;> cases m <;> cases u <;> simp [hasRet]
  · cases r with
    | false => simp [getRetState]
    | true =>
      cases m with
      | some x =>
        have := hm x (Or.inl rfl)
        simp [getRetState]
        omega
      | none =>
        cases u with
        | some x =>
          have := hm x (Or.inr rfl)
          simp [getRetState]
          omega
        | none => simp [getRetState]

/-- **C226 (violated).**  A motor in error, state -1, is shown as running; and coils 0 and 1 read before the list of lines. -/
theorem C226_panel_violated (lines : List (Bool × Option Int × Option Int)) (l : Nat) (u : Option Int) (hl : lines[l]? = some (true, some (-1), u)) :
    coil lines (100 * (l + 1)) = some (some true) ∧ coil lines 0 = none ∧ coil lines 1 = none := by
  refine ⟨?_, rfl, rfl⟩
  have hlen : l < lines.length := by
    rcases Nat.lt_or_ge l lines.length with x | x
    · exact x
    · rw [List.getElem?_eq_none x] at hl
      exact nomatch hl
  unfold coil
  simp only [show 100 * (l + 1) / 100 = l + 1 by omega]
  rw [if_pos (by omega), if_pos (by omega), if_neg (by omega), Nat.add_sub_cancel, hl, Option.map_some, if_pos (by omega)]
  rfl

/-- The liquid ends after 3 s, the pump stops when the delay of 1 s is over. -/
example : let h := [Ev.step ⟨0, true⟩ [true], .cycle ⟨3000, true⟩ [true]]
    (run 1000 h).pump = true ∧ byHand h.reverse = false ∧ (run 1000 (h ++ [.cycle ⟨3900, false⟩ [true]])).pump = true ∧
      (run 1000 (h ++ [.cycle ⟨4100, false⟩ [true]])).pump = false := by decide

/-- The operator switches it off, the step does not switch it on again. -/
example : (run 1000 ([.step ⟨0, true⟩ [true]] ++ .force ⟨10, true⟩ false :: [.cycle ⟨20, true⟩ [true], .cycle ⟨30, true⟩ [true]])).pump = false := by decide

end Ptusa.RetPump
