import Verif.ValveMore.Lemmas

/-!
# C130: feedback of valves on terminals, on AS-i and of flushing valves
-/
namespace Ptusa.ValveMore
open Valve (Tm toUnsigned passed inTime isError)

/-- C130.  After any history of commands, looks and inputs with a clock that does not run backwards, the state that is
shown is one of what the valve was last told.  AS-i valves without commands to lift a seat; terminals that are set up and
connected. -/
theorem C130_shown_partial (k : Kind) (pOn pFb : Fl) (t0 t1 t2 : Tm) (es : List Ev) (v : Dv) (hc : Clock t0 es t1)
    (hn : k = .as → NoSeat es) (hv : run k true pOn pFb { start := t0, err := t0 } es = some v) (m : Bool) (r : Int × Dv)
    (h : getState k true 0 t1 t2 pOn pFb m v = some r) : r.1 ∈ codes (pFb.eq (.num 0)) m (mem k pFb t0 es).told := by
  have hi := mem_inv k pOn pFb t0 t1 es v hc hn hv
  rw [← hi.told]
  refine (report_after k t1 t2 pOn pFb m v hi.shape r ?_).2
  simpa [getState] using h

/-- C130.  A feedback error is shown only if the valve is to be open or closed, the feedback is used and disagrees, and
more than `P_ON_TIME` has passed since the valve was told so (for classes that look at it also since the feedback was last
seen to agree; for AS-i valves without seats not less).  `q` is `P_ON_TIME` in milliseconds. -/
theorem C130_error_only_partial (k : Kind) (q : Rat) (h0 : 0 ≤ q) (h1 : q < 2 ^ 24) (pFb : Fl) (t0 t1 t2 : Tm)
    (h12 : t1 ≤ t2) (es : List Ev) (v : Dv) (hc : Clock t0 es t1) (hn : k = .as → NoSeat es)
    (hv : run k true (.num q) pFb { start := t0, err := t0 } es = some v) (m : Bool) (r : Int × Dv)
    (h : getState k true 0 t1 t2 (.num q) pFb m v = some r) (he : isError r.1 = true) :
    let s := mem k pFb t0 es
    (s.told = 0 ∨ s.told = 1) ∧ agrees k s.told s.x s.y = false ∧ pFb.eq (.num 0) = false ∧
      q ≤ ((t2.toNat - s.since.toNat : Nat) : Rat) ∧
      (k ≠ .asDi2 → q < ((t2.toNat - s.since.toNat : Nat) : Rat)) := by
  have hi := mem_inv k _ pFb t0 t1 es v hc hn hv
  obtain ⟨e1, e2, e3, e4, e5⟩ := report_error k q h0 h1 t1 t2 pFb m v hi.shape r (by simpa [getState] using h) he
  rw [hi.told] at e1 e2
  rw [hi.x, hi.y] at e2
  have hle := le_trans' hi.le h12
  have strict : k ≠ .asDi2 → q < ((t2.toNat - (mem k pFb t0 es).since.toNat : Nat) : Rat) := by
    intro hk
    rw [hi.start hk e1, Valve.passed_eq _ _ hle] at e4
    exact Valve.floor_toNat_lt q h0 _ e4
  refine ⟨e1, e2, e3, ?_, strict⟩
  by_cases hk : k = .asDi2
  · obtain ⟨b1, b2, b3⟩ := hi.both hk
    rcases b3 with b3 | b3
    · rw [b3, Valve.passed_eq _ _ hle] at e4
      exact le_of_lt (Valve.floor_toNat_lt q h0 _ e4)
    · subst hk
      simp only [still, Option.some.injEq, Bool.or_eq_false_iff] at e5
      by_contra hlt
      rw [not_le] at hlt
      have : (passed t1 v.err : Rat) < q := by
        rw [b3, Valve.passed_eq _ _ hi.le]
        refine lt_of_le_of_lt ?_ hlt
        have := BitVec.le_def.mp h12
        exact_mod_cast Nat.sub_le_sub_right this _
      rw [Valve.inTime_early t1 v.err q (le_of_lt h1) this] at e5
      exact absurd e5.2 (by simp)
  · exact le_of_lt (strict hk)

/-- C130.  And if so, it is shown. -/
theorem C130_error_reported_partial (k : Kind) (q : Rat) (h0 : 0 ≤ q) (h1 : q < 2 ^ 24) (pFb : Fl) (t0 t1 t2 : Tm)
    (h12 : t1 ≤ t2) (es : List Ev) (v : Dv) (hc : Clock t0 es t1) (hn : k = .as → NoSeat es)
    (hv : run k true (.num q) pFb { start := t0, err := t0 } es = some v) (m : Bool)
    (ht : (mem k pFb t0 es).told = 0 ∨ (mem k pFb t0 es).told = 1)
    (ha : agrees k (mem k pFb t0 es).told (mem k pFb t0 es).x (mem k pFb t0 es).y = false)
    (hf : pFb.eq (.num 0) = false) (hl : q < ((t1.toNat - (mem k pFb t0 es).since.toNat : Nat) : Rat)) :
    getState k true 0 t1 t2 (.num q) pFb m v =
      some (if (mem k pFb t0 es).told = 1 then (if m then -12 else -2) else (if m then -13 else -3), v) := by
  have hi := mem_inv k _ pFb t0 t1 es v hc hn hv
  have hq : ⌊q⌋.toNat < t1.toNat - (mem k pFb t0 es).since.toNat := by
    have h2 : ⌊q⌋ < ((t1.toNat - (mem k pFb t0 es).since.toNat : Nat) : Int) := by
      rw [Int.floor_lt]; exact_mod_cast hl
    have := Int.floor_nonneg.mpr h0
    omega
  -- every moment up to `since` is too long ago
  have key : ∀ s t : Tm, s ≤ (mem k pFb t0 es).since → t1 ≤ t → passed t s > ⌊q⌋.toNat := by
    intro s t hs ht
    rw [Valve.passed_eq _ _ (le_trans' hs (le_trans' hi.le ht))]
    rw [BitVec.le_def] at hs ht
    omega
  have hst : v.start ≤ (mem k pFb t0 es).since := by
    by_cases hk : k = .asDi2
    · exact (hi.both hk).1
    · rw [hi.start hk ht]; exact BitVec.le_refl _
  have hr := report_late k q h0 h1 t1 t2 pFb m v hi.shape (by rw [hi.told]; exact ht) (by rw [hi.told, hi.x, hi.y]; exact ha)
    hf (key _ _ hst h12)
    (still_late k q h0 h1 t1 v (key _ _ hst (BitVec.le_refl _)) fun hk => key _ _ (hi.both hk).2.1 (BitVec.le_refl _))
  rw [hi.told] at hr
  simpa [getState] using hr

-- A flushing valve is opened, its small valve is opened, it is closed at 5000 but stays open; `P_ON_TIME` 3000 ms.
example :
    let es := [Ev.on 1000, .inputs true false, .set 4000 3, .off 5000, .ask 7900 false 0]
    Clock 0 es 8001 ∧ mem .flush (.num 1) 0 es = { told := 0, x := true, y := false, since := 5000 } ∧
      (run .flush true (.num 3000) (.num 1) {} es).bind (fun v =>
        (getState .flush true 0 7900 7900 (.num 3000) (.num 1) false v).map Prod.fst) = some 0 ∧
      (run .flush true (.num 3000) (.num 1) {} es).bind (fun v =>
        (getState .flush true 0 8001 8001 (.num 3000) (.num 1) false v).map Prod.fst) = some (-3) := by
  refine ⟨?_, ?_, ?_, ?_⟩
  · unfold Clock; decide +kernel
  all_goals decide +kernel

-- A terminal valve with both inputs was seen open at 6000; its inputs are lost then.
example :
    let es := [Ev.on 1000, .inputs true false, .ask 6000 false 0, .inputs false false]
    mem .termDi2 (.num 1) 0 es = { told := 1, x := false, y := false, since := 6000 } ∧
      (run .termDi2 true (.num 3000) (.num 1) {} es).bind (fun v =>
        (getState .termDi2 true 0 9001 9001 (.num 3000) (.num 1) true v).map Prod.fst) = some (-12) := by
  decide +kernel

/-- C130 fails for terminals with an error of the device: every valve of such a terminal, whatever it was told and
whatever its feedback, also switched off, shows the number of an error of opening. -/
theorem C130_link_violated (k : Kind) (hk : k.term = true) (cfg : Bool) (t1 t2 : Tm) (pOn pFb : Fl) (m : Bool) (v : Dv) :
    getState k cfg 2 t1 t2 pOn pFb m v = some (-2, v) := by
  simp [getState, hk]

/-- C130 fails for terminal valves whose output is not set up: commands are lost without notice.  A valve with both
inputs that was told to open shows that it is closed, without an error, for as long as it stays closed. -/
theorem C130_config_violated (pOn pFb : Fl) (t0 t t1 t2 : Tm) (m : Bool) :
    ∃ v, run .termDi2 false pOn pFb { start := t0, err := t0 } [.inputs false true, .on t] = some v ∧
      ∃ w, getState .termDi2 false 0 t1 t2 pOn pFb m v =
        some (if pFb.eq (.num 0) then (if m then 30 else 10) else (if m then 20 else 0), w) := by
  refine ⟨{ start := t0, err := t0, y := true }, by simp [run, step, Kind.term], ?_⟩
  cases hf : pFb.eq (.num 0)
  · exact ⟨{ start := t1, err := t0, y := true }, by simp [getState, report, valveState, hf, fbState]⟩
  · exact ⟨{ start := t0, err := t0, y := true }, by simp [getState, report, valveState, hf]⟩

/-- C130.  A terminal valve with one input whose output is not set up is never shown to be good. -/
theorem C130_config_partial (k : Kind) (hk : k = .termOn ∨ k = .termOff) (pOn pFb : Fl) (hf : pFb.eq (.num 0) = false) (t1 t2 : Tm)
    (m : Bool) (v : Dv) (hs : valveState k v = 0 ∨ valveState k v = 1) (r : Int × Dv)
    (h : getState k false 0 t1 t2 pOn pFb m v = some r) : r.1 ∉ [0, 1, 20, 21] := by
  have hb : fbState k false t1 pOn v = some (false, v) := by rcases hk with rfl | rfl <;> rfl
  simp only [getState, ne_eq, not_true, and_false, if_false, report, hf, hb, Option.bind_some, Bool.false_eq_true] at h
  rcases hs with hs | hs
  all_goals
    simp only [hs] at h
    cases hu : toUnsigned 64 pOn with
    | none => simp [hu] at h
    | some p =>
      simp [hu] at h
      by_cases hp : p < passed t2 v.start <;> simp [hp] at h <;> subst h <;> cases m <;> simp

-- It is shown to be moving, and after three seconds with an error.
example : (getState .termOn false 0 1000 1000 (.num 3000) (.num 1) false {}).map Prod.fst = some 41 ∧
    (getState .termOn false 0 3001 3001 (.num 3000) (.num 1) false {}).map Prod.fst = some (-3) := by decide +kernel

/-- C130 fails for AS-i valves with seats: after a seat was lifted for longer than `P_ON_TIME`, an error of closing is
shown as soon as the valve is told to close, if it has not yet moved. -/
theorem C130_seat_violated :
    let es := [Ev.set 1000 2, .inputs false false, .off 9000]
    Clock 0 es 9000 ∧ (mem .as (.num 1) 0 es).since = 9000 ∧
      (run .as true (.num 3000) (.num 1) {} es).bind (fun v =>
        (getState .as true 0 9000 9000 (.num 3000) (.num 1) false v).map Prod.fst) = some (-3) := by
  refine ⟨?_, ?_, ?_⟩
  · unfold Clock; decide +kernel
  all_goals decide +kernel

end Ptusa.ValveMore
