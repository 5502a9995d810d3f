import Verif.CipErr.Spec
import Verif.Timer.Lemmas
import Mathlib.Tactic.IntervalCases

namespace Ptusa.CipErr

open Timer (Tm Tmr delta_eq)

theorem since_init (p : Inp → Prop) (h : List (Tm × Ev)) (now t : Tm) :
    Since p (h ++ [(now, .init)]) t ↔ Since p h t := by
  constructor
  · rintro ⟨h1, j, r, h2, he, hj, ha⟩
    rcases h2.eq_nil_or_concat with rfl | ⟨h3, x, rfl⟩
    · have := List.append_inj_right' he rfl
      simp at this
    · have he' : h ++ [(now, Ev.init)] = (h1 ++ (t, .check j r) :: h3) ++ [x] := by simpa using he
      have h1' := List.append_inj_left' he' rfl
      exact ⟨h1, j, r, h3, h1', hj, fun y hy => ha y (by simp at hy ⊢; tauto)⟩
  · rintro ⟨h1, j, r, h2, he, hj, ha⟩
    refine ⟨h1, j, r, h2 ++ [(now, .init)], by simp [he], hj, ?_⟩
    intro x hx k r' hk
    simp only [List.mem_cons, List.mem_append, List.not_mem_nil, or_false] at hx
    rcases hx with hx | hx | rfl
    · exact ha x (by simp [hx]) k r' hk
    · exact ha x (by simp [hx]) k r' hk
    · cases hk

theorem since_check (p : Inp → Prop) (h : List (Tm × Ev)) (now t : Tm) (i : Inp) (r : Option Err) :
    Since p (h ++ [(now, .check i r)]) t ↔
      if i.step = 555 then Since p h t else p i ∧ (Since p h t ∨ t = now) := by
  constructor
  · rintro ⟨h1, j, r2, h2, he, hj, ha⟩
    rcases h2.eq_nil_or_concat with rfl | ⟨h3, x, rfl⟩
    · have := List.append_inj_right' he rfl
      simp only [List.cons.injEq, and_true, Prod.mk.injEq, Ev.check.injEq] at this
      obtain ⟨rfl, rfl, rfl⟩ := this
      rw [if_neg hj]
      exact ⟨ha (now, .check i r) (by simp) _ _ rfl hj, .inr rfl⟩
    · have he' : h ++ [(now, Ev.check i r)] = (h1 ++ (t, .check j r2) :: h3) ++ [x] := by simpa using he
      have h1' := List.append_inj_left' he' rfl
      have h2' := List.append_inj_right' he' rfl
      simp only [List.cons.injEq, and_true] at h2'
      subst h2'
      have hs : Since p h t := ⟨h1, j, r2, h3, h1', hj, fun y hy => ha y (by simp at hy ⊢; tauto)⟩
      split
      · exact hs
      · rename_i h5
        exact ⟨ha (now, .check i r) (by simp) _ _ rfl h5, .inl hs⟩
  · have key : Since p h t → (i.step ≠ 555 → p i) → Since p (h ++ [(now, .check i r)]) t := by
      rintro ⟨h1, j, r2, h2, he, hj, ha⟩ hp
      refine ⟨h1, j, r2, h2 ++ [(now, .check i r)], by simp [he], hj, ?_⟩
      intro x hx k r' hk h5
      simp only [List.mem_cons, List.mem_append, List.not_mem_nil, or_false] at hx
      rcases hx with hx | hx | rfl
      · exact ha x (by simp [hx]) k r' hk h5
      · exact ha x (by simp [hx]) k r' hk h5
      · cases hk; exact hp h5
    intro hh
    split at hh
    · rename_i h5
      exact key hh fun h => absurd h5 h
    · rename_i h5
      obtain ⟨hp, hh | rfl⟩ := hh
      · exact key hh fun _ => hp
      · refine ⟨h, i, r, [], rfl, h5, ?_⟩
        intro x hx k r' hk _
        simp only [List.mem_singleton] at hx
        subst hx; cases hk; exact hp

theorem since_mem {p : Inp → Prop} {h : List (Tm × Ev)} {t : Tm} (hs : Since p h t) : ∃ x ∈ h, x.1 = t := by
  obtain ⟨h1, j, r, h2, rfl, _⟩ := hs
  exact ⟨(t, .check j r), by simp, rfl⟩

/-! ## Ways through the check -/

/-- The parts of a check. -/
theorem check_cases {s : St} {now : Tm} {i : Inp} {s' : St} {r : Option Err} (hc : check s now i = some (s', r)) :
    ∃ flags, toUlong i.block = some flags ∧
      ((i.step = 555 ∧ s' = s ∧ r = none) ∨
       (i.step ≠ 555 ∧
        (((pumpCheck s now i).2 = true ∧ s' = (pumpCheck s now i).1 ∧ r = some .pump) ∨
         ((pumpCheck s now i).2 = false ∧
          ((∃ e, objectCheck i = some e ∧ s' = (pumpCheck s now i).1 ∧ r = some e) ∨
           (objectCheck i = none ∧
            (((levelCheck (pumpCheck s now i).1 now i flags).2 = true ∧
                s' = (levelCheck (pumpCheck s now i).1 now i flags).1 ∧ r = some .levelBachok) ∨
             ((levelCheck (pumpCheck s now i).1 now i flags).2 = false ∧
              ((∃ e, sensorCheck i flags = some e ∧
                  s' = (levelCheck (pumpCheck s now i).1 now i flags).1 ∧ r = some e) ∨
               (sensorCheck i flags = none ∧
                ∃ t, setTime (levelCheck (pumpCheck s now i).1 now i flags).1.flow i.flowTime = some t ∧
                  s' = { (levelCheck (pumpCheck s now i).1 now i flags).1 with flow := (flowCheck t now i).1 } ∧
                  r = if (flowCheck t now i).2 then some .noFlow else none)))))))))) := by
  unfold check at hc
  rw [Option.bind_eq_some_iff] at hc
  obtain ⟨flags, hf, hc⟩ := hc
  refine ⟨flags, hf, ?_⟩
  split at hc
  · rename_i h5
    simp only [Option.some.injEq, Prod.mk.injEq] at hc
    exact .inl ⟨h5, hc.1.symm, hc.2.symm⟩
  · rename_i h5
    refine .inr ⟨h5, ?_⟩
    dsimp only at hc
    split at hc
    · rename_i hp
      simp only [Option.some.injEq, Prod.mk.injEq] at hc
      exact .inl ⟨hp, hc.1.symm, hc.2.symm⟩
    · rename_i hp
      refine .inr ⟨by simpa using hp, ?_⟩
      split at hc
      · rename_i e he
        simp only [Option.some.injEq, Prod.mk.injEq] at hc
        exact .inl ⟨e, he, hc.1.symm, hc.2.symm⟩
      · rename_i he
        refine .inr ⟨he, ?_⟩
        split at hc
        · rename_i hl
          simp only [Option.some.injEq, Prod.mk.injEq] at hc
          exact .inl ⟨hl, hc.1.symm, hc.2.symm⟩
        · rename_i hl
          refine .inr ⟨by simpa using hl, ?_⟩
          split at hc
          · rename_i e hs
            simp only [Option.some.injEq, Prod.mk.injEq] at hc
            exact .inl ⟨e, hs, hc.1.symm, hc.2.symm⟩
          · rename_i hs
            refine .inr ⟨hs, ?_⟩
            rw [Option.map_eq_some_iff] at hc
            obtain ⟨t, ht, hc⟩ := hc
            simp only [Prod.mk.injEq] at hc
            exact ⟨t, ht, hc.1.symm, hc.2.symm⟩

/-! ## The pump -/

/-- The watching of the pump does not depend on the rest. -/
theorem check_pump {s : St} {now : Tm} {i : Inp} {s' : St} {r : Option Err} (hc : check s now i = some (s', r))
    (h5 : i.step ≠ 555) :
    s'.pumpFlag = (pumpCheck s now i).1.pumpFlag ∧ s'.pumpT = (pumpCheck s now i).1.pumpT ∧
      (r = some .pump ↔ (pumpCheck s now i).2 = true) := by
  have lc : ∀ flags, (levelCheck (pumpCheck s now i).1 now i flags).1.pumpFlag = (pumpCheck s now i).1.pumpFlag ∧
      (levelCheck (pumpCheck s now i).1 now i flags).1.pumpT = (pumpCheck s now i).1.pumpT := by
    intro flags; unfold levelCheck; split <;> exact ⟨rfl, rfl⟩
  obtain ⟨flags, _, h | ⟨_, h⟩⟩ := check_cases hc
  · exact absurd h.1 h5
  · rcases h with ⟨hp, rfl, rfl⟩ | ⟨hp, h⟩
    · exact ⟨rfl, rfl, by simp [hp]⟩
    · rcases h with ⟨e, he, rfl, rfl⟩ | ⟨_, h⟩
      · refine ⟨rfl, rfl, ?_⟩
        have : e ≠ .pump := by
          unfold objectCheck at he
          repeat' split at he
          all_goals simp at he
          all_goals subst he; decide
        simp [hp, this]
      · rcases h with ⟨_, rfl, rfl⟩ | ⟨_, h⟩
        · exact ⟨(lc _).1, (lc _).2, by simp [hp]⟩
        · rcases h with ⟨e, he, rfl, rfl⟩ | ⟨_, t, _, rfl, rfl⟩
          · refine ⟨(lc _).1, (lc _).2, ?_⟩
            have : e ≠ .pump := by
              unfold sensorCheck at he
              repeat' split at he
              all_goals simp at he
              all_goals subst he; decide
            simp [hp, this]
          · refine ⟨(lc _).1, (lc _).2, ?_⟩
            split <;> simp [hp]

def PumpBad (i : Inp) : Prop := i.np < 0

/-- What the flag and the time of the pump fault mean. -/
theorem pump_inv {t0 : Tm} {h : List (Tm × Ev)} {s : St} (hr : Reach t0 h s) :
    (s.pumpFlag = true → Since PumpBad h s.pumpT ∧ ∀ t, Since PumpBad h t → s.pumpT.toNat ≤ t.toNat) ∧
      (s.pumpFlag = false → ∀ t, ¬ Since PumpBad h t) := by
  induction hr with
  | start =>
    refine ⟨by simp [initial], fun _ t hs => ?_⟩
    obtain ⟨x, hx, _⟩ := since_mem hs
    simp at hx
  | init now hr h0 hord ih =>
    refine ⟨fun hf => ?_, fun hf t => ?_⟩
    · simpa only [since_init] using ih.1 hf
    · rw [since_init]; exact ih.2 hf t
  | @check h s s' i r now hr h0 hord hc ih =>
    by_cases h5 : i.step = 555
    · obtain ⟨flags, _, ⟨_, rfl, _⟩ | ⟨h, _⟩⟩ := check_cases hc
      · refine ⟨fun hf => ?_, fun hf t => ?_⟩
        · simp only [since_check, if_pos h5]; exact ih.1 hf
        · simp only [since_check, if_pos h5]; exact ih.2 hf t
      · exact absurd h5 h
    · obtain ⟨e1, e2, _⟩ := check_pump hc h5
      simp only [since_check, if_neg h5]
      rw [e1, e2]
      unfold pumpCheck
      by_cases hb : i.np ≤ -1
      · rw [if_pos hb]
        have hb' : PumpBad i := by unfold PumpBad; omega
        cases hf : s.pumpFlag with
        | true =>
          obtain ⟨h1, h2⟩ := ih.1 hf
          refine ⟨fun _ => ⟨⟨hb', .inl h1⟩, ?_⟩, by simp [hf]⟩
          rintro t ⟨_, ht | rfl⟩
          · exact h2 t ht
          · obtain ⟨x, hx, he⟩ := since_mem h1
            have := hord x hx
            rw [he] at this
            exact this
        | false =>
          refine ⟨fun _ => ⟨⟨hb', .inr rfl⟩, ?_⟩, by simp⟩
          rintro t ⟨_, ht | rfl⟩
          · exact absurd ht (ih.2 hf t)
          · exact le_refl _
      · rw [if_neg hb]
        have hb' : ¬ PumpBad i := by unfold PumpBad; omega
        exact ⟨by simp, fun _ t ht => hb' ht.1⟩

/-! ## The flags -/

theorem toUlong_some {x : Fl} {k : Tm} (h : toUlong x = some k) :
    ∃ q : Rat, x = .num q ∧ -1 < q ∧ q < 2 ^ 64 ∧ k.toNat = q.floor.toNat := by
  cases x with
  | nan => simp [toUlong] at h
  | num q =>
    simp only [toUlong] at h
    split at h
    · rename_i hq
      simp only [Option.some.injEq] at h
      refine ⟨q, rfl, hq.1, hq.2, ?_⟩
      subst h
      rw [BitVec.toNat_ofNat, Nat.mod_eq_of_lt]
      have h2 : q.floor < 2 ^ 64 := by
        have : ⌊q⌋ < 2 ^ 64 := Int.floor_lt.mpr (by exact_mod_cast hq.2)
        exact this
      omega
    · simp at h

theorem flag_iff {i : Inp} {flags : Tm} (h : toUlong i.block = some flags) (k : Nat) :
    flags.getLsbD k = true ↔ Blocked i k := by
  obtain ⟨q, hq, _, _, e⟩ := toUlong_some h
  rw [BitVec.getLsbD, e]
  unfold Blocked
  constructor
  · intro hb; exact ⟨q, hq, hb⟩
  · rintro ⟨q', hq', hb⟩
    rw [hq] at hq'
    cases hq'
    exact hb

theorem flag_not {i : Inp} {flags : Tm} (h : toUlong i.block = some flags) (k : Nat) :
    flags.getLsbD k = false ↔ ¬ Blocked i k := by
  rw [← flag_iff h]; simp

theorem le_neg_one (x : Fl) : x.le (.num (-1)) = true ↔ ∃ q : Rat, x = .num q ∧ q ≤ -1 := by
  cases x <;> simp

/-! ## What is noticed at once -/

theorem object_fault {i : Inp} {e : Err} (h : objectCheck i = some e) : Fault i e ∧ ¬ Delayed e := by
  unfold objectCheck at h
  repeat' split at h
  all_goals simp at h
  all_goals subst h
  all_goals simp_all [Fault, Delayed]

theorem object_none {i : Inp} (h : objectCheck i = none) : ¬ Fault i .ret ∧ ¬ Fault i .os ∧ ¬ Fault i .object := by
  unfold objectCheck at h
  repeat' split at h
  all_goals simp at h
  simp_all [Fault]

theorem sensor_fault {i : Inp} {flags : Tm} (hf : toUlong i.block = some flags) {e : Err}
    (h : sensorCheck i flags = some e) : Fault i e ∧ ¬ Delayed e := by
  unfold sensorCheck at h
  classical
  simp only [flag_not hf, le_neg_one] at h
  repeat' split at h
  all_goals simp at h
  all_goals subst h
  all_goals refine ⟨?_, by simp [Delayed]⟩
  · rename_i g; exact g
  · rename_i g; exact g
  · rename_i g; exact g
  · rename_i g; exact ⟨g.1.imp (by intro; omega) id, g.2⟩
  · rename_i g; exact ⟨g.1.imp (by intro; omega) id, g.2⟩
  · rename_i g; exact ⟨g.1, by omega, g.2.2⟩

theorem sensor_none {i : Inp} {flags : Tm} (hf : toUlong i.block = some flags) (h : sensorCheck i flags = none) :
    ¬ Fault i .levelTankS ∧ ¬ Fault i .levelTankK ∧ ¬ Fault i .levelTankW ∧ ¬ Fault i .supplyTemp ∧
      ¬ Fault i .returnTemp ∧ ¬ Fault i .conc := by
  unfold sensorCheck at h
  classical
  simp only [flag_not hf, le_neg_one] at h
  repeat' split at h
  all_goals simp at h
  rename_i g1 g2 g3 g4 g5 g6
  refine ⟨g1, g2, g3, ?_, ?_, ?_⟩
  · rintro ⟨a, b⟩; exact g4 ⟨a.imp (by intro; omega) id, b⟩
  · rintro ⟨a, b⟩; exact g5 ⟨a.imp (by intro; omega) id, b⟩
  · rintro ⟨a, b, c⟩; exact g6 ⟨a, by omega, c⟩

theorem contradiction_iff (i : Inp) :
    ((!i.ll && (i.lm || i.lh)) || (!i.lm && i.lh)) = true ↔ Contradiction i := by
  unfold Contradiction
  cases i.ll <;> cases i.lm <;> cases i.lh <;> simp

theorem check_sound {s : St} {now : Tm} {i : Inp} {s' : St} {e : Err} (hc : check s now i = some (s', some e)) :
    i.step ≠ 555 ∧ Fault i e := by
  obtain ⟨flags, hf, h | ⟨h5, h⟩⟩ := check_cases hc
  · simp at h
  refine ⟨h5, ?_⟩
  rcases h with ⟨hp, _, he⟩ | ⟨_, h⟩
  · cases he
    unfold pumpCheck at hp
    split at hp
    · rename_i g; show i.np < 0; omega
    · simp at hp
  · rcases h with ⟨e', he, _, h⟩ | ⟨_, h⟩
    · cases h; exact (object_fault he).1
    · rcases h with ⟨hl, _, he⟩ | ⟨_, h⟩
      · cases he
        unfold levelCheck at hl
        split at hl
        · rename_i g
          simp only [Bool.and_eq_true, Bool.not_eq_true'] at hl
          exact ⟨(contradiction_iff i).mp g, (flag_not hf 0).mp hl.2⟩
        · simp at hl
      · rcases h with ⟨e', he, _, h⟩ | ⟨_, t, ht, _, h⟩
        · cases h; exact (sensor_fault hf he).1
        · split at h
          · rename_i g
            cases h
            unfold flowCheck at g
            split at g
            · split at g
              · rename_i g1 g2; exact ⟨g1, g2⟩
              · simp at g
            · simp at g
          · simp at h

theorem check_complete {s : St} {now : Tm} {i : Inp} {s' : St} (hc : check s now i = some (s', none))
    (h5 : i.step ≠ 555) (e : Err) (hd : ¬ Delayed e) : ¬ Fault i e := by
  obtain ⟨flags, hf, h | ⟨_, h⟩⟩ := check_cases hc
  · exact absurd h.1 h5
  rcases h with ⟨_, _, he⟩ | ⟨_, h⟩
  · cases he
  rcases h with ⟨_, _, _, he⟩ | ⟨ho, h⟩
  · cases he
  rcases h with ⟨_, _, he⟩ | ⟨_, h⟩
  · cases he
  rcases h with ⟨_, _, _, he⟩ | ⟨hs, _⟩
  · cases he
  have h1 := object_none ho
  have h2 := sensor_none hf hs
  cases e <;> simp [Delayed] at hd <;> tauto

/-! ## The levels of the small tank -/

/-- The time of the levels: unchanged or now, and now only when they agree. -/
theorem check_level {s : St} {now : Tm} {i : Inp} {s' : St} {r : Option Err} (hc : check s now i = some (s', r)) :
    (s'.levelT = s.levelT ∨ (s'.levelT = now ∧ ¬ Contradiction i ∧ i.step ≠ 555)) ∧
      (r = none → i.step ≠ 555 → ¬ Contradiction i → s'.levelT = now) := by
  have pc : (pumpCheck s now i).1.levelT = s.levelT := by
    unfold pumpCheck; split
    · dsimp only; split <;> rfl
    · rfl
  have lc : ∀ flags, i.step ≠ 555 → ((levelCheck (pumpCheck s now i).1 now i flags).1.levelT = s.levelT ∨
      ((levelCheck (pumpCheck s now i).1 now i flags).1.levelT = now ∧ ¬ Contradiction i ∧ i.step ≠ 555)) ∧
      (¬ Contradiction i → (levelCheck (pumpCheck s now i).1 now i flags).1.levelT = now) := by
    intro flags h5; unfold levelCheck; split
    · rename_i g
      exact ⟨.inl pc, fun h => absurd ((contradiction_iff i).mp g) h⟩
    · rename_i g
      exact ⟨.inr ⟨rfl, fun h => g ((contradiction_iff i).mpr h), h5⟩, fun _ => rfl⟩
  obtain ⟨flags, hf, ⟨h5, rfl, _⟩ | ⟨h5, h⟩⟩ := check_cases hc
  · exact ⟨.inl rfl, fun _ h => absurd h5 h⟩
  have lc := lc flags h5
  rcases h with ⟨_, rfl, rfl⟩ | ⟨_, h⟩
  · exact ⟨.inl pc, by simp⟩
  rcases h with ⟨_, _, rfl, rfl⟩ | ⟨_, h⟩
  · exact ⟨.inl pc, by simp⟩
  rcases h with ⟨_, rfl, rfl⟩ | ⟨_, h⟩
  · exact ⟨lc.1, by simp⟩
  rcases h with ⟨_, _, rfl, rfl⟩ | ⟨_, _, _, rfl, _⟩
  · exact ⟨lc.1, by simp⟩
  · exact ⟨lc.1, fun _ _ => lc.2⟩

/-- The time of the levels is not after the last moment since which they contradict each other, and not before any check
without an error that saw them agree. -/
theorem level_inv {t0 : Tm} {h : List (Tm × Ev)} {s : St} (hr : Reach t0 h s) :
    (∀ t, Since Contradiction h t → s.levelT.toNat ≤ t.toNat) ∧
      (∀ x ∈ h, ∀ k, x.2 = .check k none → k.step ≠ 555 → ¬ Contradiction k → x.1.toNat ≤ s.levelT.toNat) ∧
      (∀ now : Tm, t0.toNat ≤ now.toNat → (∀ x ∈ h, x.1.toNat ≤ now.toNat) → s.levelT.toNat ≤ now.toNat) := by
  induction hr with
  | start =>
    refine ⟨fun t hs => ?_, by simp, fun now hn _ => hn⟩
    obtain ⟨x, hx, _⟩ := since_mem hs
    simp at hx
  | init now hr h0 hord ih =>
    refine ⟨fun t => ?_, ?_, ?_⟩
    · rw [since_init]; exact ih.1 t
    · intro x hx k hk
      simp only [List.mem_append, List.mem_singleton] at hx
      rcases hx with hx | rfl
      · exact ih.2.1 x hx k hk
      · cases hk
    · intro n hn hx
      exact ih.2.2 n hn fun x h => hx x (by simp [h])
  | @check h s s' i r now hr h0 hord hc ih =>
    obtain ⟨h1, h2⟩ := check_level hc
    refine ⟨fun t hs => ?_, ?_, ?_⟩
    · rw [since_check] at hs
      rcases h1 with h1 | ⟨h1, hb, h5⟩
      · rw [h1]
        split at hs
        · exact ih.1 t hs
        · rcases hs.2 with hs | rfl
          · exact ih.1 t hs
          · exact ih.2.2 t h0 hord
      · rw [if_neg h5] at hs
        exact absurd hs.1 hb
    · intro x hx k hk h5 hb
      simp only [List.mem_append, List.mem_singleton] at hx
      rcases hx with hx | rfl
      · rcases h1 with h1 | ⟨h1, _⟩
        · rw [h1]; exact ih.2.1 x hx k hk h5 hb
        · rw [h1]; exact hord x hx
      · cases hk
        rw [h2 rfl h5 hb]
    · intro n hn hx
      rcases h1 with h1 | ⟨h1, _⟩
      · rw [h1]; exact ih.2.2 n hn fun x h => hx x (by simp [h])
      · rw [h1]; exact hx (now, .check i r) (by simp)

end Ptusa.CipErr
