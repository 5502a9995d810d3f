import Verif.Siren.Lemmas

namespace Ptusa.Siren

open Ptusa.Timer (Tm)
open Ptusa.Alarm (Erring Unacked isSuppressed)

/-! ### Outputs after one cycle in service -/

section
variable (s : Sir) (now : Tm) (b c : Bool) (id : BitVec 32) (objs : List TObj)

theorem evalRed_siren : (s.evalRed now b).siren = s.siren := by unfold Sir.evalRed; split <;> [split; skip] <;> rfl
theorem evalRed_critN : (s.evalRed now b).critN = s.critN := by unfold Sir.evalRed; split <;> [split; skip] <;> rfl
theorem evalRed_yellowB : (s.evalRed now b).yellowB = s.yellowB := by unfold Sir.evalRed; split <;> [split; skip] <;> rfl
theorem evalRed_known : (s.evalRed now b).luaKnown = s.luaKnown := by unfold Sir.evalRed; split <;> [split; skip] <;> rfl
theorem evalOn_red : (s.evalOn id b).red = s.red := by unfold Sir.evalOn; dsimp only; split <;> split <;> rfl
theorem evalOn_redB : (s.evalOn id b).redB = s.redB := by unfold Sir.evalOn; dsimp only; split <;> split <;> rfl
theorem evalOn_yellowB : (s.evalOn id b).yellowB = s.yellowB := by unfold Sir.evalOn; dsimp only; split <;> split <;> rfl
theorem evalOn_known : (s.evalOn id b).luaKnown = s.luaKnown := by unfold Sir.evalOn; dsimp only; split <;> split <;> rfl
theorem evalOn_critN : (s.evalOn id b).critN = id := by
  unfold Sir.evalOn
  dsimp only
  by_cases h : id = s.critN
  · subst h; simp; split <;> rfl
  · have hb : (id != s.critN) = true := by simpa using h
    simp only [hb, if_true]; split <;> rfl
theorem evalOn_siren : (s.evalOn id b).siren = (s.siren || b || id != s.critN) := by
  unfold Sir.evalOn
  dsimp only
  by_cases h : id = s.critN
  · subst h; cases b <;> simp
  · have hb : (id != s.critN) = true := by simpa using h
    simp only [hb, if_true]; cases b <;> simp
theorem evalYellow_red : (s.evalYellow now b).red = s.red := by unfold Sir.evalYellow; split <;> rfl
theorem evalYellow_redB : (s.evalYellow now b).redB = s.redB := by unfold Sir.evalYellow; split <;> rfl
theorem evalYellow_siren : (s.evalYellow now b).siren = s.siren := by unfold Sir.evalYellow; split <;> rfl
theorem evalYellow_critN : (s.evalYellow now b).critN = s.critN := by unfold Sir.evalYellow; split <;> rfl
theorem evalYellow_known : (s.evalYellow now b).luaKnown = s.luaKnown := by unfold Sir.evalYellow; split <;> rfl
theorem evalOff_red : (s.evalOff b c).red = s.red := by unfold Sir.evalOff; split <;> rfl
theorem evalOff_redB : (s.evalOff b c).redB = s.redB := by unfold Sir.evalOff; split <;> rfl
theorem evalOff_yellow : (s.evalOff b c).yellow = s.yellow := by unfold Sir.evalOff; split <;> rfl
theorem evalOff_yellowB : (s.evalOff b c).yellowB = s.yellowB := by unfold Sir.evalOff; split <;> rfl
theorem evalOff_critN : (s.evalOff b c).critN = s.critN := by unfold Sir.evalOff; split <;> rfl
theorem evalOff_known : (s.evalOff b c).luaKnown = s.luaKnown := by unfold Sir.evalOff; split <;> rfl
theorem evalOff_siren : (s.evalOff b c).siren = (s.siren && (b || c)) := by
  unfold Sir.evalOff; cases b <;> cases c <;> simp
end

/-- The state of the lamps after a cycle in service. -/
theorem cycle_out {s : Sys} {now : Tm} (h : InService s now) (neg : Nat → Bool)
    (objs : List TObj) :
    let f := (s.alarm.evaluate neg).flags
    let r := (s.step (.cycle now neg objs)).sir
    (r.red = (s.sir.evalRed now (s.crit.isAnyError || f.anyError)).red ∧
      r.redB = (s.sir.evalRed now (s.crit.isAnyError || f.anyError)).redB) ∧
    (r.siren = ((s.sir.siren || f.newError || critId s.crit != s.sir.critN) &&
      (s.crit.isAnyError || f.anyNoAck))) ∧
    (r.yellow = (if f.anyMessage then (s.sir.yellowB.tick 1000 now).1 else false) ∧
      r.yellowB = (if f.anyMessage then (s.sir.yellowB.tick 1000 now).2 else s.sir.yellowB)) ∧
    (r.green = (anyImportant objs s.sir.luaKnown).1 ∧
      r.luaKnown = (anyImportant objs s.sir.luaKnown).2) ∧
    r.critN = critId s.crit := by
  dsimp only
  simp only [Sys.step]
  rw [eval_inService h]
  refine ⟨⟨?_, ?_⟩, ?_, ⟨?_, ?_⟩, ⟨?_, ?_⟩, ?_⟩
  · simp only [Sir.evalGreen, evalOff_red, evalYellow_red, evalOn_red]
  · simp only [Sir.evalGreen, evalOff_redB, evalYellow_redB, evalOn_redB]
  · simp only [Sir.evalGreen, evalOff_siren, evalYellow_siren, evalOn_siren, evalRed_siren,
      evalRed_critN]
  · simp only [Sir.evalGreen, evalOff_yellow]
    unfold Sir.evalYellow
    split
    · simp only [evalOn_yellowB, evalRed_yellowB]
    · rfl
  · simp only [Sir.evalGreen, evalOff_yellowB]
    unfold Sir.evalYellow
    split
    · simp only [evalOn_yellowB, evalRed_yellowB]
    · simp only [evalOn_yellowB, evalRed_yellowB]
  · simp only [Sir.evalGreen, evalOff_known, evalYellow_known, evalOn_known, evalRed_known]
  · simp only [Sir.evalGreen, evalOff_known, evalYellow_known, evalOn_known, evalRed_known]
  · simp only [Sir.evalGreen, evalOff_critN, evalYellow_critN, evalOn_critN]

/-- Parts no cycle and no other event changes. -/
theorem step_const (s : Sys) (e : Ev) : (s.step e).sir.installed = s.sir.installed ∧
    (s.step e).sir.builtIn = s.sir.builtIn ∧ (s.step e).sir.startT = s.sir.startT := by
  cases e with
  | cycle now neg objs =>
    simp only [Sys.step, Sir.eval]
    split
    · exact ⟨rfl, rfl, rfl⟩
    · split
      · exact ⟨rfl, rfl, rfl⟩
      · split
        · exact ⟨rfl, rfl, rfl⟩
        · simp only [Sir.evalGreen, Sir.evalOff, Sir.evalYellow, Sir.evalOn, Sir.evalRed]
          split <;> split <;> split <;> split <;> split <;> (try split) <;> exact ⟨rfl, rfl, rfl⟩
  | force l b => cases l <;> exact ⟨rfl, rfl, rfl⟩
  | _ => exact ⟨rfl, rfl, rfl⟩

theorem run_cons (s : Sys) (e : Ev) (es : List Ev) : s.run (e :: es) = (s.step e).run es := rfl

theorem run_append (s : Sys) (es fs : List Ev) : s.run (es ++ fs) = (s.run es).run fs := by
  simp [Sys.run]

theorem run_const (s : Sys) (es : List Ev) : (s.run es).sir.installed = s.sir.installed ∧
    (s.run es).sir.builtIn = s.sir.builtIn ∧ (s.run es).sir.startT = s.sir.startT := by
  induction es generalizing s with
  | nil => exact ⟨rfl, rfl, rfl⟩
  | cons e es ih =>
    rw [run_cons]
    obtain ⟨h1, h2, h3⟩ := ih (s.step e)
    obtain ⟨g1, g2, g3⟩ := step_const s e
    exact ⟨h1.trans g1, h2.trans g2, h3.trans g3⟩

/-- After a cycle the number of the critical errors has been noted. -/
theorem cycle_noted (s : Sys) (now : Tm) (neg : Nat → Bool) (objs : List TObj)
    (hi : s.sir.installed = true) :
    (s.step (.cycle now neg objs)).sir.critN = critId (s.step (.cycle now neg objs)).crit := by
  simp only [Sys.step]
  unfold Sir.eval
  rw [if_neg (by simp [hi])]
  split
  · rfl
  · split
    · rfl
    · simp only [Sir.evalGreen, evalOff_critN, evalYellow_critN, evalOn_critN]

theorem between_step (s : Sys) (e : Ev) (h : e.Between) : (s.step e).sir.critN = s.sir.critN := by
  cases e with
  | cycle => exact h.elim
  | force l b => cases l <;> rfl
  | _ => rfl

theorem between_run (s : Sys) (es : List Ev) (h : ∀ e ∈ es, e.Between) :
    (s.run es).sir.critN = s.sir.critN := by
  induction es generalizing s with
  | nil => rfl
  | cons e es ih =>
    rw [run_cons, ih _ (fun x hx => h x (List.mem_cons_of_mem _ hx)),
      between_step s e (h e List.mem_cons_self)]

theorem critId_inj {a b : CritErr.Mgr} (h : critId a = critId b) : a.id = b.id := by
  unfold critId at h
  have := congrArg BitVec.toNat h
  simp only [BitVec.truncate_eq_setWidth, BitVec.toNat_setWidth] at this
  have h1 := a.id.isLt
  have h2 := b.id.isLt
  apply BitVec.eq_of_toNat_eq
  omega

/-- The critical errors in a stretch without cycles: the counter advances by at most one per call;
when it does not advance, the list is the same. -/
theorem crit_run (s : Sys) (es : List Ev) (h : ∀ e ∈ es, e.Between) :
    ∃ k, k ≤ critCalls es ∧ (s.run es).crit.id = s.crit.id + BitVec.ofNat 16 k ∧
      (k = 0 → (s.run es).crit = s.crit) := by
  induction es generalizing s with
  | nil => exact ⟨0, Nat.le_refl _, by simp [Sys.run], fun _ => rfl⟩
  | cons e es ih =>
    obtain ⟨k, h1, h2, h3⟩ := ih (s.step e) (fun x hx => h x (List.mem_cons_of_mem _ hx))
    rw [run_cons]
    have other : (s.step e).crit = s.crit → critCalls (e :: es) ≥ critCalls es →
        ∃ k, k ≤ critCalls (e :: es) ∧ ((s.step e).run es).crit.id = s.crit.id + BitVec.ofNat 16 k ∧
          (k = 0 → ((s.step e).run es).crit = s.crit) := fun hc hcc =>
      ⟨k, by omega, by rw [h2, hc], fun hk => (h3 hk).trans hc⟩
    cases e with
    | cycle now neg objs => exact (h _ List.mem_cons_self).elim
    | cmd _ _ _ => exact other rfl (Nat.le_refl _)
    | post _ _ => exact other rfl (Nat.le_refl _)
    | manual _ => exact other rfl (Nat.le_refl _)
    | force l _ => exact other (by cases l <;> rfl) (Nat.le_refl _)
    | crit c =>
      have hcc : critCalls (Ev.crit c :: es) = critCalls es + 1 := rfl
      by_cases hid : (s.crit.step c) = s.crit
      · exact other hid (by omega)
      · have hone : (s.crit.step c).id = s.crit.id + 1 := by
          cases c with
          | set a b p =>
            simp only [CritErr.Mgr.step] at hid ⊢
            split at hid
            · exact absurd rfl hid
            · rename_i hx
              rw [if_neg hx]
          | reset a b p =>
            simp only [CritErr.Mgr.step] at hid ⊢
            split at hid
            · rename_i hx
              rw [if_pos hx]
            · exact absurd rfl hid
        refine ⟨k + 1, by omega, ?_, by omega⟩
        rw [h2]
        show (s.crit.step c).id + _ = _
        rw [hone, BitVec.add_assoc]
        congr 1
        apply BitVec.eq_of_toNat_eq
        simp
        omega

theorem crit_changed (s : Sys) (es : List Ev) (h : ∀ e ∈ es, e.Between)
    (hc : critCalls es < 65536) (hd : (s.run es).crit.errors ≠ s.crit.errors) :
    (s.run es).crit.id ≠ s.crit.id := by
  obtain ⟨k, h1, h2, h3⟩ := crit_run s es h
  have hk : k ≠ 0 := fun hk => hd (by rw [h3 hk])
  rw [h2]
  intro he
  have := congrArg BitVec.toNat he
  rw [BitVec.toNat_add, BitVec.toNat_ofNat] at this
  have h5 := s.crit.id.isLt
  omega

/-! ### Blinking -/

/-- The last times of the machines are not in the future. -/
def BlinkInv (s : Sys) (t : Nat) : Prop :=
  s.sir.redB.blinkT.toNat ≤ t ∧ s.sir.redB.waitT.toNat ≤ t ∧
  s.sir.yellowB.blinkT.toNat ≤ t ∧ s.sir.yellowB.waitT.toNat ≤ t

theorem tick_le (b : Blink) (p now : Tm) (t : Nat) (h1 : b.blinkT.toNat ≤ t) (h2 : b.waitT.toNat ≤ t)
    (hn : t ≤ now.toNat) : (b.tick p now).2.blinkT.toNat ≤ now.toNat ∧
      (b.tick p now).2.waitT.toNat ≤ now.toNat := by
  unfold Blink.tick
  split <;> dsimp only <;> split <;> (try dsimp only) <;> omega

theorem evalRed_redB (s : Sir) (now : Tm) (b : Bool) :
    (s.evalRed now b).redB = s.redB ∨ (s.evalRed now b).redB = (s.redB.tick 250 now).2 := by
  unfold Sir.evalRed
  split
  · split
    · exact Or.inl rfl
    · exact Or.inr rfl
  · exact Or.inl rfl

theorem eval_blinks (s : Sir) (now : Tm) (c : CritErr.Mgr) (f : Alarm.Flags) (objs : List TObj) :
    ((s.eval now c f objs).redB = s.redB ∨ (s.eval now c f objs).redB = (s.redB.tick 250 now).2) ∧
    ((s.eval now c f objs).yellowB = s.yellowB ∨
      (s.eval now c f objs).yellowB = (s.yellowB.tick 1000 now).2) := by
  unfold Sir.eval
  split
  · exact ⟨Or.inl rfl, Or.inl rfl⟩
  · split
    · exact ⟨Or.inl rfl, Or.inl rfl⟩
    · split
      · exact ⟨Or.inl rfl, Or.inl rfl⟩
      · constructor
        · simp only [Sir.evalGreen, evalOff_redB, evalYellow_redB, evalOn_redB]
          exact evalRed_redB s now _
        · simp only [Sir.evalGreen, evalOff_yellowB]
          unfold Sir.evalYellow
          split
          · exact Or.inr (by simp only [evalOn_yellowB, evalRed_yellowB])
          · exact Or.inl (by simp only [evalOn_yellowB, evalRed_yellowB])

theorem blink_cycle (s : Sys) (t : Nat) (now : Tm) (neg : Nat → Bool) (objs : List TObj)
    (h : BlinkInv s t) (hn : t ≤ now.toNat) : BlinkInv (s.step (.cycle now neg objs)) now.toNat := by
  obtain ⟨h1, h2, h3, h4⟩ := h
  obtain ⟨hr, hy⟩ := eval_blinks s.sir now s.crit (s.alarm.evaluate neg).flags objs
  simp only [BlinkInv, Sys.step]
  obtain ⟨a1, a2⟩ := tick_le s.sir.redB 250 now t h1 h2 hn
  obtain ⟨b1, b2⟩ := tick_le s.sir.yellowB 1000 now t h3 h4 hn
  refine ⟨?_, ?_, ?_, ?_⟩
  · rcases hr with hr | hr <;> rw [hr] <;> omega
  · rcases hr with hr | hr <;> rw [hr] <;> omega
  · rcases hy with hy | hy <;> rw [hy] <;> omega
  · rcases hy with hy | hy <;> rw [hy] <;> omega

theorem blink_between (s : Sys) (e : Ev) (h : e.Between) : (s.step e).sir.redB = s.sir.redB ∧
    (s.step e).sir.yellowB = s.sir.yellowB := by
  cases e with
  | cycle => exact h.elim
  | force l b => cases l <;> exact ⟨rfl, rfl⟩
  | _ => exact ⟨rfl, rfl⟩

theorem times_between (e : Ev) (es : List Ev) (h : e.Between) : times (e :: es) = times es := by
  cases e with
  | cycle => exact h.elim
  | _ => rfl

theorem between_or (e : Ev) : e.Between ∨ ∃ now neg objs, e = .cycle now neg objs := by
  cases e with
  | cycle now neg objs => exact Or.inr ⟨now, neg, objs, rfl⟩
  | _ => exact Or.inl trivial

theorem blink_run (es : List Ev) : ∀ (s : Sys) (t : Nat), BlinkInv s t →
    (∀ x ∈ times es, t ≤ x.toNat) → Ordered (times es) →
    ∀ t', t ≤ t' → (∀ x ∈ times es, x.toNat ≤ t') → BlinkInv (s.run es) t' := by
  induction es with
  | nil =>
    intro s t h _ _ t' ht _
    obtain ⟨h1, h2, h3, h4⟩ := h
    exact ⟨by simp only [Sys.run, List.foldl_nil]; omega, by simp only [Sys.run, List.foldl_nil]; omega,
      by simp only [Sys.run, List.foldl_nil]; omega, by simp only [Sys.run, List.foldl_nil]; omega⟩
  | cons e es ih =>
    intro s t h hge hord t' ht hle
    rw [run_cons]
    rcases between_or e with hb | ⟨now, neg, objs, rfl⟩
    · rw [times_between e es hb] at hge hord hle
      obtain ⟨g1, g2⟩ := blink_between s e hb
      exact ih (s.step e) t (by unfold BlinkInv; rw [g1, g2]; exact h) hge hord t' ht hle
    · have htm : times (Ev.cycle now neg objs :: es) = now :: times es := rfl
      rw [htm] at hge hord hle
      have hn : t ≤ now.toNat := hge now List.mem_cons_self
      unfold Ordered at hord
      rw [List.pairwise_cons] at hord
      exact ih _ now.toNat (blink_cycle s t now neg objs h hn) hord.1 hord.2 t'
        (hle now List.mem_cons_self) (fun x hx => hle x (List.mem_cons_of_mem _ hx))

/-- The machine of a lamp. -/
def machine (l : Blinking) (s : Sys) : Blink :=
  match l with
  | .red => s.sir.redB
  | .yellow => s.sir.yellowB

/-- The time from which the present phase is measured. -/
def since (b : Blink) : Tm := if b.wait then b.waitT else b.blinkT

theorem half_toNat (l : Blinking) :
    (match l with | .red => (250 : Tm) | .yellow => 1000).toNat = l.half := by
  cases l <;> rfl

theorem lamp_cycle {l : Blinking} {s : Sys} {now : Tm} {neg : Nat → Bool} (objs : List TObj)
    (h : InService s now) (hr : l.Reason s neg) :
    ∃ p : Tm, p.toNat = l.half ∧
      l.lit (s.step (.cycle now neg objs)) = ((machine l s).tick p now).1 ∧
      machine l (s.step (.cycle now neg objs)) = ((machine l s).tick p now).2 := by
  obtain ⟨⟨h1, h2⟩, -, ⟨h3, h4⟩, -⟩ := cycle_out h neg objs
  cases l with
  | red =>
    refine ⟨250, rfl, ?_⟩
    obtain ⟨hb, hc⟩ := hr
    have he : (s.crit.isAnyError || (s.alarm.evaluate neg).flags.anyError) = true := by
      rw [Bool.or_eq_true, crit_any, Alarm.C11_error_flag_partial]
      exact hc
    rw [he] at h1 h2
    simp only [Sir.evalRed, hb, if_true, Bool.false_eq_true, if_false] at h1 h2
    exact ⟨h1, h2⟩
  | yellow =>
    refine ⟨1000, rfl, ?_⟩
    rw [(msg_flag s.alarm neg).2 hr] at h3 h4
    exact ⟨h3, h4⟩

theorem steady_main {l : Blinking} {x : Bool} {s : Sys} {es : List Ev} {ts : List Tm}
    (h : Steady l x s es ts) : ∀ T : Nat, (machine l s).wait = !x →
      (since (machine l s)).toNat ≤ T → (∀ t ∈ ts, T ≤ t.toNat) → Ordered ts →
      ∀ t ∈ ts.dropLast, t.toNat ≤ T + l.half := by
  induction h with
  | nil => intro T _ _ _ _ t ht; simp at ht
  | @cycle s now neg objs es ts hs hr hx hrest ih =>
    intro T hw hT hge hord
    have hn := hge now List.mem_cons_self
    obtain ⟨p, hp, hl, hm⟩ := lamp_cycle objs hs hr
    unfold Ordered at hord
    rw [List.pairwise_cons] at hord
    -- has the phase ended in this cycle?
    by_cases hend : Time.deltaMs now (since (machine l s)) > p
    · -- then the next cycle would show the opposite
      have hw' : (machine l (s.step (.cycle now neg objs))).wait = x := by
        rw [hm]
        unfold Blink.tick
        cases x
        · simp only [Bool.not_false] at hw
          rw [if_pos hw]
          dsimp only
          rw [if_pos (by simpa only [since, hw, if_true] using hend)]
        · simp only [Bool.not_true] at hw
          rw [if_neg (by simp [hw])]
          dsimp only
          rw [if_pos (by simpa only [since, hw, if_false, Bool.false_eq_true] using hend)]
      have hnil : ts = [] := by
        revert hw'
        generalize s.step (.cycle now neg objs) = s' at hrest
        clear ih
        intro hw'
        revert hw'
        clear hr hx hs hl hm hend hw hT
        intro hw'
        have : ∀ {s' : Sys} {es : List Ev} {ts : List Tm}, Steady l x s' es ts →
            (machine l s').wait = x → ts = [] := by
          intro s' es ts hst
          induction hst with
          | nil => intro _; rfl
          | @cycle s2 now2 neg2 objs2 es2 ts2 hs2 hr2 hx2 _ _ =>
            intro hw2
            obtain ⟨p2, -, hl2, -⟩ := lamp_cycle objs2 hs2 hr2
            exfalso
            rw [hl2] at hx2
            unfold Blink.tick at hx2
            cases x <;> simp [hw2] at hx2
          | @other s2 e2 es2 ts2 hb2 _ ih2 =>
            intro hw2
            apply ih2
            rw [← hw2]
            obtain ⟨g1, g2⟩ := blink_between s2 e2 hb2
            cases l
            · exact congrArg Blink.wait g1
            · exact congrArg Blink.wait g2
        exact this hrest hw'
      subst hnil
      intro t ht
      simp at ht
    · have hsame : machine l (s.step (.cycle now neg objs)) = machine l s := by
        rw [hm]
        unfold Blink.tick
        cases x
        · simp only [Bool.not_false] at hw
          rw [if_pos hw]
          dsimp only
          rw [if_neg (by simpa only [since, hw, if_true] using hend)]
        · simp only [Bool.not_true] at hw
          rw [if_neg (by simp [hw])]
          dsimp only
          rw [if_neg (by simpa only [since, hw, if_false, Bool.false_eq_true] using hend)]
      have hnow : now.toNat ≤ T + l.half := by
        have hd : ¬ p.toNat < (Time.deltaMs now (since (machine l s))).toNat := hend
        rw [Timer.delta_eq (by omega), hp] at hd
        omega
      intro t ht
      cases ts with
      | nil => simp at ht
      | cons t2 ts =>
        rw [List.dropLast_cons_of_ne_nil (by simp)] at ht
        rcases List.mem_cons.1 ht with rfl | ht
        · exact hnow
        · exact ih T (by rw [hsame]; exact hw) (by rw [hsame]; exact hT)
            (fun t ht => hge t (List.mem_cons_of_mem _ ht)) hord.2 t ht
  | @other s e es ts hb _ ih =>
    intro T hw hT
    obtain ⟨g1, g2⟩ := blink_between s e hb
    have hm : machine l (s.step e) = machine l s := by
      cases l
      · exact g1
      · exact g2
    exact ih T (by rw [hm]; exact hw) (by rw [hm]; exact hT)

/-- In a steady stretch with a cycle the machine is in the phase that shows `x`. -/
theorem steady_phase {l : Blinking} {x : Bool} {s : Sys} {es : List Ev} {ts : List Tm}
    (h : Steady l x s es ts) (hne : ts ≠ []) : (machine l s).wait = !x := by
  induction h with
  | nil => exact absurd rfl hne
  | @cycle s now neg objs es ts hs hr hx _ _ =>
    obtain ⟨p, -, hl, -⟩ := lamp_cycle objs hs hr
    rw [hl] at hx
    unfold Blink.tick at hx
    cases hw : (machine l s).wait <;> simp [hw] at hx <;> simp [← hx]
  | @other s e es ts hb _ ih =>
    obtain ⟨g1, g2⟩ := blink_between s e hb
    rw [← ih hne]
    cases l
    · exact congrArg Blink.wait g1.symm
    · exact congrArg Blink.wait g2.symm

theorem machine_between {l : Blinking} {s : Sys} {e : Ev} (h : e.Between) : machine l (s.step e) = machine l s := by
  obtain ⟨g1, g2⟩ := blink_between s e h
  cases l
  · exact g1
  · exact g2

theorem tick_shows (b : Blink) (p now : Tm) : (b.tick p now).1 = !b.wait := by
  unfold Blink.tick
  cases b.wait <;> rfl

theorem shows_phase {l : Blinking} {s : Sys} {es : List Ev} {u : Tm × Bool} {ts : List (Tm × Bool)}
    (h : Shows l s es (u :: ts)) : (machine l s).wait = !u.2 := by
  generalize hx : u :: ts = looks at h
  induction h with
  | nil => simp at hx
  | @cycle s now neg objs es ts' hs hr _ _ =>
    obtain ⟨p, -, hl, -⟩ := lamp_cycle objs hs hr
    obtain ⟨rfl, rfl⟩ := List.cons.inj hx
    dsimp only
    rw [hl, tick_shows, Bool.not_not]
  | @other s e es ts' hb _ ih => rw [← ih hx, machine_between hb]

/-- The phase lasts at least a half period. -/
theorem shows_main {l : Blinking} {x : Bool} {a : Tm} {s : Sys} {es : List Ev} {looks : List (Tm × Bool)}
    (h : Shows l s es looks) : (machine l s).wait = !x → since (machine l s) = a →
      (∀ u ∈ looks, a.toNat ≤ u.1.toNat) → Ordered (looks.map Prod.fst) →
      ∀ u ∈ looks, u.1.toNat ≤ a.toNat + l.half → u.2 = x := by
  induction h with
  | nil => simp
  | @cycle s now neg objs es ts hs hr _ ih =>
    intro hw ha hge hord
    obtain ⟨p, hp, hl, hm⟩ := lamp_cycle objs hs hr
    simp only [List.map_cons, Ordered, List.pairwise_cons, List.mem_map] at hord
    have hnow : a.toNat ≤ now.toNat := hge _ List.mem_cons_self
    intro u hu hle
    rcases List.mem_cons.1 hu with rfl | hu
    · dsimp only
      rw [hl, tick_shows, hw, Bool.not_not]
    · have hu' : now.toNat ≤ u.1.toNat := hord.1 _ ⟨u, hu, rfl⟩
      have hend : ¬ Time.deltaMs now (since (machine l s)) > p := by
        show ¬ p.toNat < _
        rw [Timer.delta_eq (by rw [ha]; exact hnow), hp, ha]
        omega
      have hsame : machine l (s.step (.cycle now neg objs)) = machine l s := by
        rw [hm]
        unfold Blink.tick
        cases hwt : (machine l s).wait
        · rw [if_neg (by simp)]
          dsimp only
          rw [if_neg (by simpa only [since, hwt, if_false, Bool.false_eq_true] using hend)]
        · rw [if_pos rfl]
          dsimp only
          rw [if_neg (by simpa only [since, hwt, if_true] using hend)]
      exact ih (by rw [hsame]; exact hw) (by rw [hsame]; exact ha)
        (fun u hu => hge u (List.mem_cons_of_mem _ hu)) hord.2 u hu hle
  | @other s e es ts hb _ ih =>
    rw [machine_between hb] at ih
    exact ih

theorem shows_turn {l : Blinking} {a b : Tm} {y : Bool} {s : Sys} {es : List Ev} {ts : List (Tm × Bool)}
    (h : Shows l s es ((a, y) :: (b, !y) :: ts)) :
    ∃ s' es', Shows l s' es' ((b, !y) :: ts) ∧ since (machine l s') = a := by
  generalize hx : (a, y) :: (b, !y) :: ts = looks at h
  induction h with
  | nil => simp at hx
  | @cycle s now neg objs es ts' hs hr hrest _ =>
    obtain ⟨p, -, hl, hm⟩ := lamp_cycle objs hs hr
    obtain ⟨h1, rfl⟩ := List.cons.inj hx
    obtain ⟨rfl, h2⟩ := Prod.mk.inj h1
    refine ⟨_, _, hrest, ?_⟩
    have hph := shows_phase hrest
    dsimp only at hph
    rw [hl, tick_shows] at h2
    rw [hm] at hph ⊢
    unfold Blink.tick at hph ⊢
    cases hw : (machine l s).wait
    · rw [hw] at h2
      subst h2
      rw [hw, if_neg (by simp)] at hph
      rw [if_neg (by simp)]
      dsimp only at hph ⊢
      split
      · rfl
      · next hc => rw [if_neg hc] at hph; simp [hw] at hph
    · rw [hw] at h2
      subst h2
      rw [hw, if_pos rfl] at hph
      rw [if_pos rfl]
      dsimp only at hph ⊢
      split
      · rfl
      · next hc => rw [if_neg hc] at hph; simp [hw] at hph
  | @other s e es ts' hb _ ih => exact ih hx

/-! ### The green lamp -/

theorem anyImportant_uniform (h : Bool) (objs : List TObj)
    (hu : ∀ o ∈ objs, o.hasFun = h ∧ (h = true → o.answer ≠ none)) (k : Option Bool)
    (hk : k = none ∨ k = some h) :
    ((anyImportant objs k).1 = true ↔ ∃ o ∈ objs, o.Important) ∧
    ((anyImportant objs k).2 = none ∨ (anyImportant objs k).2 = some h) := by
  induction objs generalizing k with
  | nil => exact ⟨by simp [anyImportant], by simpa [anyImportant] using hk⟩
  | cons o rest ih =>
    obtain ⟨h1, h2⟩ := hu o List.mem_cons_self
    have hk' : k.getD o.hasFun = h := by rcases hk with rfl | rfl <;> simp [h1]
    have h3 : (o.important k).2 = some h := by unfold TObj.important; dsimp only; rw [hk']
    have h4 : (o.important k).1 = true ↔ o.Important := by
      unfold TObj.important TObj.Important
      dsimp only
      rw [hk', h1]
      cases h with
      | false => simp
      | true =>
        cases ha : o.answer with
        | none => exact absurd ha (h2 rfl)
        | some r => simp
    have ih' := ih (fun x hx => hu x (List.mem_cons_of_mem _ hx)) (some h) (Or.inr rfl)
    simp only [anyImportant]
    rw [h3]
    by_cases hi : (o.important k).1 = true
    · rw [if_pos hi]
      exact ⟨⟨fun _ => ⟨o, List.mem_cons_self, h4.1 hi⟩, fun _ => rfl⟩, Or.inr rfl⟩
    · rw [if_neg hi]
      refine ⟨ih'.1.trans ⟨?_, ?_⟩, ih'.2⟩
      · rintro ⟨x, hx, hxi⟩
        exact ⟨x, List.mem_cons_of_mem _ hx, hxi⟩
      · rintro ⟨x, hx, hxi⟩
        rcases List.mem_cons.1 hx with rfl | hx
        · exact absurd (h4.2 hxi) hi
        · exact ⟨x, hx, hxi⟩

end Ptusa.Siren
