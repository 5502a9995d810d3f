import Verif.ValveOff.Spec
import Mathlib.Data.List.Induction

namespace Ptusa.ValveOff
variable {σ : Type}

theorem elapsed_eq (now t : Tm) (h : t ≤ now) : elapsed now t = now.toNat - t.toNat := by
  unfold elapsed Time.deltaMs
  have h1 : ¬ now < t := by rw [BitVec.lt_def]; rw [BitVec.le_def] at h; omega
  simp only [h1, h, if_false, if_true]
  rw [BitVec.toNat_sub]
  rw [BitVec.le_def] at h
  have := now.isLt
  have := t.isLt
  omega

theorem put_same (vs : Nat → V σ) (i : Nat) (v : V σ) : put vs i v i = v := by simp [put]

theorem put_ne (vs : Nat → V σ) (i j : Nat) (v : V σ) (h : j ≠ i) : put vs i v j = vs j := by simp [put, h]

/-- Every valve that waits is in the queue. -/
def Inv (cls : Nat → Cls σ) (f : Fleet σ) : Prop :=
  ∀ i, (cls i).finished = none → (f.vs i).switching = true → i ∈ f.queue

theorem expire_expire (c : Cls σ) (now : Tm) (d : BitVec 32) (v : V σ) :
    (v.expire c now d).expire c now d = v.expire c now d := by
  unfold V.expire
  split
  · simp
  · rfl

theorem foldl_expire (cls : Nat → Cls σ) (now : Tm) (d : BitVec 32) (q : List Nat) (vs : Nat → V σ) (i : Nat) :
    (q.foldl (fun vs i => put vs i ((vs i).expire (cls i) now d)) vs) i =
      if i ∈ q then (vs i).expire (cls i) now d else vs i := by
  induction q generalizing vs with
  | nil => simp
  | cons j q ih =>
    rw [List.foldl_cons, ih]
    by_cases hj : i = j
    · subst hj
      rw [put_same, expire_expire]
      simp
    · rw [put_ne _ _ _ _ hj]
      simp [hj]

theorem sweep_standard (cls : Nat → Cls σ) (now : Tm) (bd : BitVec 32) (i : Nat) (hs : (cls i).finished = none) :
    ∀ (q : List Nat) (vs : Nat → V σ), (sweep cls now bd q vs).2 i = vs i ∧
      (i ∈ q → (vs i).switching = true → i ∈ (sweep cls now bd q vs).1)
  | [], vs => ⟨rfl, fun h => by simp at h⟩
  | j :: q, vs => by
    have ih := sweep_standard cls now bd i hs q (put vs j ((vs j).finished (cls j) now bd).2)
    have e : put vs j ((vs j).finished (cls j) now bd).2 i = vs i := by
      by_cases hj : i = j
      · subst hj
        rw [put_same]
        simp [V.finished, hs]
      · rw [put_ne _ _ _ _ hj]
    rw [e] at ih
    simp only [sweep]
    refine ⟨ih.1, fun hm hsw => ?_⟩
    by_cases hj : i = j
    · subst hj
      have : ((vs i).finished (cls i) now bd).1 = false := by simp [V.finished, hs, hsw]
      rw [this]
      simp
    · have hq : i ∈ q := by simpa [hj] using hm
      have := ih.2 hq hsw
      split
      · exact this
      · exact List.mem_cons_of_mem _ this

theorem eval_valve (cls : Nat → Cls σ) (f : Fleet σ) (hI : Inv cls f) (now : Tm) (d bd : BitVec 32) (i : Nat)
    (hs : (cls i).finished = none) :
    (f.evaluate cls now d bd).vs i =
      ({ f.vs i with body := (cls i).tick now (f.vs i).body } : V σ).expire (cls i) now d := by
  simp only [Fleet.evaluate]
  rw [(sweep_standard cls now bd i hs _ _).1, foldl_expire]
  by_cases hm : i ∈ f.queue
  · rw [if_pos hm]
  · rw [if_neg hm]
    have : (f.vs i).switching = false := by
      cases h : (f.vs i).switching with
      | false => rfl
      | true => exact absurd (hI i hs h) hm
    simp [V.expire, this]

theorem Inv.step (cls : Nat → Cls σ) (f : Fleet σ) (hI : Inv cls f) (e : Ev σ) : Inv cls (f.step cls e) := by
  intro i hs hsw
  have key : ∀ (j : Nat) (v : V σ), (v.switching = true → (f.vs j).switching = true) →
      (put f.vs j v i).switching = true → i ∈ f.queue := by
    intro j v hv h
    by_cases hj : i = j
    · subst hj
      rw [put_same] at h
      exact hI _ hs (hv h)
    · rw [put_ne _ _ _ _ hj] at h
      exact hI _ hs h
  cases e with
  | on j now => exact key j _ (fun h => by simp [V.on] at h) hsw
  | instantOff j now => exact key j _ (fun h => by unfold V.instantOff at h; split at h <;> simpa using h) hsw
  | setState j now n => exact key j _ (fun h => by unfold V.setState at h; split at h <;> simpa using h) hsw
  | oper j now n => exact key j _ (by exact fun h => h) hsw
  | manual j m => exact key j _ (by exact fun h => h) hsw
  | io j g => exact key j _ (by exact fun h => h) hsw
  | off j now =>
    simp only [Fleet.step, Fleet.off] at hsw ⊢
    by_cases h1 : (!(f.vs j).wasOnAuto || (cls j).seat (f.vs j).body) = true
    · rw [if_pos h1] at hsw ⊢
      by_cases h2 : (f.vs j).manual = true
      · rw [if_pos h2] at hsw ⊢
        exact hI _ hs hsw
      · rw [if_neg h2] at hsw ⊢
        exact key j _ (by exact fun h => h) hsw
    · rw [if_neg h1] at hsw ⊢
      by_cases h2 : (!(f.vs j).switching) = true
      · rw [if_pos h2] at hsw ⊢
        by_cases hj : i = j
        · subst hj
          simp
        · simp only [put_ne _ _ _ _ hj] at hsw
          simp [hI _ hs hsw]
      · rw [if_neg h2] at hsw ⊢
        exact hI _ hs hsw
  | evaluate now d bd =>
    simp only [Fleet.step] at hsw ⊢
    have hv := eval_valve cls f hI now d bd i hs
    rw [hv] at hsw
    have hsw' : (f.vs i).switching = true := by
      unfold V.expire at hsw
      split at hsw
      · simp at hsw
      · exact hsw
    have hq := hI i hs hsw'
    simp only [Fleet.evaluate]
    apply (sweep_standard cls now bd i hs _ _).2 hq
    rw [foldl_expire, if_pos hq]
    exact hsw

theorem Inv.start (cls : Nat → Cls σ) (b : Nat → σ) : Inv cls (start b) := by
  intro i _ h
  simp [ValveOff.start] at h

theorem run_append (cls : Nat → Cls σ) (f : Fleet σ) (h1 h2 : List (Ev σ)) :
    f.run cls (h1 ++ h2) = (f.run cls h1).run cls h2 := by simp [Fleet.run]

theorem Inv.run (cls : Nat → Cls σ) (f : Fleet σ) (hI : Inv cls f) (h : List (Ev σ)) : Inv cls (f.run cls h) := by
  induction h generalizing f with
  | nil => exact hI
  | cons e h ih => exact ih _ (hI.step cls f e)

theorem view_expire (c : Cls σ) (now : Tm) (d bd : BitVec 32) (v : V σ) :
    (({ v with body := c.tick now v.body } : V σ).expire c now d).view = v.view.step c (.evaluate now d bd) := by
  unfold V.expire V.view S.step elapsed
  cases hs : v.switching
  · simp
  · by_cases hd : (Time.deltaMs now v.startOff).toNat > d.toNat
    · simp [hd]
    · simp [hd]

/-- One step of the whole set of valves, seen at valve `i`. -/
theorem view_step (cls : Nat → Cls σ) (f : Fleet σ) (hI : Inv cls f) (i : Nat) (hs : (cls i).finished = none)
    (e : Ev σ) :
    ((f.step cls e).vs i).view =
      if e.concerns i then ((f.vs i).view).step (cls i) e else (f.vs i).view := by
  have other : ∀ (j : Nat) (v : V σ), ¬ (j == i) = true → put f.vs j v i = f.vs i := by
    intro j v h
    apply put_ne
    intro he
    exact h (by simp [he])
  have same : ∀ (j : Nat), (j == i) = true → j = i := fun j h => by simpa using h
  cases e with
  | evaluate now d bd =>
    rw [if_pos (show Ev.concerns i (Ev.evaluate now d bd : Ev σ) = true from rfl), ← view_expire (cls i) now d bd (f.vs i)]
    simp only [Fleet.step]
    rw [eval_valve cls f hI now d bd i hs]
  | on j now =>
    by_cases hj : (j == i) = true
    · have := same j hj
      subst this
      rw [if_pos (show Ev.concerns j (Ev.on j now : Ev σ) = true from hj)]
      simp only [Fleet.step, put_same, V.on, S.step]
      cases hm : (f.vs j).manual <;> simp [V.view, hm]
    · rw [if_neg (show ¬ Ev.concerns i (Ev.on j now : Ev σ) = true from hj)]
      simp only [Fleet.step, other _ _ hj]
  | instantOff j now =>
    by_cases hj : (j == i) = true
    · have := same j hj
      subst this
      rw [if_pos (show Ev.concerns j (Ev.instantOff j now : Ev σ) = true from hj)]
      simp only [Fleet.step, put_same, V.instantOff, S.step]
      cases hm : (f.vs j).manual <;> simp [V.view, hm]
    · rw [if_neg (show ¬ Ev.concerns i (Ev.instantOff j now : Ev σ) = true from hj)]
      simp only [Fleet.step, other _ _ hj]
  | setState j now n =>
    by_cases hj : (j == i) = true
    · have := same j hj
      subst this
      rw [if_pos (show Ev.concerns j (Ev.setState j now n : Ev σ) = true from hj)]
      simp only [Fleet.step, put_same, V.setState, S.step]
      cases hm : (f.vs j).manual <;> simp [V.view, hm]
    · rw [if_neg (show ¬ Ev.concerns i (Ev.setState j now n : Ev σ) = true from hj)]
      simp only [Fleet.step, other _ _ hj]
  | oper j now n =>
    by_cases hj : (j == i) = true
    · have := same j hj
      subst this
      rw [if_pos (show Ev.concerns j (Ev.oper j now n : Ev σ) = true from hj)]
      simp only [Fleet.step, put_same, V.view, S.step]
    · rw [if_neg (show ¬ Ev.concerns i (Ev.oper j now n : Ev σ) = true from hj)]
      simp only [Fleet.step, other _ _ hj]
  | manual j m =>
    by_cases hj : (j == i) = true
    · have := same j hj
      subst this
      rw [if_pos (show Ev.concerns j (Ev.manual j m : Ev σ) = true from hj)]
      simp only [Fleet.step, put_same, V.view, S.step]
    · rw [if_neg (show ¬ Ev.concerns i (Ev.manual j m : Ev σ) = true from hj)]
      simp only [Fleet.step, other _ _ hj]
  | io j g =>
    by_cases hj : (j == i) = true
    · have := same j hj
      subst this
      rw [if_pos (show Ev.concerns j (Ev.io j g : Ev σ) = true from hj)]
      simp only [Fleet.step, put_same, V.view, S.step]
    · rw [if_neg (show ¬ Ev.concerns i (Ev.io j g : Ev σ) = true from hj)]
      simp only [Fleet.step, other _ _ hj]
  | off j now =>
    simp only [Fleet.step, Fleet.off]
    by_cases hj : (j == i) = true
    · have := same j hj
      subst this
      rw [if_pos (show Ev.concerns j (Ev.off j now : Ev σ) = true from hj)]
      simp only [S.step]
      cases hw : (f.vs j).wasOnAuto <;> cases ht : (cls j).seat (f.vs j).body <;> cases hm : (f.vs j).manual <;>
        cases hsw : (f.vs j).switching <;> simp [V.view, hw, ht, hm, hsw, put_same]
    · rw [if_neg (show ¬ Ev.concerns i (Ev.off j now : Ev σ) = true from hj)]
      split
      · split
        · rfl
        · simp only [other _ _ hj]
      · split
        · simp only [other _ _ hj]
        · rfl

theorem view_run (cls : Nat → Cls σ) (i : Nat) (hs : (cls i).finished = none) (h : List (Ev σ)) :
    ∀ (f : Fleet σ), Inv cls f → ((f.run cls h).vs i).view = ((f.vs i).view).run (cls i) i h := by
  induction h with
  | nil => intro f _; rfl
  | cons e h ih =>
    intro f hI
    have h1 := ih (f.step cls e) (hI.step cls f e)
    have h2 := view_step cls f hI i hs e
    unfold Fleet.run at h1 ⊢
    rw [List.foldl_cons, h1, h2]
    unfold S.run
    by_cases hc : e.concerns i = true
    · rw [if_pos hc, List.filter_cons_of_pos hc, List.foldl_cons]
    · rw [if_neg hc, List.filter_cons_of_neg hc]

end Ptusa.ValveOff

namespace Ptusa.ValveOff
variable {σ : Type}

theorem S.run_nil (c : Cls σ) (i : Nat) (s : S σ) : s.run c i [] = s := rfl

theorem S.run_cons (c : Cls σ) (i : Nat) (s : S σ) (e : Ev σ) (h : List (Ev σ)) :
    s.run c i (e :: h) = (if e.concerns i then s.step c e else s).run c i h := by
  unfold S.run
  by_cases hc : e.concerns i = true
  · rw [if_pos hc, List.filter_cons_of_pos hc, List.foldl_cons]
  · rw [if_neg hc, List.filter_cons_of_neg hc]

theorem S.run_append (c : Cls σ) (i : Nat) (s : S σ) (h1 h2 : List (Ev σ)) :
    s.run c i (h1 ++ h2) = (s.run c i h1).run c i h2 := by
  simp [S.run, List.filter_append]

theorem S.run_single (c : Cls σ) (i : Nat) (s : S σ) (e : Ev σ) (he : e.concerns i = true) :
    s.run c i [e] = s.step c e := by
  rw [S.run_cons, if_pos he, S.run_nil]

/-- A valve opened by the program, nobody asked to close it. -/
def Opened (P : σ → Prop) (s : S σ) : Prop := s.manual = false ∧ s.auto = true ∧ s.request = none ∧ P s.body

theorem Opened.keeps {c : Cls σ} (ht : ∀ now b, c.tick now b = b) {P : σ → Prop} (hP : ∀ t b, P (c.directOn t b))
    (i : Nat) : ∀ (h : List (Ev σ)) (s : S σ), Opened P s → (∀ e ∈ h, KeepsOpen i e) → Opened P (s.run c i h)
  | [], _, hs, _ => hs
  | e :: h, s, hs, hk => by
    rw [S.run_cons]
    refine Opened.keeps ht hP i h _ ?_ fun e he => hk e (List.mem_cons_of_mem _ he)
    have hke := hk e List.mem_cons_self
    obtain ⟨m, a, r, b⟩ := hs
    cases e with
    | on j now =>
      split
      · exact ⟨by simpa [S.step] using m, rfl, rfl, by simpa [S.step, m] using hP _ _⟩
      · exact ⟨m, a, r, b⟩
    | evaluate now d bd => rw [if_pos (show Ev.concerns i (Ev.evaluate now d bd : Ev σ) = true from rfl)]; exact ⟨by simp [S.step, r, m], by simp [S.step, r, a], by simp [S.step, r],
        by simpa [S.step, r, ht] using b⟩
    | off j now => rw [if_neg (by have : Ev.concerns i (Ev.off j now : Ev σ) = false := hke; simp [this])]; exact ⟨m, a, r, b⟩
    | instantOff j now =>
      rw [if_neg (by have : Ev.concerns i (Ev.instantOff j now : Ev σ) = false := hke; simp [this])]; exact ⟨m, a, r, b⟩
    | setState j now n =>
      rw [if_neg (by have : Ev.concerns i (Ev.setState j now n : Ev σ) = false := hke; simp [this])]; exact ⟨m, a, r, b⟩
    | oper j now n =>
      rw [if_neg (by have : Ev.concerns i (Ev.oper j now n : Ev σ) = false := hke; simp [this])]; exact ⟨m, a, r, b⟩
    | manual j n =>
      rw [if_neg (by have : Ev.concerns i (Ev.manual j n : Ev σ) = false := hke; simp [this])]; exact ⟨m, a, r, b⟩
    | io j n =>
      rw [if_neg (by have : Ev.concerns i (Ev.io j n : Ev σ) = false := hke; simp [this])]; exact ⟨m, a, r, b⟩

/-- A valve the program opened and asked to close at `t0`. -/
def Asked (b : σ) (t0 : Tm) (s : S σ) : Prop := s.manual = false ∧ s.auto = true ∧ s.request = some t0 ∧ s.body = b

theorem Asked.waits {c : Cls σ} (ht : ∀ now b, c.tick now b = b) {b : σ} (hb : c.seat b = false) (i : Nat) (t0 : Tm) :
    ∀ (h : List (Ev σ)) (s : S σ), Asked b t0 s → (∀ e ∈ h, Waiting i t0 e) → Asked b t0 (s.run c i h)
  | [], _, hs, _ => hs
  | e :: h, s, hs, hk => by
    rw [S.run_cons]
    refine Asked.waits ht hb i t0 h _ ?_ fun e he => hk e (List.mem_cons_of_mem _ he)
    have hke := hk e List.mem_cons_self
    obtain ⟨m, a, r, hbd⟩ := hs
    cases e with
    | off j now =>
      split
      · refine ⟨?_, ?_, ?_, ?_⟩ <;> simp [S.step, a, hbd, hb, r, m]
      · exact ⟨m, a, r, hbd⟩
    | evaluate now d bd =>
      rw [if_pos (show Ev.concerns i (Ev.evaluate now d bd : Ev σ) = true from rfl)]
      have h1 : ¬ elapsed now t0 > d.toNat := by
        rw [elapsed_eq now t0 hke.1]
        have := hke.2
        omega
      refine ⟨?_, ?_, ?_, ?_⟩ <;> simp [S.step, r, h1, m, a, hbd, ht]
    | on j now => rw [if_neg (by have : Ev.concerns i (Ev.on j now : Ev σ) = false := hke; simp [this])]; exact ⟨m, a, r, hbd⟩
    | instantOff j now =>
      rw [if_neg (by have : Ev.concerns i (Ev.instantOff j now : Ev σ) = false := hke; simp [this])]; exact ⟨m, a, r, hbd⟩
    | setState j now n =>
      rw [if_neg (by have : Ev.concerns i (Ev.setState j now n : Ev σ) = false := hke; simp [this])]; exact ⟨m, a, r, hbd⟩
    | oper j now n =>
      rw [if_neg (by have : Ev.concerns i (Ev.oper j now n : Ev σ) = false := hke; simp [this])]; exact ⟨m, a, r, hbd⟩
    | manual j n =>
      rw [if_neg (by have : Ev.concerns i (Ev.manual j n : Ev σ) = false := hke; simp [this])]; exact ⟨m, a, r, hbd⟩
    | io j n =>
      rw [if_neg (by have : Ev.concerns i (Ev.io j n : Ev σ) = false := hke; simp [this])]; exact ⟨m, a, r, hbd⟩

theorem Opened.asked {c : Cls σ} {P : σ → Prop} (i : Nat) (t0 : Tm) (s : S σ) (h : Opened P s)
    (hseat : ∀ b, P b → c.seat b = false) : Asked s.body t0 (s.run c i [.off i t0]) := by
  obtain ⟨m, a, r, hb⟩ := h
  rw [S.run_single _ _ _ _ (by simp [Ev.concerns])]
  refine ⟨?_, ?_, ?_, ?_⟩ <;> simp [S.step, a, m, r, hseat _ hb]

/-- A request that waits is in the history, and no `on` came after it. -/
theorem request_history (c : Cls σ) (i : Nat) (t0 : Tm) : ∀ (h : List (Ev σ)) (s : S σ), s.request = none →
    (s.run c i h).request = some t0 →
    ∃ h1 h2, h = h1 ++ Ev.off i t0 :: h2 ∧ ∀ t, Ev.on i t ∉ h2 := by
  intro h
  induction h using List.reverseRecOn with
  | nil => intro s hs hr; rw [S.run_nil, hs] at hr; cases hr
  | append_singleton h e ih =>
    intro s hs hr
    rw [S.run_append] at hr
    have keep : (s.run c i h).request = some t0 → (∀ t, e ≠ Ev.on i t) →
        ∃ h1 h2, h ++ [e] = h1 ++ Ev.off i t0 :: h2 ∧ ∀ t, Ev.on i t ∉ h2 := by
      intro hq he
      obtain ⟨h1, h2, e1, e2⟩ := ih s hs hq
      refine ⟨h1, h2 ++ [e], by rw [e1]; simp, fun t hm => ?_⟩
      rcases List.mem_append.mp hm with hm | hm
      · exact e2 t hm
      · exact he t (List.mem_singleton.mp hm).symm
    by_cases hc : e.concerns i = true
    · rw [S.run_single c i _ e hc] at hr
      cases e with
      | on j now => simp [S.step] at hr
      | instantOff j now => exact keep (by simp only [S.step] at hr; split at hr <;> exact hr) (by simp)
      | setState j now n => exact keep (by simp only [S.step] at hr; split at hr <;> exact hr) (by simp)
      | oper j now n => exact keep hr (by simp)
      | manual j m => exact keep hr (by simp)
      | io j g => exact keep hr (by simp)
      | evaluate now d bd =>
        refine keep ?_ (by simp)
        simp only [S.step] at hr
        split at hr
        · split at hr
          · simp at hr
          · exact hr
        · exact hr
      | off j now =>
        have hj : j = i := by simpa [Ev.concerns] using hc
        subst hj
        cases hq : (s.run c j h).request with
        | some t1 =>
          have : t1 = t0 := by
            simp only [S.step, hq] at hr
            split at hr
            · simpa using hr
            · split at hr <;> simpa [hq] using hr
          subst this
          exact keep hq (by simp)
        | none =>
          have : now = t0 := by
            simp only [S.step, hq] at hr
            split at hr
            · simpa using hr
            · split at hr <;> simp [hq] at hr
          subst this
          exact ⟨h, [], rfl, by simp⟩
    · rw [S.run_cons, if_neg hc, S.run_nil] at hr
      refine keep hr fun t he => hc ?_
      subst he
      simp [Ev.concerns]

end Ptusa.ValveOff
