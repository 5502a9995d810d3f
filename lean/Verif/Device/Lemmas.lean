import Verif.Device.Spec

namespace Ptusa.Device
variable {σ : Type}

theorem eq_iff (v : Fl) (q : Rat) : v.eq (.num q) = true ↔ v = .num q := by
  cases v <;> simp

theorem step_manual (c : Cls σ) (d d' : Dev σ) (e : Ev σ) (h : d.step c e = some d') :
    d'.manual = manualAfter d.manual [e] := by
  cases e with
  | prog p =>
    simp only [Dev.step, Dev.prog, Option.some.injEq] at h
    subst h
    show (if (!d.manual) = true then _ else _ : Dev σ).manual = d.manual
    split <;> rfl
  | io f => simp only [Dev.step, Option.some.injEq] at h; subst h; rfl
  | oper o =>
    cases o with
    | S v =>
      simp only [Dev.step, Dev.oper, Option.map_eq_some_iff] at h
      obtain ⟨n, _, rfl⟩ := h
      rfl
    | V v => simp only [Dev.step, Dev.oper, Option.some.injEq] at h; subst h; rfl
    | M v =>
      simp only [Dev.step, Dev.oper, eq_iff] at h
      simp only [manualAfter]
      split at h
      · rename_i h0; rw [if_pos h0]; simp only [Option.some.injEq] at h; subst h; rfl
      · rename_i h0
        rw [if_neg h0]
        split at h
        · rename_i h1; rw [if_pos h1]; simp only [Option.some.injEq] at h; subst h; rfl
        · rename_i h1; rw [if_neg h1]; simp only [Option.some.injEq] at h; subst h; rfl

theorem run_drive (c : Cls σ) (es : List (Ev σ)) : ∀ d : Dev σ,
    d.run c es = (drive c d.body (effective d.manual es)).map fun b => ⟨b, manualAfter d.manual es⟩ := by
  induction es with
  | nil => intro d; rfl
  | cons e es ih =>
    intro d
    cases e with
    | prog p =>
      show ((some (d.prog c p)).bind fun d => d.run c es) = _
      simp only [Option.bind_some]
      rw [ih]
      cases hm : d.manual
      · simp [Dev.prog, hm, effective, manualAfter, Ev.isProg, drive]
      · simp [Dev.prog, hm, effective, manualAfter, Ev.isProg]
    | io f =>
      show ((some { d with body := f d.body }).bind fun d => d.run c es) = _
      simp only [Option.bind_some]
      rw [ih]
      simp [effective, manualAfter, Ev.isProg, drive]
    | oper o =>
      cases o with
      | S v =>
        show ((((toInt32 v).map fun n => { d with body := c.directSetState n d.body })).bind fun d => d.run c es) = _
        cases hv : toInt32 v with
        | none => simp [effective, Ev.isProg, drive, hv]
        | some n =>
          simp only [Option.map_some, Option.bind_some]
          rw [ih]
          simp [effective, manualAfter, Ev.isProg, drive, hv]
      | V v =>
        show ((some { d with body := c.directSetValue v d.body }).bind fun d => d.run c es) = _
        simp only [Option.bind_some]
        rw [ih]
        simp [effective, manualAfter, Ev.isProg, drive]
      | M v =>
        have hs : ∃ d', d.step c (.oper (.M v)) = some d' ∧ d'.body = d.body := by
          simp only [Dev.step, Dev.oper]
          split
          · exact ⟨_, rfl, rfl⟩
          · split
            · exact ⟨_, rfl, rfl⟩
            · exact ⟨_, rfl, rfl⟩
        obtain ⟨d', hd', hb⟩ := hs
        have hm := step_manual c d d' _ hd'
        show ((d.step c (.oper (.M v))).bind fun d => d.run c es) = _
        rw [hd', Option.bind_some, ih, hm, hb]
        simp [effective, manualAfter, Ev.isProg, drive]

theorem effective_manual (es : List (Ev σ)) : (∀ v, .oper (.M v) ∈ es → v ≠ .num 0) →
    effective true es = es.filter (fun e => !e.isProg) := by
  induction es with
  | nil => intro _; rfl
  | cons e es ih =>
    intro h
    have h' : ∀ v, .oper (.M v) ∈ es → v ≠ .num 0 := fun v hv => h v (List.mem_cons_of_mem _ hv)
    have hm : manualAfter true [e] = true := by
      cases e with
      | prog p => rfl
      | io f => rfl
      | oper o =>
        cases o with
        | S v => rfl
        | V v => rfl
        | M v =>
          have := h v List.mem_cons_self
          simp [manualAfter, this]
    cases hp : e.isProg <;> simp [effective, hm, hp, ih h']

end Ptusa.Device
