import Verif.Pid.Spec

/-!
# Lemmas about the regulator
-/
namespace Ptusa.Regulator
open Ptusa Fl

/-- All parameters are numbers. -/
structure Params.Finite (p : Params) : Prop where
  k : p.k.IsNum
  ti : p.ti.IsNum
  td : p.td.IsNum
  dt : p.dt.IsNum
  max : p.max.IsNum
  min : p.min.IsNum
  acc : p.accelerationTime.IsNum
  man : p.isManual.IsNum
  uman : p.uManual.IsNum
  k2 : p.k2.IsNum
  ti2 : p.ti2.IsNum
  td2 : p.td2.IsNum
  omax : p.outMax.IsNum
  omin : p.outMin.IsNum
  zero : p.isZeroStart.IsNum

/-- All numbers of the regulator are numbers. -/
structure Pid.Finite (p : Pid) : Prop where
  par : p.par.Finite
  uk1 : p.uk1.IsNum
  ek1 : p.ek1.IsNum
  ek2 : p.ek2.IsNum
  uk : p.uk.IsNum
  out : p.out.IsNum
  set : p.set.IsNum
  start : p.startValue.IsNum

/-- The event carries no `nan`. -/
def Ev.Finite : Ev → Prop
  | .value v e => v.IsNum ∧ e.cur.IsNum ∧ e.sign.IsNum
  | .opValue v e => v.IsNum ∧ e.cur.IsNum ∧ e.sign.IsNum
  | .param f => ∀ q : Params, q.Finite → (f q).Finite
  | _ => True

theorem rest_num (p : Params) : p.rest.IsNum := by
  unfold Params.rest
  exact IsNum.ite (isNum_ofNat 0) (isNum_ofNat 100)

theorem clamp100_num {u : Fl} (h : u.IsNum) : (clamp100 u).IsNum := by
  unfold clamp100
  exact IsNum.ite (isNum_ofNat 0) (IsNum.ite (isNum_ofNat 100) h)

theorem limit_num {lo hi u : Fl} (hl : lo.IsNum) (hh : hi.IsNum) (h : u.IsNum) :
    (limit lo hi u).IsNum := by
  unfold limit
  exact IsNum.ite hh (IsNum.ite hl h)

theorem limit_between {lo hi u : Fl} (hle : lo.le hi = true) (h : u.IsNum) :
    Between lo hi (limit lo hi u) := by
  obtain ⟨x, rfl⟩ := h
  cases lo with
  | nan => simp at hle
  | num a =>
    cases hi with
    | nan => simp at hle
    | num b =>
      simp only [le_num, decide_eq_true_eq] at hle
      simp only [limit, lt_num, decide_eq_true_eq]
      by_cases h1 : x < a
      · have h2 : ¬ b < a := not_lt.2 hle
        simp [h1, h2, Between, hle]
      · by_cases h2 : b < x
        · simp [h1, h2, Between, hle]
        · simp [h1, h2, Between, not_lt.1 h1, not_lt.1 h2]

theorem dt_num {p : Pid} (h : p.Finite) : p.dtSec.IsNum ∧ p.dtSec ≠ num 0 := by
  obtain ⟨d, hd⟩ := h.par.dt
  have hq : p.par.dt / 1000 = num (d / 1000) := by
    rw [hd]
    exact div_num d 1000 (by norm_num)
  unfold Pid.dtSec
  rw [hq]
  simp only [zero_eq, eq_num, decide_eq_true_eq]
  split
  · exact ⟨isNum_ofNat 1, by decide⟩
  · rename_i hne
    exact ⟨isNum_num _, fun he => hne (by injection he)⟩

theorem ti_num {p : Pid} (h : p.Finite) : p.tiSec.IsNum ∧ p.tiSec ≠ num 0 := by
  have hti : (if p.usedPar = 2 then p.par.ti2 else p.par.ti).IsNum := IsNum.ite h.par.ti2 h.par.ti
  obtain ⟨t, ht⟩ := hti
  have hc : (1 / 10000 : Fl) = num (1 / 10000) := div_num 1 10000 (by norm_num)
  unfold Pid.tiSec
  rw [ht]
  simp only [zero_eq, eq_num, decide_eq_true_eq]
  split
  · rw [hc]
    exact ⟨isNum_num _, fun he => by injection he with he; norm_num at he⟩
  · rename_i hne
    exact ⟨isNum_num _, fun he => hne (by injection he)⟩

theorem error_num {p : Pid} {e : Env} (h : p.Finite) (hc : e.cur.IsNum) (hs : e.sign.IsNum) :
    (p.error e).IsNum := by
  obtain ⟨a, ha⟩ := h.par.max
  obtain ⟨b, hb⟩ := h.par.min
  unfold Pid.error
  apply IsNum.div
  · exact ((hs.mul (isNum_ofNat 100)).mul (h.set.sub hc))
  · apply IsNum.sub
    · exact IsNum.ite (h.par.min.add (isNum_ofNat 1)) h.par.max
    · exact h.par.min
  · rw [ha, hb]
    simp only [eq_num, decide_eq_true_eq]
    split
    · have : (num b + 1 - num b : Fl) = num (b + 1 - b) := rfl
      rw [this]
      intro he
      injection he with he
      simp at he
    · rename_i hne
      rw [sub_num]
      intro he
      injection he with he
      exact hne (sub_eq_zero.1 he)

theorem recalc_finite {p : Pid} {e : Env} (h : p.Finite) (hc : e.cur.IsNum) (hs : e.sign.IsNum) :
    (p.recalc e).Finite := by
  obtain ⟨hdt, hdt0⟩ := dt_num h
  obtain ⟨hti, hti0⟩ := ti_num h
  have hk : (if p.usedPar = 2 then p.par.k2 else p.par.k).IsNum := IsNum.ite h.par.k2 h.par.k
  have htd : (if p.usedPar = 2 then p.par.td2 else p.par.td).IsNum := IsNum.ite h.par.td2 h.par.td
  have hek := error_num h hc hs
  have h1 := isNum_ofNat 1
  have h2 := isNum_ofNat 2
  have hu : (clamp100 (p.uk1 + ((if p.usedPar = 2 then p.par.k2 else p.par.k) *
      (1 + (if p.usedPar = 2 then p.par.td2 else p.par.td) / p.dtSec) * p.error e +
      (if p.usedPar = 2 then p.par.k2 else p.par.k) *
      (-1 - 2 * (if p.usedPar = 2 then p.par.td2 else p.par.td) / p.dtSec + 2 * p.dtSec / p.tiSec) *
        p.ek1 +
      (if p.usedPar = 2 then p.par.k2 else p.par.k) *
        (if p.usedPar = 2 then p.par.td2 else p.par.td) / p.dtSec * p.ek2))).IsNum := by
    apply clamp100_num
    apply h.uk1.add
    apply IsNum.add
    · apply IsNum.add
      · exact (hk.mul (h1.add (htd.div hdt hdt0))).mul hek
      · exact (hk.mul ((h1.neg.sub ((h2.mul htd).div hdt hdt0)).add ((h2.mul hdt).div hti hti0))).mul
          h.ek1
    · exact ((hk.mul htd).div hdt hdt0).mul h.ek2
  unfold Pid.recalc
  refine ⟨h.par, hu, hek, h.ek1, ?_, h.out, h.set, h.start⟩
  simp only
  split
  · rename_i hlt
    have hr : ((100 : Fl) * num ((e.now - p.startTime : Nat) : Rat) /
        num ((1000 * e.toUInt p.par.accelerationTime : Nat) : Rat)).IsNum := by
      apply IsNum.div ((isNum_ofNat 100).mul (isNum_num _)) (isNum_num _)
      intro he
      injection he with he
      have : 1000 * e.toUInt p.par.accelerationTime = 0 := by exact_mod_cast he
      omega
    exact IsNum.ite (IsNum.ite (h.start.add hr) hu) (IsNum.ite (h.start.sub hr) hu)
  · exact hu

theorem enter_finite {p : Pid} (h : p.Finite) : p.enterManual.Finite := by
  unfold Pid.enterManual
  split
  · exact ⟨{ h.par with uman := h.out }, h.uk1, h.ek1, h.ek2, h.uk, h.out, h.set, h.start⟩
  · exact h

theorem reset_finite {p : Pid} (h : p.Finite) (now : Nat) : (p.reset now).Finite :=
  ⟨{ h.par with man := isNum_ofNat 0 }, isNum_ofNat 0, isNum_ofNat 0, isNum_ofNat 0, rest_num _,
    rest_num _, h.set, rest_num _⟩

/-- The regulator before the manual mode is looked at. -/
def Pid.beforeManual (p : Pid) (e : Env) : Pid :=
  if Fl.lt (p.dtSec * 1000) (.num (e.now - p.lastTime : Nat)) then p.recalc e else p

theorem before_finite {p : Pid} {e : Env} (h : p.Finite) (hc : e.cur.IsNum) (hs : e.sign.IsNum) :
    (p.beforeManual e).Finite := by
  unfold Pid.beforeManual
  split
  · exact recalc_finite h hc hs
  · exact h

theorem before_par (p : Pid) (e : Env) :
    (p.beforeManual e).par = p.par ∧ (p.beforeManual e).prevManual = p.prevManual := by
  unfold Pid.beforeManual
  split
  · exact ⟨rfl, rfl⟩
  · exact ⟨rfl, rfl⟩

theorem eval_eq (p : Pid) (e : Env) (h : p.st ≠ .off) :
    p.eval e =
      let p2 := (p.beforeManual e).enterManual
      if p2.par.isManual.eq 0 && p2.prevManual then
        let p3 := ({ p2 with prevManual := false } : Pid).reset e.now
        let v := p3.par.uManual
        ({ p3 with startTime := e.now, startValue := v, out := v }, v)
      else
        let u := limit p2.par.outMin p2.par.outMax p2.uk
        let out := if p2.par.isManual.eq 1 then p2.par.uManual else u
        ({ p2 with uk := u, out := out }, out) := by
  unfold Pid.eval Pid.beforeManual
  rw [if_neg h]

theorem enter_limits (p : Pid) :
    p.enterManual.par.outMin = p.par.outMin ∧ p.enterManual.par.outMax = p.par.outMax ∧
      p.enterManual.par.isManual = p.par.isManual := by
  unfold Pid.enterManual
  split <;> exact ⟨rfl, rfl, rfl⟩

theorem eval_regulated (p : Pid) (e : Env) (hst : p.st ≠ .off)
    (hman : p.par.isManual.eq 1 = false)
    (hl : ¬ (p.prevManual = true ∧ p.par.isManual.eq 0 = true)) :
    (p.eval e).2 = limit p.par.outMin p.par.outMax (p.beforeManual e).enterManual.uk := by
  have hb := before_par p e
  have hlim := enter_limits (p.beforeManual e)
  have hpm : ¬ (((p.beforeManual e).enterManual.par.isManual.eq 0 &&
      (p.beforeManual e).enterManual.prevManual) = true) := by
    intro hh
    rw [Bool.and_eq_true] at hh
    obtain ⟨h0, h1⟩ := hh
    rw [hlim.2.2, hb.1] at h0
    have h1' : (p.beforeManual e).enterManual.prevManual = p.prevManual := by
      unfold Pid.enterManual
      have : truthy (p.beforeManual e).par.isManual = false := by
        rw [hb.1]; simp [truthy, h0]
      rw [this]
      simpa using hb.2
    rw [h1'] at h1
    exact hl ⟨h1, h0⟩
  have hman' : ¬ ((p.beforeManual e).enterManual.par.isManual.eq 1 = true) := by
    rw [hlim.2.2, hb.1, hman]; simp
  rw [eval_eq p e hst]
  dsimp only
  rw [if_neg hpm]
  dsimp only
  rw [if_neg hman', hlim.1, hlim.2.1, hb.1]

theorem eval_finite {p : Pid} {e : Env} (h : p.Finite) (hc : e.cur.IsNum) (hs : e.sign.IsNum) :
    (p.eval e).1.Finite ∧ (p.eval e).2.IsNum := by
  by_cases hst : p.st = .off
  · unfold Pid.eval
    rw [if_pos hst]
    exact ⟨h, rest_num _⟩
  · rw [eval_eq p e hst]
    have h2 := enter_finite (before_finite h hc hs)
    generalize (p.beforeManual e).enterManual = p2 at h2
    simp only
    split
    · have h3 := reset_finite (p := { p2 with prevManual := false })
        ⟨h2.par, h2.uk1, h2.ek1, h2.ek2, h2.uk, h2.out, h2.set, h2.start⟩ e.now
      exact ⟨⟨h3.par, h3.uk1, h3.ek1, h3.ek2, h3.uk, h3.par.uman, h3.set, h3.par.uman⟩, h3.par.uman⟩
    · have hu := limit_num h2.par.omin h2.par.omax h2.uk
      have ho : (if p2.par.isManual.eq 1 = true then p2.par.uManual
        else limit p2.par.outMin p2.par.outMax p2.uk).IsNum := IsNum.ite h2.par.uman hu
      exact ⟨⟨h2.par, h2.uk1, h2.ek1, h2.ek2, hu, ho, h2.set, h2.start⟩, ho⟩

theorem eval_st (p : Pid) (e : Env) : (p.eval e).1.st = p.st ∧ (p.eval e).1.acts = p.acts ∧
    (p.eval e).1.devManual = p.devManual := by
  by_cases h : p.st = .off
  · unfold Pid.eval; rw [if_pos h]; exact ⟨rfl, rfl, rfl⟩
  · rw [eval_eq p e h]
    have h1 : (p.beforeManual e).enterManual.st = p.st ∧
        (p.beforeManual e).enterManual.acts = p.acts ∧
        (p.beforeManual e).enterManual.devManual = p.devManual := by
      have h2 : (p.beforeManual e).st = p.st ∧ (p.beforeManual e).acts = p.acts ∧
          (p.beforeManual e).devManual = p.devManual := by
        unfold Pid.beforeManual
        split <;> exact ⟨rfl, rfl, rfl⟩
      unfold Pid.enterManual
      split <;> exact h2
    dsimp only
    split <;> exact h1

theorem directOn_finite {p : Pid} (h : p.Finite) (now : Nat) : (p.directOn now).Finite := by
  unfold Pid.directOn
  split
  · exact h
  · have h3 := reset_finite (p := { p with startTime := now, lastTime := now })
      ⟨h.par, h.uk1, h.ek1, h.ek2, h.uk, h.out, h.set, h.start⟩ now
    exact ⟨h3.par, h3.uk1, h3.ek1, h3.ek2, h3.uk, h3.out, h3.set, h3.start⟩
  · exact ⟨h.par, h.uk1, h.ek1, h.ek2, h.uk, h.out, h.set, h.start⟩

theorem directOff_finite {p : Pid} (h : p.Finite) (now : Nat) : (p.directOff now).Finite := by
  unfold Pid.directOff
  split
  · have h3 := reset_finite h now
    exact ⟨h3.par, h3.uk1, h3.ek1, h3.ek2, h3.uk, h3.out, h3.set, h3.start⟩
  · exact ⟨h.par, h.uk1, h.ek1, h.ek2, h.uk, h.out, h.set, h.start⟩
  · exact h

theorem setValue_finite {p : Pid} (h : p.Finite) (v : Fl) (e : Env) (hv : v.IsNum)
    (hc : e.cur.IsNum) (hs : e.sign.IsNum) : (p.directSetValue v e).Finite := by
  have h1 : ({ p with set := v } : Pid).Finite :=
    ⟨h.par, h.uk1, h.ek1, h.ek2, h.uk, h.out, hv, h.start⟩
  obtain ⟨h2, h3⟩ := eval_finite h1 hc hs
  unfold Pid.directSetValue
  simp only
  split
  · exact ⟨h2.par, h2.uk1, h2.ek1, h2.ek2, h2.uk, h3, h2.set, h2.start⟩
  · exact ⟨h2.par, h2.uk1, h2.ek1, h2.ek2, h2.uk, h3, h2.set, h2.start⟩

theorem step_finite {p : Pid} (h : p.Finite) (ev : Ev) (hev : ev.Finite) : (p.step ev).Finite := by
  cases ev with
  | on nz now =>
    simp only [Pid.step, Pid.progOn]
    have h1 : ({ p with par := { p.par with isZeroStart := if nz = true then 0 else 1 } } : Pid).Finite :=
      ⟨{ h.par with zero := IsNum.ite (isNum_ofNat 0) (isNum_ofNat 1) }, h.uk1, h.ek1, h.ek2, h.uk,
        h.out, h.set, h.start⟩
    split
    · exact h1
    · exact directOn_finite h1 now
  | off now =>
    simp only [Pid.step, Pid.progOff]
    split
    · exact h
    · exact directOff_finite h now
  | io now =>
    simp only [Pid.step, Pid.evaluateIo, Pid.progOff]
    split
    · split
      · exact h
      · exact directOff_finite h now
    · exact h
  | value v e =>
    simp only [Pid.step]
    split
    · exact h
    · exact setValue_finite h v e hev.1 hev.2.1 hev.2.2
  | opState n now =>
    simp only [Pid.step]
    split
    · exact directOff_finite h now
    · split
      · exact directOn_finite h now
      · exact h
  | opValue v e => exact setValue_finite h v e hev.1 hev.2.1 hev.2.2
  | opManual b => exact ⟨h.par, h.uk1, h.ek1, h.ek2, h.uk, h.out, h.set, h.start⟩
  | param f => exact ⟨hev _ h.par, h.uk1, h.ek1, h.ek2, h.uk, h.out, h.set, h.start⟩

theorem run_finite {p : Pid} (h : p.Finite) (es : List Ev) (hes : ∀ ev ∈ es, ev.Finite) :
    (p.run es).Finite := by
  induction es generalizing p with
  | nil => exact h
  | cons ev es ih =>
    exact ih (step_finite h ev (hes ev List.mem_cons_self)) fun x hx => hes x (List.mem_cons_of_mem _ hx)

theorem init_finite (par : Params) (h : par.Finite) (now : Nat) : (Pid.init par now).Finite :=
  ⟨h, isNum_ofNat 0, isNum_ofNat 0, isNum_ofNat 0, isNum_ofNat 0, isNum_ofNat 0, isNum_ofNat 0,
    isNum_ofNat 0⟩

theorem setValue_st (p : Pid) (v : Fl) (e : Env) (h : p.st ≠ .off) :
    (p.directSetValue v e).st = p.st ∧
    (p.directSetValue v e).acts.count .off = p.acts.count .off ∧
    (p.directSetValue v e).devManual = p.devManual := by
  have h1 := eval_st { p with set := v } e
  simp only at h1
  unfold Pid.directSetValue
  have hne : ¬ ((Pid.eval { p with set := v } e).1.st = .off) := by rw [h1.1]; exact h
  simp only [hne, if_false]
  refine ⟨h1.1, ?_, h1.2.2⟩
  rw [h1.2.1, List.count_cons_of_ne (by simp), List.count_cons_of_ne (by simp)]

theorem neutral_st (p : Pid) (es : List Ev) (h : ∀ ev ∈ es, ev.Neutral) (hst : p.st ≠ .off) :
    (p.run es).st = p.st ∧ (p.run es).acts.count .off = p.acts.count .off ∧
      (p.run es).devManual = p.devManual := by
  induction es generalizing p with
  | nil => exact ⟨rfl, rfl, rfl⟩
  | cons ev es ih =>
    have hn := h ev List.mem_cons_self
    have hs : (p.step ev).st = p.st ∧ (p.step ev).acts.count .off = p.acts.count .off ∧
        (p.step ev).devManual = p.devManual := by
      cases ev with
      | value v e =>
        simp only [Pid.step]
        split
        · exact ⟨rfl, rfl, rfl⟩
        · exact setValue_st p v e hst
      | opValue v e => exact setValue_st p v e hst
      | param f => exact ⟨rfl, rfl, rfl⟩
      | on _ _ => exact hn.elim
      | off _ => exact hn.elim
      | io _ => exact hn.elim
      | opState _ _ => exact hn.elim
      | opManual _ => exact hn.elim
    have := ih (p.step ev) (fun x hx => h x (List.mem_cons_of_mem _ hx)) (by rw [hs.1]; exact hst)
    exact ⟨this.1.trans hs.1, this.2.1.trans hs.2.1, this.2.2.trans hs.2.2⟩

theorem offOrIo_st (p : Pid) (es : List Ev) (h : ∀ ev ∈ es, ev.OffOrIo) (hst : p.st = .off) :
    p.run es = p := by
  induction es with
  | nil => rfl
  | cons ev es ih =>
    have hn := h ev List.mem_cons_self
    have hs : p.step ev = p := by
      cases ev with
      | off now => simp [Pid.step, Pid.progOff, Pid.directOff, hst]
      | io now => simp [Pid.step, Pid.evaluateIo, hst]
      | value _ _ => exact hn.elim
      | opValue _ _ => exact hn.elim
      | param _ => exact hn.elim
      | on _ _ => exact hn.elim
      | opState _ _ => exact hn.elim
      | opManual _ => exact hn.elim
    have hrun : p.run (ev :: es) = (p.step ev).run es := rfl
    rw [hrun, hs]
    exact ih fun x hx => h x (List.mem_cons_of_mem _ hx)

end Ptusa.Regulator
