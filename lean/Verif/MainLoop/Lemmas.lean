import Verif.MainLoop.Spec
import Verif.Coupler.Props

/-!
# Lemmas about the main loop
-/
namespace Ptusa.MainLoop

open Tcp (Byte Buf)
open Coupler (Node Net readDi writeDo SetsBits bytesOf talk)
open Device (Prog Oper toInt32)

/-- The byte of an output. -/
def byteOf (b : Bool) : Byte := if b then 1 else 0

/-- Change of what is asked of one device. -/
def upd (W : Nat → Want) (d : Nat) (w : Want) : Nat → Want := fun x => if x = d then w else W x

/-- One command. -/
def absStep (W : Nat → Want) (x : Nat × Cmd) : Nat → Want := upd W x.1 ((W x.1).step x.2)

/-- Commands in turn. -/
def absRun (W : Nat → Want) (l : List (Nat × Cmd)) : Nat → Want := l.foldl absStep W

theorem absRun_append (W : Nat → Want) (l l' : List (Nat × Cmd)) : absRun W (l ++ l') = absRun (absRun W l) l' := by
  simp [absRun]

theorem absRun_at (l : List (Nat × Cmd)) : ∀ (W : Nat → Want) (d : Nat),
    absRun W l d = (cmdsFor d l).foldl Want.step (W d) := by
  induction l with
  | nil => intro W d; rfl
  | cons x l ih =>
    intro W d
    show absRun (absStep W x) l d = _
    rw [ih]
    by_cases h : x.1 = d
    · have e1 : absStep W x d = (W d).step x.2 := by simp [absStep, upd, h]
      rw [e1]
      simp [cmdsFor, h]
    · have e1 : absStep W x d = W d := by
        show (if d = x.1 then _ else _) = _
        rw [if_neg (fun e => h e.symm)]
      rw [e1]
      simp [cmdsFor, h]

theorem absRun_wanted (l : List (Nat × Cmd)) (d : Nat) : absRun (fun _ => {}) l d = wanted (cmdsFor d l) := absRun_at l _ d

/-- The state against what is asked. -/
structure Inv (cfg : Cfg) (nodes : Nat → Node) (s : Sys) (W : Nat → Want) : Prop where
  cnt : ∀ k, (s.nodes k).doCnt = (nodes k).doCnt ∧ (s.nodes k).diCnt = (nodes k).diCnt
  man : ∀ d, s.manual d = (W d).manual
  out : ∀ d, Wired cfg nodes d → (s.nodes (cfg.place d).1).dReq (cfg.place d).2 = byteOf (W d).on
  rest : ∀ k i, (∀ d, Wired cfg nodes d → cfg.place d ≠ (k, i)) → (s.nodes k).dReq i = 0

variable {cfg : Cfg} {nodes : Nat → Node}

theorem inv_init (nodes : Nat → Node) (buf : Buf) : Inv cfg nodes (Sys.init nodes buf) fun _ => {} :=
  ⟨fun _ => ⟨rfl, rfl⟩, fun _ => rfl, fun _ _ => rfl, fun _ _ _ => rfl⟩

theorem inv_output {s : Sys} {W : Nat → Want} (hi : Inv cfg nodes s W) (ha : Apart cfg) (d : Nat) (f : Byte → Byte) (b : Bool)
    (hf : f (byteOf (W d).on) = byteOf b) :
    Inv cfg nodes (s.output cfg d f) (upd W d { W d with on := b }) := by
  have hman : ∀ x, (upd W d { W d with on := b } x).manual = (W x).manual := by
    intro x
    unfold upd
    split
    · rename_i h; rw [h]
    · rfl
  by_cases hw : (cfg.place d).1 < cfg.n ∧ (cfg.place d).2 < (s.nodes (cfg.place d).1).doCnt
  · have hwd : Wired cfg nodes d := ⟨hw.1, by rw [← (hi.cnt _).1]; exact hw.2⟩
    have ho : s.output cfg d f = { s with nodes := fun k => (if k = (cfg.place d).1 then
          { s.nodes k with dReq := fun i => if i = (cfg.place d).2 then f ((s.nodes k).dReq i) else (s.nodes k).dReq i }
          else s.nodes k) } := by
      unfold Sys.output
      rw [if_pos hw]
    rw [ho]
    refine ⟨?_, fun x => (hi.man x).trans (hman x).symm, ?_, ?_⟩
    · intro k
      dsimp only
      split
      · exact hi.cnt k
      · exact hi.cnt k
    · intro x hx
      dsimp only
      by_cases hxd : x = d
      · subst hxd
        simp only [if_true, upd]
        rw [hi.out x hx]
        exact hf
      · have hne : cfg.place x ≠ cfg.place d := fun e => hxd (ha _ _ e)
        have e1 : upd W d { W d with on := b } x = W x := if_neg hxd
        rw [e1, ← hi.out x hx]
        split
        · rename_i h1
          dsimp only
          rw [if_neg]
          intro h2
          exact hne (Prod.ext h1 h2)
        · rfl
    · intro k i hk
      dsimp only
      have hne := hk d hwd
      split
      · rename_i h1
        dsimp only
        rw [if_neg]
        · exact hi.rest k i hk
        · intro h2
          exact hne (Prod.ext h1.symm h2.symm)
      · exact hi.rest k i hk
  · have ho : s.output cfg d f = s := by
      unfold Sys.output
      rw [if_neg hw]
    have hwd : ¬Wired cfg nodes d := fun h => hw ⟨h.1, by rw [(hi.cnt _).1]; exact h.2⟩
    rw [ho]
    refine ⟨hi.cnt, fun x => (hi.man x).trans (hman x).symm, ?_, hi.rest⟩
    intro x hx
    have hxd : x ≠ d := fun e => hwd (e ▸ hx)
    have e1 : upd W d { W d with on := b } x = W x := if_neg hxd
    rw [e1]
    exact hi.out x hx

theorem upd_same (W : Nat → Want) (d : Nat) : upd W d (W d) = W := by
  funext x
  unfold upd
  split
  · rename_i h; rw [h]
  · rfl

theorem kind_on (k : Kind) (b : Bool) : k.on (byteOf b) = byteOf true := by
  cases k <;> cases b <;> rfl

theorem kind_off (k : Kind) (b : Bool) : k.off (byteOf b) = byteOf false := by
  cases k <;> cases b <;> rfl

theorem motor_set (n : Int) (b : Bool) : Kind.set .motor n (byteOf b) = byteOf (decide (n ≠ 0)) := by
  unfold Kind.set
  by_cases h : n = 0
  · simp only [h, ne_eq, not_true_eq_false, if_false, decide_false]
    exact kind_off .motor b
  · simp only [h, ne_eq, not_false_eq_true, if_true, decide_true]
    exact kind_on .motor b

theorem inv_prog {s : Sys} {W : Nat → Want} (hi : Inv cfg nodes s W) (ha : Apart cfg) (x : Nat × Prog)
    (ho : cfg.kind x.1 = .signal → (Cmd.prog x.2).isState = false) :
    Inv cfg nodes (s.prog cfg x) (absStep W (x.1, .prog x.2)) := by
  obtain ⟨d, p⟩ := x
  show Inv cfg nodes (if s.manual d then s else s.output cfg d fun o => (cfg.kind d).obey o p)
    (upd W d ((W d).step (.prog p)))
  have hm := hi.man d
  cases hmd : (W d).manual with
  | true =>
    rw [hmd] at hm
    have e : (W d).step (.prog p) = W d := by
      show (if (W d).manual = true then W d else _) = W d
      rw [if_pos hmd]
    rw [if_pos hm, e, upd_same]
    exact hi
  | false =>
    rw [hmd] at hm
    rw [if_neg (by rw [hm]; decide)]
    have e : ∀ w, (if (W d).manual = true then W d else w) = w := fun w => if_neg (by rw [hmd]; decide)
    have hb : ∃ b, (W d).step (.prog p) = { W d with on := b } ∧ (cfg.kind d).obey (byteOf (W d).on) p = byteOf b := by
      cases p with
      | on => exact ⟨true, e _, kind_on _ _⟩
      | off => exact ⟨false, e _, kind_off _ _⟩
      | instantOff => exact ⟨false, e _, kind_off _ _⟩
      | setState n =>
        refine ⟨decide (n ≠ 0), e _, ?_⟩
        cases hk : cfg.kind d with
        | signal => exact absurd (ho hk) (by simp [Cmd.isState])
        | motor => exact motor_set n _
      | setValue v => exact ⟨(W d).on, e _, rfl⟩
    obtain ⟨b, h1, h2⟩ := hb
    rw [h1]
    exact inv_output hi ha d _ b h2

theorem inv_oper {s s' : Sys} {W : Nat → Want} (hi : Inv cfg nodes s W) (ha : Apart cfg) (x : Nat × Oper)
    (ho : cfg.kind x.1 = .signal → (Cmd.oper x.2).isState = false) (hs : s.oper cfg x = some s') :
    Inv cfg nodes s' (absStep W (x.1, .oper x.2)) := by
  obtain ⟨d, o⟩ := x
  cases o with
  | S v =>
    simp only [Sys.oper, Option.map_eq_some_iff] at hs
    obtain ⟨n, hn, rfl⟩ := hs
    show Inv cfg nodes _ (upd W d { W d with on := decide (toInt32 v ≠ some 0) })
    have hd : decide (toInt32 v ≠ some 0) = decide (n ≠ 0) := by
      rw [hn]
      simp
    rw [hd]
    refine inv_output hi ha d _ _ ?_
    cases hk : cfg.kind d with
    | signal => exact absurd (ho hk) (by simp [Cmd.isState])
    | motor => exact motor_set n _
  | V v =>
    cases hs
    show Inv cfg nodes s (upd W d (W d))
    rw [upd_same]
    exact hi
  | M v =>
    have hcase : ∀ b, s' = { s with manual := fun x => if x = d then b else s.manual x } →
        Inv cfg nodes s' (upd W d { W d with manual := b }) := by
      rintro b rfl
      refine ⟨hi.cnt, ?_, ?_, hi.rest⟩
      · intro x
        dsimp only [upd]
        split
        · rfl
        · exact hi.man x
      · intro x hx
        have : (upd W d { W d with manual := b } x).on = (W x).on := by
          unfold upd
          split
          · rename_i h; rw [h]
          · rfl
        rw [this]
        exact hi.out x hx
    show Inv cfg nodes s' (upd W d (if v = .num 0 then _ else if v = .num 1 then _ else W d))
    simp only [Sys.oper] at hs
    have heq : ∀ q : Rat, v.eq (.num q) = true ↔ v = .num q := by
      intro q
      cases v <;> simp
    simp only [heq] at hs
    by_cases h0 : v = .num 0
    · rw [if_pos h0] at hs ⊢
      exact hcase false (by cases hs; rfl)
    · by_cases h1 : v = .num 1
      · rw [if_neg h0, if_pos h1] at hs ⊢
        exact hcase true (by cases hs; rfl)
      · rw [if_neg h0, if_neg h1] at hs ⊢
        cases hs
        rw [upd_same]
        exact hi

theorem onOff_cons {x : Nat × Cmd} {l : List (Nat × Cmd)} (h : OnOff cfg (x :: l)) :
    (cfg.kind x.1 = .signal → x.2.isState = false) ∧ OnOff cfg l :=
  ⟨h x (List.mem_cons_self ..), fun y hy => h y (List.mem_cons_of_mem _ hy)⟩

theorem onOff_append {l l' : List (Nat × Cmd)} : OnOff cfg (l ++ l') ↔ OnOff cfg l ∧ OnOff cfg l' := by
  simp only [OnOff, List.mem_append]
  exact ⟨fun h => ⟨fun x hx => h x (Or.inl hx), fun x hx => h x (Or.inr hx)⟩,
    fun h x hx => hx.elim (h.1 x) (h.2 x)⟩

theorem inv_progs (ha : Apart cfg) (l : List (Nat × Prog)) : ∀ {s : Sys} {W : Nat → Want}, Inv cfg nodes s W →
    OnOff cfg (l.map fun x => (x.1, Cmd.prog x.2)) →
    Inv cfg nodes (l.foldl (Sys.prog cfg) s) (absRun W (l.map fun x => (x.1, .prog x.2))) := by
  induction l with
  | nil => intro s W hi _; exact hi
  | cons x l ih =>
    intro s W hi ho
    obtain ⟨h1, h2⟩ := onOff_cons ho
    exact ih (inv_prog hi ha x h1) h2

theorem inv_opers (ha : Apart cfg) (l : List (Nat × Oper)) : ∀ {s s' : Sys} {W : Nat → Want}, Inv cfg nodes s W →
    OnOff cfg (l.map fun x => (x.1, Cmd.oper x.2)) → s.opers cfg l = some s' →
    Inv cfg nodes s' (absRun W (l.map fun x => (x.1, .oper x.2))) := by
  induction l with
  | nil => intro s s' W hi _ hs; cases hs; exact hi
  | cons x l ih =>
    intro s s' W hi ho hs
    obtain ⟨h1, h2⟩ := onOff_cons ho
    simp only [Sys.opers, Option.bind_eq_some_iff] at hs
    obtain ⟨s1, hs1, hs2⟩ := hs
    exact ih (inv_oper hi ha x h1 hs1) h2 hs2

theorem inv_reqs (ha : Apart cfg) (ctl : Bool) (l : List Req) : ∀ {s : Sys} {W : Nat → Want}, Inv cfg nodes s W →
    OnOff cfg (if ctl then l.filterMap Req.cmd else []) →
    Inv cfg nodes (s.reqs cfg ctl l).1 (absRun W (if ctl then l.filterMap Req.cmd else [])) := by
  induction l with
  | nil => intro s W hi _; cases ctl <;> exact hi
  | cons r l ih =>
    intro s W hi ho
    show Inv cfg nodes (((s.req cfg ctl r).1.reqs cfg ctl l).1) _
    cases ctl with
    | false =>
      have e : (s.req cfg false r).1 = s := by
        cases r with
        | writeState d v => cases v <;> rfl
        | writeValue d v => cases v <;> rfl
        | readState d => rfl
      rw [e]
      exact ih hi (fun x hx => by simp at hx)
    | true =>
      simp only [if_true] at ho ih ⊢
      cases hr : r.cmd with
      | none =>
        have e : (s.req cfg true r).1 = s := by
          cases r with
          | writeState d v => cases v with
            | none => rfl
            | some n => simp [Req.cmd] at hr
          | writeValue d v => cases v with
            | none => rfl
            | some n => simp [Req.cmd] at hr
          | readState d => rfl
        rw [e]
        rw [List.filterMap_cons_none hr] at ho ⊢
        exact ih hi ho
      | some y =>
        rw [List.filterMap_cons_some hr] at ho ⊢
        obtain ⟨h1, h2⟩ := onOff_cons ho
        have e : ∃ p : Nat × Prog, y = (p.1, .prog p.2) ∧ (s.req cfg true r).1 = s.prog cfg p := by
          cases r with
          | writeState d v => cases v with
            | none => simp [Req.cmd] at hr
            | some n => simp only [Req.cmd, Option.some.injEq] at hr; exact ⟨(d, .setState n), hr.symm, rfl⟩
          | writeValue d v => cases v with
            | none => simp [Req.cmd] at hr
            | some n => simp only [Req.cmd, Option.some.injEq] at hr; exact ⟨(d, .setValue n), hr.symm, rfl⟩
          | readState d => simp [Req.cmd] at hr
        obtain ⟨p, rfl, e⟩ := e
        rw [e]
        exact ih (inv_prog hi ha p h1) h2

theorem inv_serve (ha : Apart cfg) {s s' : Sys} {W : Nat → Want} (hi : Inv cfg nodes s W) (c : Cycle) {as : List Ans}
    (ho : OnOff cfg c.second) (hs : s.serve cfg c = some (s', as)) : Inv cfg nodes s' (absRun W c.second) := by
  unfold Cycle.second at ho ⊢
  rw [onOff_append, onOff_append] at ho
  obtain ⟨⟨h1, h2⟩, h3⟩ := ho
  simp only [Sys.serve, Option.map_eq_some_iff, Prod.mk.injEq] at hs
  obtain ⟨s1, hs1, rfl, -⟩ := hs
  rw [absRun_append, absRun_append]
  exact inv_progs ha _ (inv_reqs ha _ _ (inv_opers ha _ hi h1 hs1) h2) h3

/-! ### Reading and writing -/

theorem small_bytes {nd : Node} (h : nd.doCnt ≤ 255 ∧ nd.diCnt ≤ 255) : bytesOf nd.diCnt ≤ 253 ∧ bytesOf nd.doCnt ≤ 249 := by
  unfold bytesOf
  constructor <;> split <;> omega

/-- Only inputs and the connection of a node change when it is read. -/
theorem readDi_keeps (b : Buf) (nd : Node) (e : Net) (h : nd.doCnt ≤ 255 ∧ nd.diCnt ≤ 255) :
    ∃ x nd', readDi b nd e = some (x, nd') ∧ nd' = { nd with link := (talk nd.link nd.num e).link, di := nd'.di } := by
  rw [Coupler.readDi_eq b nd e (small_bytes h).1]
  refine ⟨_, _, rfl, ?_⟩
  split <;> split <;> rfl

/-- Two nodes that differ in inputs and connection only. -/
def Alike (a b : Node) : Prop := b = { a with link := b.link, di := b.di }

theorem alike_refl (a : Node) : Alike a a := rfl

theorem read_some (ev : Nat → Net) (m : Nat) (s : Sys) (hs : Small s.nodes) :
    ∃ s', s.read ev m = some s' ∧ s'.manual = s.manual ∧ s'.running = s.running ∧ (∀ k, Alike (s.nodes k) (s'.nodes k)) ∧
      (∀ k, m ≤ k → s'.nodes k = s.nodes k) ∧
      (∀ k, k < m → if 0 < (s.nodes k).diCnt then ∃ b x, readDi b (s.nodes k) (ev k) = some (x, s'.nodes k)
        else s'.nodes k = s.nodes k) := by
  induction m with
  | zero => exact ⟨s, rfl, rfl, rfl, fun k => alike_refl _, fun _ _ => rfl, fun k hk => by omega⟩
  | succ m ih =>
    obtain ⟨s1, h1, h2, h3, h4, h5, h6⟩ := ih
    have hm : s1.nodes m = s.nodes m := h5 m (Nat.le_refl _)
    by_cases hc : 0 < (s.nodes m).diCnt
    · obtain ⟨x, nd', hx, hn⟩ := readDi_keeps s1.buf (s.nodes m) (ev m) (hs m)
      refine ⟨{ s1 with buf := x.buf, nodes := fun k => if k = m then nd' else s1.nodes k }, ?_, h2, h3, ?_, ?_, ?_⟩
      · show (s.read ev m).bind _ = _
        rw [h1]
        show (if 0 < (s1.nodes m).diCnt then _ else _) = _
        rw [hm, if_pos hc, hx]
        rfl
      · intro k
        dsimp only
        split
        · rename_i hk
          rw [hk, Alike]
          rw [hn]
        · exact h4 k
      · intro k hk
        dsimp only
        rw [if_neg (by omega)]
        exact h5 k (by omega)
      · intro k hk
        dsimp only
        by_cases hkm : k = m
        · rw [if_pos hkm, hkm, if_pos hc]
          exact ⟨_, _, hx⟩
        · rw [if_neg hkm]
          exact h6 k (by omega)
    · refine ⟨s1, ?_, h2, h3, h4, fun k hk => h5 k (by omega), ?_⟩
      · show (s.read ev m).bind _ = _
        rw [h1]
        show (if 0 < (s1.nodes m).diCnt then _ else _) = _
        rw [hm, if_neg hc]
      · intro k hk
        by_cases hkm : k = m
        · rw [hkm, if_neg hc, hm]
        · exact h6 k (by omega)

/-- Two nodes that differ in what was confirmed and in the connection only. -/
def AlikeOut (a b : Node) : Prop := b = { a with link := b.link, dCur := b.dCur }

theorem write_some (ev : Nat → Net) (m : Nat) (s : Sys) (hs : Small s.nodes) :
    ∃ s' sent, s.write ev m = some (s', sent) ∧ s'.manual = s.manual ∧ s'.running = s.running ∧
      (∀ k, AlikeOut (s.nodes k) (s'.nodes k)) ∧ (∀ k, m ≤ k → s'.nodes k = s.nodes k) ∧
      (∀ q ∈ sent, q.1 < m ∧ SetsBits q.2 (s.nodes q.1).doCnt fun i => ((s.nodes q.1).dReq i).getLsbD 0) ∧
      (∀ k, k < m → 0 < (s.nodes k).doCnt → (s.nodes k).link.ok = true → Coupler.Confirms 0x0F (ev k) →
        ∃ req, sent.filter (fun q => q.1 == k) = [(k, req)]) := by
  induction m with
  | zero => exact ⟨s, [], rfl, rfl, rfl, fun k => rfl, fun _ _ => rfl, fun q hq => by simp at hq, fun k hk => by omega⟩
  | succ m ih =>
    obtain ⟨s1, sent, h1, h2, h3, h4, h5, h6, h7⟩ := ih
    have hm : s1.nodes m = s.nodes m := h5 m (Nat.le_refl _)
    have hnone : sent.filter (fun q => q.1 == m) = [] := by
      rw [List.filter_eq_nil_iff]
      intro q hq
      have := (h6 q hq).1
      simp only [beq_iff_eq]
      omega
    by_cases hc : 0 < (s.nodes m).doCnt
    · obtain ⟨x, nd', hx, y1, y2, y3, -, -, y6⟩ := Coupler.C75_digital_partial s1.buf (s.nodes m) (ev m) (hs m).1
      refine ⟨{ s1 with buf := x.buf, nodes := fun k => if k = m then nd' else s1.nodes k },
        sent ++ x.sent.map fun q => (m, q), ?_, h2, h3, ?_, ?_, ?_, ?_⟩
      · show (s.write ev m).bind _ = _
        rw [h1]
        show (if 0 < (s1.nodes m).doCnt then _ else _) = _
        rw [hm, if_pos hc, hx]
        rfl
      · intro k
        dsimp only
        split
        · rename_i hk
          rw [hk, AlikeOut]
          rw [y6]
        · exact h4 k
      · intro k hk
        dsimp only
        rw [if_neg (by omega)]
        exact h5 k (by omega)
      · intro q hq
        rw [List.mem_append] at hq
        rcases hq with hq | hq
        · exact ⟨by have := (h6 q hq).1; omega, (h6 q hq).2⟩
        · rw [List.mem_map] at hq
          obtain ⟨r, hr, rfl⟩ := hq
          exact ⟨Nat.lt_succ_self m, y1 r hr⟩
      · intro k hk hk0 hok hcf
        rw [List.filter_append]
        by_cases hkm : k = m
        · subst hkm
          rw [hnone, List.nil_append]
          obtain ⟨hl, -⟩ := y3 hok hcf
          obtain ⟨r, hr⟩ := List.length_eq_one_iff.1 hl
          rw [hr]
          exact ⟨r, by simp⟩
        · obtain ⟨r, hr⟩ := h7 k (by omega) hk0 hok hcf
          refine ⟨r, ?_⟩
          rw [hr]
          have : (x.sent.map fun q => (m, q)).filter (fun q => q.1 == k) = [] := by
            rw [List.filter_eq_nil_iff]
            intro q hq
            rw [List.mem_map] at hq
            obtain ⟨r, -, rfl⟩ := hq
            simp only [beq_iff_eq]
            omega
          rw [this, List.append_nil]
    · refine ⟨s1, sent, ?_, h2, h3, h4, fun k hk => h5 k (by omega), ?_, ?_⟩
      · show (s.write ev m).bind _ = _
        rw [h1]
        show (if 0 < (s1.nodes m).doCnt then _ else _) = _
        rw [hm, if_neg hc]
      · intro q hq
        exact ⟨by have := (h6 q hq).1; omega, (h6 q hq).2⟩
      · intro k hk hk0 hok hcf
        by_cases hkm : k = m
        · subst hkm
          exact absurd hk0 hc
        · exact h7 k (by omega) hk0 hok hcf

theorem small_of_cnt {s : Sys} {W : Nat → Want} (hi : Inv cfg nodes s W) (hs : Small nodes) : Small s.nodes := by
  intro k
  rw [(hi.cnt k).1, (hi.cnt k).2]
  exact hs k

theorem inv_alike {s s' : Sys} {W : Nat → Want} (hi : Inv cfg nodes s W) (hm : s'.manual = s.manual)
    (h : ∀ k, (s'.nodes k).doCnt = (s.nodes k).doCnt ∧ (s'.nodes k).diCnt = (s.nodes k).diCnt ∧
      (s'.nodes k).dReq = (s.nodes k).dReq) : Inv cfg nodes s' W := by
  refine ⟨fun k => ?_, fun d => ?_, fun d hd => ?_, fun k i hk => ?_⟩
  · rw [(h k).1, (h k).2.1]; exact hi.cnt k
  · rw [hm]; exact hi.man d
  · rw [(h _).2.2]; exact hi.out d hd
  · rw [(h k).2.2]; exact hi.rest k i hk

theorem alike_parts {a b : Node} (h : Alike a b) : b.doCnt = a.doCnt ∧ b.diCnt = a.diCnt ∧ b.dReq = a.dReq := by
  rw [h]
  exact ⟨rfl, rfl, rfl⟩

theorem alikeOut_parts {a b : Node} (h : AlikeOut a b) :
    b.doCnt = a.doCnt ∧ b.diCnt = a.diCnt ∧ b.dReq = a.dReq ∧ b.di = a.di := by
  rw [h]
  exact ⟨rfl, rfl, rfl, rfl⟩

theorem progs_nodes (l : List (Nat × Prog)) : ∀ (s : Sys) (k : Nat),
    ((l.foldl (Sys.prog cfg) s).nodes k).link = (s.nodes k).link ∧ ((l.foldl (Sys.prog cfg) s).nodes k).di = (s.nodes k).di ∧
    (l.foldl (Sys.prog cfg) s).running = s.running := by
  induction l with
  | nil => intro s k; exact ⟨rfl, rfl, rfl⟩
  | cons x l ih =>
    intro s k
    have h : ((s.prog cfg x).nodes k).link = (s.nodes k).link ∧ ((s.prog cfg x).nodes k).di = (s.nodes k).di ∧
        (s.prog cfg x).running = s.running := by
      unfold Sys.prog Sys.output
      split
      · exact ⟨rfl, rfl, rfl⟩
      · dsimp only
        split
        · dsimp only
          refine ⟨?_, ?_, rfl⟩ <;> split <;> rfl
        · exact ⟨rfl, rfl, rfl⟩
    obtain ⟨a, b, c⟩ := ih (s.prog cfg x) k
    exact ⟨a.trans h.1, b.trans h.2.1, c.trans h.2.2⟩

/-- The first part of a pass: what was asked before, then the commands of the program, then the messages. -/
theorem control_some (ha : Apart cfg) (hs : Small nodes) {s : Sys} {W : Nat → Want} (hi : Inv cfg nodes s W) (c : Cycle) :
    ∃ s' inp sent, s.control cfg c = some (s', inp, sent) ∧ s'.running = s.running ∧
      (∀ k, inp k = (s'.nodes k).di) ∧
      (OnOff cfg (c.first inp) → Inv cfg nodes s' (absRun W (c.first inp))) ∧
      (∀ q ∈ sent, q.1 < cfg.n ∧ SetsBits q.2 (nodes q.1).doCnt fun i => ((s'.nodes q.1).dReq i).getLsbD 0) ∧
      (cfg.noIo || cfg.readOnly → sent = []) ∧
      (cfg.noIo = false → ∀ k < cfg.n, 0 < (nodes k).diCnt →
        ∃ b x nd', readDi b (s.nodes k) (c.rd k) = some (x, nd') ∧ nd'.di = inp k ∧
          (cfg.readOnly = false → 0 < (nodes k).doCnt → nd'.link.ok = true → Coupler.Confirms 0x0F (c.wr k) →
            ∃ req, sent.filter (fun q => q.1 == k) = [(k, req)])) ∧
      (cfg.noIo = false → cfg.readOnly = false → ∀ k < cfg.n, (nodes k).diCnt = 0 → 0 < (nodes k).doCnt →
        (s.nodes k).link.ok = true → Coupler.Confirms 0x0F (c.wr k) →
        ∃ req, sent.filter (fun q => q.1 == k) = [(k, req)]) := by
  have hr : ∃ s1, (if cfg.noIo then some s else s.read c.rd cfg.n) = some s1 ∧ s1.manual = s.manual ∧ s1.running = s.running ∧
      (∀ k, Alike (s.nodes k) (s1.nodes k)) ∧
      (cfg.noIo = false → ∀ k, k < cfg.n → if 0 < (s.nodes k).diCnt then
        ∃ b x, readDi b (s.nodes k) (c.rd k) = some (x, s1.nodes k) else s1.nodes k = s.nodes k) := by
    cases hn : cfg.noIo with
    | true => exact ⟨s, rfl, rfl, rfl, fun k => alike_refl _, fun h => by cases h⟩
    | false =>
      obtain ⟨s1, h1, h2, h3, h4, -, h6⟩ := read_some c.rd cfg.n s (small_of_cnt hi hs)
      exact ⟨s1, h1, h2, h3, h4, fun _ => h6⟩
  obtain ⟨s1, h1, h2, h3, h4, h5⟩ := hr
  have hi1 : Inv cfg nodes s1 W := inv_alike hi h2 fun k => alike_parts (h4 k)
  generalize hs2 : (c.prog s1.inputs).foldl (Sys.prog cfg) s1 = s2
  have hp := progs_nodes (cfg := cfg) (c.prog s1.inputs) s1
  rw [hs2] at hp
  have hcnt2 : ∀ k, (s2.nodes k).doCnt = (nodes k).doCnt ∧ (s2.nodes k).diCnt = (nodes k).diCnt := by
    have : ∀ (l : List (Nat × Prog)) (s : Sys) (k : Nat), ((l.foldl (Sys.prog cfg) s).nodes k).doCnt = (s.nodes k).doCnt ∧
        ((l.foldl (Sys.prog cfg) s).nodes k).diCnt = (s.nodes k).diCnt := by
      intro l
      induction l with
      | nil => intro s k; exact ⟨rfl, rfl⟩
      | cons x l ih =>
        intro s k
        have h : ((s.prog cfg x).nodes k).doCnt = (s.nodes k).doCnt ∧ ((s.prog cfg x).nodes k).diCnt = (s.nodes k).diCnt := by
          unfold Sys.prog Sys.output
          split
          · exact ⟨rfl, rfl⟩
          · dsimp only
            split
            · dsimp only
              constructor <;> split <;> rfl
            · exact ⟨rfl, rfl⟩
        obtain ⟨a, b⟩ := ih (s.prog cfg x) k
        exact ⟨a.trans h.1, b.trans h.2⟩
    intro k
    have h := this (c.prog s1.inputs) s1 k
    rw [hs2] at h
    exact ⟨h.1.trans (hi1.cnt k).1, h.2.trans (hi1.cnt k).2⟩
  have hsm2 : Small s2.nodes := fun k => by rw [(hcnt2 k).1, (hcnt2 k).2]; exact hs k
  have hw : ∃ s3 sent, (if cfg.noIo || cfg.readOnly then some (s2, []) else s2.write c.wr cfg.n) = some (s3, sent) ∧
      s3.manual = s2.manual ∧ s3.running = s2.running ∧ (∀ k, AlikeOut (s2.nodes k) (s3.nodes k)) ∧
      (∀ q ∈ sent, q.1 < cfg.n ∧ SetsBits q.2 (s2.nodes q.1).doCnt fun i => ((s2.nodes q.1).dReq i).getLsbD 0) ∧
      (cfg.noIo || cfg.readOnly → sent = []) ∧
      (cfg.noIo = false → cfg.readOnly = false → ∀ k, k < cfg.n → 0 < (s2.nodes k).doCnt → (s2.nodes k).link.ok = true →
        Coupler.Confirms 0x0F (c.wr k) → ∃ req, sent.filter (fun q => q.1 == k) = [(k, req)]) := by
    cases hn : cfg.noIo || cfg.readOnly with
    | true =>
      refine ⟨s2, [], rfl, rfl, rfl, fun k => rfl, fun q hq => by simp at hq, fun _ => rfl, ?_⟩
      intro a b
      rw [a, b] at hn
      cases hn
    | false =>
      obtain ⟨s3, sent, w1, w2, w3, w4, -, w6, w7⟩ := write_some c.wr cfg.n s2 hsm2
      exact ⟨s3, sent, w1, w2, w3, w4, w6, (fun h => by cases h), fun _ _ => w7⟩
  obtain ⟨s3, sent, w1, w2, w3, w4, w5, w6, w7⟩ := hw
  refine ⟨s3, s1.inputs, sent, ?_, ?_, ?_, ?_, ?_, w6, ?_, ?_⟩
  · unfold Sys.control
    rw [h1]
    show (if cfg.noIo || cfg.readOnly then some ((c.prog s1.inputs).foldl (Sys.prog cfg) s1, [])
      else ((c.prog s1.inputs).foldl (Sys.prog cfg) s1).write c.wr cfg.n).map _ = _
    rw [hs2, w1]
    rfl
  · rw [w3, (hp 0).2.2, h3]
  · intro k
    rw [(alikeOut_parts (w4 k)).2.2.2, (hp k).2.1]
    rfl
  · intro ho
    have hi2 := inv_progs ha (c.prog s1.inputs) hi1 ho
    rw [hs2] at hi2
    exact inv_alike hi2 w2 fun k => ⟨(alikeOut_parts (w4 k)).1, (alikeOut_parts (w4 k)).2.1, (alikeOut_parts (w4 k)).2.2.1⟩
  · intro q hq
    obtain ⟨a, b⟩ := w5 q hq
    refine ⟨a, ?_⟩
    rw [(alikeOut_parts (w4 q.1)).2.2.1, ← (hcnt2 q.1).1]
    exact b
  · intro hn k hk hdi
    have h := h5 hn k hk
    rw [(hi.cnt k).2, if_pos hdi] at h
    obtain ⟨b, x, hx⟩ := h
    refine ⟨b, x, s1.nodes k, hx, rfl, ?_⟩
    intro hro hdo hok hcf
    refine w7 hn hro k hk ?_ ?_ hcf
    · rw [(hcnt2 k).1]; exact hdo
    · rw [(hp k).1]; exact hok
  · intro hn hro k hk hdi hdo hok hcf
    have h := h5 hn k hk
    rw [(hi.cnt k).2, if_neg (by omega)] at h
    refine w7 hn hro k hk ?_ ?_ hcf
    · rw [(hcnt2 k).1]; exact hdo
    · rw [(hp k).1, h]; exact hok

end Ptusa.MainLoop
