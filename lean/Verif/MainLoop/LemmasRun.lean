import Verif.MainLoop.Lemmas

/-!
# Histories of the main loop
-/
namespace Ptusa.MainLoop

open Tcp (Byte Buf)
open Coupler (Node Net readDi SetsBits bytesOf talk)
open Device (Prog Oper toInt32)

variable {cfg : Cfg} {nodes : Nat → Node}

/-- A pass of the running loop: its parts. -/
theorem cycle_parts {s s' : Sys} {c : Cycle} {rec : Rec} (hr : s.running = true) (h : s.cycle cfg c = some (s', rec)) :
    ∃ s1 s2, s.control cfg c = some (s1, rec.inp, rec.sent) ∧ s1.serve cfg c = some (s2, rec.answers) ∧
      s' = { s2 with running := !c.stop } := by
  unfold Sys.cycle at h
  rw [if_pos hr, Option.bind_eq_some_iff] at h
  obtain ⟨⟨s1, inp, sent⟩, h1, h2⟩ := h
  rw [Option.map_eq_some_iff] at h2
  obtain ⟨⟨s2, as⟩, h2, h3⟩ := h2
  cases h3
  exact ⟨s1, s2, h1, h2, rfl⟩

theorem inv_running {s : Sys} {W : Nat → Want} (hi : Inv cfg nodes s W) (b : Bool) :
    Inv cfg nodes { s with running := b } W := ⟨hi.cnt, hi.man, hi.out, hi.rest⟩

theorem inv_cycle (ha : Apart cfg) (hs : Small nodes) {s s' : Sys} {W : Nat → Want} (hi : Inv cfg nodes s W)
    {c : Cycle} {rec : Rec} (hr : s.running = true) (hc : s.cycle cfg c = some (s', rec))
    (ho : OnOff cfg (c.first rec.inp ++ c.second)) :
    Inv cfg nodes s' (absRun W (c.first rec.inp ++ c.second)) := by
  obtain ⟨s1, s2, h1, h2, rfl⟩ := cycle_parts hr hc
  obtain ⟨t, inp, sent, k1, k2, k3, k4, -⟩ := control_some ha hs hi c
  rw [h1] at k1
  cases k1
  rw [onOff_append] at ho
  rw [absRun_append]
  exact inv_running (inv_serve ha (k4 ho.1) c ho.2 h2) _

theorem inv_run (ha : Apart cfg) (hs : Small nodes) (pre : List Cycle) : ∀ {s s' : Sys} {W : Nat → Want} {recs : List Rec},
    Inv cfg nodes s W → s.running = true → (∀ c ∈ pre, c.stop = false) → run cfg s pre = some (s', recs) →
    OnOff cfg (commands (pre.zip recs)) →
    Inv cfg nodes s' (absRun W (commands (pre.zip recs))) ∧ s'.running = true := by
  induction pre with
  | nil =>
    intro s s' W recs hi hr _ h _
    cases h
    exact ⟨hi, hr⟩
  | cons c pre ih =>
    intro s s' W recs hi hr hst h ho
    simp only [run, Option.bind_eq_some_iff, Option.map_eq_some_iff] at h
    obtain ⟨⟨s1, rec⟩, h1, ⟨s2, rs⟩, h2, h3⟩ := h
    cases h3
    have e : commands ((c :: pre).zip (rec :: rs)) = (c.first rec.inp ++ c.second) ++ commands (pre.zip rs) := rfl
    rw [e, onOff_append] at ho
    rw [e, absRun_append]
    refine ih (inv_cycle ha hs hi hr h1 ho.1) ?_ (fun x hx => hst x (List.mem_cons_of_mem _ hx)) h2 ho.2
    obtain ⟨t1, t2, -, -, rfl⟩ := cycle_parts hr h1
    show (!c.stop) = true
    rw [hst c (List.mem_cons_self ..)]
    rfl

/-- The commands of the server are carried out when their numbers fit. -/
theorem opers_some (l : List (Nat × Oper)) (hf : ∀ d v, (d, Oper.S v) ∈ l → (toInt32 v).isSome = true) :
    ∀ s : Sys, ∃ s', s.opers cfg l = some s' := by
  induction l with
  | nil => intro s; exact ⟨s, rfl⟩
  | cons x l ih =>
    intro s
    obtain ⟨d, o⟩ := x
    have : ∃ s1, s.oper cfg (d, o) = some s1 := by
      cases o with
      | S v =>
        obtain ⟨n, hn⟩ := Option.isSome_iff_exists.1 (hf d v (List.mem_cons_self ..))
        exact ⟨_, by simp only [Sys.oper, hn, Option.map_some]; rfl⟩
      | V v => exact ⟨s, rfl⟩
      | M v =>
        simp only [Sys.oper]
        split
        · exact ⟨_, rfl⟩
        · split
          · exact ⟨_, rfl⟩
          · exact ⟨_, rfl⟩
    obtain ⟨s1, h1⟩ := this
    obtain ⟨s2, h2⟩ := ih (fun d v hv => hf d v (List.mem_cons_of_mem _ hv)) s1
    exact ⟨s2, by simp only [Sys.opers, h1, Option.bind_some, h2]⟩

/-- Counts are all that is needed for a pass to be defined. -/
theorem cycle_some (hs : Small nodes) {s : Sys}
    (hc : ∀ k, (s.nodes k).doCnt = (nodes k).doCnt ∧ (s.nodes k).diCnt = (nodes k).diCnt) {c : Cycle} (hf : Fits c) :
    ∃ s' rec, s.cycle cfg c = some (s', rec) ∧
      ∀ k, (s'.nodes k).doCnt = (nodes k).doCnt ∧ (s'.nodes k).diCnt = (nodes k).diCnt := by
  have hout : ∀ (s : Sys) (d : Nat) (f : Byte → Byte) (k : Nat), ((s.output cfg d f).nodes k).doCnt = (s.nodes k).doCnt ∧
      ((s.output cfg d f).nodes k).diCnt = (s.nodes k).diCnt := by
    intro s d f k
    unfold Sys.output
    dsimp only
    split
    · dsimp only
      constructor <;> split <;> rfl
    · exact ⟨rfl, rfl⟩
  have hprog : ∀ (s : Sys) (x : Nat × Prog) (k : Nat), ((s.prog cfg x).nodes k).doCnt = (s.nodes k).doCnt ∧
      ((s.prog cfg x).nodes k).diCnt = (s.nodes k).diCnt := by
    intro s x k
    unfold Sys.prog
    split
    · exact ⟨rfl, rfl⟩
    · exact hout _ _ _ _
  have hprogs : ∀ (l : List (Nat × Prog)) (s : Sys) (k : Nat),
      ((l.foldl (Sys.prog cfg) s).nodes k).doCnt = (s.nodes k).doCnt ∧
      ((l.foldl (Sys.prog cfg) s).nodes k).diCnt = (s.nodes k).diCnt := by
    intro l
    induction l with
    | nil => intro s k; exact ⟨rfl, rfl⟩
    | cons x l ih =>
      intro s k
      obtain ⟨a, b⟩ := ih (s.prog cfg x) k
      exact ⟨a.trans (hprog s x k).1, b.trans (hprog s x k).2⟩
  have hopers : ∀ (l : List (Nat × Oper)) (s s' : Sys) (k : Nat), s.opers cfg l = some s' →
      (s'.nodes k).doCnt = (s.nodes k).doCnt ∧ (s'.nodes k).diCnt = (s.nodes k).diCnt := by
    intro l
    induction l with
    | nil => intro s s' k h; cases h; exact ⟨rfl, rfl⟩
    | cons x l ih =>
      intro s s' k h
      simp only [Sys.opers, Option.bind_eq_some_iff] at h
      obtain ⟨s1, h1, h2⟩ := h
      have h3 : (s1.nodes k).doCnt = (s.nodes k).doCnt ∧ (s1.nodes k).diCnt = (s.nodes k).diCnt := by
        obtain ⟨d, o⟩ := x
        cases o with
        | S v =>
          simp only [Sys.oper, Option.map_eq_some_iff] at h1
          obtain ⟨n, -, rfl⟩ := h1
          exact hout _ _ _ _
        | V v => cases h1; exact ⟨rfl, rfl⟩
        | M v =>
          simp only [Sys.oper] at h1
          split at h1
          · cases h1; exact ⟨rfl, rfl⟩
          · split at h1
            · cases h1; exact ⟨rfl, rfl⟩
            · cases h1; exact ⟨rfl, rfl⟩
      obtain ⟨a, b⟩ := ih s1 s' k h2
      exact ⟨a.trans h3.1, b.trans h3.2⟩
  have hreq : ∀ (b : Bool) (s : Sys) (r : Req) (k : Nat), ((s.req cfg b r).1.nodes k).doCnt = (s.nodes k).doCnt ∧
      ((s.req cfg b r).1.nodes k).diCnt = (s.nodes k).diCnt := by
    intro b s r k
    cases r with
    | writeState d v =>
      cases v with
      | none => exact ⟨rfl, rfl⟩
      | some n => cases b with
        | true => exact hprog _ _ _
        | false => exact ⟨rfl, rfl⟩
    | writeValue d v =>
      cases v with
      | none => exact ⟨rfl, rfl⟩
      | some n => cases b with
        | true => exact hprog _ _ _
        | false => exact ⟨rfl, rfl⟩
    | readState d => exact ⟨rfl, rfl⟩
  have hreqs : ∀ (b : Bool) (l : List Req) (s : Sys) (k : Nat), ((s.reqs cfg b l).1.nodes k).doCnt = (s.nodes k).doCnt ∧
      ((s.reqs cfg b l).1.nodes k).diCnt = (s.nodes k).diCnt := by
    intro b l
    induction l with
    | nil => intro s k; exact ⟨rfl, rfl⟩
    | cons r l ih =>
      intro s k
      obtain ⟨a, c⟩ := ih (s.req cfg b r).1 k
      exact ⟨a.trans (hreq b s r k).1, c.trans (hreq b s r k).2⟩
  cases hr : s.running with
  | false =>
    refine ⟨s, ⟨s.inputs, [], []⟩, ?_, hc⟩
    unfold Sys.cycle
    rw [if_neg (by rw [hr]; decide)]
  | true =>
    have hsm : Small s.nodes := fun k => by rw [(hc k).1, (hc k).2]; exact hs k
    have h1 : ∃ s1, (if cfg.noIo then some s else s.read c.rd cfg.n) = some s1 ∧
        ∀ k, (s1.nodes k).doCnt = (nodes k).doCnt ∧ (s1.nodes k).diCnt = (nodes k).diCnt := by
      cases cfg.noIo with
      | true => exact ⟨s, rfl, hc⟩
      | false =>
        obtain ⟨s1, a, -, -, b, -⟩ := read_some c.rd cfg.n s hsm
        exact ⟨s1, a, fun k => ⟨(alike_parts (b k)).1.trans (hc k).1, (alike_parts (b k)).2.1.trans (hc k).2⟩⟩
    obtain ⟨s1, h1, hc1⟩ := h1
    have hc2 : ∀ k, (((c.prog s1.inputs).foldl (Sys.prog cfg) s1).nodes k).doCnt = (nodes k).doCnt ∧
        (((c.prog s1.inputs).foldl (Sys.prog cfg) s1).nodes k).diCnt = (nodes k).diCnt := fun k =>
      ⟨(hprogs _ s1 k).1.trans (hc1 k).1, (hprogs _ s1 k).2.trans (hc1 k).2⟩
    generalize hs2 : (c.prog s1.inputs).foldl (Sys.prog cfg) s1 = s2 at hc2
    have hsm2 : Small s2.nodes := fun k => by rw [(hc2 k).1, (hc2 k).2]; exact hs k
    have h3 : ∃ s3 sent, (if cfg.noIo || cfg.readOnly then some (s2, []) else s2.write c.wr cfg.n) = some (s3, sent) ∧
        ∀ k, (s3.nodes k).doCnt = (nodes k).doCnt ∧ (s3.nodes k).diCnt = (nodes k).diCnt := by
      cases cfg.noIo || cfg.readOnly with
      | true => exact ⟨s2, [], rfl, hc2⟩
      | false =>
        obtain ⟨s3, sent, a, -, -, b, -⟩ := write_some c.wr cfg.n s2 hsm2
        exact ⟨s3, sent, a,
          fun k => ⟨(alikeOut_parts (b k)).1.trans (hc2 k).1, (alikeOut_parts (b k)).2.1.trans (hc2 k).2⟩⟩
    obtain ⟨s3, sent, h3, hc3⟩ := h3
    obtain ⟨s4, h4⟩ := opers_some (cfg := cfg) c.server hf s3
    have hctl : s.control cfg c = some (s3, s1.inputs, sent) := by
      unfold Sys.control
      rw [h1]
      show (if cfg.noIo || cfg.readOnly then some ((c.prog s1.inputs).foldl (Sys.prog cfg) s1, [])
        else ((c.prog s1.inputs).foldl (Sys.prog cfg) s1).write c.wr cfg.n).map _ = _
      rw [hs2, h3]
      rfl
    have hsv : s3.serve cfg c = some (c.lamps.foldl (Sys.prog cfg) (s4.reqs cfg c.control c.opc).1,
        (s4.reqs cfg c.control c.opc).2) := by
      unfold Sys.serve
      rw [h4]
      rfl
    refine ⟨{ c.lamps.foldl (Sys.prog cfg) (s4.reqs cfg c.control c.opc).1 with running := !c.stop },
      ⟨s1.inputs, sent, (s4.reqs cfg c.control c.opc).2⟩, ?_, ?_⟩
    · unfold Sys.cycle
      rw [if_pos hr, hctl]
      show (s3.serve cfg c).map _ = _
      rw [hsv]
      rfl
    · intro k
      dsimp only
      rw [(hprogs _ _ k).1, (hprogs _ _ k).2, (hreqs _ _ _ k).1, (hreqs _ _ _ k).2, (hopers _ _ _ k h4).1,
        (hopers _ _ _ k h4).2]
      exact hc3 k

theorem run_some (hs : Small nodes) (h : List Cycle) : ∀ {s : Sys},
    (∀ k, (s.nodes k).doCnt = (nodes k).doCnt ∧ (s.nodes k).diCnt = (nodes k).diCnt) → (∀ c ∈ h, Fits c) →
    ∃ s' recs, run cfg s h = some (s', recs) ∧ recs.length = h.length := by
  induction h with
  | nil => intro s _ _; exact ⟨s, [], rfl, rfl⟩
  | cons c h ih =>
    intro s hc hf
    obtain ⟨s1, rec, h1, h2⟩ := cycle_some (cfg := cfg) hs hc (hf c (List.mem_cons_self ..))
    obtain ⟨s2, recs, h3, h4⟩ := ih h2 fun x hx => hf x (List.mem_cons_of_mem _ hx)
    refine ⟨s2, rec :: recs, ?_, by simp [h4]⟩
    simp only [run, h1, Option.bind_some, h3, Option.map_some]

theorem run_stopped (h : List Cycle) : ∀ {s : Sys}, s.running = false →
    ∃ recs, run cfg s h = some (s, recs) ∧ recs.length = h.length ∧ ∀ r ∈ recs, r.sent = [] ∧ r.answers = [] := by
  induction h with
  | nil => intro s _; exact ⟨[], rfl, rfl, fun r hr => by simp at hr⟩
  | cons c h ih =>
    intro s hr
    obtain ⟨recs, h1, h2, h3⟩ := ih hr
    have hc : s.cycle cfg c = some (s, ⟨s.inputs, [], []⟩) := by
      unfold Sys.cycle
      rw [if_neg (by rw [hr]; decide)]
    refine ⟨⟨s.inputs, [], []⟩ :: recs, ?_, by simp [h2], ?_⟩
    · simp only [run, hc, Option.bind_some, h1, Option.map_some]
    · intro r hr
      rcases List.mem_cons.1 hr with rfl | hr
      · exact ⟨rfl, rfl⟩
      · exact h3 r hr

end Ptusa.MainLoop
