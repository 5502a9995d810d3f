import Verif.Params.Lemmas

/-!
# C03–C06: persistent and run-time parameters
-/
namespace Ptusa.Params
open Ptusa.Mem

/-- The two memory ranges used below are the ones the allocator grants. -/
example : (Mgr.init.run [(.nvram, 10), (.eeprom, 30720)]).2 = [crcMem, paramsMem] := by decide

/-! ## C03 -/

/-- C03, layout: the windows of all sets are disjoint, inside the parameter area and have the
size asked for. -/
theorem C03_sets_disjoint (layout : List (Word × Word)) (hf : Fits layout) :
    (createAll 0 layout).2.length = layout.length ∧
    ∀ i (_ : i < layout.length), ∃ st, (createAll 0 layout).2[i]? = some ⟨.pool st, layout[i].1⟩ ∧
      st.toNat + 4 * layout[i].1.toNat ≤ 30720 ∧
      ∀ j (_ : j < layout.length), i < j → ∀ tt,
        (createAll 0 layout).2[j]? = some ⟨.pool tt, layout[j].1⟩ →
        st.toNat + 4 * layout[i].1.toNat ≤ tt.toNat := by
  have hw := createAll_wf layout hf
  obtain ⟨_, a2, a3, a4⟩ := createAll_spec 0 layout (by simpa using hf.1)
  refine ⟨a2, ?_⟩
  intro i hi
  obtain ⟨s, hs⟩ : ∃ s, (createAll 0 layout).2[i]? = some s :=
    ⟨_, List.getElem?_eq_getElem (by omega)⟩
  obtain ⟨st, e1, e2, e3, e4, _⟩ := a3 i s hs
  have hcnt : s.count = layout[i].1 := by
    apply BitVec.eq_of_toNat_eq
    rw [e4]
    simp [countOf, List.getElem?_eq_getElem hi]
  have hse : s = ⟨.pool st, layout[i].1⟩ := by
    cases s; simp at e1 hcnt; simp [e1, hcnt]
  subst hse
  refine ⟨st, hs, e3, ?_⟩
  intro j hj hij tt ht
  exact a4 i j _ _ st tt hij hs ht rfl rfl

/-- C03, independence: whatever is written to or saved from other sets, the parameters of set
`j` keep the values they had after the start, now and after a restart. -/
theorem C03_other_sets_unaffected (layout : List (Word × Word)) (hf : Fits layout)
    (df df' : Defaults) (d : Disk) (hdf : df.Valid) (ops : List Op) (j : Nat)
    (hops : ∀ o ∈ ops, o.target ≠ j) :
    ∃ sys, run (boot layout df d) ops = some sys ∧
      ∀ idx : Word, 1 ≤ idx.toNat → idx.toNat ≤ countOf layout j →
        readPar sys j idx = readPar (boot layout df d) j idx ∧
        readPar (boot layout df' sys.disk) j idx = readPar (boot layout df d) j idx := by
  let c0 : Nat → Nat → Val := fun i k =>
    (readPar (boot layout df d) i (BitVec.ofNat 32 k)).getD 0
  have hc0 : ∀ (i : Nat) (idx : Word), 1 ≤ idx.toNat → idx.toNat ≤ countOf layout i →
      readPar (boot layout df d) i idx = some (c0 i idx.toNat) := by
    intro i idx h1 h2
    rcases createAll_count layout hf i with e | ⟨s, e, e2⟩
    · have := createAll_countOf layout hf i
      rw [e] at this; simp at this; omega
    · simp only [c0]
      rw [BitVec.ofNat_toNat, BitVec.setWidth_eq]
      unfold readPar
      rw [(boot_sets layout df d).1, e]
      rfl
  have hrel := boot_rel layout hf df d hdf c0 hc0
  obtain ⟨_, hmk⟩ := boot_disk layout df d hdf
  obtain ⟨hs, hl⟩ := boot_sets layout df d
  obtain ⟨sys, e1, e2, e3, e4, e5⟩ := run_rel hrel (countOf layout)
    (by
      intro i s h'
      rw [hs] at h'
      rcases createAll_count layout hf i with e | ⟨s', e, e2⟩
      · rw [e] at h'; cases h'
      · rw [e] at h'; cases h'; exact e2.symm)
    (by
      intro i h'
      rw [hs] at h'
      have := createAll_countOf layout hf i
      rw [h'] at this
      simpa using this.symm) ops
  have hm : marker sys.disk = (createAll 0 layout).1 := by
    rw [← hl, ← hmk, marker_eq, marker_eq]
    apply getWord_congr
    intro j hj
    exact e4 _ (by omega)
  obtain ⟨r1, _⟩ := restart_rel layout df' e5 (e2.trans hs) hm
  obtain ⟨o1, o2⟩ := Spec.run_other (countOf layout) ⟨c0, c0⟩ ops j hops
  refine ⟨sys, e1, ?_⟩
  intro idx h1 h2
  rcases createAll_count layout hf j with e | ⟨s, e, e2'⟩
  · have := createAll_countOf layout hf j
    rw [e] at this; simp at this; omega
  · have hs1 : sys.sets[j]? = some s := by rw [e2, hs]; exact e
    have hs2 : (boot layout df' sys.disk).sets[j]? = some s := by
      rw [(boot_sets layout df' sys.disk).1]; exact e
    rw [hc0 j idx h1 h2, readPar_rel e5 hs1 idx h1 (by omega),
      readPar_rel r1 hs2 idx h1 (by omega)]
    refine ⟨by rw [o1], ?_⟩
    show some ((Spec.run _ _ ops).stored j idx.toNat) = _
    rw [o2]

/-- Non-vacuity for C03 and C04: the system set, a set of 20 values and one of 5. -/
example : Fits [(1, 0), (20, 0), (5, 0)] ∧
    (⟨fun _ => 0, [.par (fun _ => 0) 4 80]⟩ : Defaults).Valid ∧
    (createAll 0 [(1, 0), (20, 0), (5, 0)]).2 =
      [⟨.pool 0, 1⟩, ⟨.pool 4, 20⟩, ⟨.pool 84, 5⟩] := by
  refine ⟨by decide, ?_, by decide⟩
  intro w hw
  simp at hw
  exact ⟨_, _, _, hw, by decide, by decide⟩

/-- C03 outside its precondition: when the area is exhausted a set is silently placed on the
heap (with an indeterminate save position). -/
theorem C03_exhausted_set_not_persistent :
    ∃ layout : List (Word × Word), ¬ Fits layout ∧
      (createAll 0 layout).2 = [⟨.pool 0, 1⟩, ⟨.pool 4, 7679⟩, ⟨.heap 8, 1⟩] ∧
      -- saving 5 in the third set and restarting loses it, without any error
      ∃ sys, run (boot layout ⟨fun _ => 0, []⟩ (fun _ => 0)) [.save 2 1 5] = some sys ∧
        readPar sys 2 1 = some 5 ∧
        readPar (boot layout ⟨fun _ => 0, []⟩ sys.disk) 2 1 = some 0 := by
  refine ⟨[(1, 0), (7679, 0), (1, 8)], by decide, by decide, _, rfl, ?_, ?_⟩
  · decide
  · rfl

/-! ## C04 -/

/-- C04: for every life of a controller – any history of in-memory writes, saves and resets,
with restarts anywhere in between – the value read is the one the two-table specification
gives: saved values survive restarts, values only assigned in memory fall back to the last
saved one.  The code never runs into undefined behaviour on the way.
`c0` are the values readable after the first start. -/
theorem C04_saved_values_survive_restarts (layout : List (Word × Word)) (hf : Fits layout)
    (df : Defaults) (d : Disk) (hdf : df.Valid) (c0 : Nat → Nat → Val)
    (hc : ∀ (i : Nat) (idx : Word), 1 ≤ idx.toNat → idx.toNat ≤ countOf layout i →
      readPar (boot layout df d) i idx = some (c0 i idx.toNat))
    (es : List Ev) :
    ∃ sys, life layout (boot layout df d) es = some sys ∧
      ∀ (i : Nat) (idx : Word), 1 ≤ idx.toNat → idx.toNat ≤ countOf layout i →
        readPar sys i idx = some ((specLife layout ⟨c0, c0⟩ es).cur i idx.toNat) := by
  have hrel := boot_rel layout hf df d hdf c0 hc
  obtain ⟨_, hmk⟩ := boot_disk layout df d hdf
  obtain ⟨hs, hl⟩ := boot_sets layout df d
  obtain ⟨sys, e1, e2, e3⟩ := life_rel layout hf hrel hs (hmk.trans hl) es
  refine ⟨sys, e1, ?_⟩
  intro i idx h1 h2
  rcases createAll_count layout hf i with e | ⟨s, e, e2'⟩
  · have := createAll_countOf layout hf i
    rw [e] at this; simp at this; omega
  · exact readPar_rel e3 (by rw [e2]; exact e) idx h1 (by omega)

/-- C04, the two sentences of the claim spelled out on the specification: after a save of
`v` to `(i, idx)`, any history without another save/reset of that element or set, and a
restart, the value is `v` (in-memory assignments in between do not matter). -/
theorem C04_spec_meaning (layout : List (Word × Word)) (a : Spec) (i : Nat) (idx : Word) (v : Val)
    (h1 : 1 ≤ idx.toNat) (h2 : idx.toNat ≤ countOf layout i) (later : List Ev) (df : Defaults)
    (hl : ∀ e ∈ later, match e with
      | .op (.save j k _) => ¬ (j = i ∧ k = idx)
      | .op (.saveAll j) => j ≠ i
      | .op (.reset j) => j ≠ i
      | _ => True) :
    (specLife layout a (.op (.save i idx v) :: later ++ [.restart df])).cur i idx.toNat = v := by
  have hdrop : ∀ (es : List Ev) (b : Spec), b.stored i idx.toNat = v →
      (∀ e ∈ es, match e with
        | .op (.save j k _) => ¬ (j = i ∧ k = idx)
        | .op (.saveAll j) => j ≠ i
        | .op (.reset j) => j ≠ i
        | _ => True) →
      (specLife layout b (es ++ [.restart df])).cur i idx.toNat = v := by
    intro es
    induction es with
    | nil => intro b hb _; exact hb
    | cons e es ih =>
      intro b hb he
      have h0 := he e (by simp)
      have hr := fun e' (h' : e' ∈ es) => he e' (by simp [h'])
      cases e with
      | restart df' => exact ih b.restart hb hr
      | op o =>
        refine ih (b.step (countOf layout) o) ?_ hr
        cases o with
        | assign j k w => simp only [Spec.step]; split <;> exact hb
        | save j k w =>
          simp only [Spec.step]; split
          · simp only [upd]
            rw [if_neg]; exact hb
            intro hh
            exact h0 ⟨hh.1.symm, BitVec.eq_of_toNat_eq hh.2.symm⟩
          · exact hb
        | saveAll j =>
          simp only [Spec.step, updRow]
          rw [if_neg (Ne.symm h0)]; exact hb
        | reset j =>
          simp only [Spec.step, updRow]
          rw [if_neg (Ne.symm h0)]; exact hb
  simp only [List.cons_append, specLife]
  refine hdrop later _ ?_ hl
  simp only [Spec.step]
  rw [if_pos ⟨h1, h2⟩]
  simp [upd]

/-- Non-vacuity: the sets of an application, a save, an unsaved assignment, a restart. -/
example : (specLife [(1, 0), (20, 0)] ⟨fun _ _ => 0, fun _ _ => 0⟩
    [.op (.save 1 7 42), .op (.assign 1 7 43), .restart ⟨fun _ => 0, []⟩]).cur 1 7 = 42 := by decide

/-! ## C05 -/

/-- C05 (full claim): wherever the power fails among the writes of the re-initialisation,
the next start ends with the default parameters. -/
def C05_claim (layout : List (Word × Word)) (df : Defaults) (d : Disk) (k : Nat) : Prop :=
  let last := (createAll 0 layout).1
  marker d ≠ last →
    ∀ p, p < 30720 →
      (boot layout df (applyAll d ((finalInitWrites d last df).take k))).ram p = df.ram p

/-- C05 is false of the code: the new size is recorded *before* the defaults are saved
(`param_ex.cpp:109-112`), so a power failure right after that write leaves the old bytes,
and the next start takes them for valid parameters of the new layout. -/
theorem C05_reinit_crash_safe_violated :
    ¬ ∀ layout df d k, Fits layout → df.Valid → C05_claim layout df d k := by
  intro h
  have := h [(1, 0), (2, 0)] ⟨fun _ => 0, []⟩ (fun _ => 7) 1 (by decide)
    (by intro w hw; simp at hw) (by decide) 9 (by decide)
  rw [show (boot [(1, 0), (2, 0)] ⟨fun _ => 0, []⟩ (applyAll (fun _ => 7)
    ((finalInitWrites (fun _ => 7) (createAll 0 [(1, 0), (2, 0)]).1 ⟨fun _ => 0, []⟩).take 1))).ram 9
    = 7 from ?_] at this
  · exact absurd this (by decide)
  · simp only [boot, finalInitRam]
    rw [if_pos (by decide), loadRam_apply, if_pos (by decide)]
    decide

/-- C05 at the crash points where it holds: before the first write, and after all writes
(missing: the points in between, where it is false). -/
theorem C05_reinit_crash_safe_partial (layout : List (Word × Word)) (df : Defaults) (d : Disk)
    (k : Nat) (hdf : df.Valid)
    (hk : k = 0 ∨ (finalInitWrites d (createAll 0 layout).1 df).length ≤ k) :
    C05_claim layout df d k := by
  intro hm p hp
  let last := (createAll 0 layout).1
  rcases hk with rfl | hk
  · simp only [List.take_zero]
    show finalInitRam d last df p = _
    rw [finalInitRam, if_neg hm]
  · rw [List.take_of_length_le hk]
    obtain ⟨h1, h2⟩ := boot_disk layout df d hdf
    have hmk : marker (applyAll d (finalInitWrites d last df)) = last := h2
    show finalInitRam (applyAll d (finalInitWrites d last df)) last df p = _
    rw [finalInitRam, if_pos hmk, loadRam_apply, if_pos hp]
    have := h1 p hp
    show (boot layout df d).disk (64 + p) = _
    rw [this]
    show finalInitRam d last df p = _
    rw [finalInitRam, if_neg hm]

example : marker (fun _ => 7) ≠ (createAll 0 [(1, 0), (2, 0)]).1 ∧
    (finalInitWrites (fun _ => 7) (createAll 0 [(1, 0), (2, 0)]).1 ⟨fun _ => 0, []⟩).length = 2 := by
  decide

/-- C05, detection: a change of layout that keeps the total size is not noticed at all. -/
theorem C05_layout_change_detected_violated :
    ¬ ∀ (l1 l2 : List (Word × Word)) (df1 df2 : Defaults) (d : Disk), Fits l1 → Fits l2 →
      (createAll 0 l1).2 ≠ (createAll 0 l2).2 →
      ∀ p, p < 30720 → (boot l2 df2 (boot l1 df1 d).disk).ram p = df2.ram p := by
  intro h
  have := h [(1, 0), (1, 0), (2, 0)] [(1, 0), (2, 0), (1, 0)] ⟨fun _ => 1, []⟩ ⟨fun _ => 2, []⟩
    (fun _ => 7) (by decide) (by decide) (by decide) 5 (by decide)
  obtain ⟨h1, h2⟩ := boot_disk [(1, 0), (1, 0), (2, 0)] ⟨fun _ => 1, []⟩ (fun _ => 7)
    (by intro w hw; simp at hw)
  have e1 : (createAll 0 [(1, 0), (1, 0), (2, 0)]).1 = (createAll 0 [(1, 0), (2, 0), (1, 0)]).1 := by
    decide
  rw [(boot_sets _ _ _).2, e1] at h2
  have h3 : (boot [(1, 0), (2, 0), (1, 0)] ⟨fun _ => 2, []⟩
      (boot [(1, 0), (1, 0), (2, 0)] ⟨fun _ => 1, []⟩ (fun _ => 7)).disk).ram 5 =
      loadRam (boot [(1, 0), (1, 0), (2, 0)] ⟨fun _ => 1, []⟩ (fun _ => 7)).disk 5 := by
    rw [boot_ram, finalInitRam, if_pos h2]
  rw [h3, loadRam_apply, if_pos (by decide), h1 5 (by decide)] at this
  have h4 : (boot [(1, 0), (1, 0), (2, 0)] ⟨fun _ => 1, []⟩ (fun _ => 7)).ram 5 = 1 := by
    rw [boot_ram, finalInitRam, if_neg (by decide)]
  rw [h4] at this
  exact absurd this (by decide)

/-! ## C06 -/

/-- C06, valid indices: reading index `idx` in `1..n` yields the value last written to `idx`
(0 if none), whatever was written to other indices, valid or not. -/
theorem C06_valid_index_last_write (n : Nat) (ws : List (Word × Val)) (idx : Word)
    (h : 1 ≤ idx.toNat ∧ idx.toNat ≤ n) :
    ((RtPar.init n).run ws).get idx = (lastWrite (· == idx) ws).getD 0 := by
  refine snoc_induction (P := fun ws => ((RtPar.init n).run ws).get idx =
    (lastWrite (· == idx) ws).getD 0) ?_ ?_ ws
  · simp [RtPar.run, RtPar.get, RtPar.init, lastWrite]
  · intro ws w ih
    have hlen := RtPar.run_length (RtPar.init n) ws
    rw [show (RtPar.init n).vals.length = n from by simp [RtPar.init]] at hlen
    rw [RtPar.run_append, lastWrite_append]
    by_cases hw : w.1 = idx
    · subst hw
      simp only [BEq.rfl, if_true, Option.getD_some]
      unfold RtPar.set
      rw [if_pos (by omega)]
      unfold RtPar.get
      rw [dif_pos (by simp; omega)]
      simp
    · rw [if_neg (by simpa using hw), ← ih]
      unfold RtPar.get
      rw [dif_pos (by rw [RtPar.set_length]; omega), dif_pos (by omega)]
      unfold RtPar.set
      split
      · simp only
        rw [List.getElem_set_ne]
        intro he
        exact hw (BitVec.eq_of_toNat_eq (by omega))
      · rfl

/-- C06, invalid indices: false of the code – the stub element is writable, so a write to one
invalid index is read back through every other invalid index. -/
theorem C06_invalid_index_reads_zero_violated :
    ¬ ∀ (n : Nat) (ws : List (Word × Val)) (idx : Word), ¬ (1 ≤ idx.toNat ∧ idx.toNat ≤ n) →
      ((RtPar.init n).run ws).get idx = 0 := by
  intro h
  have := h 3 [(4, 99)] 0 (by decide)
  revert this
  decide

/-- C06, invalid indices: exactly what is read – the last value written to any invalid index,
hence 0 as long as no invalid index was written (missing: 0 in the other case, false). -/
theorem C06_invalid_index_reads_zero_partial (n : Nat) (ws : List (Word × Val)) (idx : Word)
    (h : ¬ (1 ≤ idx.toNat ∧ idx.toNat ≤ n)) :
    ((RtPar.init n).run ws).get idx =
      (lastWrite (fun w => decide (¬ (1 ≤ w.toNat ∧ w.toNat ≤ n))) ws).getD 0 := by
  refine snoc_induction (P := fun ws => ((RtPar.init n).run ws).get idx =
    (lastWrite (fun w => decide (¬ (1 ≤ w.toNat ∧ w.toNat ≤ n))) ws).getD 0) ?_ ?_ ws
  · show RtPar.get (RtPar.init n) idx = 0
    unfold RtPar.get
    rw [dif_neg (by simp [RtPar.init]; omega)]
    rfl
  · intro ws w ih
    have hlen := RtPar.run_length (RtPar.init n) ws
    rw [show (RtPar.init n).vals.length = n from by simp [RtPar.init]] at hlen
    have hget : ∀ p : RtPar, p.vals.length = n → p.get idx = p.stub := by
      intro p hp
      unfold RtPar.get
      rw [dif_neg (by omega)]
    rw [RtPar.run_append, lastWrite_append]
    rw [hget _ (by rw [RtPar.set_length, hlen])]
    rw [hget _ hlen] at ih
    by_cases hw : 1 ≤ w.1.toNat ∧ w.1.toNat ≤ n
    · rw [if_neg (by simp only [decide_eq_true_eq]; omega), ← ih]
      unfold RtPar.set
      rw [if_pos (by omega)]
    · rw [if_pos (by simp only [decide_eq_true_eq]; omega)]
      unfold RtPar.set
      rw [if_neg (by omega)]
      rfl

example : ¬ (1 ≤ (4 : Word).toNat ∧ (4 : Word).toNat ≤ 3) ∧
    ((RtPar.init 3).run [(2, 5), (2, 6), (1, 7)]).get 2 = 6 ∧
    ((RtPar.init 3).run [(2, 5), (2, 6), (1, 7)]).get 4 = 0 := by decide

/-- C06 for persistent sets: an operation with an invalid index changes no element of any
set, in memory or in storage. -/
theorem C06_invalid_index_changes_nothing (sys : Sys) (i : Nat) (idx : Word) (v : Val) (s : PSet)
    (hs : sys.sets[i]? = some s) (h : ¬ (1 ≤ idx.toNat ∧ idx.toNat ≤ s.count.toNat)) :
    (∃ sys', step sys (.assign i idx v) = some sys' ∧ sys'.ram = sys.ram ∧
      sys'.heap = sys.heap ∧ sys'.disk = sys.disk ∧ sys'.sets = sys.sets) ∧
    step sys (.save i idx v) = some sys := by
  have hv : validIdx s idx = false := by
    rw [Bool.eq_false_iff]; intro hh; exact h ((validIdx_iff s idx).1 hh)
  refine ⟨⟨{ sys with stub := fun j => if j = i then v else sys.stub j }, by simp [step, hs, hv],
    rfl, rfl, rfl, rfl⟩, by simp [step, hs, hv]⟩

example : (boot [(1, 0), (20, 0)] ⟨fun _ => 0, []⟩ (fun _ => 0)).sets[1]? = some ⟨.pool 4, 20⟩ ∧
    ¬ (1 ≤ (21 : Word).toNat ∧ (21 : Word).toNat ≤ (20 : Word).toNat) := by decide

end Ptusa.Params
