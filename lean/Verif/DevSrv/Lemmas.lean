import Verif.DevSrv.Spec
import Verif.Tcp.Lemmas
import Verif.Timer.Lemmas
import Mathlib.Data.List.Induction

namespace Ptusa.DevSrv

open Ptusa.Tcp (Byte)

theorem hasMark_iff (l : List Byte) : hasMark l = true ↔ recmanMark <:+: l := by
  induction l with
  | nil => simp [hasMark, recmanMark]
  | cons a l ih =>
    rw [hasMark, Bool.or_eq_true, ih, List.isPrefixOf_iff_prefix, List.infix_cons_iff]

theorem cstr_congr (n : Nat) (m m' : Nat → Byte) (i : Nat) (h : ∀ j, i ≤ j → j < i + n → m j = m' j) :
    cstr m i n = cstr m' i n := by
  induction n generalizing i with
  | zero => rfl
  | succ n ih =>
    rw [cstr, cstr, h i (by omega) (by omega), ih (i + 1) (fun j h1 h2 => h j (by omega) (by omega))]

theorem cstr_text (text : List Byte) (n i : Nat) (m : Nat → Byte) (h0 : (0 : Byte) ∉ text) (hn : text.length < n)
    (hm : ∀ j, j < text.length → m (i + j) = text.getD j 0) (hz : m (i + text.length) = 0) : cstr m i n = text := by
  induction text generalizing n i with
  | nil =>
    cases n with
    | zero => rfl
    | succ n => rw [cstr, if_pos (by simpa using hz)]
  | cons a text ih =>
    cases n with
    | zero => simp at hn
    | succ n =>
      have ha : m i = a := by simpa using hm 0 (by simp)
      have hne : a ≠ 0 := fun h => h0 (by simp [h])
      rw [cstr, ha, if_neg hne, ih n (i + 1) (fun h => h0 (List.mem_cons_of_mem _ h)) (by simpa using hn) ?_ ?_]
      · intro j hj
        have := hm (j + 1) (by simpa using hj)
        rw [show i + 1 + j = i + (j + 1) by omega, this]
        rfl
      · rw [show i + 1 + text.length = i + (a :: text).length by simp; omega]
        exact hz

theorem textMax_eq : textMax = 511993 := by
  have := Tcp.bufSize_eq
  unfold textMax
  omega

theorem zeros_command_text (code : Byte) (text : List Byte) (h0 : (0 : Byte) ∉ text) (hl : text.length < textMax) :
    cstr (Tcp.zeros (command code text)) 1 textMax = text := by
  refine cstr_text text textMax 1 _ h0 hl ?_ ?_
  · intro j hj
    rw [Nat.add_comm]
    simp [Tcp.zeros, command, List.getD_eq_getElem?_getD, List.getElem?_append_left hj]
  · rw [Nat.add_comm]
    simp [Tcp.zeros, command, List.getD_eq_getElem?_getD]

/-- The service looks at nothing behind the buffer. -/
theorem srv_reads (s : St) (e : Env) : (srv s e).Reads (Tcp.bufSize - 6) := by
  intro len m m' h
  have hb := Tcp.bufSize_eq
  have ht := textMax_eq
  have h0 := h 0 (by omega)
  have h1 := h 1 (by omega)
  have h2 := h 2 (by omega)
  have hc : cstr m 1 textMax = cstr m' 1 textMax := cstr_congr _ _ _ _ (fun j _ hj => h j (by omega))
  have hp : plain s e m = plain s e m' := by
    unfold plain word
    rw [h0, h1, h2, hc]
  simp only [srv, serve, hp]

theorem serve_poll (s : St) (c : Call) (h : c.polls) : serve s c.1 c.2.1 c.2.2 =
    ((pollErrors s c.1 (c.2.2 1)).1, pack c.1 (pollErrors s c.1 (c.2.2 1)).2) := by
  have h1 : ¬ c.2.1 < 1 := by have := h.1; omega
  unfold serve
  rw [if_neg h1]
  unfold plain
  rw [h.2]
  rfl

/-- What a poll does. -/
theorem poll_fields (s : St) (e : Env) (p : Byte) :
    (pollErrors s e p).1.reqId = s.reqId ∧
    (pollErrors s e p).1.firstPoll = some (s.firstPoll.getD e.now) ∧
    (pollErrors s e p).1.prevPac = e.pacErr.2 ∧
    (pollErrors s e p).1.prevDev = (if showDev e (s.firstPoll.getD e.now) then e.devErr.2 else s.prevDev) ∧
    (pollErrors s e p).1.errorsId =
      (if s.firstPoll = none then BitVec.ofNat 16 (e.now.toNat % 100) else s.errorsId) +
        (if e.pacErr.2 ≠ s.prevPac then 1 else 0) +
        (if showDev e (s.firstPoll.getD e.now) ∧ e.devErr.2 ≠ s.prevDev then 1 else 0) ∧
    (pollErrors s e p).2 = e.alarmHead p ++ (shown s e).1 ++ (shown s e).2 ++
      e.alarmTail (pollErrors s e p).1.errorsId ++ [0] := by
  obtain ⟨a, b, c, d, f⟩ := s
  cases f with
  | none =>
    by_cases h1 : e.pacErr.2 = c <;> by_cases h3 : e.devErr.2 = d <;> by_cases h2 : showDev e e.now = true <;>
      simp [pollErrors, shown, h1, h2, h3]
  | some f =>
    by_cases h1 : e.pacErr.2 = c <;> by_cases h3 : e.devErr.2 = d <;> by_cases h2 : showDev e f = true <;>
      simp [pollErrors, shown, h1, h2, h3]

/-- Other calls leave what belongs to the alarms. -/
theorem serve_other (s : St) (c : Call) (h : ¬ c.polls) :
    (serve s c.1 c.2.1 c.2.2).1.errorsId = s.errorsId ∧ (serve s c.1 c.2.1 c.2.2).1.prevPac = s.prevPac ∧
    (serve s c.1 c.2.1 c.2.2).1.prevDev = s.prevDev ∧ (serve s c.1 c.2.1 c.2.2).1.firstPoll = s.firstPoll := by
  unfold serve
  by_cases h1 : c.2.1 < 1
  · rw [if_pos h1]; exact ⟨rfl, rfl, rfl, rfl⟩
  rw [if_neg h1]
  have h2 : (c.2.2 0).toNat ≠ 103 := fun h3 => h ⟨by omega, BitVec.eq_of_toNat_eq h3⟩
  unfold plain
  split <;> first | exact ⟨rfl, rfl, rfl, rfl⟩ | (exact absurd ‹_› h2) | skip
  simp only
  split <;> exact ⟨rfl, rfl, rfl, rfl⟩

theorem runs_append (s : St) (l m : List Call) : runs s (l ++ m) = runs (runs s l) m := by
  simp [runs]

theorem runs_snoc (s : St) (l : List Call) (c : Call) :
    runs s (l ++ [c]) = (serve (runs s l) c.1 c.2.1 c.2.2).1 := by
  simp [runs]

/-- After the first poll: how the id of the alarms moves. -/
theorem runs_incr (s : St) (f : BitVec 64) (hf : s.firstPoll = some f) (l : List Call) :
    ∃ N, N ≤ 2 * l.countP (fun c => decide c.polls) ∧ (runs s l).errorsId = s.errorsId + BitVec.ofNat 16 N ∧
      (runs s l).firstPoll = some f ∧
      (N = 0 → (runs s l).prevPac = s.prevPac ∧ (runs s l).prevDev = s.prevDev) := by
  induction l using List.reverseRecOn with
  | nil => exact ⟨0, by simp, by simp [runs], hf, fun _ => ⟨rfl, rfl⟩⟩
  | append_singleton l c ih =>
    obtain ⟨N, hN, he, hp, h0⟩ := ih
    rw [runs_snoc]
    by_cases hc : c.polls
    · rw [serve_poll _ _ hc]
      obtain ⟨-, p1, p2, p3, p4, -⟩ := poll_fields (runs s l) c.1 (c.2.2 1)
      rw [hp] at p1 p3 p4
      simp only [Option.getD_some, reduceCtorEq, if_false] at p1 p3 p4
      refine ⟨N + (if c.1.pacErr.2 ≠ (runs s l).prevPac then 1 else 0) +
        (if showDev c.1 f ∧ c.1.devErr.2 ≠ (runs s l).prevDev then 1 else 0), ?_, ?_, p1, ?_⟩
      · rw [List.countP_append]
        simp only [List.countP_singleton, hc, decide_true]
        split <;> split <;> simp <;> omega
      · rw [p4, he]
        by_cases a1 : c.1.pacErr.2 = (runs s l).prevPac <;>
          by_cases a2 : showDev c.1 f = true ∧ c.1.devErr.2 ≠ (runs s l).prevDev <;>
          simp [a1, a2, BitVec.ofNat_add, BitVec.add_assoc]
      · intro hz
        have a1 : c.1.pacErr.2 = (runs s l).prevPac := by
          by_contra h
          rw [if_pos h] at hz
          omega
        have a2 : ¬ (showDev c.1 f = true ∧ c.1.devErr.2 ≠ (runs s l).prevDev) := by
          intro h
          rw [if_pos h] at hz
          omega
        obtain ⟨b1, b2⟩ := h0 (by omega)
        rw [p2, p3, a1, b1]
        refine ⟨rfl, ?_⟩
        by_cases h : showDev c.1 f = true
        · rw [if_pos h, ← b2]
          by_contra h3
          exact a2 ⟨h, h3⟩
        · rw [if_neg h, b2]
    · obtain ⟨q1, q2, q3, q4⟩ := serve_other (runs s l) c hc
      rw [q1, q2, q3, q4]
      refine ⟨N, ?_, he, hp, h0⟩
      rw [List.countP_append]
      omega

/-- Histories from the start: when the first poll was, and that no alarms of devices were looked at before 5 s had passed
since. -/
theorem runs_first (l : List Call) (ho : InOrder l) :
    ((runs St.init l).firstPoll = none → (runs St.init l).prevDev = 0) ∧
    ∀ f, (runs St.init l).firstPoll = some f → (∃ c ∈ l, c.1.now = f) ∧
      ((runs St.init l).prevDev ≠ 0 → ∃ c ∈ l, f.toNat ≤ c.1.now.toNat ∧ (5000 : BitVec 64) < Time.deltaMs c.1.now f) := by
  induction l using List.reverseRecOn with
  | nil => exact ⟨fun _ => rfl, fun f h => by simp [runs, St.init] at h⟩
  | append_singleton l c ih =>
    rw [runs_snoc]
    have ho' := ho
    unfold InOrder at ho'
    rw [List.pairwise_append] at ho'
    replace ih := ih ho'.1
    have hlast : ∀ d ∈ l, d.1.now.toNat ≤ c.1.now.toNat := fun d hd => ho'.2.2 d hd c (by simp)
    by_cases hc : c.polls
    · rw [serve_poll _ _ hc]
      obtain ⟨-, p1, -, p3, -, -⟩ := poll_fields (runs St.init l) c.1 (c.2.2 1)
      rw [p1, p3]
      refine ⟨fun h => (Option.some_ne_none _ h).elim, ?_⟩
      intro f hf
      rw [Option.some.injEq] at hf
      constructor
      · cases hq : (runs St.init l).firstPoll with
        | none => exact ⟨c, by simp, by rw [← hf, hq]; rfl⟩
        | some g =>
          obtain ⟨⟨d, hd, he⟩, -⟩ := ih.2 g hq
          exact ⟨d, by simp [hd], by rw [he, ← hf, hq]; rfl⟩
      · intro hne
        rw [hf] at hne
        by_cases hs : showDev c.1 f = true
        · simp only [showDev, Bool.and_eq_true, decide_eq_true_eq] at hs
          refine ⟨c, by simp, ?_, hs.2⟩
          cases hq : (runs St.init l).firstPoll with
          | none => rw [← hf, hq]; exact Nat.le_refl _
          | some g =>
            obtain ⟨⟨d, hd, he⟩, -⟩ := ih.2 g hq
            rw [← hf, hq, Option.getD_some, ← he]
            exact hlast d hd
        · rw [if_neg hs] at hne
          cases hq : (runs St.init l).firstPoll with
          | none => exact absurd (ih.1 hq) hne
          | some g =>
            rw [hq] at hf
            simp only [Option.getD_some] at hf
            subst hf
            obtain ⟨d, hd, h5⟩ := (ih.2 g hq).2 hne
            exact ⟨d, by simp [hd], h5⟩
    · obtain ⟨-, -, q3, q4⟩ := serve_other (runs St.init l) c hc
      rw [q3, q4]
      refine ⟨ih.1, fun f hf => ?_⟩
      obtain ⟨⟨d, hd, he⟩, h2⟩ := ih.2 f hf
      refine ⟨⟨d, by simp [hd], he⟩, fun h => ?_⟩
      obtain ⟨d', hd', h'⟩ := h2 h
      exact ⟨d', by simp [hd'], h'⟩

theorem later {f a b : BitVec 64} (hf : f.toNat ≤ a.toNat) (h : a.toNat ≤ b.toNat)
    (h5 : (5000 : BitVec 64) < Time.deltaMs a f) : (5000 : BitVec 64) < Time.deltaMs b f := by
  rw [BitVec.lt_def, Timer.delta_eq (by omega)] at h5 ⊢
  omega

/-- The id of the list of devices. -/
theorem serve_id (s : St) (c : Call) : (serve s c.1 c.2.1 c.2.2).1.reqId =
    if s.reqId = 0 ∧ 1 ≤ c.2.1 ∧ c.2.2 0 = 100 then word c.2.2 1 else s.reqId := by
  unfold serve
  by_cases h1 : c.2.1 < 1
  · rw [if_pos h1, if_neg (by omega)]
  rw [if_neg h1]
  have h1' : 1 ≤ c.2.1 := by omega
  by_cases h2 : c.2.2 0 = 100
  · unfold plain
    simp only [h2, h1', and_true]
    rw [show (100 : BitVec 8).toNat = 100 from rfl]
    simp only
    split <;> rfl
  · rw [if_neg (by tauto)]
    have h2' : (c.2.2 0).toNat ≠ 100 := fun h3 => h2 (BitVec.eq_of_toNat_eq h3)
    unfold plain
    split <;> first | rfl | (exact absurd ‹_› h2') | exact (poll_fields _ _ _).1

end Ptusa.DevSrv
