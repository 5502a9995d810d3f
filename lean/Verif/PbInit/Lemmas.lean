import Verif.PbInit.Spec
import Mathlib.Data.List.Induction

namespace Ptusa.PbInit.Lemmas

open PbInit Spec

/-- The calls that are made: a prefix of those wanted, all but possibly the last successful. -/
theorem calls_spec (l : Lib) (t : Trace) (cs : List Call) :
    ((calls l t cs).2 = true → (calls l t cs).1 = t ++ cs.map (fun c => (c, true))) ∧
    ((calls l t cs).2 = false → ∃ p c q, cs = p ++ c :: q ∧ (calls l t cs).1 = t ++ p.map (fun c => (c, true)) ++ [(c, false)]) := by
  induction cs generalizing t with
  | nil => exact ⟨fun _ => by simp [calls], fun h => by simp [calls] at h⟩
  | cons c r ih =>
    unfold calls
    cases h : l.ok t.length c with
    | true =>
      have hc : call l t c = t ++ [(c, true)] := by unfold call; rw [h]
      obtain ⟨i1, i2⟩ := ih (call l t c)
      refine ⟨fun h' => ?_, fun h' => ?_⟩
      · rw [if_pos rfl] at h' ⊢
        rw [i1 h', hc]; simp
      · rw [if_pos rfl] at h' ⊢
        obtain ⟨p, x, q, e1, e2⟩ := i2 h'
        exact ⟨c :: p, x, q, by rw [e1]; rfl, by rw [e2, hc]; simp⟩
    | false =>
      have hc : call l t c = t ++ [(c, false)] := by unfold call; rw [h]
      refine ⟨fun h' => ?_, fun _ => ⟨[], c, r, rfl, ?_⟩⟩
      · rw [if_neg (by simp)] at h'; exact absurd h' (by simp)
      · rw [if_neg (by simp), hc]; simp

/-- Every call made is one of those wanted or was made before. -/
theorem calls_mem (l : Lib) (t : Trace) (cs : List Call) : ∃ u : Trace, (calls l t cs).1 = t ++ u ∧ ∀ x ∈ u, x.1 ∈ cs := by
  obtain ⟨h1, h2⟩ := calls_spec l t cs
  cases h : (calls l t cs).2 with
  | true =>
    refine ⟨_, h1 h, fun x hx => ?_⟩
    obtain ⟨c, hc, rfl⟩ := List.mem_map.1 hx
    exact hc
  | false =>
    obtain ⟨p, c, q, e1, e2⟩ := h2 h
    refine ⟨p.map (fun c => (c, true)) ++ [(c, false)], by rw [e2]; simp, fun x hx => ?_⟩
    rw [e1]
    rcases List.mem_append.1 hx with hx | hx
    · obtain ⟨c', hc, rfl⟩ := List.mem_map.1 hx
      exact List.mem_append_left _ hc
    · rw [List.mem_singleton.1 hx]; simp

/-- What the cycles add to the trace. -/
theorem cycles_mem (l : Lib) (id : Int) (n : Nat) (t : Trace) :
    ∃ u : Trace, cycles l id t n = t ++ u ∧ ∀ x ∈ u, x.1 = .trigger ∨ exchanges x.1 = some id := by
  induction n generalizing t with
  | zero => exact ⟨[], by simp [cycles], by simp⟩
  | succ n ih =>
    obtain ⟨u, hu, hm⟩ := ih (cycle l id t)
    have hc : ∃ v : Trace, cycle l id t = t ++ v ∧ ∀ x ∈ v, x.1 = .trigger ∨ exchanges x.1 = some id := by
      unfold cycle
      by_cases e : l.adi = false
      · rw [if_pos e]; exact ⟨[], by simp, by simp⟩
      · rw [if_neg e]
        obtain ⟨v, hv, hvm⟩ := calls_mem l t [.trigger, .readStart id, .readBytes id, .readEnd id, .writeStart id, .writeBytes id, .writeEnd id]
        refine ⟨v, hv, fun x hx => ?_⟩
        have := hvm x hx
        simp only [List.mem_cons, List.not_mem_nil, or_false] at this
        rcases this with h | h | h | h | h | h | h <;> rw [h] <;> simp [exchanges]
    obtain ⟨v, hv, hvm⟩ := hc
    refine ⟨v ++ u, ?_, fun x hx => ?_⟩
    · show cycles l id (cycle l id t) n = _
      rw [hu, hv]; simp
    · rcases List.mem_append.1 hx with hx | hx
      · exact hvm x hx
      · exact hm x hx

theorem deviceId_spec (ds : List (String × Int)) :
    (Slave ds (deviceId ds)) ∨ (deviceId ds = -1 ∧ ∀ x ∈ ds, x.1 ≠ "libdps") := by
  induction ds using List.reverseRecOn with
  | nil => exact .inr ⟨rfl, by simp⟩
  | append_singleton ds x ih =>
    obtain ⟨n, d⟩ := x
    have hd : deviceId (ds ++ [(n, d)]) = if n = "libdps" then d else deviceId ds := by
      unfold deviceId; rw [List.foldl_append]; rfl
    rw [hd]
    by_cases e : n = "libdps"
    · rw [if_pos e]
      exact .inl ⟨ds, [], by rw [e], by simp⟩
    · rw [if_neg e]
      rcases ih with ⟨a, b, h1, h2⟩ | ⟨h1, h2⟩
      · refine .inl ⟨a, b ++ [(n, d)], by conv => lhs; rw [h1]
                                          simp, fun x hx => ?_⟩
        rcases List.mem_append.1 hx with hx | hx
        · exact h2 x hx
        · rw [List.mem_singleton.1 hx]; exact e
      · refine .inr ⟨h1, fun x hx => ?_⟩
        rcases List.mem_append.1 hx with hx | hx
        · exact h2 x hx
        · rw [List.mem_singleton.1 hx]; exact e

theorem slave_unique (ds : List (String × Int)) (d : Int) (h : Slave ds d) : deviceId ds = d := by
  obtain ⟨a, b, h1, h2⟩ := h
  have : ∀ (b : List (String × Int)) (i : Int), (∀ x ∈ b, x.1 ≠ "libdps") →
      b.foldl (fun id d => if d.1 = "libdps" then d.2 else id) i = i := by
    intro b
    induction b with
    | nil => intro i _; rfl
    | cons x t ih =>
      intro i hx
      rw [List.foldl_cons, if_neg (hx x (by simp))]
      exact ih i (fun y hy => hx y (by simp [hy]))
  unfold deviceId
  rw [h1, List.foldl_append, List.foldl_cons, if_pos rfl]
  exact this b d h2

/-- The calls of a start that succeeds. -/
def good (cfg : Cfg) (d : Int) : Trace :=
  [(.init, true), (.scan, true), (.list, true), (.open d, true), (.setWatchdog, true),
    (.configure d cfg.address (cfg.outSize * 8) (cfg.inSize * 8), true), (.running, true), (.startWatchdog, true)]

theorem start_ok (cfg : Cfg) (l : Lib) (h : (start cfg l).2.1 = true) :
    l.adi = true ∧ Slave l.devices (start cfg l).2.2 ∧ (start cfg l).2.2 ≠ -1 ∧ (start cfg l).1 = good cfg (start cfg l).2.2 := by
  unfold start at h ⊢
  by_cases e : l.adi = false
  · rw [if_pos e] at h; exact absurd h (by simp)
  rw [if_neg e] at h ⊢
  simp only at h ⊢
  cases e2 : (calls l [] [.init, .scan, .list]).2 with
  | false => rw [e2, if_pos rfl] at h; exact absurd h (by simp)
  | true =>
    have h1 := (calls_spec l [] [.init, .scan, .list]).1 e2
    rw [e2, if_neg (by simp)] at h
    rw [if_neg (by simp)]
    by_cases e3 : deviceId l.devices = -1
    · rw [if_pos e3] at h; exact absurd h (by simp)
    rw [if_neg e3] at h ⊢
    cases e4 : l.ok (calls l [] [.init, .scan, .list]).1.length (.open (deviceId l.devices)) with
    | false => rw [e4, if_neg (by simp)] at h; exact absurd h (by simp)
    | true =>
      rw [e4, if_pos rfl] at h
      rw [if_pos rfl]
      have h2 := (calls_spec l _ _).1 h
      refine ⟨by simpa using e, ?_, e3, ?_⟩
      · rcases deviceId_spec l.devices with hs | ⟨hs, _⟩
        · exact hs
        · exact absurd hs e3
      · show (calls l _ _).1 = _
        rw [h2]
        unfold call
        rw [e4, h1]
        rfl

/-- The calls of a start that fails. -/
theorem start_fail (cfg : Cfg) (l : Lib) (h : (start cfg l).2.1 = false) :
    StopsAtFailure (start cfg l).1 ∧ (Call.startWatchdog, true) ∉ (start cfg l).1 ∧ ∀ r, (Call.trigger, r) ∉ (start cfg l).1 := by
  have key : ∀ (p : List Call) (c : Call) (tail : Trace), (∀ x ∈ tail, ∃ d, x.1 = Call.lastError d) → (∀ x ∈ tail, ∀ d, x.1 = Call.lastError d → True) →
      StopsAtFailure (p.map (fun c => (c, true)) ++ (c, false) :: tail) := by
    intro p
    induction p with
    | nil =>
      intro c tail ht _ a c' b he x hx
      cases a with
      | nil =>
        have hb : tail = b := (List.cons.inj he).2
        exact ht x (by rw [hb]; exact hx)
      | cons y a =>
        have hb : tail = a ++ (c', false) :: b := (List.cons.inj he).2
        exact ht x (by rw [hb]; simp [hx])
    | cons p0 p ih =>
      intro c tail ht ht2 a c' b he x hx
      cases a with
      | nil => exact absurd (congrArg Prod.snd (List.cons.inj he).1) (by simp)
      | cons y a => exact ih c tail ht ht2 a c' b (List.cons.inj he).2 x hx
  have all : ∀ (p : List Call), StopsAtFailure (p.map (fun c => (c, true))) := by
    intro p a c b he x hx
    have : (c, false) ∈ p.map (fun c => (c, true)) := by rw [he]; simp
    obtain ⟨_, _, h⟩ := List.mem_map.1 this
    exact absurd (congrArg Prod.snd h) (by simp)
  unfold start at h ⊢
  by_cases e : l.adi = false
  · rw [if_pos e]; exact ⟨fun a c b he => by simp at he, by simp, by simp⟩
  rw [if_neg e] at h ⊢
  simp only at h ⊢
  cases e2 : (calls l [] [.init, .scan, .list]).2 with
  | false =>
    rw [if_pos rfl]
    obtain ⟨p, c, q, h1, h2⟩ := (calls_spec l [] [.init, .scan, .list]).2 e2
    have hm : ∀ x ∈ p, x ∈ ([.init, .scan, .list] : List Call) := fun x hx => by rw [h1]; simp [hx]
    have hc : c ∈ ([.init, .scan, .list] : List Call) := by rw [h1]; simp
    have nots : ∀ r, (Call.trigger, r) ∉ (calls l [] [.init, .scan, .list]).1 := by
      intro r hr
      obtain ⟨u, hu, hm⟩ := calls_mem l [] [.init, .scan, .list]
      rw [hu] at hr
      exact absurd (hm _ hr) (by simp)
    refine ⟨?_, ?_, nots⟩
    · show StopsAtFailure (calls l [] [.init, .scan, .list]).1
      rw [h2]; exact key p c [] (by simp) (by simp)
    · intro hr
      obtain ⟨u, hu, hm⟩ := calls_mem l [] [.init, .scan, .list]
      rw [hu] at hr
      exact absurd (hm _ hr) (by simp)
  | true =>
    have h1 := (calls_spec l [] [.init, .scan, .list]).1 e2
    rw [e2, if_neg (by simp)] at h
    rw [if_neg (by simp)]
    by_cases e3 : deviceId l.devices = -1
    · rw [if_pos e3]
      show StopsAtFailure (calls l [] [.init, .scan, .list]).1 ∧ _ ∉ (calls l [] [.init, .scan, .list]).1 ∧ ∀ r, _ ∉ (calls l [] [.init, .scan, .list]).1
      rw [h1]
      exact ⟨all [.init, .scan, .list], by simp, by simp⟩
    rw [if_neg e3] at h ⊢
    cases e4 : l.ok (calls l [] [.init, .scan, .list]).1.length (.open (deviceId l.devices)) with
    | false =>
      rw [if_neg (by simp)]
      have hc : call l (calls l [] [.init, .scan, .list]).1 (.open (deviceId l.devices)) =
          ([.init, .scan, .list] : List Call).map (fun c => (c, true)) ++ [(.open (deviceId l.devices), false)] := by
        unfold call; rw [e4, h1]; rfl
      show StopsAtFailure (call l (call l _ _) _) ∧ _ ∉ call l (call l _ _) _ ∧ ∀ r, _ ∉ call l (call l _ _) _
      rw [hc]
      unfold call
      rw [List.append_assoc]
      refine ⟨?_, by simp, by simp⟩
      exact key [.init, .scan, .list] _ _ (by simp) (by simp)
    | true =>
      rw [e4, if_pos rfl] at h
      rw [if_pos rfl]
      have hc : call l (calls l [] [.init, .scan, .list]).1 (.open (deviceId l.devices)) =
          ([.init, .scan, .list, .open (deviceId l.devices)] : List Call).map (fun c => (c, true)) := by
        unfold call; rw [e4, h1]; rfl
      obtain ⟨p, c, q, g1, g2⟩ := (calls_spec l _ _).2 h
      show StopsAtFailure (calls l _ _).1 ∧ _ ∉ (calls l _ _).1 ∧ ∀ r, _ ∉ (calls l _ _).1
      rw [g2, hc, ← List.map_append]
      have hp : ∀ x ∈ p, x ∈ ([.setWatchdog, .configure (deviceId l.devices) cfg.address (cfg.outSize * 8) (cfg.inSize * 8), .running] : List Call) := by
        match p, g1 with
        | [], _ => simp
        | [_], g => simp at g; simp [← g.1]
        | [_, _], g => simp at g; simp [← g.1, ← g.2.1]
        | [_, _, _], g => simp at g; simp [← g.1, ← g.2.1, ← g.2.2.1]
        | _ :: _ :: _ :: _ :: _, g => simp at g
      have hcm : c ∈ ([.setWatchdog, .configure (deviceId l.devices) cfg.address (cfg.outSize * 8) (cfg.inSize * 8), .running, .startWatchdog] : List Call) := by
        rw [g1]; simp
      refine ⟨?_, ?_, ?_⟩
      · exact key _ c [] (by simp) (by simp)
      · intro hx
        rcases List.mem_append.1 hx with hx | hx
        · obtain ⟨y, hy, hy2⟩ := List.mem_map.1 hx
          have hy2 : y = .startWatchdog := congrArg Prod.fst hy2
          subst hy2
          rcases List.mem_append.1 hy with hy | hy
          · simp at hy
          · have := hp _ hy; simp at this
        · exact absurd (congrArg Prod.snd (List.mem_singleton.1 hx)) (by simp)
      · intro r hx
        rcases List.mem_append.1 hx with hx | hx
        · obtain ⟨y, hy, hy2⟩ := List.mem_map.1 hx
          have hy2 : y = .trigger := congrArg Prod.fst hy2
          subst hy2
          rcases List.mem_append.1 hy with hy | hy
          · simp at hy
          · have := hp _ hy; simp at this
        · have hx : Call.trigger = c := congrArg Prod.fst (List.mem_singleton.1 hx)
          rw [← hx] at hcm; simp at hcm

end Ptusa.PbInit.Lemmas
