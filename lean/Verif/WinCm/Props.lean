import Verif.WinCm.Lemmas
/-!
# C216: the Windows server keeps its table of sockets in order and never waits for nobody
-/
namespace Ptusa.WinCm

/-- **C216** (part). Whatever connects, sends and breaks, and however often the network fails, as long as a socket that was made can
be bound and listened on: no call hangs, the table lists every open socket exactly once, the listening socket is open while the network is up, and nothing is open
while it is down. -/
theorem C216_table_partial (o : InitOs) (ho : o.Bindable) (h : List (InitOs × List Round)) (hh : ∀ e ∈ h, e.1.Bindable) :
    ∃ s, run o h = some s ∧ (s.table.map Ent.sock).Nodup ∧ (∀ n, n ∈ s.opened ↔ n ∈ s.table.map Ent.sock) ∧
      (s.ok = true → s.master ∈ s.opened) ∧ (s.ok = false → s.opened = []) := by
  obtain ⟨s, hs, ht⟩ := run_tidy o ho h hh
  exact ⟨s, hs, ht.once, ht.same, ht.up, ht.down⟩

/-- Two clients connect, the first one leaves: the listening socket and the second client remain. -/
example : run { fd := some 4 } [({}, [{ waiting := [some 8] }, { waiting := [some 9] }]),
    ({}, [{ ready := [8], echo := fun _ => .gone }])] = some ⟨true, 4, [⟨4, false⟩, ⟨9, false⟩], [9, 4]⟩ := by decide +kernel

/-- The network fails and is set up again. -/
example : run { fd := some 4 } [({}, [{ waiting := [some 8] }]), ({}, [{ fail := true }]), ({ fd := some 5 }, [])] =
    some ⟨true, 5, [⟨5, false⟩], [5]⟩ := by decide +kernel

/-- **C216 is violated** when the port was taken at first: the closed socket stays in the table.  If the operating system gives its number to the
next socket, the first client that connects is accepted twice, and the second `accept` never returns. -/
theorem C216_port_taken_violated (fd c : Nat) (rest : List (InitOs × List Round)) (rs : List Round) :
    run { fd := some fd, bind := false } (({ fd := some fd }, { waiting := [some c] } :: rs) :: rest) = none := by
  have h1 : (({} : St).init { fd := some fd, bind := false }).evaluate { fd := some fd } ({ waiting := [some c] } :: rs) = none := by
    have e1 : ({} : St).init { fd := some fd, bind := false } = ⟨false, fd, [⟨fd, false⟩], []⟩ := rfl
    rw [e1]
    have e2 : (⟨false, fd, [⟨fd, false⟩], []⟩ : St).init { fd := some fd } = ⟨true, fd, [⟨fd, false⟩, ⟨fd, false⟩], [fd]⟩ := rfl
    unfold St.evaluate
    simp only [Bool.false_eq_true, if_false, e2, Bool.true_eq_false]
    unfold St.rounds
    rw [if_neg (by simp [St.selectFails])]
    have e3 : (⟨true, fd, [⟨fd, false⟩, ⟨fd, false⟩], [fd]⟩ : St).rfds { waiting := [some c] } = [fd, fd] := by
      simp [St.rfds]
    have e4 : (⟨true, fd, [⟨fd, false⟩, ⟨fd, false⟩], [fd]⟩ : St).scan { waiting := [some c] } = none := by
      unfold St.scan
      rw [e3]
      by_cases hc : c = fd <;> simp [walk, visit, hc]
    rw [e4]
  unfold run
  rw [List.foldl_cons]
  show List.foldl _ (((({} : St).init { fd := some fd, bind := false }).evaluate _ _).map Prod.fst) rest = none
  rw [h1]
  show List.foldl _ none rest = none
  induction rest with
  | nil => rfl
  | cons e r ih => rw [List.foldl_cons]; exact ih

/-- **C216** (part). If the number is not used again, the server recovers: however often the port was taken (sockets `fds`), the first call after that
fails and empties the table, the second one serves. -/
theorem C216_recovers_partial (fds : List Nat) (hne : fds ≠ []) (a b : Nat) (ha : a ∉ fds) (r : Round) :
    let busy : List (InitOs × List Round) := fds.map fun n => ({ fd := some n, bind := false }, [])
    run {} (busy ++ [({ fd := some a }, [r])]) = some ⟨false, a, [], []⟩ ∧
    run {} (busy ++ [({ fd := some a }, [r]), ({ fd := some b }, [])]) = some ⟨true, b, [⟨b, false⟩], [b]⟩ := by
  intro busy
  have h0 : ∀ l : List Nat, ∃ m, run {} (l.map fun n => ({ fd := some n, bind := false }, [])) =
      some ⟨false, m, l.map fun n => ⟨n, false⟩, []⟩ := by
    intro l
    induction l using List.reverseRecOn with
    | nil => exact ⟨0, rfl⟩
    | append_singleton l n ih =>
      obtain ⟨m, hm⟩ := ih
      refine ⟨n, ?_⟩
      rw [List.map_append, List.map_cons, List.map_nil, run_snoc, hm, List.map_append]
      rfl
  obtain ⟨m, hm⟩ := h0 fds
  have h1 : run {} (busy ++ [({ fd := some a }, [r])]) = some ⟨false, a, [], []⟩ := by
    rw [run_snoc, hm]
    have e2 : (⟨false, m, fds.map fun n => ⟨n, false⟩, []⟩ : St).init { fd := some a } =
        ⟨true, a, (fds.map fun n => ⟨n, false⟩) ++ [⟨a, false⟩], [a]⟩ := rfl
    show ((St.evaluate ⟨false, m, fds.map fun n => ⟨n, false⟩, []⟩ { fd := some a } [r]).map Prod.fst) = _
    unfold St.evaluate
    simp only [Bool.false_eq_true, if_false, e2, Bool.true_eq_false]
    unfold St.rounds
    have hf : (⟨true, a, (fds.map fun n => ⟨n, false⟩) ++ [⟨a, false⟩], [a]⟩ : St).selectFails r = true := by
      cases fds with
      | nil => exact absurd rfl hne
      | cons n ns =>
        have : n ≠ a := fun h => ha (h ▸ List.mem_cons_self)
        simp [St.selectFails, this]
    rw [if_pos hf]
    simp [St.terminate]
  refine ⟨h1, ?_⟩
  have hl : busy ++ [({ fd := some a }, [r]), ({ fd := some b }, [])] = (busy ++ [({ fd := some a }, [r])]) ++ [({ fd := some b }, [])] := by
    simp
  rw [hl, run_snoc, h1]
  rfl

example : run {} ([({ fd := some 4, bind := false }, []), ({ fd := some 5, bind := false }, [])] ++ [({ fd := some 6 }, [{ fail := false }]), ({ fd := some 7 }, [])]) =
    some ⟨true, 7, [⟨7, false⟩], [7]⟩ := by decide +kernel

end Ptusa.WinCm
