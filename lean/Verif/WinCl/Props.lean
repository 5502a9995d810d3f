import Verif.WinCl.Lemmas
/-!
# C215: a Windows client holds exactly the socket of its connection
-/
namespace Ptusa.WinCl

/-- **C215** (part). Whatever is called and whatever the operating system answers, as long as the options of sockets can be set: the client
holds the one socket of its connection while it is connecting or connected, none otherwise, and none after it is destroyed. -/
theorem C215_one_socket_partial (h : List Ev) (hs : Settable h) :
    (((({} : St).run h).link = .off ∧ (({} : St).run h).opened = []) ∨
      ((({} : St).run h).link ≠ .off ∧ (({} : St).run h).opened = [(({} : St).run h).sock])) ∧
    (({} : St).run h).destroy.opened = [] := by
  have k : Holds (({} : St).run h) := run_holds h rfl hs
  refine ⟨?_, ?_⟩
  · by_cases hl : (({} : St).run h).link = .off
    · exact .inl ⟨hl, holds_off k hl⟩
    · exact .inr ⟨hl, holds_on k hl⟩
  · unfold St.destroy
    by_cases hl : (({} : St).run h).link ≠ .off
    · rw [if_pos hl]; exact disconnect_opened k
    · rw [if_neg hl]; exact holds_off k (Classical.not_not.mp hl)

/-- A connection is begun, it is made later, an exchange fails, a new connection is made. -/
example : (({} : St).run [.send { fd := some 7, sel := .wait }, .poll { sel := .up }, .communicate { recv := .closed },
    .communicate { fd := some 9, recv := .data 12 }]) = ⟨true, 9, .on, [9], [true, true, true]⟩ := by decide +kernel

/-- **C215.** An exchange that brings nothing ends the connection, also when it was closed by the other side, so that the next one
connects anew; one that brings data keeps it. -/
theorem C215_failed_exchange (h : List Ev) (hs : Settable h) (o : Os) (ho : o.opts = true) (hl : o.lib = true) :
    let r := (({} : St).run h).communicate o
    (r.2 = 0 → r.1.link = .off ∧ r.1.opened = []) ∧ (r.2 ≠ 0 → r.1.link ≠ .off ∧ o.recv = .data r.2) := by
  have k : Holds (({} : St).run h) := run_holds h rfl hs
  generalize ({} : St).run h = s at k
  intro r
  have kr : Holds r.1 := communicate_holds k o ho
  have main : (r.2 = 0 → r.1.link = .off) ∧ (r.2 ≠ 0 → r.1.link ≠ .off ∧ o.recv = .data r.2) := by
    show ((s.communicate o).2 = 0 → (s.communicate o).1.link = .off) ∧
      ((s.communicate o).2 ≠ 0 → (s.communicate o).1.link ≠ .off ∧ o.recv = .data (s.communicate o).2)
    unfold St.communicate
    rw [if_neg (by rw [hl]; simp)]
    have kc := connect_holds (s := { s with lib := true }) k o ho
    cases hr : ({ s with lib := true } : St).connect o with
    | mk t b =>
    rw [hr] at kc
    cases b with
    | false => exact ⟨fun _ => kc.2.1 rfl, fun e => absurd rfl e⟩
    | true =>
      simp only
      by_cases h2 : o.send = false
      · rw [if_pos h2]; exact ⟨fun _ => rfl, fun e => absurd rfl e⟩
      · rw [if_neg h2]
        split
        · next n hn => exact ⟨fun e => absurd e (by simp), fun _ => ⟨kc.2.2 rfl, hn⟩⟩
        · exact ⟨fun _ => rfl, fun e => absurd rfl e⟩
  exact ⟨fun e => ⟨main.1 e, holds_off kr (main.1 e)⟩, main.2⟩

/-- **C215 is violated** when an option of a socket cannot be set: every attempt leaves one more socket open, for good. -/
theorem C215_option_violated (n : Nat) :
    let h := (List.range n).map fun i => Ev.communicate { fd := some (i + 1), opts := false }
    (({} : St).run h).opened = (List.range n).reverse.map (· + 1) ∧ (({} : St).run h).destroy.opened.length = n := by
  intro h
  have key : (({} : St).run h).opened = (List.range n).reverse.map (· + 1) ∧ (({} : St).run h).link = .off := by
    show (({} : St).run ((List.range n).map fun i => Ev.communicate { fd := some (i + 1), opts := false })).opened = _ ∧
      (({} : St).run ((List.range n).map fun i => Ev.communicate { fd := some (i + 1), opts := false })).link = _
    clear h
    induction n with
    | zero => exact ⟨rfl, rfl⟩
    | succ n ih =>
      rw [List.range_succ, List.map_append]
      unfold St.run at ih ⊢
      rw [List.foldl_append]
      generalize hs : List.foldl St.step ({} : St) ((List.range n).map fun i => Ev.communicate { fd := some (i + 1), opts := false }) = s at ih
      obtain ⟨i1, i2⟩ := ih
      have hm : ¬ (n + 1 ∈ s.opened) := by
        rw [i1]; simp
      have hstep : s.step (.communicate { fd := some (n + 1), opts := false }) =
          { s with lib := true, sock := n + 1, opened := (n + 1) :: s.opened } := by
        show (s.communicate _).1 = _
        unfold St.communicate St.connect St.open
        simp only [i2, hm]
        simp
      constructor
      · show (s.step (.communicate { fd := some (n + 1), opts := false })).opened = _
        rw [hstep]
        show (n + 1) :: s.opened = _
        rw [i1, List.reverse_append]; rfl
      · show (s.step (.communicate { fd := some (n + 1), opts := false })).link = _
        rw [hstep]; exact i2
  refine ⟨key.1, ?_⟩
  unfold St.destroy
  rw [if_neg (by rw [key.2]; simp), key.1]
  simp

/-- **C215 is violated** when an exchange follows the beginning of a connection: the state "connecting" passes for connected, and the
frame is handed to a socket that is not connected yet. -/
theorem C215_connecting_violated (fd : Nat) (o : Os) :
    (({} : St).run [.send { fd := some fd, sel := .wait }, .communicate { o with lib := true }]).frames = [false] := by
  show (((({} : St).asyncSend { fd := some fd, sel := .wait })).communicate { o with lib := true }).1.frames = [false]
  have : ({} : St).asyncSend { fd := some fd, sel := .wait } = ⟨false, fd, .busy, [fd], []⟩ := rfl
  rw [this]
  unfold St.communicate
  rw [if_neg (by simp)]
  show (match (⟨true, fd, .busy, [fd], []⟩ : St).connect { o with lib := true } with
    | (t, false) => (t, 0)
    | (t, true) => _).1.frames = [false]
  have hc : (⟨true, fd, .busy, [fd], []⟩ : St).connect { o with lib := true } = (⟨true, fd, .busy, [fd], []⟩, true) := rfl
  rw [hc]
  simp only
  by_cases h2 : o.send = false
  · rw [if_pos h2]; rfl
  · rw [if_neg h2]
    split <;> rfl

/-- **C215 is violated** for a client that only receives: a connection closed by the other side gives nothing, and is kept. -/
theorem C215_closed_kept_violated (h : List Ev) (k : Nat) (hl : (({} : St).run h).link = .on) :
    (({} : St).run (h ++ List.replicate k (.recive { recv := .closed }))) = ({} : St).run h := by
  unfold St.run at hl ⊢
  rw [List.foldl_append]
  generalize List.foldl St.step ({} : St) h = s at hl
  induction k with
  | zero => rfl
  | succ k ih =>
    rw [List.replicate_succ, List.foldl_cons]
    have : s.step (.recive { recv := .closed }) = s := by
      show (s.asyncRecive _).1 = s
      unfold St.asyncRecive St.check
      rw [if_pos hl]; rfl
    rw [this]; exact ih

end Ptusa.WinCl
