import Verif.WinCl.Spec
/-! Helper lemmas for the Windows client. -/
namespace Ptusa.WinCl

theorem holds_off {s : St} (h : Holds s) (hl : s.link = .off) : s.opened = [] := by
  unfold Holds at h; rw [if_pos hl] at h; exact h

theorem holds_on {s : St} (h : Holds s) (hl : s.link ≠ .off) : s.opened = [s.sock] := by
  unfold Holds at h; rw [if_neg hl] at h; exact h

theorem disconnect_opened {s : St} (h : Holds s) : s.disconnect.opened = [] := by
  show s.opened.filter _ = []
  by_cases hl : s.link = .off
  · rw [holds_off h hl]; rfl
  · rw [holds_on h hl]; simp

theorem disconnect_holds {s : St} (h : Holds s) : Holds s.disconnect := disconnect_opened h

theorem frame_holds {s : St} (h : Holds s) : Holds s.frame := h

/-- The beginning of a connection without a failing option: either nothing is open, or just the new socket. -/
theorem open_off {s : St} (h : Holds s) (hl : s.link = .off) (o : Os) (ho : o.opts = true) :
    ((s.open o).2 = false ∧ (s.open o).1.opened = [] ∧ (s.open o).1.link = .off) ∨
    ((s.open o).2 = true ∧ (s.open o).1.opened = [(s.open o).1.sock] ∧ (s.open o).1.link = .off) := by
  have h0 := holds_off h hl
  unfold St.open
  cases o.fd with
  | none => exact .inl ⟨rfl, h0, hl⟩
  | some fd =>
    simp only
    rw [if_neg (by rw [h0]; simp), if_neg (by rw [ho]; simp)]
    by_cases hn : o.nonblock = false
    · rw [if_pos hn]; left
      refine ⟨rfl, ?_, hl⟩
      show (fd :: s.opened).filter (· != fd) = []
      rw [h0]; simp
    · rw [if_neg hn]; right
      refine ⟨rfl, ?_, hl⟩
      show fd :: s.opened = [fd]
      rw [h0]

theorem connect_holds {s : St} (h : Holds s) (o : Os) (ho : o.opts = true) :
    Holds (s.connect o).1 ∧ ((s.connect o).2 = false → (s.connect o).1.link = .off) ∧
      ((s.connect o).2 = true → (s.connect o).1.link ≠ .off) := by
  unfold St.connect
  by_cases hl : s.link ≠ .off
  · rw [if_pos hl]; exact ⟨h, fun e => (by cases e), fun _ => hl⟩
  · rw [if_neg hl]
    have hl : s.link = .off := Classical.not_not.mp hl
    have key := open_off h hl o ho
    cases hr : s.open o with
    | mk t b =>
    rw [hr] at key
    cases b with
    | false =>
      rcases key with ⟨_, k1, k2⟩ | ⟨k, _⟩
      · refine ⟨?_, fun _ => k2, fun e => (by cases e)⟩
        show t.opened = if t.link = .off then [] else _
        rw [if_pos k2]; exact k1
      · cases k
    | true =>
      rcases key with ⟨k, _⟩ | ⟨_, k1, k2⟩
      · cases k
      · have gone : Holds { t.close t.sock with sock := 0 } ∧ ({ t.close t.sock with sock := 0 } : St).link = .off := by
          refine ⟨?_, k2⟩
          show t.opened.filter _ = if t.link = .off then [] else _
          rw [if_pos k2, k1]; simp
        cases o.sel with
        | up => exact ⟨k1, fun e => (by cases e), fun _ => by simp⟩
        | wait => exact ⟨gone.1, fun _ => gone.2, fun e => (by cases e)⟩
        | fail => exact ⟨gone.1, fun _ => gone.2, fun e => (by cases e)⟩
        | refused => exact ⟨gone.1, fun _ => gone.2, fun e => (by cases e)⟩

theorem connecting_holds {s : St} (h : s.opened = [s.sock]) (hb : s.link = .busy) (o : Os) :
    Holds (s.connecting o).1 ∧ (s.connecting o).1.link = (s.connecting o).2 := by
  have gone : Holds { s.close s.sock with sock := 0, link := .off } := by
    show s.opened.filter _ = []
    rw [h]; simp
  unfold St.connecting
  cases o.sel with
  | wait =>
    simp only
    by_cases hl : o.late = true
    · rw [if_pos hl]; exact ⟨gone, rfl⟩
    · rw [if_neg hl]
      refine ⟨?_, hb⟩
      show s.opened = if s.link = .off then [] else _
      rw [if_neg (by rw [hb]; simp)]; exact h
  | fail => exact ⟨gone, rfl⟩
  | refused => exact ⟨gone, rfl⟩
  | up => exact ⟨h, rfl⟩

theorem asyncConnect_holds {s : St} (h : Holds s) (o : Os) (ho : o.opts = true) :
    Holds (s.asyncConnect o).1 ∧ (s.asyncConnect o).1.link = (s.asyncConnect o).2 := by
  unfold St.asyncConnect
  cases hl : s.link with
  | on => exact ⟨h, hl⟩
  | busy => exact connecting_holds (holds_on h (by rw [hl]; simp)) hl o
  | off =>
    have key := open_off h hl o ho
    simp only
    cases hr : s.open o with
    | mk t b =>
    rw [hr] at key
    cases b with
    | false =>
      rcases key with ⟨_, k1, k2⟩ | ⟨k, _⟩
      · refine ⟨?_, k2⟩
        show t.opened = if t.link = .off then [] else _
        rw [if_pos k2]; exact k1
      · cases k
    | true =>
      rcases key with ⟨k, _⟩ | ⟨_, k1, k2⟩
      · cases k
      · exact connecting_holds (s := { t with link := .busy }) k1 rfl { o with late := false }

theorem check_holds {s : St} (h : Holds s) (o : Os) (ho : o.opts = true) :
    Holds (s.check o).1 ∧ ((s.check o).2 = true → (s.check o).1.link = .on) := by
  unfold St.check
  by_cases h1 : s.link = .on
  · rw [if_pos h1]; exact ⟨h, fun _ => h1⟩
  · rw [if_neg h1]
    by_cases h2 : o.due = true ∨ s.link = .busy
    · rw [if_pos h2]
      have := asyncConnect_holds h o ho
      refine ⟨this.1, fun e => ?_⟩
      rw [this.2]; exact of_decide_eq_true e
    · rw [if_neg h2]; exact ⟨h, fun e => (by cases e)⟩

theorem communicate_holds {s : St} (h : Holds s) (o : Os) (ho : o.opts = true) : Holds (s.communicate o).1 := by
  unfold St.communicate
  by_cases h1 : s.lib = false ∧ o.lib = false
  · rw [if_pos h1]; exact h
  · rw [if_neg h1]
    have k := connect_holds (s := { s with lib := true }) h o ho
    cases hr : ({ s with lib := true } : St).connect o with
    | mk t b =>
    rw [hr] at k
    cases b with
    | false => exact k.1
    | true =>
      simp only
      by_cases h2 : o.send = false
      · rw [if_pos h2]; exact disconnect_holds (frame_holds k.1)
      · rw [if_neg h2]
        split
        · exact frame_holds k.1
        · exact disconnect_holds (frame_holds k.1)

theorem asyncSend_holds {s : St} (h : Holds s) (o : Os) (ho : o.opts = true) : Holds (s.asyncSend o) := by
  unfold St.asyncSend
  have k := check_holds h o ho
  cases hr : s.check o with
  | mk t b =>
  rw [hr] at k
  cases b with
  | false => exact k.1
  | true =>
    simp only
    by_cases h2 : o.send = true
    · rw [if_pos h2]; exact frame_holds k.1
    · rw [if_neg h2]; exact disconnect_holds (frame_holds k.1)

theorem asyncRecive_holds {s : St} (h : Holds s) (o : Os) (ho : o.opts = true) : Holds (s.asyncRecive o).1 := by
  unfold St.asyncRecive
  have k := check_holds h o ho
  cases hr : s.check o with
  | mk t b =>
  rw [hr] at k
  cases b with
  | false => exact k.1
  | true =>
    simp only
    by_cases h2 : o.ripe = true
    · rw [if_pos h2]
      cases o.recv with
      | err => exact disconnect_holds k.1
      | silent => exact k.1
      | closed => exact k.1
      | data n => exact k.1
    · rw [if_neg h2]; exact k.1

theorem step_holds {s : St} (h : Holds s) (e : Ev) (he : ∀ o, e.os = some o → o.opts = true) : Holds (s.step e) := by
  cases e with
  | communicate o => exact communicate_holds h o (he o rfl)
  | send o => exact asyncSend_holds h o (he o rfl)
  | recive o => exact asyncRecive_holds h o (he o rfl)
  | poll o =>
    show Holds (s.poll o)
    unfold St.poll
    by_cases hb : s.link = .busy
    · rw [if_pos hb]; exact asyncSend_holds h o (he o rfl)
    · rw [if_neg hb]; exact h
  | disconnect => exact disconnect_holds h

theorem run_holds (h : List Ev) : ∀ {s : St}, Holds s → Settable h → Holds (s.run h) := by
  induction h with
  | nil => intro s hs _; exact hs
  | cons e h ih =>
    intro s hs hh
    exact ih (step_holds hs e (hh e List.mem_cons_self)) (fun x hx => hh x (List.mem_cons_of_mem _ hx))

end Ptusa.WinCl
