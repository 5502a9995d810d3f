import Verif.TcpCl.Spec

/-!
# Lemmas about the connections to devices
-/
namespace Ptusa.TcpCl

@[simp] theorem setCl_same (w : World) (k : Nat) (c : Cl) : (w.setCl k c).cl k = c := by simp [World.setCl]
@[simp] theorem setCl_other (w : World) {k j : Nat} (c : Cl) (h : j ≠ k) : (w.setCl k c).cl j = w.cl j := by simp [World.setCl, h]
@[simp] theorem setCl_fds (w : World) (k : Nat) (c : Cl) : (w.setCl k c).fds = w.fds := rfl
@[simp] theorem setCl_map (w : World) (k : Nat) (c : Cl) : (w.setCl k c).map = w.map := rfl
@[simp] theorem setCl_out (w : World) (k : Nat) (c : Cl) : (w.setCl k c).out = w.out := rfl
@[simp] theorem setCl_inp (w : World) (k : Nat) (c : Cl) : (w.setCl k c).inp = w.inp := rfl
@[simp] theorem setCl_att (w : World) (k : Nat) (c : Cl) : (w.setCl k c).att = w.att := rfl
@[simp] theorem setFd_same (w : World) (k : Nat) (o : Option Obj) : (w.setFd k o).fds k = o := by simp [World.setFd]
@[simp] theorem setFd_other (w : World) {k j : Nat} (o : Option Obj) (h : j ≠ k) : (w.setFd k o).fds j = w.fds j := by
  simp [World.setFd, h]
@[simp] theorem setFd_cl (w : World) (k : Nat) (o : Option Obj) : (w.setFd k o).cl = w.cl := rfl
@[simp] theorem setFd_map (w : World) (k : Nat) (o : Option Obj) : (w.setFd k o).map = w.map := rfl
@[simp] theorem setFd_out (w : World) (k : Nat) (o : Option Obj) : (w.setFd k o).out = w.out := rfl
@[simp] theorem setFd_inp (w : World) (k : Nat) (o : Option Obj) : (w.setFd k o).inp = w.inp := rfl
@[simp] theorem setFd_att (w : World) (k : Nat) (o : Option Obj) : (w.setFd k o).att = w.att := rfl

/-- The descriptors and the connections belong to each other. -/
structure Base (w : World) : Prop where
  own : ∀ k, (w.cl k).link ≠ .off → w.fds (w.cl k).sock = some (.dev k)
  only : ∀ fd k, w.fds fd = some (.dev k) → (w.cl k).link ≠ .off ∧ (w.cl k).sock = fd
  std : ∀ fd, w.fds fd = some .std ↔ fd < 3
  out : ∀ e ∈ w.out, e.2.2 = .dev e.1
  inp : ∀ e ∈ w.inp, e.2 = .dev e.1

/-- A change of the other fields of a client. -/
theorem Base.setCl {w : World} (h : Base w) {k : Nat} {c : Cl} (h1 : c.sock = (w.cl k).sock) (h2 : c.link = (w.cl k).link) :
    Base (w.setCl k c) := by
  refine ⟨fun j hj => ?_, fun fd j hj => ?_, h.std, h.out, h.inp⟩
  · by_cases e : j = k
    · subst e
      rw [setCl_same] at hj ⊢
      rw [h1]
      rw [h2] at hj
      exact h.own _ hj
    · rw [setCl_other _ _ e] at hj ⊢
      exact h.own _ hj
  · by_cases e : j = k
    · subst e
      rw [setCl_same, h1, h2]
      exact h.only _ _ hj
    · rw [setCl_other _ _ e]
      exact h.only _ _ hj

theorem Base.disconnect {w : World} (h : Base w) {k : Nat} (hl : (w.cl k).link ≠ .off) : Base (w.disconnect k) := by
  have hk := h.own k hl
  refine ⟨fun j hj => ?_, fun fd j hj => ?_, fun fd => ?_, h.out, h.inp⟩
  · by_cases e : j = k
    · subst e
      simp [World.disconnect] at hj
    · simp only [World.disconnect, setCl_other _ _ e, setFd_cl, setCl_fds] at hj ⊢
      have hj' := h.own _ hj
      rw [setFd_other]
      · exact hj'
      · intro e2
        rw [e2, hk] at hj'
        simp only [Option.some.injEq, Obj.dev.injEq] at hj'
        exact e hj'.symm
  · simp only [World.disconnect, setCl_fds] at hj
    by_cases e : fd = (w.cl k).sock
    · subst e; simp at hj
    · rw [setFd_other _ _ e] at hj
      have := h.only _ _ hj
      by_cases e2 : j = k
      · subst e2; exact absurd this.2.symm e
      · simp only [World.disconnect, setCl_other _ _ e2, setFd_cl]
        exact this
  · simp only [World.disconnect, setCl_fds]
    by_cases e : fd = (w.cl k).sock
    · subst e
      simp only [setFd_same, reduceCtorEq, false_iff]
      intro h3
      have := (h.std _).mpr h3
      rw [hk] at this
      simp at this
    · rw [setFd_other _ _ e]
      exact h.std fd

theorem Base.open {w : World} (h : Base w) {k fd : Nat} (hf : w.fds fd = none) (hl : (w.cl k).link = .off) {c : Cl} (h1 : c.sock = fd)
    (h2 : c.link ≠ .off) : Base ((w.setFd fd (some (.dev k))).setCl k c) := by
  refine ⟨fun j hj => ?_, fun i j hj => ?_, fun i => ?_, h.out, h.inp⟩
  · by_cases e : j = k
    · subst e
      rw [setCl_same, setCl_fds, h1, setFd_same]
    · rw [setCl_other _ _ e] at hj ⊢
      have := h.own _ hj
      rw [setCl_fds, setFd_cl, setFd_other]
      · exact this
      · intro e2
        rw [e2, hf] at this
        simp at this
  · rw [setCl_fds] at hj
    by_cases e : i = fd
    · subst e
      rw [setFd_same] at hj
      simp only [Option.some.injEq, Obj.dev.injEq] at hj
      subst hj
      rw [setCl_same]
      exact ⟨h2, h1⟩
    · rw [setFd_other _ _ e] at hj
      have := h.only _ _ hj
      have e2 : j ≠ k := by
        intro e2; subst e2; exact this.1 hl
      rw [setCl_other _ _ e2]
      exact this
  · rw [setCl_fds]
    by_cases e : i = fd
    · subst e
      have := h.std i
      rw [hf] at this
      simpa using this
    · rw [setFd_other _ _ e]
      exact h.std i

theorem Base.att {w : World} (h : Base w) (a : List (Nat × Nat)) : Base { w with att := a } := ⟨h.own, h.only, h.std, h.out, h.inp⟩
theorem Base.map {w : World} (h : Base w) (a : List (Nat × Nat)) : Base { w with map := a } := ⟨h.own, h.only, h.std, h.out, h.inp⟩

/-- A client which is not connected neither waits nor has an answer. -/
def Idle (c : Cl) : Prop := c.link = .off → c.result ≠ .busy ∧ ∀ n, c.result ≠ .got n

theorem Idle.on {c : Cl} (h : c.link ≠ .off) : Idle c := fun h' => absurd h' h

theorem Idle.error {c : Cl} (h : c.result = .error ∨ c.result = .timeout) : Idle c := fun _ => by
  rcases h with h | h <;> simp [h]

/-- What a part of a call of client `k` leaves as it is. -/
structure Frame (w w' : World) (k : Nat) : Prop where
  cl : ∀ j, j ≠ k → w'.cl j = w.cl j
  map : w'.map = w.map
  out : ∀ j, j ≠ k → w'.lastFrame j = w.lastFrame j

theorem Frame.refl (w : World) (k : Nat) : Frame w w k := ⟨fun _ _ => rfl, rfl, fun _ _ => rfl⟩
theorem Frame.trans {a b c : World} {k : Nat} (h : Frame a b k) (h' : Frame b c k) : Frame a c k :=
  ⟨fun j hj => (h'.cl j hj).trans (h.cl j hj), h'.map.trans h.map, fun j hj => (h'.out j hj).trans (h.out j hj)⟩
theorem Frame.setCl (w : World) (k : Nat) (c : Cl) : Frame w (w.setCl k c) k := ⟨fun _ hj => setCl_other _ _ hj, rfl, fun _ _ => rfl⟩
theorem Frame.disconnect (w : World) (k : Nat) : Frame w (w.disconnect k) k := ⟨fun _ hj => setCl_other _ _ hj, rfl, fun _ _ => rfl⟩

@[simp] theorem disconnect_link (w : World) (k : Nat) : ((w.disconnect k).cl k).link = .off := by simp [World.disconnect]

theorem connecting_spec {w : World} (h : Base w) {k now : Nat} {net : Net} (hl : (w.cl k).link = .busy) :
    Base (w.connecting k now net).1 ∧ Frame w (w.connecting k now net).1 k ∧
    ((w.connecting k now net).1.cl k).link = (w.connecting k now net).2 := by
  have hne : (w.cl k).link ≠ .off := by simp [hl]
  unfold World.connecting
  cases net.sel with
  | wait =>
    simp only
    split
    · exact ⟨h.disconnect hne, .disconnect _ _, by simp⟩
    · exact ⟨h, .refl _ _, hl⟩
  | fail => exact ⟨h.disconnect hne, .disconnect _ _, by simp⟩
  | up =>
    refine ⟨?_, .setCl _ _ _, by simp⟩
    refine ⟨fun j hj => ?_, fun fd j hj => ?_, h.std, h.out, h.inp⟩
    · by_cases e : j = k
      · subst e
        rw [setCl_same, setCl_fds]
        exact h.own _ hne
      · rw [setCl_other _ _ e] at hj ⊢
        exact h.own _ hj
    · by_cases e : j = k
      · subst e
        rw [setCl_same]
        exact ⟨by simp, (h.only _ _ hj).2⟩
      · rw [setCl_other _ _ e]
        exact h.only _ _ hj

theorem Base.sock {w : World} (h : Base w) {k n : Nat} (hl : (w.cl k).link = .off) :
    Base (w.setCl k { w.cl k with sock := n }) := by
  refine ⟨fun j hj => ?_, fun fd j hj => ?_, h.std, h.out, h.inp⟩
  · by_cases e : j = k
    · subst e
      rw [setCl_same] at hj
      exact absurd hl hj
    · rw [setCl_other _ _ e] at hj ⊢
      exact h.own _ hj
  · by_cases e : j = k
    · subst e
      exact absurd hl (h.only _ _ hj).1
    · rw [setCl_other _ _ e]
      exact h.only _ _ hj

theorem connect_spec {w : World} (h : Base w) {k now : Nat} {net : Net} (hn : net.start ≠ .refused) :
    Base (w.connect k now net).1 ∧ Frame w (w.connect k now net).1 k ∧
    ((w.connect k now net).1.cl k).link = (w.connect k now net).2 := by
  unfold World.connect
  split
  · rename_i hl
    exact ⟨h, .refl _ _, hl⟩
  · rename_i hl
    exact connecting_spec h hl
  · rename_i hl
    split
    · rename_i hf
      split
      · exact ⟨h, .refl _ _, hl⟩
      · exact ⟨h.sock hl, .setCl _ _ _, by simpa using hl⟩
      · rename_i hs; exact absurd hs hn
      · have hb := h.open (k := k) hf hl (c := { w.cl k with sock := net.fd, started := now, link := .busy }) rfl (by simp)
        obtain ⟨h1, h2, h3⟩ := connecting_spec hb (k := k) (now := now) (net := net) (by simp)
        have f : Frame w ((w.setFd net.fd (some (.dev k))).setCl k { w.cl k with sock := net.fd, started := now, link := .busy }) k :=
          ⟨fun j hj => setCl_other _ _ hj, rfl, fun _ _ => rfl⟩
        exact ⟨h1, f.trans h2, h3⟩
    · exact ⟨h, .refl _ _, hl⟩

theorem attempt_spec {w : World} (h : Base w) (k now : Nat) :
    Base (w.attempt k now) ∧ Frame w (w.attempt k now) k := by
  unfold World.attempt
  split
  · refine ⟨Base.att (Base.setCl h ?_ ?_) _, ⟨fun j hj => setCl_other _ _ hj, rfl, fun _ _ => rfl⟩⟩ <;> rfl
  · exact ⟨h, .refl _ _⟩

theorem settle_spec {w : World} {l : Link} (h : Base w) {k : Nat} (hl : (w.cl k).link = l) :
    Base (World.settle k (w, l)).1 ∧ Frame w (World.settle k (w, l)).1 k ∧
    (((World.settle k (w, l)).1.cl k).link = .on ↔ (World.settle k (w, l)).2 = true) ∧ Idle ((World.settle k (w, l)).1.cl k) := by
  cases l
  · exact ⟨h.setCl rfl rfl, .setCl _ _ _, by simp [World.settle, hl], .error (by simp [World.settle])⟩
  · exact ⟨h, .refl _ _, by simp [World.settle, hl], .on (by simp [World.settle, hl])⟩
  · exact ⟨h.setCl rfl rfl, .setCl _ _ _, by simp [World.settle, hl], .on (by simp [World.settle, hl])⟩

theorem check_spec {w : World} (h : Base w) {k now : Nat} {net : Net} (hn : net.start ≠ .refused) :
    Base (w.check k now net).1 ∧ Frame w (w.check k now net).1 k ∧
    (((w.check k now net).1.cl k).link = .on ↔ (w.check k now net).2 = true) ∧ Idle ((w.check k now net).1.cl k) := by
  unfold World.check
  split
  · rename_i hl
    exact ⟨h, .refl _ _, by simp [hl], .on (by simp [hl])⟩
  · rename_i hl
    split
    · obtain ⟨h1, f1⟩ := attempt_spec h k now
      obtain ⟨h2, f2, l2⟩ := connect_spec h1 (k := k) (now := now) hn
      obtain ⟨h3, f3, l3⟩ := settle_spec h2 l2
      exact ⟨h3, (f1.trans f2).trans f3, l3⟩
    · exact ⟨h.setCl rfl rfl, .setCl _ _ _, by simp [hl], .error (by simp)⟩

theorem write_spec {w : World} (h : Base w) {k : Nat} (hl : (w.cl k).link ≠ .off) (now : Nat) (sent : Bool) :
    Base (w.write k now sent).1 ∧ Frame w (w.write k now sent).1 k ∧ (w.write k now sent).1.cl k = w.cl k ∧ (w.write k now sent).2 = sent ∧
    (w.write k now sent).1.lastFrame k = some now := by
  unfold World.write
  rw [h.own k hl]
  refine ⟨⟨h.own, h.only, h.std, ?_, h.inp⟩, ⟨fun _ _ => rfl, rfl, ?_⟩, rfl, rfl, by simp [World.lastFrame]⟩
  · intro e he
    simp only [List.mem_cons] at he
    rcases he with rfl | he
    · rfl
    · exact h.out e he
  · intro j hj
    simp [World.lastFrame, Ne.symm hj]

theorem read_spec {w : World} (h : Base w) {k : Nat} (hl : (w.cl k).link ≠ .off) (r : Rd) :
    Base (w.read k r).1 ∧ Frame w (w.read k r).1 k ∧ (w.read k r).1.cl k = w.cl k ∧ (w.read k r).2 = r := by
  unfold World.read
  rw [h.own k hl]
  cases r with
  | got n =>
    refine ⟨⟨h.own, h.only, h.std, h.out, ?_⟩, ⟨fun _ _ => rfl, rfl, fun _ _ => rfl⟩, rfl, rfl⟩
    intro e he
    simp only [List.mem_cons] at he
    rcases he with rfl | he
    · rfl
    · exact h.inp e he
  | fail => exact ⟨h, .refl _ _, rfl, rfl⟩
  | closed => exact ⟨h, .refl _ _, rfl, rfl⟩

/-- An entry of the table: a connected modbus client which waits, under its socket. -/
structure Entry (mb : Nat → Bool) (w : World) (e : Nat × Nat) : Prop where
  mb : mb e.2 = true
  link : (w.cl e.2).link = .on
  sock : (w.cl e.2).sock = e.1
  result : (w.cl e.2).result = .busy
  sent : w.lastFrame e.2 = some (w.cl e.2).queued

theorem Entry.of_cl {mb : Nat → Bool} {w w' : World} {e : Nat × Nat} (h : Entry mb w e) (hc : w'.cl e.2 = w.cl e.2)
    (ho : w'.lastFrame e.2 = w.lastFrame e.2) : Entry mb w' e :=
  ⟨h.mb, by rw [hc, h.link], by rw [hc, h.sock], by rw [hc, h.result], by rw [hc, ho, h.sent]⟩

/-- The table is that of the clients which wait. -/
structure Inv (mb : Nat → Bool) (w : World) : Prop where
  base : Base w
  map : ∀ e ∈ w.map, Entry mb w e
  nodup : (w.map.map (·.2)).Nodup
  wait : ∀ k, mb k = true → w.waits k → k ∈ w.map.map (·.2)
  idle : ∀ k, mb k = true → Idle (w.cl k)

/-- After a part of a call of a client which is not in the table and does not wait. -/
theorem Inv.frame {mb : Nat → Bool} {w w' : World} {k : Nat} (h : Inv mb w) (hb : Base w') (f : Frame w w' k)
    (hk : k ∉ w.map.map (·.2)) (hw : mb k = true → ¬ w'.waits k ∧ Idle (w'.cl k)) : Inv mb w' := by
  refine ⟨hb, ?_, by rw [f.map]; exact h.nodup, ?_, fun j hj => ?_⟩
  · intro e he
    rw [f.map] at he
    have hne : e.2 ≠ k := fun e2 => hk (List.mem_map.mpr ⟨e, he, e2⟩)
    exact (h.map e he).of_cl (f.cl _ hne) (f.out _ hne)
  · intro j hj hwj
    rw [f.map]
    by_cases e : j = k
    · subst e; exact absurd hwj (hw hj).1
    · refine h.wait j hj ?_
      unfold World.waits at hwj ⊢
      rw [f.cl j e] at hwj
      exact hwj
  · by_cases e : j = k
    · subst e; exact (hw hj).2
    · rw [f.cl j e]; exact h.idle j hj

theorem Inv.send {mb : Nat → Bool} {w : World} (h : Inv mb w) {k now : Nat} {net : Net} (hn : net.start ≠ .refused)
    (hm : mb k = true) (hk : k ∉ w.map.map (·.2)) : Inv mb (w.send k now net) := by
  unfold World.send
  have hb0 : Base (w.setCl k { w.cl k with result := .busy }) := h.base.setCl rfl rfl
  obtain ⟨h1, f1, l1, i1⟩ := check_spec hb0 (k := k) (now := now) hn
  have f1 := (Frame.setCl w k { w.cl k with result := .busy }).trans f1
  rcases hc : (w.setCl k { w.cl k with result := .busy }).check k now net with ⟨w1, b⟩
  rw [hc] at h1 f1 l1 i1
  cases b
  · refine h.frame h1 f1 hk fun _ => ⟨?_, i1⟩
    rintro ⟨hw, -⟩
    exact absurd (l1.mp hw) (by simp)
  · have hon := l1.mpr rfl
    simp only at hon h1 f1 ⊢
    have hne : (w1.cl k).link ≠ .off := by simp [hon]
    obtain ⟨h2, f2, c2, s2, o2⟩ := write_spec h1 hne now net.sent
    rcases hw : w1.write k now net.sent with ⟨w2, b2⟩
    rw [hw] at h2 f2 c2 s2 o2
    simp only at h2 f2 c2 s2 o2
    cases b2
    · have h3 : Base (w2.setCl k { w2.cl k with result := .error }) := h2.setCl rfl rfl
      have h4 := h3.disconnect (k := k) (by simp [c2, hon])
      refine h.frame h4 (((f1.trans f2).trans (.setCl _ _ _)).trans (.disconnect _ _)) hk fun _ => ⟨?_, ?_⟩
      · rintro ⟨hw, -⟩
        simp at hw
      · exact .error (by simp [World.disconnect])
    · have f := f1.trans f2
      have h3 : Base (w2.setCl k { w2.cl k with result := .busy, queued := now }) := h2.setCl rfl rfl
      have hkey : w2.map.filter (fun e => e.1 != (w2.cl k).sock) = w2.map := by
        rw [List.filter_eq_self]
        intro e he
        have he' := he
        rw [f.map] at he'
        have hne2 : e.2 ≠ k := fun e2 => hk (List.mem_map.mpr ⟨e, he', e2⟩)
        have hE := (h.map e he').of_cl (f.cl _ hne2) (f.out _ hne2)
        simp only [bne_iff_ne, ne_eq]
        intro hs
        have o1 := h2.own e.2 (by simp [hE.link])
        have o3 := h2.own k (by simp [c2, hon])
        rw [hE.sock, hs, o3] at o1
        simp only [Option.some.injEq, Obj.dev.injEq] at o1
        exact hne2 o1.symm
      show Inv mb (w2.queue k now)
      unfold World.queue
      rw [hkey]
      refine ⟨h3.map _, ?_, ?_, ?_, ?_⟩
      · intro e he
        simp only [List.mem_cons] at he
        rcases he with rfl | he
        · exact ⟨hm, by simp [c2, hon], by simp, by simp, by simp only [setCl_same]; exact o2⟩
        · rw [f.map] at he
          have hne2 : e.2 ≠ k := fun e2 => hk (List.mem_map.mpr ⟨e, he, e2⟩)
          refine (h.map e he).of_cl ?_ (f.out _ hne2)
          show (w2.setCl k _).cl e.2 = _
          rw [setCl_other _ _ hne2]
          exact f.cl _ hne2
      · simp only [List.map_cons, List.nodup_cons, f.map]
        exact ⟨hk, h.nodup⟩
      · intro j hj hwj
        by_cases e : j = k
        · subst e; simp
        · simp only [List.map_cons, List.mem_cons, f.map]
          right
          refine h.wait j hj ?_
          have : (w2.setCl k { w2.cl k with result := .busy, queued := now }).cl j = w.cl j := by
            rw [setCl_other _ _ e]; exact f.cl _ e
          unfold World.waits at hwj ⊢
          rw [← this]
          exact hwj
      · intro j hj
        by_cases e : j = k
        · subst e; exact .on (by simp [c2, hon])
        · have : (w2.setCl k { w2.cl k with result := .busy, queued := now }).cl j = w.cl j := by
            rw [setCl_other _ _ e]; exact f.cl _ e
          have hi := h.idle j hj
          rw [← this] at hi
          exact hi

theorem Inv.not_in {mb : Nat → Bool} {w : World} (h : Inv mb w) {k : Nat} (hk : ¬ w.waits k) : k ∉ w.map.map (·.2) := by
  intro hm
  obtain ⟨e, he, rfl⟩ := List.mem_map.mp hm
  exact hk ⟨(h.map e he).link, (h.map e he).result⟩

theorem Inv.poll {mb : Nat → Bool} {w : World} (h : Inv mb w) {k now : Nat} {net : Net} (hn : net.start ≠ .refused)
    (hm : mb k = true) : Inv mb (w.poll k now net) := by
  unfold World.poll
  split
  · rename_i hl
    exact h.send hn hm (h.not_in fun hw => by simp [World.waits, hl] at hw)
  · exact h

theorem Inv.call {mb : Nat → Bool} {w : World} (h : Inv mb w) {k now : Nat} {n1 n2 : Net} {take : Bool} (h1 : n1.start ≠ .refused)
    (h2 : n2.start ≠ .refused) (hm : mb k = true) : Inv mb (w.call k now n1 n2 take) := by
  unfold World.call
  have hp := h.poll (k := k) (now := now) h1 hm
  generalize w.poll k now n1 = w1 at hp
  simp only
  have ns : (w1.cl k).result ≠ .busy → k ∉ w1.map.map (·.2) := fun hr => hp.not_in fun hw => hr hw.2
  split
  · exact hp
  · rename_i n hr
    split
    · exact hp.frame (hp.base.setCl rfl rfl) (.setCl _ _ _) (ns (by simp [hr])) fun _ =>
        ⟨fun hw => by simp [World.waits] at hw, fun _ => by simp⟩
    · exact hp.send h2 hm (ns (by simp [hr]))
  · rename_i h0 _
    exact hp.send h2 hm (ns h0)

theorem receive_spec {w : World} (h : Base w) {k now : Nat} {net : Net} {avail : Bool} {r : Rd} (hn : net.start ≠ .refused) :
    Base (w.receive k now net avail r).1 ∧ Frame w (w.receive k now net avail r).1 k := by
  unfold World.receive
  have hb0 : Base (w.setCl k { w.cl k with result := .busy }) := h.setCl rfl rfl
  obtain ⟨h1, f1, l1, i1⟩ := check_spec hb0 (k := k) (now := now) hn
  have f1 := (Frame.setCl w k { w.cl k with result := .busy }).trans f1
  rcases hc : (w.setCl k { w.cl k with result := .busy }).check k now net with ⟨w1, b⟩
  rw [hc] at h1 f1 l1 i1
  cases b
  · exact ⟨h1, f1⟩
  · have hon := l1.mpr rfl
    simp only at hon h1 f1 ⊢
    have key : ∀ w2 : World, Base w2 → Frame w w2 k → (w2.cl k).link = .on →
        Base (if (w2.cl k).T * 2 ≤ now - (w2.cl k).seen ∧ (w2.cl k).fresh = true then
          match (w2.setCl k { w2.cl k with fresh := false }).read k r with
          | (w, .fail) => ((w.setCl k { w.cl k with result := .error }).disconnect k, 0)
          | (w, .closed) => (w, 0)
          | (w, .got n) => (w, n)
        else (w2, 0) : World × Nat).1 ∧ Frame w (if (w2.cl k).T * 2 ≤ now - (w2.cl k).seen ∧ (w2.cl k).fresh = true then
          match (w2.setCl k { w2.cl k with fresh := false }).read k r with
          | (w, .fail) => ((w.setCl k { w.cl k with result := .error }).disconnect k, 0)
          | (w, .closed) => (w, 0)
          | (w, .got n) => (w, n)
        else (w2, 0) : World × Nat).1 k := by
      intro w2 h2 f2 hon2
      split
      · have h3 : Base (w2.setCl k { w2.cl k with fresh := false }) := h2.setCl rfl rfl
        obtain ⟨h4, f4, c4, r4⟩ := read_spec h3 (k := k) (by simp [hon2]) r
        have f4 := (f2.trans (.setCl w2 k { w2.cl k with fresh := false })).trans f4
        rcases hr : (w2.setCl k { w2.cl k with fresh := false }).read k r with ⟨w3, r3⟩
        rw [hr] at h4 f4 c4 r4
        cases r3
        · have h5 : Base (w3.setCl k { w3.cl k with result := .error }) := Base.setCl h4 rfl rfl
          exact ⟨h5.disconnect (k := k) (by simp only at c4; simp [c4, hon2]), (f4.trans (.setCl _ _ _)).trans (.disconnect _ _)⟩
        · exact ⟨h4, f4⟩
        · exact ⟨h4, f4⟩
      · exact ⟨h2, f2⟩
    split
    · exact key _ (h1.setCl rfl rfl) (f1.trans (.setCl _ _ _)) (by simp [hon])
    · exact key _ h1 f1 hon

theorem visit_spec {w : World} (h : Base w) {k now : Nat} {ready : Nat → Bool} {rd : Nat → Rd} (hl : (w.cl k).link ≠ .off) :
    Base (w.visit k now ready rd).1 ∧ Frame w (w.visit k now ready rd).1 k ∧
    ((w.visit k now ready rd).2 = true → ((w.visit k now ready rd).1.cl k).result ≠ .busy) ∧
    ((w.visit k now ready rd).2 = false → (w.visit k now ready rd).1 = w) ∧ Idle ((w.visit k now ready rd).1.cl k) := by
  unfold World.visit
  split
  · obtain ⟨h1, f1, c1, r1⟩ := read_spec h hl (rd k)
    rcases hr : w.read k (rd k) with ⟨w1, r⟩
    rw [hr] at h1 f1 c1 r1
    simp only at h1 f1 c1 r1
    cases r with
    | got n => exact ⟨h1.setCl rfl rfl, f1.trans (.setCl _ _ _), by simp, by simp, .on (by simp [c1, hl])⟩
    | fail =>
      have h2 := h1.disconnect (k := k) (by rw [c1]; exact hl)
      exact ⟨h2.setCl rfl rfl, (f1.trans (.disconnect _ _)).trans (.setCl _ _ _), by simp, by simp, .error (by simp)⟩
    | closed =>
      have h2 := h1.disconnect (k := k) (by rw [c1]; exact hl)
      exact ⟨h2.setCl rfl rfl, (f1.trans (.disconnect _ _)).trans (.setCl _ _ _), by simp, by simp, .error (by simp)⟩
  · split
    · exact ⟨(h.disconnect hl).setCl rfl rfl, (Frame.disconnect _ _).trans (.setCl _ _ _), by simp, by simp, .error (by simp)⟩
    · exact ⟨h, .refl _ _, by simp, by simp, .on hl⟩

theorem visits_spec {mb : Nat → Bool} (now : Nat) (ready : Nat → Bool) (rd : Nat → Rd) (m : List (Nat × Nat)) {w : World} (h : Base w)
    (hm : ∀ e ∈ m, Entry mb w e) (hd : (m.map (·.2)).Nodup) :
    Base (w.visits now ready rd m).1 ∧ (w.visits now ready rd m).2.Sublist m ∧
    (∀ e ∈ (w.visits now ready rd m).2, Entry mb (w.visits now ready rd m).1 e ∧ ¬ (w.cl e.2).T * 2 < now - (w.cl e.2).queued) ∧
    (∀ j, j ∉ m.map (·.2) → (w.visits now ready rd m).1.cl j = w.cl j ∧
      (w.visits now ready rd m).1.lastFrame j = w.lastFrame j) ∧
    (∀ j ∈ m.map (·.2), ((w.visits now ready rd m).1.waits j → j ∈ (w.visits now ready rd m).2.map (·.2)) ∧
      Idle ((w.visits now ready rd m).1.cl j)) := by
  induction m generalizing w with
  | nil => exact ⟨h, List.Sublist.refl _, by simp [World.visits], by simp [World.visits], by simp⟩
  | cons e m ih =>
    have hE := hm e (by simp)
    obtain ⟨h1, f1, g1, k1, i1⟩ := visit_spec h (k := e.2) (now := now) (ready := ready) (rd := rd) (by simp [hE.link])
    simp only [List.map_cons, List.nodup_cons] at hd
    have hne : ∀ e' ∈ m, e'.2 ≠ e.2 := fun e' he' e2 => hd.1 (List.mem_map.mpr ⟨e', he', e2⟩)
    obtain ⟨b, s, en, oth, wt⟩ := ih h1 (fun e' he' => (hm e' (by simp [he'])).of_cl (f1.cl _ (hne e' he')) (f1.out _ (hne e' he'))) hd.2
    have eq : w.visits now ready rd (e :: m) = (((w.visit e.2 now ready rd).1.visits now ready rd m).1,
        if (w.visit e.2 now ready rd).2 then ((w.visit e.2 now ready rd).1.visits now ready rd m).2
        else e :: ((w.visit e.2 now ready rd).1.visits now ready rd m).2) := rfl
    rw [eq]
    have hself := oth e.2 hd.1
    have en' : ∀ e' ∈ ((w.visit e.2 now ready rd).1.visits now ready rd m).2,
        Entry mb ((w.visit e.2 now ready rd).1.visits now ready rd m).1 e' ∧ ¬ (w.cl e'.2).T * 2 < now - (w.cl e'.2).queued := by
      intro e' he'
      have := en e' he'
      rw [f1.cl _ (hne e' (s.subset he'))] at this
      exact this
    have oth' : ∀ j, j ∉ (e :: m).map (·.2) → ((w.visit e.2 now ready rd).1.visits now ready rd m).1.cl j = w.cl j ∧
        ((w.visit e.2 now ready rd).1.visits now ready rd m).1.lastFrame j = w.lastFrame j := by
      intro j hj
      simp only [List.map_cons, List.mem_cons, not_or] at hj
      exact ⟨(oth j hj.2).1.trans (f1.cl j hj.1), (oth j hj.2).2.trans (f1.out j hj.1)⟩
    cases hg : (w.visit e.2 now ready rd).2
    · have hw := k1 hg
      simp only [Bool.false_eq_true, if_false]
      refine ⟨b, s.cons_cons _, ?_, oth', ?_⟩
      · intro e' he'
        simp only [List.mem_cons] at he'
        rcases he' with rfl | he'
        · refine ⟨hE.of_cl (by rw [hself.1, hw]) (by rw [hself.2, hw]), fun hto => ?_⟩
          unfold World.visit at hg
          rw [if_pos hto] at hg
          split at hg
          · split at hg <;> simp at hg
          · simp at hg
        · exact en' e' he'
      · intro j hj
        simp only [List.map_cons, List.mem_cons] at hj ⊢
        rcases hj with rfl | hj
        · exact ⟨fun _ => Or.inl rfl, by rw [hself.1]; exact i1⟩
        · exact ⟨fun hwj => Or.inr ((wt j hj).1 hwj), (wt j hj).2⟩
    · simp only [if_true]
      refine ⟨b, s.cons _, en', oth', ?_⟩
      intro j hj
      simp only [List.map_cons, List.mem_cons] at hj
      rcases hj with rfl | hj
      · have := g1 hg
        rw [← hself.1] at this
        exact ⟨fun hwj => absurd hwj.2 this, by rw [hself.1]; exact i1⟩
      · exact wt j hj

theorem Inv.pass {mb : Nat → Bool} {w : World} (h : Inv mb w) (now : Nat) (ready : Nat → Bool) (rd : Nat → Rd) :
    Inv mb (w.pass now ready rd) := by
  obtain ⟨b, s, en, oth, wt⟩ := visits_spec now ready rd w.map h.base h.map h.nodup
  refine ⟨b.map _, fun e he => ?_, (s.map _).nodup h.nodup, fun k hk hw => ?_, fun k hk => ?_⟩
  · have := (en e he).1
    exact ⟨this.mb, this.link, this.sock, this.result, this.sent⟩
  · by_cases hj : k ∈ w.map.map (·.2)
    · exact (wt k hj).1 hw
    · refine absurd (h.wait k hk ?_) hj
      have := (oth k hj).1
      unfold World.waits at hw ⊢
      rw [← this]
      exact hw
  · by_cases hj : k ∈ w.map.map (·.2)
    · exact (wt k hj).2
    · have hi := h.idle k hk
      rw [← (oth k hj).1] at hi
      exact hi

theorem pass_timeout {mb : Nat → Bool} {w : World} (h : Inv mb w) {now : Nat} {ready : Nat → Bool} {rd : Nat → Rd} {k s : Nat}
    (hm : mb k = true) (hw : w.waits k) (hs : w.lastFrame k = some s) (ht : s + (w.cl k).T * 2 < now) :
    ¬ (w.pass now ready rd).waits k := by
  intro hw'
  obtain ⟨b, sl, en, oth, wt⟩ := visits_spec now ready rd w.map h.base h.map h.nodup
  have hj := h.wait k hm hw
  have := (wt k hj).1 hw'
  obtain ⟨e, he, rfl⟩ := List.mem_map.mp this
  have hn := (en e he).2
  have hE := (h.map e (sl.subset he)).sent
  rw [hs, Option.some.injEq] at hE
  omega

theorem Inv.event {mb : Nat → Bool} {w : World} (h : Inv mb w) (now : Nat) {e : Ev} (hc : e.calm) : Inv mb (w.event mb now e) := by
  cases e with
  | call k n1 n2 take =>
    simp only [World.event]
    split
    · rename_i hm
      exact h.call hc.1 hc.2 hm
    · exact h
  | receive k net avail r =>
    simp only [World.event]
    split
    · exact h
    · rename_i hm
      obtain ⟨hb, f⟩ := receive_spec h.base (k := k) (now := now) (avail := avail) (r := r) hc
      refine h.frame hb f (fun hk => ?_) (fun hm' => absurd hm' hm)
      obtain ⟨e, he, rfl⟩ := List.mem_map.mp hk
      exact hm (h.map e he).mb
  | pass ready rd => exact h.pass now ready rd
  | accept fd =>
    simp only [World.event]
    split
    · rename_i hf
      refine ⟨⟨fun k hk => ?_, fun i k hi => ?_, fun i => ?_, h.base.out, h.base.inp⟩, fun e he => (h.map e he).of_cl rfl rfl, h.nodup, h.wait, h.idle⟩
      · have := h.base.own k hk
        rw [setFd_other]
        · exact this
        · intro e2
          rw [setFd_cl] at e2
          rw [e2, hf] at this
          simp at this
      · by_cases e : i = fd
        · subst e; simp at hi
        · rw [setFd_other _ _ e] at hi
          exact h.base.only i k hi
      · by_cases e : i = fd
        · subst e
          have := h.base.std i
          rw [hf] at this
          simpa using this
        · rw [setFd_other _ _ e]
          exact h.base.std i
    · exact h
  | drop fd =>
    simp only [World.event]
    split
    · rename_i hf
      refine ⟨⟨fun k hk => ?_, fun i k hi => ?_, fun i => ?_, h.base.out, h.base.inp⟩, fun e he => (h.map e he).of_cl rfl rfl, h.nodup, h.wait, h.idle⟩
      · have := h.base.own k hk
        rw [setFd_other]
        · exact this
        · intro e2
          rw [setFd_cl] at e2
          rw [e2, hf] at this
          simp at this
      · by_cases e : i = fd
        · subst e; simp at hi
        · rw [setFd_other _ _ e] at hi
          exact h.base.only i k hi
      · by_cases e : i = fd
        · subst e
          have := h.base.std i
          rw [hf] at this
          simpa using this
        · rw [setFd_other _ _ e]
          exact h.base.std i
    · exact h

theorem Inv.run {mb : Nat → Bool} (h : List (Nat × Ev)) {w : World} (hi : Inv mb w) (hc : ∀ e ∈ h, e.2.calm) : Inv mb (w.run mb h) := by
  induction h generalizing w with
  | nil => exact hi
  | cons e h ih => exact ih (hi.event e.1 (hc e (by simp))) fun e' he' => hc e' (by simp [he'])

theorem Inv.init (mb : Nat → Bool) (T : Nat → Nat) (t : Nat) (s : Nat → Nat × Bool) : Inv mb (.init T t s) := by
  refine ⟨⟨fun k hk => absurd rfl hk, fun fd k hk => ?_, fun fd => ?_, by simp [World.init], by simp [World.init]⟩, by simp [World.init],
    by simp [World.init], fun k _ hw => ?_, fun k _ _ => by simp [World.init, Cl.new]⟩
  · simp only [World.init] at hk
    split at hk <;> simp at hk
  · simp only [World.init]
    split <;> simp_all
  · simp [World.waits, World.init, Cl.new] at hw

end Ptusa.TcpCl
