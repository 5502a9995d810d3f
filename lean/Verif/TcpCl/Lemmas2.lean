import Verif.TcpCl.Lemmas

/-!
# Lemmas about the attempts to connect
-/
namespace Ptusa.TcpCl

/-- Nothing changes which concerns the attempts. -/
structure Same (w w' : World) : Prop where
  cl : ∀ k, (w'.cl k).T = (w.cl k).T ∧ (w'.cl k).pause = (w.cl k).pause ∧ (w'.cl k).tried = (w.cl k).tried
  att : w'.att = w.att

theorem Same.refl (w : World) : Same w w := ⟨fun _ => ⟨rfl, rfl, rfl⟩, rfl⟩

theorem Same.trans {a b c : World} (h : Same a b) (h' : Same b c) : Same a c :=
  ⟨fun k => ⟨(h'.cl k).1.trans (h.cl k).1, (h'.cl k).2.1.trans (h.cl k).2.1, (h'.cl k).2.2.trans (h.cl k).2.2⟩, h'.att.trans h.att⟩

theorem Same.setCl {w : World} {k : Nat} {c : Cl} (h1 : c.T = (w.cl k).T) (h2 : c.pause = (w.cl k).pause) (h3 : c.tried = (w.cl k).tried) :
    Same w (w.setCl k c) := by
  refine ⟨fun j => ?_, rfl⟩
  by_cases e : j = k
  · subst e; rw [setCl_same]; exact ⟨h1, h2, h3⟩
  · rw [setCl_other _ _ e]; exact ⟨rfl, rfl, rfl⟩

theorem Same.setFd (w : World) (i : Nat) (o : Option Obj) : Same w (w.setFd i o) := ⟨fun _ => ⟨rfl, rfl, rfl⟩, rfl⟩

theorem Same.disconnect (w : World) (k : Nat) : Same w (w.disconnect k) :=
  (Same.setFd w _ none).trans (.setCl rfl rfl rfl)

theorem Same.connecting (w : World) (k now : Nat) (net : Net) : Same w (w.connecting k now net).1 := by
  unfold World.connecting
  cases net.sel with
  | wait =>
    simp only
    split
    · exact .disconnect _ _
    · exact .refl _
  | fail => exact .disconnect _ _
  | up => exact .setCl rfl rfl rfl

theorem Same.connect (w : World) (k now : Nat) (net : Net) : Same w (w.connect k now net).1 := by
  unfold World.connect
  split
  · exact .refl _
  · exact .connecting _ _ _ _
  · split
    · split
      · exact .refl _
      · exact .setCl rfl rfl rfl
      · have s1 : Same w ((w.setFd net.fd (some (.dev k))).setCl k { w.cl k with sock := net.fd }) :=
          (Same.setFd w net.fd (some (.dev k))).trans (.setCl rfl rfl rfl)
        have s2 := s1.trans (.disconnect _ k)
        exact s2.trans (.setCl rfl rfl rfl)
      · have s1 : Same w ((w.setFd net.fd (some (.dev k))).setCl k { w.cl k with sock := net.fd, started := now, link := .busy }) :=
          (Same.setFd w net.fd (some (.dev k))).trans (.setCl rfl rfl rfl)
        exact s1.trans (.connecting _ k now net)
    · exact .refl _

theorem Same.write (w : World) (k now : Nat) (sent : Bool) : Same w (w.write k now sent).1 := by
  unfold World.write
  split
  · exact .refl _
  · exact .refl _
  · exact ⟨fun _ => ⟨rfl, rfl, rfl⟩, rfl⟩

theorem Same.read (w : World) (k : Nat) (r : Rd) : Same w (w.read k r).1 := by
  unfold World.read
  split
  · exact .refl _
  · exact .refl _
  · split
    · exact ⟨fun _ => ⟨rfl, rfl, rfl⟩, rfl⟩
    · exact .refl _

theorem Same.queue (w : World) (k now : Nat) : Same w (w.queue k now) := by
  have h : Same w (w.setCl k { w.cl k with result := .busy, queued := now }) := .setCl rfl rfl rfl
  exact ⟨h.cl, h.att⟩

theorem Same.visit (w : World) (k now : Nat) (ready : Nat → Bool) (rd : Nat → Rd) : Same w (w.visit k now ready rd).1 := by
  unfold World.visit
  split
  · have h := Same.read w k (rd k)
    rcases hr : w.read k (rd k) with ⟨w1, r⟩
    rw [hr] at h
    cases r with
    | got n => exact Same.trans h (.setCl rfl rfl rfl)
    | fail => exact (Same.trans h (.disconnect _ _)).trans (.setCl rfl rfl rfl)
    | closed => exact (Same.trans h (.disconnect _ _)).trans (.setCl rfl rfl rfl)
  · split
    · exact (Same.disconnect _ _).trans (.setCl rfl rfl rfl)
    · exact .refl _

theorem Same.visits (now : Nat) (ready : Nat → Bool) (rd : Nat → Rd) (m : List (Nat × Nat)) (w : World) :
    Same w (w.visits now ready rd m).1 := by
  induction m generalizing w with
  | nil => exact .refl _
  | cons e m ih => exact (Same.visit w e.2 now ready rd).trans (ih _)

theorem Same.pass (w : World) (now : Nat) (ready : Nat → Bool) (rd : Nat → Rd) : Same w (w.pass now ready rd) := by
  have h := Same.visits now ready rd w.map w
  exact ⟨h.cl, h.att⟩

/-- The attempts of a client until `now`. -/
structure Back (w : World) (T t0 now k : Nat) : Prop where
  tm : (w.cl k).T = T
  pause : (w.cl k).pause = T * 5 ∨ (w.cl k).pause = T * 10 ∨ (w.cl k).pause = T * 20 ∨ (w.cl k).pause = T * 40
  att : ∃ l, w.attempts t0 k = (w.cl k).tried :: l
  steps : Steps (fun a b => b + T * 5 < a) (w.attempts t0 k)
  le : (w.cl k).tried ≤ now

theorem Back.same {w w' : World} {T t0 now now' k : Nat} (h : Back w T t0 now k) (s : Same w w') (hn : now ≤ now') :
    Back w' T t0 now' k := by
  obtain ⟨c1, c2, c3⟩ := s.cl k
  have ha : w'.attempts t0 k = w.attempts t0 k := by unfold World.attempts; rw [s.att]
  exact ⟨c1.trans h.tm, by rw [c2]; exact h.pause, by rw [ha, c3]; exact h.att, by rw [ha]; exact h.steps, by rw [c3]; exact Nat.le_trans h.le hn⟩

/-- Another client. -/
theorem Back.other {w w' : World} {T t0 now now' k : Nat} (h : Back w T t0 now k) (hc : w'.cl k = w.cl k)
    (ha : w'.attempts t0 k = w.attempts t0 k) (hn : now ≤ now') : Back w' T t0 now' k :=
  ⟨by rw [hc]; exact h.tm, by rw [hc]; exact h.pause, by rw [ha, hc]; exact h.att, by rw [ha]; exact h.steps, by rw [hc]; exact Nat.le_trans h.le hn⟩

theorem Back.setPause {w : World} {T t0 now k : Nat} (h : Back w T t0 now k) {c : Cl} (h1 : c.T = (w.cl k).T) (h2 : c.tried = (w.cl k).tried)
    (h3 : c.pause = T * 5 ∨ c.pause = T * 10 ∨ c.pause = T * 20 ∨ c.pause = T * 40) : Back (w.setCl k c) T t0 now k := by
  refine ⟨by rw [setCl_same, h1, h.tm], by rw [setCl_same]; exact h3, ?_, h.steps, by rw [setCl_same, h2]; exact h.le⟩
  rw [setCl_same, h2]
  exact h.att

theorem Back.settle {w : World} {l : Link} {T t0 now j k : Nat} (h : Back w T t0 now j) : Back (World.settle k (w, l)).1 T t0 now j := by
  by_cases e : j = k
  · subst e
    cases l
    · refine h.setPause rfl rfl ?_
      have hp := h.pause
      simp only [h.tm]
      split <;> omega
    · exact h
    · exact h.setPause rfl rfl (Or.inl (by rw [h.tm]))
  · cases l
    · exact h.other (setCl_other _ _ e) rfl (Nat.le_refl _)
    · exact h
    · exact h.other (setCl_other _ _ e) rfl (Nat.le_refl _)

theorem Back.attempt {w : World} {T t0 now now' j k : Nat} (h : Back w T t0 now j) (hn : now ≤ now')
    (hp : (w.cl k).pause < now' - (w.cl k).tried ∨ (w.cl k).link = .busy) : Back (w.attempt k now') T t0 now' j := by
  unfold World.attempt
  split
  · rename_i hl
    have hp' : (w.cl k).pause < now' - (w.cl k).tried := by
      rcases hp with hp | hp
      · exact hp
      · rw [hl] at hp; cases hp
    by_cases e : j = k
    · subst e
      have ha : World.attempts { w.setCl j { w.cl j with tried := now' } with att := (j, now') :: w.att } t0 j =
          now' :: w.attempts t0 j := by
        simp [World.attempts]
      have hc : (World.cl { w.setCl j { w.cl j with tried := now' } with att := (j, now') :: w.att } j) =
          { w.cl j with tried := now' } := setCl_same _ _ _
      obtain ⟨l, hl'⟩ := h.att
      refine ⟨by rw [hc]; exact h.tm, by rw [hc]; exact h.pause, ⟨w.attempts t0 j, by rw [ha, hc]⟩, ?_, by rw [hc]; exact Nat.le_refl _⟩
      rw [ha, hl']
      refine ⟨?_, by rw [← hl']; exact h.steps⟩
      have := h.pause
      omega
    · refine h.other (setCl_other _ _ e) ?_ hn
      have : (k == j) = false := by simp [Ne.symm e]
      simp [World.attempts, this]
  · exact h.same (.refl _) hn

theorem Back.check {w : World} {T t0 now now' j k : Nat} {net : Net} (h : Back w T t0 now j) (hn : now ≤ now') :
    Back (w.check k now' net).1 T t0 now' j := by
  unfold World.check
  split
  · exact h.same (.refl _) hn
  · split
    · rename_i hp
      have h1 := h.attempt hn hp
      have h2 := h1.same (.connect _ k now' net) (Nat.le_refl _)
      exact h2.settle
    · exact h.same (.setCl rfl rfl rfl) hn

theorem Back.send {w : World} {T t0 now now' j k : Nat} {net : Net} (h : Back w T t0 now j) (hn : now ≤ now') :
    Back (w.send k now' net) T t0 now' j := by
  unfold World.send
  have h0 : Back (w.setCl k { w.cl k with result := .busy }) T t0 now j := h.same (.setCl rfl rfl rfl) (Nat.le_refl _)
  have h1 := h0.check (k := k) (net := net) hn
  rcases hc : (w.setCl k { w.cl k with result := .busy }).check k now' net with ⟨w1, b⟩
  rw [hc] at h1
  cases b
  · exact h1
  · simp only at h1 ⊢
    have h2 := h1.same (.write _ k now' net.sent) (Nat.le_refl _)
    rcases hw : w1.write k now' net.sent with ⟨w2, b2⟩
    rw [hw] at h2
    cases b2
    · have s0 : Same w2 (w2.setCl k { w2.cl k with result := .error }) := .setCl rfl rfl rfl
      have s1 : Same w2 ((w2.setCl k { w2.cl k with result := .error }).disconnect k) :=
        s0.trans (.disconnect _ _)
      exact Back.same h2 s1 (Nat.le_refl _)
    · exact Back.same h2 (.queue _ _ _) (Nat.le_refl _)

theorem Back.call {w : World} {T t0 now now' j k : Nat} {n1 n2 : Net} {take : Bool} (h : Back w T t0 now j) (hn : now ≤ now') :
    Back (w.call k now' n1 n2 take) T t0 now' j := by
  have hp : Back (w.poll k now' n1) T t0 now' j := by
    unfold World.poll
    split
    · exact h.send hn
    · exact h.same (.refl _) hn
  unfold World.call
  simp only
  split
  · exact hp
  · split
    · exact hp.same (.setCl rfl rfl rfl) (Nat.le_refl _)
    · exact hp.send (Nat.le_refl _)
  · exact hp.send (Nat.le_refl _)

theorem Back.receive {w : World} {T t0 now now' j k : Nat} {net : Net} {avail : Bool} {r : Rd} (h : Back w T t0 now j) (hn : now ≤ now') :
    Back (w.receive k now' net avail r).1 T t0 now' j := by
  unfold World.receive
  have h0 : Back (w.setCl k { w.cl k with result := .busy }) T t0 now j := h.same (.setCl rfl rfl rfl) (Nat.le_refl _)
  have h1 := h0.check (k := k) (net := net) hn
  rcases hc : (w.setCl k { w.cl k with result := .busy }).check k now' net with ⟨w1, b⟩
  rw [hc] at h1
  cases b
  · exact h1
  · simp only at h1 ⊢
    have key : ∀ w2 : World, Back w2 T t0 now' j →
        Back (if (w2.cl k).T * 2 ≤ now' - (w2.cl k).seen ∧ (w2.cl k).fresh = true then
          match (w2.setCl k { w2.cl k with fresh := false }).read k r with
          | (w, .fail) => ((w.setCl k { w.cl k with result := .error }).disconnect k, 0)
          | (w, .closed) => (w, 0)
          | (w, .got n) => (w, n)
        else (w2, 0) : World × Nat).1 T t0 now' j := by
      intro w2 h2
      split
      · have h3 : Back (w2.setCl k { w2.cl k with fresh := false }) T t0 now' j := h2.same (.setCl rfl rfl rfl) (Nat.le_refl _)
        have h4 := h3.same (.read _ k r) (Nat.le_refl _)
        rcases hr : (w2.setCl k { w2.cl k with fresh := false }).read k r with ⟨w3, r3⟩
        rw [hr] at h4
        cases r3
        · have s0 : Same w3 (w3.setCl k { w3.cl k with result := .error }) := .setCl rfl rfl rfl
          have s1 : Same w3 ((w3.setCl k { w3.cl k with result := .error }).disconnect k) :=
            s0.trans (.disconnect _ _)
          exact Back.same h4 s1 (Nat.le_refl _)
        · exact h4
        · exact h4
      · exact h2
    split
    · exact key _ (h1.same (.setCl rfl rfl rfl) (Nat.le_refl _))
    · exact key _ h1

theorem Back.event {mb : Nat → Bool} {w : World} {T t0 now now' j : Nat} {e : Ev} (h : Back w T t0 now j) (hn : now ≤ now') :
    Back (w.event mb now' e) T t0 now' j := by
  cases e with
  | call k n1 n2 take =>
    simp only [World.event]
    split
    · exact h.call hn
    · exact h.same (.refl _) hn
  | receive k net avail r =>
    simp only [World.event]
    split
    · exact h.same (.refl _) hn
    · exact h.receive hn
  | pass ready rd => exact h.same (.pass _ _ _ _) hn
  | accept fd =>
    simp only [World.event]
    split
    · exact h.same (.setFd _ _ _) hn
    · exact h.same (.refl _) hn
  | drop fd =>
    simp only [World.event]
    split
    · exact h.same (.setFd _ _ _) hn
    · exact h.same (.refl _) hn

theorem Back.run {mb : Nat → Bool} (h : List (Nat × Ev)) {w : World} {T t0 now t j : Nat} (hb : Back w T t0 now j) (ho : Ordered now h t) :
    Back (w.run mb h) T t0 t j := by
  induction h generalizing w now with
  | nil => exact hb.same (.refl _) ho
  | cons e h ih => exact ih (hb.event ho.1) ho.2

theorem Back.init (T : Nat → Nat) (t k : Nat) (s : Nat → Nat × Bool) : Back (.init T t s) (T k) t t k :=
  ⟨rfl, Or.inl rfl, ⟨[], rfl⟩, trivial, Nat.le_refl _⟩

/-! ## One attempt -/

theorem check_att {w : World} {k now : Nat} {net : Net} (hl : (w.cl k).link = .off) (hp : (w.cl k).pause < now - (w.cl k).tried) :
    (w.check k now net).1.att = (k, now) :: w.att := by
  unfold World.check
  rw [if_neg (by simp [hl]), if_pos (Or.inl hp)]
  have h1 : (w.attempt k now).att = (k, now) :: w.att := by
    unfold World.attempt
    rw [if_pos hl]
  have h2 := (Same.connect (w.attempt k now) k now net).att
  rcases hx2 : (w.attempt k now).connect k now net with ⟨w1, l⟩
  rw [hx2] at h2
  rw [← h1, ← h2]
  cases l <;> rfl

theorem send_att {w : World} {k now : Nat} {net : Net} (hl : (w.cl k).link = .off) (hp : (w.cl k).pause < now - (w.cl k).tried) :
    (w.send k now net).att = (k, now) :: w.att := by
  unfold World.send
  have h1 := check_att (w := w.setCl k { w.cl k with result := .busy }) (k := k) (now := now) (net := net) (by simpa using hl) (by simpa using hp)
  rcases hx1 : (w.setCl k { w.cl k with result := .busy }).check k now net with ⟨w1, b⟩
  rw [hx1] at h1
  simp only [setCl_att] at h1
  cases b
  · exact h1
  · simp only
    have h2 := (Same.write w1 k now net.sent).att
    rcases hx2 : w1.write k now net.sent with ⟨w2, b2⟩
    rw [hx2] at h2
    rw [← h1, ← h2]
    cases b2 <;> rfl

theorem receive_att {w : World} {k now : Nat} {net : Net} {avail : Bool} {r : Rd} (hl : (w.cl k).link = .off)
    (hp : (w.cl k).pause < now - (w.cl k).tried) : (w.receive k now net avail r).1.att = (k, now) :: w.att := by
  unfold World.receive
  have h1 := check_att (w := w.setCl k { w.cl k with result := .busy }) (k := k) (now := now) (net := net) (by simpa using hl) (by simpa using hp)
  rcases hx1 : (w.setCl k { w.cl k with result := .busy }).check k now net with ⟨w1, b⟩
  rw [hx1] at h1
  simp only [setCl_att] at h1
  cases b
  · exact h1
  · simp only at h1 ⊢
    have key : ∀ w2 : World, w2.att = w1.att →
        (if (w2.cl k).T * 2 ≤ now - (w2.cl k).seen ∧ (w2.cl k).fresh = true then
          match (w2.setCl k { w2.cl k with fresh := false }).read k r with
          | (w, .fail) => ((w.setCl k { w.cl k with result := .error }).disconnect k, 0)
          | (w, .closed) => (w, 0)
          | (w, .got n) => (w, n)
        else (w2, 0) : World × Nat).1.att = w1.att := by
      intro w2 h2
      split
      · have h3 := (Same.read (w2.setCl k { w2.cl k with fresh := false }) k r).att
        rcases hx3 : (w2.setCl k { w2.cl k with fresh := false }).read k r with ⟨w3, r3⟩
        rw [hx3] at h3
        rw [← h2]
        cases r3 <;> exact h3
      · exact h2
    rw [← h1]
    split
    · exact key _ rfl
    · exact key _ rfl

/-! ## Other clients -/

/-- Only client `k` is changed. -/
def Only (k : Nat) (w w' : World) : Prop := ∀ j, j ≠ k → w'.cl j = w.cl j

theorem Only.refl (k : Nat) (w : World) : Only k w w := fun _ _ => rfl
theorem Only.trans {k : Nat} {a b c : World} (h : Only k a b) (h' : Only k b c) : Only k a c := fun j hj => (h' j hj).trans (h j hj)
theorem Only.setCl (k : Nat) (w : World) (c : Cl) : Only k w (w.setCl k c) := fun _ hj => setCl_other _ _ hj
theorem Only.disconnect (k : Nat) (w : World) : Only k w (w.disconnect k) := fun _ hj => setCl_other _ _ hj

theorem Only.connecting (w : World) (k now : Nat) (net : Net) : Only k w (w.connecting k now net).1 := by
  unfold World.connecting
  cases net.sel with
  | wait =>
    simp only
    split
    · exact .disconnect _ _
    · exact .refl _ _
  | fail => exact .disconnect _ _
  | up => exact .setCl _ _ _

theorem Only.connect (w : World) (k now : Nat) (net : Net) : Only k w (w.connect k now net).1 := by
  unfold World.connect
  split
  · exact .refl _ _
  · exact .connecting _ _ _ _
  · split
    · split
      · exact .refl _ _
      · exact .setCl _ _ _
      · have s1 : Only k w ((w.setFd net.fd (some (.dev k))).setCl k { w.cl k with sock := net.fd }) := Only.setCl k (w.setFd _ _) _
        have s2 := s1.trans (.disconnect k _)
        exact s2.trans (.setCl _ _ _)
      · have s1 : Only k w ((w.setFd net.fd (some (.dev k))).setCl k { w.cl k with sock := net.fd, started := now, link := .busy }) :=
          Only.setCl k (w.setFd _ _) _
        exact s1.trans (.connecting _ k now net)
    · exact .refl _ _

theorem Only.check (w : World) (k now : Nat) (net : Net) : Only k w (w.check k now net).1 := by
  unfold World.check
  split
  · exact .refl _ _
  · split
    · have h1 : Only k w (w.attempt k now) := by
        unfold World.attempt
        split
        · exact Only.setCl k w _
        · exact .refl _ _
      have h2 := h1.trans (.connect _ k now net)
      rcases hx2 : (w.attempt k now).connect k now net with ⟨w1, l⟩
      rw [hx2] at h2
      cases l
      · exact h2.trans (.setCl _ _ _)
      · exact h2
      · exact h2.trans (.setCl _ _ _)
    · exact .setCl _ _ _

theorem Only.write (w : World) (k now : Nat) (sent : Bool) : Only k w (w.write k now sent).1 := by
  unfold World.write
  split <;> exact .refl _ _

theorem Only.send (w : World) (k now : Nat) (net : Net) : Only k w (w.send k now net) := by
  unfold World.send
  have h1 := (Only.setCl k w { w.cl k with result := .busy }).trans (.check _ k now net)
  rcases hx1 : (w.setCl k { w.cl k with result := .busy }).check k now net with ⟨w1, b⟩
  rw [hx1] at h1
  cases b
  · exact h1
  · simp only at h1 ⊢
    have h2 := h1.trans (.write w1 k now net.sent)
    rcases hx2 : w1.write k now net.sent with ⟨w2, b2⟩
    rw [hx2] at h2
    cases b2
    · exact (h2.trans (.setCl _ _ _)).trans (.disconnect _ _)
    · exact h2.trans (Only.setCl k w2 _)

theorem Only.call (w : World) (k now : Nat) (n1 n2 : Net) (take : Bool) : Only k w (w.call k now n1 n2 take) := by
  have h : Only k w (w.poll k now n1) := by
    unfold World.poll
    split
    · exact .send _ _ _ _
    · exact .refl _ _
  unfold World.call
  simp only
  split
  · exact h
  · split
    · exact h.trans (.setCl _ _ _)
    · exact h.trans (.send _ _ _ _)
  · exact h.trans (.send _ _ _ _)

theorem Only.receive (w : World) (k now : Nat) (net : Net) (avail : Bool) (r : Rd) : Only k w (w.receive k now net avail r).1 := by
  unfold World.receive
  have h1 := (Only.setCl k w { w.cl k with result := .busy }).trans (.check _ k now net)
  rcases hx1 : (w.setCl k { w.cl k with result := .busy }).check k now net with ⟨w1, b⟩
  rw [hx1] at h1
  cases b
  · exact h1
  · simp only at h1 ⊢
    have key : ∀ w2 : World, Only k w w2 →
        Only k w (if (w2.cl k).T * 2 ≤ now - (w2.cl k).seen ∧ (w2.cl k).fresh = true then
          match (w2.setCl k { w2.cl k with fresh := false }).read k r with
          | (w, .fail) => ((w.setCl k { w.cl k with result := .error }).disconnect k, 0)
          | (w, .closed) => (w, 0)
          | (w, .got n) => (w, n)
        else (w2, 0) : World × Nat).1 := by
      intro w2 h2
      split
      · have h3 : Only k (w2.setCl k { w2.cl k with fresh := false }) ((w2.setCl k { w2.cl k with fresh := false }).read k r).1 := by
          unfold World.read
          repeat' split
          all_goals exact .refl _ _
        have h4 := (h2.trans (.setCl k w2 { w2.cl k with fresh := false })).trans h3
        rcases hx4 : (w2.setCl k { w2.cl k with fresh := false }).read k r with ⟨w3, r3⟩
        rw [hx4] at h4
        cases r3
        · exact (h4.trans (.setCl _ _ _)).trans (.disconnect _ _)
        · exact h4
        · exact h4
      · exact h2
    split
    · exact key _ (h1.trans (.setCl _ _ _))
    · exact key _ h1

/-- A client which waits goes on waiting while the communicator finds nothing. -/
theorem waits_quiet {mb : Nat → Bool} {w : World} {k now : Nat} {e : Ev} (hm : mb k = true) (hw : w.waits k) (he : e.quiet) :
    (w.event mb now e).cl k = w.cl k := by
  cases e with
  | call j n1 n2 take =>
    simp only [World.event]
    split
    · by_cases e : k = j
      · subst e
        unfold World.call World.poll
        simp [hw.1, hw.2]
      · exact Only.call _ _ _ _ _ _ k e
    · rfl
  | receive j net avail r =>
    simp only [World.event]
    split
    · rfl
    · rename_i hj
      refine Only.receive _ _ _ _ _ _ k ?_
      rintro rfl
      exact hj hm
  | pass ready rd => exact absurd he (by simp [Ev.quiet])
  | accept fd => simp only [World.event]; split <;> rfl
  | drop fd => simp only [World.event]; split <;> rfl

end Ptusa.TcpCl
