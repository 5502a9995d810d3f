import Verif.TcpCl.Lemmas2

/-!
# C137 to C139: the connections to devices

* C137: a client uses its own connection only.
* C138: a request comes to an end.
* C139: a lost connection is restored, with bounded pauses.
-/
namespace Ptusa.TcpCl

/-- Two modbus clients, the others belong to scales; 100 milliseconds. -/
def mb2 (k : Nat) : Bool := decide (k < 2)

def w0 : World := .init (fun _ => 100) 0 (fun _ => (0, false))

/-- A connection which is made at once on a descriptor, and the frame goes out. -/
def good (fd : Nat) : Net := ⟨fd, .progress, .up, true⟩

/-- A connection which fails at once. -/
def bad (fd : Nat) : Net := ⟨fd, .refused, .wait, true⟩

/-- A connection for which there is no descriptor. -/
def none' : Net := ⟨3, .noSocket, .wait, true⟩

/-! ## C137 -/

/-- **C137.** Over any history without a connection which fails at once: every frame of a client is written to the connection of this client,
every answer is read from it, a descriptor is a connection to a device exactly while its client is connecting or connected with it, and the
standard streams stay open. Missing: connections which fail at once, see below. -/
theorem C137_own_partial (mb : Nat → Bool) (T : Nat → Nat) (t0 : Nat) (s : Nat → Nat × Bool) (h : List (Nat × Ev))
    (hc : ∀ e ∈ h, e.2.calm) :
    let w := (World.init T t0 s).run mb h
    (∀ e ∈ w.out, e.2.2 = .dev e.1) ∧ (∀ e ∈ w.inp, e.2 = .dev e.1) ∧
    (∀ fd k, w.fds fd = some (.dev k) ↔ ((w.cl k).link ≠ .off ∧ (w.cl k).sock = fd)) ∧
    (∀ fd, w.fds fd = some .std ↔ fd < 3) := by
  have hi := (Inv.init mb T t0 s).run h hc
  refine ⟨hi.base.out, hi.base.inp, fun fd k => ⟨hi.base.only fd k, ?_⟩, hi.base.std⟩
  rintro ⟨h1, rfl⟩
  exact hi.base.own k h1

/-- Two clients with an answer and a timeout. -/
def ordinary : List (Nat × Ev) := [(501, .call 0 (good 3) (good 3) true), (502, .call 1 (good 4) (good 4) true),
  (510, .pass (fun fd => fd == 3) (fun _ => .got 12)), (520, .call 0 (good 5) (good 5) true), (530, .call 0 (good 5) (good 5) true),
  (720, .pass (fun fd => fd == 3) (fun _ => .got 12))]

example : (∀ e ∈ ordinary, e.2.calm) ∧ (w0.run mb2 ordinary).out = [(0, 530, .dev 0), (1, 502, .dev 1), (0, 501, .dev 0)] ∧
    (w0.run mb2 ordinary).inp = [(0, .dev 0), (0, .dev 0)] ∧ ((w0.run mb2 ordinary).cl 1).result = .timeout := by
  refine ⟨?_, by decide +kernel, by decide +kernel, by decide +kernel⟩
  simp [ordinary, Ev.calm, good]

/-- **C137, violated.** A connection which fails at once leaves the client connected with descriptor 0: when this descriptor is the connection to
another device, the frame is written to that device. -/
theorem C137_refused_violated (w : World) (k j now : Nat) (n1 n2 : Net) (take : Bool) (hl : (w.cl k).link = .off)
    (hr : (w.cl k).result = .error) (hp : (w.cl k).tried + (w.cl k).pause < now) (hf : w.fds n2.fd = none) (hn : n2.start = .refused)
    (h0 : w.fds 0 = some (.dev j)) : (w.call k now n1 n2 take).out = (k, now, .dev j) :: w.out := by
  have hd : (0 : Nat) ≠ n2.fd := fun h => by rw [← h, h0] at hf; simp at hf
  have hp' : (w.cl k).pause < now - (w.cl k).tried := by omega
  have hs : (w.send k now n2).out = (k, now, .dev j) :: w.out := by
    simp only [World.send, World.check, World.attempt, World.connect, World.settle, World.disconnect, World.write, World.queue, setCl_same, hl, hp',
      hn, hf, World.setCl, World.setFd, if_true, true_or, reduceCtorEq, if_false, if_neg hd, h0]
    cases n2.sent <;> rfl
  simpa [World.call, World.poll, hl, hr] using hs

/-- **C137, violated.** Such a connection closes the standard input. -/
theorem C137_stream_violated (w : World) (k now : Nat) (n1 n2 : Net) (take : Bool) (hl : (w.cl k).link = .off)
    (hr : (w.cl k).result = .error) (hp : (w.cl k).tried + (w.cl k).pause < now) (hf : w.fds n2.fd = none) (hn : n2.start = .refused)
    (h0 : w.fds 0 = some .std) : (w.call k now n1 n2 take).fds 0 = none := by
  have hd : (0 : Nat) ≠ n2.fd := fun h => by rw [← h, h0] at hf; simp at hf
  have hp' : (w.cl k).pause < now - (w.cl k).tried := by omega
  have hs : (w.send k now n2).fds 0 = none := by
    simp only [World.send, World.check, World.attempt, World.connect, World.settle, World.disconnect, World.write, World.queue, setCl_same, hl, hp',
      hn, hf, World.setCl, World.setFd, if_true, true_or, reduceCtorEq, if_false, if_neg hd, h0]
  simpa [World.call, World.poll, hl, hr] using hs

/-- From the start, with the lowest free descriptors: the address of device 0 cannot be reached. Its first attempt closes descriptor 0, which
the connection to device 1 gets; the next request to device 0 is written to device 1, and the client of device 1 waits for ever. -/
example : let h : List (Nat × Ev) := [(501, .call 0 (bad 3) (bad 3) true), (502, .call 1 (good 0) (good 0) true),
      (503, .call 0 (bad 3) (bad 3) true), (1003, .call 0 (bad 3) (bad 3) true)]
    (w0.run mb2 h).out = [(0, 1003, .dev 1), (1, 502, .dev 1)] ∧ (w0.run mb2 h).map = [(0, 0)] ∧
    ((w0.run mb2 h).cl 1).result = .busy ∧ (w0.run mb2 (h.take 1)).fds 0 = none := by
  decide +kernel

/-! ## C138 -/

/-- **C138.** Over any history without a connection which fails at once, a client does not wait any more after the first pass of the communicator
later than twice its time after its frame. Missing: a pass takes place only when some socket has something, see below. -/
theorem C138_ends_partial (mb : Nat → Bool) (T : Nat → Nat) (t0 : Nat) (s : Nat → Nat × Bool) (h : List (Nat × Ev))
    (hc : ∀ e ∈ h, e.2.calm) (k f t : Nat) (ho : Ordered t0 h t) (hk : mb k = true) (ready : Nat → Bool) (rd : Nat → Rd) :
    let w := (World.init T t0 s).run mb h
    w.waits k → w.lastFrame k = some f → f + T k * 2 < t → ¬ (w.event mb t (.pass ready rd)).waits k := by
  intro w hw hf ht
  have hi := (Inv.init mb T t0 s).run h hc
  have hb := (Back.init T t0 k s).run (mb := mb) h ho
  exact pass_timeout hi hk hw hf (by rw [hb.tm]; exact ht)

/-- Client 1 has sent its frame at 502 and waits until the pass at 720. -/
example : (w0.run mb2 (ordinary.take 5)).waits 1 ∧ (w0.run mb2 (ordinary.take 5)).lastFrame 1 = some 502 ∧
    ¬ (w0.run mb2 ordinary).waits 1 := by
  unfold World.waits
  decide +kernel

/-- **C138, violated.** While no socket has anything, a client waits for ever, however much time passes and however often it is asked. -/
theorem C138_silence_violated (mb : Nat → Bool) (w : World) (k : Nat) (hk : mb k = true) (hw : w.waits k) (h : List (Nat × Ev))
    (hq : ∀ e ∈ h, e.2.quiet) : (w.run mb h).waits k := by
  induction h generalizing w with
  | nil => exact hw
  | cons e h ih =>
    refine ih (w.event mb e.1 e.2) ?_ fun e' he' => hq e' (by simp [he'])
    unfold World.waits
    rw [waits_quiet hk hw (hq e (by simp))]
    exact hw

/-- A year later. -/
example : (w0.run mb2 [(501, .call 0 (good 3) (good 3) true)]).waits 0 ∧
    ((w0.run mb2 [(501, .call 0 (good 3) (good 3) true), (31536000000, .call 0 (good 3) (good 3) true)]).cl 0).result = .busy := by
  unfold World.waits
  decide +kernel

/-! ## C139 -/

/-- **C139.** Over any history the attempts of a client to connect, and its creation, are more than five of its times apart. -/
theorem C139_pauses (mb : Nat → Bool) (T : Nat → Nat) (t0 t : Nat) (s : Nat → Nat × Bool) (h : List (Nat × Ev)) (ho : Ordered t0 h t)
    (k : Nat) : Steps (fun a b => b + T k * 5 < a) (((World.init T t0 s).run mb h).attempts t0 k) :=
  ((Back.init T t0 k s).run (mb := mb) h ho).steps

/-- **C139.** A client which is not connected tries to connect at its first call later than forty of its times after its last attempt. Missing:
the limit meant by the code is thirty, and a connection closed by the scales, see below. -/
theorem C139_tries_partial (mb : Nat → Bool) (T : Nat → Nat) (t0 t : Nat) (s : Nat → Nat × Bool) (h : List (Nat × Ev))
    (hc : ∀ e ∈ h, e.2.calm) (ho : Ordered t0 h t) (k a : Nat) (n1 n2 : Net) (take avail : Bool) (r : Rd) :
    let w := (World.init T t0 s).run mb h
    (w.cl k).link = .off → (w.attempts t0 k).head? = some a → a + T k * 40 < t →
    (w.event mb t (if mb k then .call k n1 n2 take else .receive k n1 avail r)).attempts t0 k = t :: w.attempts t0 k := by
  intro w hl ha ht
  have hi := (Inv.init mb T t0 s).run h hc
  have hb := (Back.init T t0 k s).run (mb := mb) h ho
  obtain ⟨l, hl'⟩ := hb.att
  have hp : (w.cl k).pause < t - (w.cl k).tried := by
    rw [show w.attempts t0 k = _ from hl'] at ha
    simp only [List.head?_cons, Option.some.injEq] at ha
    have := hb.pause
    change (w.cl k).tried = a at ha
    change (w.cl k).pause = _ ∨ (w.cl k).pause = _ ∨ (w.cl k).pause = _ ∨ (w.cl k).pause = _ at this
    omega
  suffices hs : (w.event mb t (if mb k then .call k n1 n2 take else .receive k n1 avail r)).att = (k, t) :: w.att by
    unfold World.attempts
    rw [hs]
    simp
  cases hm : mb k
  · simp only [World.event, hm, Bool.false_eq_true, if_false]
    exact receive_att hl hp
  · simp only [World.event, hm, if_true]
    have hid := hi.idle k hm hl
    unfold World.call World.poll
    change (w.cl k).result ≠ .busy ∧ _ at hid
    simp only [hl, reduceCtorEq, if_false]
    split
    · rename_i hr; exact absurd hr hid.1
    · rename_i n hr; exact absurd hr (hid.2 n)
    · exact send_att hl hp

/-- Three attempts fail; the fourth comes after the pause. -/
def failing : List (Nat × Ev) := [(501, .call 0 none' none' true), (1502, .call 0 none' none' true), (3503, .call 0 none' none' true)]

example : (∀ e ∈ failing, e.2.calm) ∧ Ordered 0 failing 7504 ∧ ((w0.run mb2 failing).cl 0).link = .off ∧
    (w0.run mb2 failing).attempts 0 0 = [3503, 1502, 501, 0] := by
  refine ⟨by simp [failing, Ev.calm, none'], by simp [failing, Ordered], by decide +kernel, by decide +kernel⟩

/-- **C139, violated.** The longest pause is forty and not thirty times: a call after thirty-five does nothing. -/
theorem C139_limit_violated : ((w0.run mb2 failing).event mb2 7003 (.call 0 (good 3) (good 3) true)).attempts 0 0 = [3503, 1502, 501, 0] ∧
    (((w0.run mb2 failing).event mb2 7003 (.call 0 (good 3) (good 3) true)).cl 0).link = .off := by
  decide +kernel

/-- **C139, violated.** A connection which the scales have closed is taken for a good one for ever: no call of the client ever disconnects it or
tries to connect, and no call gets anything. -/
theorem C139_closed_violated (mb : Nat → Bool) (T : Nat → Nat) (t0 : Nat) (s : Nat → Nat × Bool) (h : List (Nat × Ev))
    (hc : ∀ e ∈ h, e.2.calm) (k : Nat) (hk : mb k = false) (h' : List (Nat × Ev))
    (hh : ∀ e ∈ h', ∃ net avail, e.2 = .receive k net avail .closed) :
    let w := (World.init T t0 s).run mb h
    (w.cl k).link = .on → ((w.run mb h').cl k).link = .on ∧ (w.run mb h').att = w.att ∧ (w.run mb h').inp = w.inp := by
  intro w hl
  have hf : w.fds (w.cl k).sock = some (.dev k) := ((Inv.init mb T t0 s).run h hc).base.own k (by simp [show (((World.init T t0 s).run mb h).cl k).link = _ from hl])
  clear hc
  generalize w = w at hl hf
  induction h' generalizing w with
  | nil => exact ⟨hl, rfl, rfl⟩
  | cons e h' ih =>
    obtain ⟨net, avail, he⟩ := hh e (by simp)
    have key : ((w.event mb e.1 e.2).cl k).link = .on ∧ (w.event mb e.1 e.2).fds ((w.event mb e.1 e.2).cl k).sock = some (.dev k) ∧
        (w.event mb e.1 e.2).att = w.att ∧ (w.event mb e.1 e.2).inp = w.inp := by
      rw [he]
      simp only [World.event, hk, Bool.false_eq_true, if_false, World.receive, World.check, setCl_same, hl, if_true]
      cases avail && !(w.cl k).fresh <;> simp only [Bool.false_eq_true, if_false, if_true, setCl_same] <;> split <;>
        simp [World.read, hl, hf]
    obtain ⟨k1, k2, k3, k4⟩ := key
    have := ih (fun e' he' => hh e' (by simp [he'])) (w.event mb e.1 e.2) k1 k2
    exact ⟨this.1, this.2.1.trans k3, this.2.2.trans k4⟩

/-- The scales 5 are connected, send a weight, and close the connection. -/
example : let w := w0.run mb2 [(501, .receive 5 (good 3) true .fail), (710, .receive 5 (good 3) true (.got 16))]
    (w.cl 5).link = .on ∧ w.inp = [(5, .dev 5)] ∧ w.attempts 0 5 = [501, 0] ∧
    (w.run mb2 [(800, .receive 5 (good 4) true .closed), (1100, .receive 5 (good 4) true .closed),
      (90000, .receive 5 (good 4) true .closed)]).attempts 0 5 = [501, 0] := by
  decide +kernel

end Ptusa.TcpCl
