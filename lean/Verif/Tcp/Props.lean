import Verif.Tcp.Lemmas

/-!
# C59–C64: exchange with the server over TCP
-/
namespace Ptusa.Tcp

/-! ### C59: every request gets one readable reply -/

/-- C59. A request received as a whole for a registered service is answered with exactly one reply. It
carries the identifier and the running number of the request, the length the service returned and that
many of the bytes it wrote; the connection stays. Holds for answers of at most 65535 bytes. -/
theorem C59_answered_partial (sv : Services) (old : Buf) (s : Sock) (srv idx : Byte) (body : List Byte)
    (f : Srv) (r : BitVec 64) (w : List Byte) (es : List SendEv) (x : Echo)
    (hs : srv.toNat < 16) (hf : sv srv.toNat = some f) (hr : f.Reads (bufSize - 6))
    (hb : body.length < 65536)
    (hres : f body.length (zeros body) = (r, w)) (hn : r.toNat ≤ w.length) (hw : r.toNat < 65536)
    (hfit : 5 + w.length ≤ bufSize) (hes : es.all SendEv.ok = true)
    (hx : doEcho sv old s (.data (request srv idx body)) es = some x) :
    parse x.out = some ⟨0x73, 12, idx, w.take r.toNat⟩ ∧ x.ended = .kept { s with init := false, evaluated := true } := by
  have hbuf := bufSize_eq
  have h := echo_request sv old s srv idx body [] f r w es hs hf hr hb (by simpa using hres) hn hfit
  rw [List.append_nil] at h
  rw [h, Option.map_eq_some_iff] at hx
  obtain ⟨y, hy, rfl⟩ := hx
  have hpos := sendall_ok es _ 0 y hes (Or.inl (by simp)) hy
  have hall := sendall_all es _ 0 y hy hpos
  rw [if_neg (by omega)]
  refine ⟨?_, rfl⟩
  simp only [hall, parse, List.cons_append, List.nil_append]
  rw [if_pos]
  simp only [BitVec.toNat_ofNat, List.length_take]
  omega

/-- C59. A number belongs to the service that was registered first; other numbers keep theirs. -/
theorem C59_registered (sv : Services) (id : Nat) (f : Srv) (h : id < 16) :
    ∃ sv', reg sv id f = some sv' ∧ sv' id = some ((sv id).getD f) ∧ ∀ j, j ≠ id → sv' j = sv j := by
  refine ⟨_, by rw [reg, if_pos h], ?_, ?_⟩
  · cases hs : sv id <;> simp [hs]
  · intro j hj
    by_cases hs : (sv id).isNone = true
    · rw [if_pos hs]; simp [hj]
    · rw [if_neg hs]

example : ∃ sv : Services, (reg sv 1 fun _ _ => (0, [])).isSome ∧ sv 1 = none := ⟨fun _ => none, rfl, rfl⟩

/-- C59 does not hold for longer answers: the length in the reply has two bytes. The reply to an answer
of 65536 bytes or more cannot be read, for every request and every service. -/
theorem C59_long_violated (sv : Services) (old : Buf) (s : Sock) (srv idx : Byte) (body : List Byte)
    (f : Srv) (r : BitVec 64) (w : List Byte) (es : List SendEv) (x : Echo)
    (hs : srv.toNat < 16) (hf : sv srv.toNat = some f) (hr : f.Reads (bufSize - 6))
    (hb : body.length < 65536)
    (hres : f body.length (zeros body) = (r, w)) (hn : r.toNat ≤ w.length)
    (hw : 65536 ≤ r.toNat) (hfit : 5 + w.length ≤ bufSize)
    (hes : es.all SendEv.ok = true)
    (hx : doEcho sv old s (.data (request srv idx body)) es = some x) :
    parse x.out = none := by
  have h := echo_request sv old s srv idx body [] f r w es hs hf hr hb (by simpa using hres) hn hfit
  rw [List.append_nil] at h
  rw [h, Option.map_eq_some_iff] at hx
  obtain ⟨y, hy, rfl⟩ := hx
  have hpos := sendall_ok es _ 0 y hes (Or.inl (by simp)) hy
  have hall := sendall_all es _ 0 y hy hpos
  rw [if_neg (by omega)]
  simp only [hall, parse, List.cons_append, List.nil_append]
  rw [if_neg]
  simp only [BitVec.toNat_ofNat, List.length_take]
  omega

/-- C59. A request that names no registered service is answered with error 3; one with a command other
than 1 to a registered service with error 5. Both carry the running number; no service is run. -/
theorem C59_refused (sv : Services) (old : Buf) (s : Sock) (l : List Byte) (es : List SendEv) (x : Echo)
    (hl : l.getD 0 0 = 0x73) (hm : (l.getD 2 0).toNat + (l.getD 3 0).toNat ≠ 0)
    (hes : es.all SendEv.ok = true) (hx : doEcho sv old s (.data l) es = some x) :
    ((16 ≤ (l.getD 1 0).toNat ∨ sv (l.getD 1 0).toNat = none) →
      parse x.out = some ⟨0x73, 7, l.getD 3 0, [3]⟩) ∧
    ((l.getD 1 0).toNat < 16 → sv (l.getD 1 0).toNat ≠ none → l.getD 2 0 ≠ 1 →
      parse x.out = some ⟨0x73, 7, l.getD 3 0, [5]⟩) := by
  have hbuf := bufSize_eq
  generalize hb : put (fun i => if i < bufSize then 0 else old i) 0 l = b
  have e : ∀ i, i < bufSize → b i = l.getD i 0 := by intro i hi; rw [← hb]; exact recv_mem old l i hi
  have e0 := e 0 (by omega)
  have e1 := e 1 (by omega)
  have e2 := e 2 (by omega)
  have e3 := e 3 (by omega)
  have key : ∀ c : Byte, answer sv b (BitVec.ofNat 32 l.length)
      = some ⟨(errorAkn b 0x73 (l.getD 3 0) c).1, (errorAkn b 0x73 (l.getD 3 0) c).2, false⟩ →
      parse x.out = some ⟨0x73, 7, l.getD 3 0, [c]⟩ := by
    intro c hc
    simp only [doEcho, hb, hc, Option.bind_some] at hx
    have c1 : (0 : Int) < (errorAkn b 0x73 (l.getD 3 0) c).2.toInt := by simp [errorAkn]
    have c3 : (errorAkn b 0x73 (l.getD 3 0) c).2.toNat = 6 := by simp [errorAkn]
    have e : get (errorAkn b 0x73 (l.getD 3 0) c).1 0 6 = [0x73, 7, l.getD 3 0, 0, 1, c] :=
      get_header _ [0x73, 7, l.getD 3 0, 0, 1, c]
    rw [if_neg (by rw [c3]; omega), if_pos c1, c3, e, Option.map_eq_some_iff] at hx
    obtain ⟨y, hy, rfl⟩ := hx
    have hpos := sendall_ok es _ 0 y hes (Or.inl (by simp)) hy
    have hall := sendall_all es _ 0 y hy hpos
    rw [if_neg (by omega)]
    simp [hall, parse]
  constructor
  · intro h
    apply key
    unfold answer
    simp only [e0, e1, e2, e3, hl]
    have hnone : (if True ∧ (l.getD 1 0).toNat < 16 ∧ (l.getD 2 0).toNat + (l.getD 3 0).toNat ≠ 0 then
        sv (l.getD 1 0).toNat else none) = none := by
      by_cases hc : True ∧ (l.getD 1 0).toNat < 16 ∧ (l.getD 2 0).toNat + (l.getD 3 0).toNat ≠ 0
      · rw [if_pos hc]
        rcases h with h | h
        · omega
        · exact h
      · rw [if_neg hc]
    rw [hnone]
    simp only [hm, if_false]
  · intro h1 h2 h3
    apply key
    unfold answer
    simp only [e0, e1, e2, e3, hl]
    rw [if_pos ⟨trivial, h1, hm⟩]
    cases hf : sv (l.getD 1 0).toNat with
    | none => exact absurd hf h2
    | some f => simp only [h3, if_false]

/-- The service of the examples: returns the first byte it is given. -/
def firstByte : Srv := fun _ m => (1, [m 0])

theorem firstByte_reads : firstByte.Reads (bufSize - 6) := by
  intro len m m' h
  simp only [firstByte]
  rw [h 0 (by decide)]

/-- Only service 1 is registered. -/
def oneService : Services := fun i => if i = 1 then some firstByte else none

/-- The hypotheses of `C59_answered_partial` are met: service 1 asked with the byte 100 as request 9. -/
example : ∃ x, doEcho oneService (fun _ => 0xFF) ⟨7, false, false, false⟩
      (.data (request 1 9 [100])) [.sent 4, .sent 2] = some x ∧ parse x.out = some ⟨0x73, 12, 9, [100]⟩ := by
  have h := echo_request oneService (fun _ => 0xFF) ⟨7, false, false, false⟩ 1 9 [100] [] firstByte 1 [100]
    [.sent 4, .sent 2] (by decide) rfl firstByte_reads (by decide) rfl (by decide) (by rw [bufSize_eq]; decide)
  rw [List.append_nil] at h
  exact ⟨⟨.kept ⟨7, false, false, true⟩, [0x73, 12, 9, 0, 1, 100]⟩, h, by decide⟩

/-- The hypotheses of `C59_long_violated` are met by a service with 70000 bytes of data. -/
example : let f : Srv := fun _ _ => (70000, List.replicate 70000 0)
    f.Reads (bufSize - 6) ∧ (f 1 (zeros [100])).1.toNat ≤ (f 1 (zeros [100])).2.length ∧
      65536 ≤ (f 1 (zeros [100])).1.toNat ∧ 5 + (f 1 (zeros [100])).2.length ≤ bufSize := by
  refine ⟨fun _ _ _ _ => rfl, ?_, ?_, ?_⟩
  · rw [List.length_replicate]; decide
  · decide
  · rw [List.length_replicate, bufSize_eq]; decide

/-! ### C60: the answer depends on the request alone -/

/-- C60. What earlier exchanges left in the buffer has no influence on what is sent and on whether the
connection stays. -/
theorem C60_independent (sv : Services) (old old' : Buf) (s : Sock) (r : Recv) (es : List SendEv)
    (hf : ∀ i f, sv i = some f → f.Reads (bufSize - 6)) :
    doEcho sv old s r es = doEcho sv old' s r es := by
  cases r with
  | timeout => rfl
  | error => rfl
  | eof => rfl
  | data l =>
    simp only [doEcho]
    have hb : ∀ i, i < bufSize → put (fun i => if i < bufSize then 0 else old i) 0 l i
        = put (fun i => if i < bufSize then 0 else old' i) 0 l i := by
      intro i hi
      rw [recv_mem old l i hi, recv_mem old' l i hi]
    rcases answer_congr sv _ _ (BitVec.ofNat 32 l.length) hf hb with ⟨e1, e2⟩ | ⟨a, a', e1, e2, e3, e4, e5⟩
    · rw [e1, e2]
    · rw [e1, e2]
      simp only [Option.bind_some, e3, e4]
      by_cases hc : 0 < a'.count.toInt ∧ bufSize < a'.count.toNat
      · rw [if_pos hc, if_pos hc]
      · rw [if_neg hc, if_neg hc]
        by_cases hp : 0 < a'.count.toInt
        · rw [if_pos hp, if_pos hp]
          have : get a.buf 0 a'.count.toNat = get a'.buf 0 a'.count.toNat := by
            unfold get
            apply List.map_congr_left
            intro i hi
            rw [List.mem_range] at hi
            exact e5 _ (by omega)
          rw [this]
        · rw [if_neg hp, if_neg hp]

/-- C60 does not hold across the segments TCP may form. A request that arrives in two pieces is
answered twice: the first piece as if the missing bytes were zeros, the second as a request of its own. -/
theorem C60_split_violated : ∃ (sv : Services) (a b : List Byte) (s : Sock) (es : List SendEv) (x y z : Echo),
    doEcho sv (fun _ => 0) s (.data (a ++ b)) es = some x ∧
    doEcho sv (fun _ => 0) s (.data a) es = some y ∧ doEcho sv (fun _ => 0) s (.data b) es = some z ∧
    parse x.out = some ⟨0x73, 12, 9, [100]⟩ ∧ parse y.out = some ⟨0x73, 12, 9, [0]⟩ ∧
    parse z.out = some ⟨100, 7, 0, [3]⟩ := by
  refine ⟨oneService, [0x73, 1, 1, 9, 0, 1], [100], ⟨7, false, false, false⟩, [.sent 100], ?_⟩
  have h := echo_request oneService (fun _ => 0) ⟨7, false, false, false⟩ 1 9 [100] [] firstByte 1 [100]
    [.sent 100] (by decide) rfl firstByte_reads (by decide) rfl (by decide) (by rw [bufSize_eq]; decide)
  refine ⟨⟨.kept ⟨7, false, false, true⟩, [0x73, 12, 9, 0, 1, 100]⟩, ⟨.kept ⟨7, false, false, true⟩, [0x73, 12, 9, 0, 1, 0]⟩,
    ⟨.kept ⟨7, false, false, true⟩, [100, 7, 0, 0, 1, 3]⟩, h, rfl, rfl, by decide, by decide, by decide⟩

/-- C60 does not hold for requests that arrive together: whatever follows the first request is dropped,
there is one reply for both. -/
theorem C60_joined_violated (sv : Services) (old : Buf) (s : Sock) (srv idx : Byte) (body : List Byte)
    (srv' idx' : Byte) (body' : List Byte) (f : Srv) (r : BitVec 64) (w : List Byte) (es : List SendEv) (x : Echo)
    (hs : srv.toNat < 16) (hf : sv srv.toNat = some f) (hr : f.Reads (bufSize - 6))
    (hb : body.length < 65536)
    (hres : f body.length (zeros (body ++ request srv' idx' body')) = (r, w)) (hn : r.toNat ≤ w.length)
    (hw : r.toNat < 65536) (hfit : 5 + w.length ≤ bufSize) (hes : es.all SendEv.ok = true)
    (hx : doEcho sv old s (.data (request srv idx body ++ request srv' idx' body')) es = some x) :
    parse x.out = some ⟨0x73, 12, idx, w.take r.toNat⟩ := by
  have hbuf := bufSize_eq
  have h := echo_request sv old s srv idx body (request srv' idx' body') f r w es hs hf hr hb hres hn hfit
  rw [h, Option.map_eq_some_iff] at hx
  obtain ⟨y, hy, rfl⟩ := hx
  have hpos := sendall_ok es _ 0 y hes (Or.inl (by simp)) hy
  have hall := sendall_all es _ 0 y hy hpos
  rw [if_neg (by omega)]
  simp only [hall, parse, List.cons_append, List.nil_append]
  rw [if_pos]
  simp only [BitVec.toNat_ofNat, List.length_take]
  omega

/-! ### C61: a reply goes out whole or the connection is closed -/

/-- C61. Whatever the network does: the bytes that go out are a beginning of the reply, and the
connection is kept only when all of them went out, in order and once. -/
theorem C61_whole_or_closed (es : List SendEv) (l : List Byte) (x : Int × List Byte)
    (h : sendall es l 0 = some x) : x.2 <+: l ∧ (0 < x.1 → x.2 = l ∧ l ≠ []) := by
  refine ⟨sendall_prefix es l 0 x h, fun h0 => ⟨sendall_all es l 0 x h h0, ?_⟩⟩
  intro hl
  subst hl
  cases es <;> simp only [sendall, Option.some.injEq] at h <;> subst h <;> simp at h0

/-- C61. Without failures the reply goes out, however it is cut; and as long as something is taken each
time there are not more calls than bytes. -/
theorem C61_delivered (es : List SendEv) (l : List Byte) (hl : l ≠ []) (hes : es.all SendEv.ok = true)
    (hn : ∀ e ∈ es, ∀ n, e = .sent n → 0 < n) (hlen : l.length ≤ es.length) :
    ∃ r, sendall es l 0 = some (r, l) ∧ 0 < r := by
  obtain ⟨x, hx⟩ := Option.isSome_iff_exists.mp (sendall_ends es l 0 hn hlen)
  have h0 := sendall_ok es l 0 x hes (Or.inl hl) hx
  refine ⟨x.1, ?_, h0⟩
  rw [hx, ← sendall_all es l 0 x hx h0]

/-- C61. A connection on which the exchange is over stays only if the reply was sent to the end or the
first read of a Modbus client timed out. -/
theorem C61_kept (sv : Services) (old : Buf) (s s' : Sock) (r : Recv) (es : List SendEv) (out : List Byte)
    (h : doEcho sv old s r es = some ⟨.kept s', out⟩) :
    (r = .timeout ∧ s.init = true ∧ s.modbus = true ∧ out = []) ∨
    (∃ l reply, r = .data l ∧ reply ≠ [] ∧ ∃ k, 0 < k ∧ sendall es reply 0 = some (k, out) ∧ out = reply) := by
  cases r with
  | timeout =>
    left
    simp only [doEcho, Option.some.injEq] at h
    by_cases hc : (s.init && s.modbus) = true
    · rw [if_pos hc] at h
      rw [Bool.and_eq_true] at hc
      injection h with h1 h2
      exact ⟨rfl, hc.1, hc.2, h2.symm⟩
    · rw [if_neg hc] at h
      injection h with h1 h2
      cases h1
  | error => simp [doEcho] at h
  | eof => simp [doEcho] at h
  | data l =>
    right
    simp only [doEcho, Option.bind_eq_some_iff] at h
    obtain ⟨a, _, h⟩ := h
    by_cases hc : 0 < a.count.toInt ∧ bufSize < a.count.toNat
    · rw [if_pos hc] at h; cases h
    rw [if_neg hc, Option.map_eq_some_iff] at h
    obtain ⟨y, hy, h⟩ := h
    by_cases h0 : y.1 ≤ 0
    · rw [if_pos h0] at h; injection h with h1 h2; cases h1
    · rw [if_neg h0] at h
      injection h with h1 h2
      have hw := C61_whole_or_closed _ _ _ hy
      have h3 := hw.2 (by omega)
      refine ⟨l, _, rfl, h3.2, y.1, by omega, ?_, ?_⟩
      · rw [hy, ← h2]
      · rw [← h2]; exact h3.1

example : sendall [.sent 2, .sent 0, .sent 7] [1, 2, 3, 4, 5] 0 = some (1, [1, 2, 3, 4, 5]) := by decide
example : sendall [.sent 2, .selTimeout] [1, 2, 3, 4, 5] 0 = some (-2, [1, 2]) := by decide

/-! ### C62: the table of connections -/

/-- C62. No descriptor is lost and none is closed twice: through any number of calls of `evaluate`, every
descriptor handed out by `accept` is closed or is a client in the table, counted with multiplicity; and the
listening sockets stay where they are. -/
theorem C62_no_leak (m : Listen) (c : Scan) (runs : List (List (Option (Nat → Bool) × List Ev)))
    (hev : ∀ cs ∈ runs, ∀ x ∈ cs, ∀ e ∈ x.2, e.fresh m)
    (h : ∀ fd, c.opened.count fd = c.closed.count fd + (clients m (c.seen ++ c.rest)).count fd) :
    let c' := runs.foldl (fun c cs => evaluate m c cs) c
    (∀ fd, c'.opened.count fd = c'.closed.count fd + (clients m (c'.seen ++ c'.rest)).count fd) ∧
    (∀ fd, fd = m.master ∨ fd = m.modbus →
      ((c'.seen ++ c'.rest).map (·.fd)).count fd = ((c.seen ++ c.rest).map (·.fd)).count fd) := by
  have key : ∀ (runs : List (List (Option (Nat → Bool) × List Ev))) (c : Scan),
      (∀ cs ∈ runs, ∀ x ∈ cs, ∀ e ∈ x.2, e.fresh m) → ∀ ls, Good m ls c →
      Good m ls (runs.foldl (fun c cs => evaluate m c cs) c) := by
    intro runs
    induction runs with
    | nil => intro c _ ls h; exact h
    | cons cs runs ih =>
      intro c hr ls h
      exact ih _ (fun y hy => hr y (List.mem_cons_of_mem _ hy)) ls
        (evaluate_good m ls c cs (hr cs List.mem_cons_self) h)
  obtain ⟨h1, h2⟩ := key runs c hev (listeners m (c.seen ++ c.rest)) ⟨h, rfl⟩
  refine ⟨h1, ?_⟩
  intro fd hfd
  have e : ∀ t : List Sock, (t.map (·.fd)).count fd = (listeners m t).count fd := by
    intro t
    unfold listeners
    rw [List.count_filter]
    rcases hfd with rfl | rfl <;> simp
  rw [e, e, h2]

/-- C62. In one cycle a client is served at most once, as long as `accept` hands out no descriptor that
was already served (and closed) in that cycle. -/
theorem C62_once_per_cycle (m : Listen) (c : Scan) (r : Nat → Bool) (es : List Ev) (hc : c.served = [])
    (hfresh : ∀ pre fd post, es = pre ++ .acceptOk fd :: post → fd ∉ (cycle m c (some r) pre).served) (fd : Nat) :
    (cycle m c (some r) es).served.count fd ≤ 1 := by
  have h := foldl_once m es { c with seen := [], rest := c.seen ++ c.rest, ready := fun fd => asked (c.seen ++ c.rest) fd && r fd }
    (fun pre fd post hp => hfresh pre fd post hp)
    (by intro x; rw [hc]; simp only [List.count_nil]; split <;> omega) fd
  simp only [cycle]
  omega

/-- C62. A client served before in the same call of `evaluate` is not served again by a later cycle: its entries are marked,
and a cycle only serves clients that are not. -/
theorem C62_not_again (m : Listen) (c : Scan) (r : Nat → Bool) (es : List Ev) (fd : Nat)
    (hev : ∀ s ∈ c.seen ++ c.rest, s.fd = fd → s.evaluated = true) (hacc : .acceptOk fd ∉ es) :
    (cycle m c (some r) es).served.count fd = c.served.count fd := by
  have h := foldl_quiet m fd es
    { c with seen := [], rest := c.seen ++ c.rest, ready := fun fd => asked (c.seen ++ c.rest) fd && r fd } hacc
  simp only [cycle]
  rw [h]
  simp only [asked, Bool.and_eq_false_iff]
  left
  rw [List.any_eq_false]
  intro s hs
  by_cases hf : s.fd = fd
  · simp [hev s hs hf]
  · simp [hf]

example : (cycle ⟨3, 4⟩ ⟨[⟨3, false, false, false⟩, ⟨4, true, false, false⟩, ⟨5, false, false, true⟩], [],
    fun _ => false, [5], [], [5]⟩ (some fun _ => true) [.acceptFail, .acceptFail, .echo .closed]).served = [5] := by
  decide

/-- C62. When a cycle has gone through the whole table and closed nothing, every client `select`
reported as ready was served. -/
theorem C62_all_served_partial (m : Listen) (c : Scan) (r : Nat → Bool) (es : List Ev)
    (hno : ∀ e ∈ es, e ≠ .echo .closed) (_hdone : (cycle m c (some r) es).rest = []) (s : Sock)
    (hs : s ∈ (cycle m c (some r) es).seen) (hcl : s.fd ≠ m.master ∧ s.fd ≠ m.modbus)
    (hask : asked (c.seen ++ c.rest) s.fd = true) (hr : r s.fd = true) :
    s.fd ∈ (cycle m c (some r) es).served := by
  have h := foldl_passed m (fun fd => asked (c.seen ++ c.rest) fd && r fd) es
    { c with seen := [], rest := c.seen ++ c.rest, ready := fun fd => asked (c.seen ++ c.rest) fd && r fd } hno
    ⟨fun x hx => Or.inl hx, fun s hs => by simp at hs⟩
  refine h.2 s hs (by intro hm; rcases hm with hm | hm; exact hcl.1 hm; exact hcl.2 hm) ?_
  simp [hask, hr]

/-- C62 fails when a client is closed: the entry after it is passed over in that cycle although it is
ready. -/
theorem C62_skipped_violated : ∃ (m : Listen) (c : Scan) (r : Nat → Bool) (es : List Ev),
    (cycle m c (some r) es).rest = [] ∧ r 6 = true ∧ asked (c.seen ++ c.rest) 6 = true ∧
    6 ∈ clients m ((cycle m c (some r) es).seen) ∧ 6 ∉ (cycle m c (some r) es).served :=
  ⟨⟨3, 4⟩, ⟨[⟨3, false, false, false⟩, ⟨4, true, false, false⟩, ⟨5, false, false, false⟩, ⟨6, false, false, false⟩], [],
    fun _ => false, [6, 5], [], []⟩, fun x => x == 5 || x == 6,
    [.acceptFail, .acceptFail, .echo .closed], by decide, by decide, by decide, by decide, by decide⟩

/-- The hypotheses of `C62_no_leak` and `C62_all_served_partial` are met: a client is accepted and served in
the same cycle, another one is served too. -/
example : (cycle ⟨3, 4⟩ ⟨[⟨3, false, false, false⟩, ⟨4, true, false, false⟩, ⟨5, false, false, false⟩], [],
    fun _ => false, [5], [], []⟩ (some fun x => x == 3 || x == 5)
    [.acceptOk 6, .acceptFail, .echo (.kept ⟨5, false, false, true⟩), .echo (.kept ⟨6, false, false, true⟩)]).served = [6, 5] := by
  decide

/-! ### C63: connecting and opening the network -/

/-- C63 does not hold: a client of the server port that connects and sends nothing within the first
300 ms is disconnected in the same cycle; it is looked at even though `select` did not report it. -/
theorem C63_silent_violated (sv : Services) (old : Buf) (m : Listen) (seen rest : List Sock) (fd : Nat)
    (c : Scan) (hc : c.rest = ⟨m.master, false, false, false⟩ :: rest) (hseen : c.seen = seen)
    (hr : c.ready m.master = true) (hm : m.master ≠ m.modbus) (es : List SendEv) :
    (⟨fd, false, true, false⟩ : Sock) ∈ (scanStep m c (.acceptOk fd)).rest ∧
    (scanStep m c (.acceptOk fd)).ready fd = true ∧
    doEcho sv old ⟨fd, false, true, false⟩ .timeout es = some ⟨.closed, []⟩ := by
  obtain ⟨a, b, ready, o, cl, sr⟩ := c
  simp only at hc hr hseen
  subst hc
  refine ⟨?_, ?_, rfl⟩
  · simp only [scanStep]
    rw [if_neg (by simp [hr]), if_pos (Or.inl trivial)]
    simp [hm]
  · simp only [scanStep]
    rw [if_neg (by simp [hr]), if_pos (Or.inl trivial)]
    simp

/-- C63. The same client of the Modbus port stays. -/
theorem C63_silent_modbus (sv : Services) (old : Buf) (fd : Nat) (es : List SendEv) :
    doEcho sv old ⟨fd, true, true, false⟩ .timeout es = some ⟨.kept ⟨fd, true, false, true⟩, []⟩ := rfl

/-- C63. When the network is opened, both listening sockets are open and in the table. -/
theorem C63_opened (n : Net) (e : NetEnv) (hn : n.ok = false) (h : (netInit n e).ok = true) :
    ∃ a b, e.master = some a ∧ e.modbus = some b ∧ a ∈ (netInit n e).opened ∧ b ∈ (netInit n e).opened ∧
      (netInit n e).table = n.table ++ [a, b] := by
  unfold netInit at *
  cases ha : e.master with
  | none => rw [ha] at h; simp [hn] at h
  | some a =>
    rw [ha] at h
    simp only at h ⊢
    by_cases h1 : (!e.setsockoptOk || !e.bindOk || !e.listenOk) = true
    · rw [if_pos h1] at h; rw [hn] at h; cases h
    rw [if_neg h1] at h ⊢
    cases hb : e.modbus with
    | none => rw [hb] at h; simp [hn] at h
    | some b =>
      rw [hb] at h
      simp only at h ⊢
      by_cases h2 : (!e.bindModbusOk || !e.listenModbusOk) = true
      · rw [if_pos h2] at h; simp [hn] at h
      rw [if_neg h2]
      exact ⟨a, b, rfl, rfl, by simp, by simp, by simp⟩

/-- C63. A failure to open the socket for the server leaves nothing behind. -/
theorem C63_failed_partial (n : Net) (e : NetEnv)
    (h : e.master = none ∨ e.setsockoptOk = false ∨ e.bindOk = false ∨ e.listenOk = false) :
    netInit n e = n := by
  unfold netInit
  cases ha : e.master with
  | none => rfl
  | some a =>
    simp only
    rw [if_pos]
    rw [ha] at h
    rcases h with h | h | h | h
    · cases h
    · simp [h]
    · simp [h]
    · simp [h]

/-- C63 does not hold when the Modbus port cannot be taken (it is set up without `SO_REUSEADDR`): each try
keeps one more descriptor and adds one more entry to the table, without bound. -/
theorem C63_leak_violated (tries : List NetEnv)
    (h : ∀ e ∈ tries, e.master.isSome ∧ e.setsockoptOk = true ∧ e.bindOk = true ∧ e.listenOk = true ∧
      e.modbus.isSome ∧ e.bindModbusOk = false) (n : Net) :
    (tries.foldl netInit n).opened.length = n.opened.length + tries.length ∧
    (tries.foldl netInit n).table.length = n.table.length + tries.length ∧
    (tries.foldl netInit n).ok = n.ok := by
  induction tries generalizing n with
  | nil => simp
  | cons e tries ih =>
    obtain ⟨h1, h2, h3, h4, h5, h6⟩ := h e List.mem_cons_self
    obtain ⟨a, ha⟩ := Option.isSome_iff_exists.mp h1
    obtain ⟨b, hb⟩ := Option.isSome_iff_exists.mp h5
    have e1 : netInit n e = { n with opened := b :: n.opened, table := n.table ++ [a] } := by
      unfold netInit
      simp [ha, hb, h2, h3, h4, h6]
    have := ih (fun x hx => h x (List.mem_cons_of_mem _ hx)) (netInit n e)
    rw [List.foldl_cons]
    rw [e1] at this ⊢
    simp only [List.length_cons, List.length_append, List.length_nil] at this ⊢
    refine ⟨by omega, by omega, this.2.2⟩

example : ([⟨some 3, true, true, true, some 4, false, true⟩, ⟨some 3, true, true, true, some 5, false, true⟩].foldl
    netInit ⟨[], [], false⟩) = ⟨[5, 4], [3, 3], false⟩ := by decide

/-! ### C64: loss of the server is reported -/

/-- When a client socket was last ready. -/
def lastClient (t0 : BitVec 64) : List WEv → BitVec 64
  | [] => t0
  | .eval _ :: h => lastClient t0 h
  | .client _ _ t :: h => lastClient t h

theorem run_last (h : List WEv) : ∀ w : Watch, (w.run h).last = lastClient w.last h := by
  induction h with
  | nil => intro w; rfl
  | cons e h ih =>
    intro w
    simp only [Watch.run, List.foldl_cons] at *
    rw [ih]
    cases e with
    | eval now =>
      simp only [lastClient, Watch.step]
      split
      · split <;> rfl
      · split <;> rfl
    | client a b t => rfl

theorem run_ok (h : List WEv) : ∀ w : Watch, w.alarm = !w.ok → (w.run h).alarm = !(w.run h).ok := by
  induction h with
  | nil => intro w hw; exact hw
  | cons e h ih =>
    intro w hw
    simp only [Watch.run, List.foldl_cons] at *
    apply ih
    cases e with
    | eval now =>
      simp only [Watch.step]
      split
      · split
        · rfl
        · exact hw
      · split
        · rfl
        · exact hw
    | client a b t => exact hw

/-- C64. After any history, a call of `evaluate` leaves the alarm set exactly when more than 5 s have gone
by since a client socket was last ready. The part that fails: not every client is the server, and being
ready is not a successful exchange. -/
theorem C64_alarm_partial (t0 : BitVec 64) (h : List WEv) (now : BitVec 64)
    (hle : (lastClient t0 h).toNat ≤ now.toNat) :
    ((Watch.start t0).run (h ++ [.eval now])).alarm = decide (5000 < now.toNat - (lastClient t0 h).toNat) := by
  have e : (Watch.start t0).run (h ++ [.eval now]) = ((Watch.start t0).run h).step (.eval now) := by
    simp [Watch.run]
  have h1 := run_last h (Watch.start t0)
  have h2 := run_ok h (Watch.start t0) rfl
  rw [e]
  generalize (Watch.start t0).run h = w at *
  have h1' : w.last = lastClient t0 h := h1
  simp only [Watch.step]
  have hd := Timer.delta_eq (now := now) (t := w.last) (by rw [h1']; exact hle)
  have h5 : (5000 : BitVec 64).toNat = 5000 := rfl
  have hiff : (5000 : BitVec 64) < Time.deltaMs now w.last ↔ 5000 < now.toNat - (lastClient t0 h).toNat := by
    rw [BitVec.lt_def, hd, h5, h1']
  by_cases hc : (5000 : BitVec 64) < Time.deltaMs now w.last
  · rw [if_pos hc]
    simp only [hiff.mp hc, decide_true]
    cases hk : w.ok
    · rw [hk] at h2
      simpa using h2
    · rfl
  · rw [if_neg hc]
    simp only [mt hiff.mpr hc, decide_false]
    cases hk : w.ok
    · rfl
    · rw [hk] at h2
      simpa using h2

/-- C64 does not hold: the alarm is not raised while a Modbus client, or a client that connects and fails,
turns up every 5 s, although nothing was ever exchanged with the server. -/
theorem C64_masked_violated (t0 : BitVec 64) (visits : List (Bool × Bool × BitVec 64 × BitVec 64))
    (hv : ∀ v ∈ visits, (v.1 = true ∨ v.2.1 = false) ∧
      v.2.2.1.toNat ≤ v.2.2.2.toNat ∧ v.2.2.2.toNat ≤ v.2.2.1.toNat + 5000) :
    ((Watch.start t0).run (visits.flatMap fun v => [.client v.1 v.2.1 v.2.2.1, .eval v.2.2.2])).alarm = false := by
  have key : ∀ (vs : List (Bool × Bool × BitVec 64 × BitVec 64)) (w : Watch),
      (∀ v ∈ vs, (v.1 = true ∨ v.2.1 = false) ∧
        v.2.2.1.toNat ≤ v.2.2.2.toNat ∧ v.2.2.2.toNat ≤ v.2.2.1.toNat + 5000) →
      w.ok = true → w.alarm = false →
      (w.run (vs.flatMap fun v => [.client v.1 v.2.1 v.2.2.1, .eval v.2.2.2])).alarm = false := by
    intro vs
    induction vs with
    | nil => intro w _ _ h; exact h
    | cons v vs ih =>
      intro w hvs ho ha
      obtain ⟨_, l1, l2⟩ := hvs v List.mem_cons_self
      have e : (w.step (.client v.1 v.2.1 v.2.2.1)).step (.eval v.2.2.2) = { w with last := v.2.2.1 } := by
        have hd := Timer.delta_eq (now := v.2.2.2) (t := v.2.2.1) l1
        have h5 : (5000 : BitVec 64).toNat = 5000 := rfl
        have hn : ¬ (5000 : BitVec 64) < Time.deltaMs v.2.2.2 v.2.2.1 := by
          rw [BitVec.lt_def, hd, h5]; omega
        change Watch.step { w with last := v.2.2.1 } (.eval v.2.2.2) = _
        simp only [Watch.step]
        rw [if_neg hn]
        simp [ho]
      have := ih { w with last := v.2.2.1 } (fun x hx => hvs x (List.mem_cons_of_mem _ hx)) ho ha
      rw [List.flatMap_cons]
      simp only [Watch.run, List.cons_append, List.nil_append, List.foldl_cons] at this ⊢
      rw [e]
      exact this
  exact key visits (Watch.start t0) hv rfl rfl

example : ((Watch.start 0).run [.client true true 4000, .eval 8000, .client false false 8500, .eval 13000]).alarm = false := by
  decide
example : ((Watch.start 0).run [.eval 5000, .client false true 5500, .eval 10501]).alarm = true := by decide
example : ((Watch.start 0).run [.eval 5000, .client false true 5500, .eval 10501, .client false true 11000, .eval 11000]).alarm = false := by
  decide

end Ptusa.Tcp
