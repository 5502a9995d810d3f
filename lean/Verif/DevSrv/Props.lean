import Verif.DevSrv.Lemmas
import Verif.Tcp.Props

/-!
# C65 to C68: the service of the server
-/
namespace Ptusa.DevSrv

open Ptusa.Tcp (Byte Services Buf Sock SendEv Echo doEcho request parse)

/-! ### C65: the reply tells whether the command was carried out -/

/-- C65 (part: the known commands, texts of less than 65534 bytes, a compressor that works). The server sends a command
text: the reply says 0 if it was carried out without an error, else 1. The text is carried out as it was sent, by the manager
of recipes if it contains `__RECMAN`. -/
theorem C65_commands_partial (sv : Services) (old : Buf) (sock : Sock) (idx code : Byte) (text : List Byte)
    (es : List SendEv) (x : Echo) (s : St) (e : Env) (expand : List Byte → List Byte)
    (hcode : code = 102 ∨ code = 104 ∨ code = 106) (h0 : (0 : Byte) ∉ text) (hl : text.length < 65534)
    (hsv : sv 1 = some (srv s e)) (hz : e.compressOn = true → Lossless e expand)
    (hes : es.all SendEv.ok = true)
    (hx : doEcho sv old sock (.data (request 1 idx (command code text))) es = some x) :
    ∃ data, parse x.out = some ⟨0x73, 12, idx, data⟩ ∧
      unpacked e expand data = (if outcome e code text = 0 then [0, 0] else [1, 0]) ∧
      x.ended = .kept { sock with init := false, evaluated := true } := by
  have ht := textMax_eq
  have hbuf := Tcp.bufSize_eq
  have hlen : (command code text).length = text.length + 2 := by simp [command]
  have hstr := zeros_command_text code text h0 (by omega)
  have hd : Tcp.zeros (command code text) 0 = code := by simp [Tcp.zeros, command]
  have hplain : plain s e (Tcp.zeros (command code text)) = (s, cmdAnswer (outcome e code text)) := by
    unfold plain
    rw [hd, hstr]
    rcases hcode with rfl | rfl | rfl
    · have : (if hasMark text = true then e.recman text else e.lua text) = outcome e 102 text := by
        unfold outcome
        by_cases hm : hasMark text = true
        · have := (hasMark_iff text).mp hm
          simp [hm, this]
        · have := mt (hasMark_iff text).mpr hm
          simp [hm, this]
      simp only [← this]
      rfl
    · rfl
    · rfl
  have hser : serve s e (command code text).length (Tcp.zeros (command code text)) =
      (s, pack e (cmdAnswer (outcome e code text))) := by
    unfold serve
    rw [if_neg (by omega), hplain]
  generalize hout : cmdAnswer (outcome e code text) = out at hser
  have hout' : out = if outcome e code text = 0 then [0, 0] else [1, 0] := by rw [← hout]; rfl
  rw [← hout']
  have hol : out.length = 2 := by rw [hout']; split <;> rfl
  have hone : out.isEmpty = false := by cases out with
    | nil => simp at hol
    | cons a l => rfl
  have key : ∀ n w, pack e out = (n, w) → n ≤ w.length → n < 65536 → 5 + w.length ≤ Tcp.bufSize →
      unpacked e expand (w.take n) = out → ∃ data, parse x.out = some ⟨0x73, 12, idx, data⟩ ∧
      unpacked e expand data = out ∧ x.ended = .kept { sock with init := false, evaluated := true } := by
    intro n w hp hn hn2 hw hu
    have hnt : (BitVec.ofNat 64 n).toNat = n := by simp only [BitVec.toNat_ofNat]; omega
    have := Tcp.C59_answered_partial sv old sock 1 idx (command code text) (srv s e) (BitVec.ofNat 64 n) w es x
      (by decide) hsv (srv_reads s e) (by omega) (by simp only [srv, hser, hp]) (by omega) (by omega) hw hes hx
    rw [hnt] at this
    exact ⟨_, this.1, hu, this.2⟩
  by_cases hc : e.compressOn = true
  · obtain ⟨z, hz1, hz2, hz3, hz4⟩ := hz hc out (by rintro rfl; simp at hol)
    refine key z.length (z ++ out.drop z.length) (by simp [pack, hone, hc, hz1]) (by simp) (by omega) ?_ ?_
    · simp only [List.length_append, List.length_drop]; omega
    · simp [unpacked, hc, hz4]
  · refine key out.length out (by simp [pack, hc]) (Nat.le_refl _) (by omega) (by omega) ?_
    simp [unpacked, hc]

/-- C65 fails for numbers the controller does not know: whatever the request, the reply is the acknowledgement without
data, not an error. -/
theorem C65_unknown_violated (sv : Services) (old : Buf) (sock : Sock) (idx code : Byte) (text : List Byte)
    (es : List SendEv) (x : Echo) (s : St) (e : Env) (hcode : code.toNat ≠ 10) (hcode' : code.toNat < 100 ∨ 107 < code.toNat)
    (hl : text.length < 65534) (hsv : sv 1 = some (srv s e)) (hes : es.all SendEv.ok = true)
    (hx : doEcho sv old sock (.data (request 1 idx (command code text))) es = some x) :
    parse x.out = some ⟨0x73, 12, idx, []⟩ := by
  have hbuf := Tcp.bufSize_eq
  have hlen : (command code text).length = text.length + 2 := by simp [command]
  have hd : Tcp.zeros (command code text) 0 = code := by simp [Tcp.zeros, command]
  have hplain : plain s e (Tcp.zeros (command code text)) = (s, []) := by
    unfold plain
    rw [hd]
    split <;> first | rfl | omega
  have hser : serve s e (command code text).length (Tcp.zeros (command code text)) = (s, 0, []) := by
    unfold serve
    rw [if_neg (by omega), hplain]
    rfl
  have := Tcp.C59_answered_partial sv old sock 1 idx (command code text) (srv s e) 0 [] es x
    (by decide) hsv (srv_reads s e) (by omega) (by simp only [srv, hser]; rfl) (by simp) (by simp) (by rw [hbuf]; simp) hes hx
  simpa using this.1

/-- C65 fails when the answer cannot be packed: the reply says that a command was carried out, also when it was not. -/
theorem C65_packing_violated (sv : Services) (old : Buf) (sock : Sock) (idx code : Byte) (text : List Byte)
    (es : List SendEv) (x : Echo) (s : St) (e : Env) (hcode : code = 102 ∨ code = 104 ∨ code = 106)
    (hl : text.length < 65534) (hsv : sv 1 = some (srv s e)) (hc : e.compressOn = true) (hz : ∀ l, e.compress l = none)
    (hes : es.all SendEv.ok = true)
    (hx : doEcho sv old sock (.data (request 1 idx (command code text))) es = some x) :
    parse x.out = some ⟨0x73, 12, idx, [0, 0]⟩ := by
  have hbuf := Tcp.bufSize_eq
  have hlen : (command code text).length = text.length + 2 := by simp [command]
  have hd : Tcp.zeros (command code text) 0 = code := by simp [Tcp.zeros, command]
  have hplain : ∃ r, plain s e (Tcp.zeros (command code text)) = (s, cmdAnswer r) := by
    unfold plain
    rw [hd]
    rcases hcode with rfl | rfl | rfl <;> exact ⟨_, rfl⟩
  obtain ⟨r, hplain⟩ := hplain
  have hser : serve s e (command code text).length (Tcp.zeros (command code text)) = (s, 2, [0, 0]) := by
    unfold serve
    rw [if_neg (by omega), hplain]
    have hr : cmdAnswer r = [0, 0] ∨ cmdAnswer r = [1, 0] := by
      unfold cmdAnswer
      split
      · exact Or.inl rfl
      · exact Or.inr rfl
    rcases hr with hr | hr <;> simp [hr, pack, hc, hz]
  have := Tcp.C59_answered_partial sv old sock 1 idx (command code text) (srv s e) 2 [0, 0] es x
    (by decide) hsv (srv_reads s e) (by omega) (by simp only [srv, hser]; rfl) (by simp) (by simp) (by rw [hbuf]; simp) hes hx
  simpa using this.1

/-- A controller that carries out nothing but `a` (without an error), for the examples. -/
def sample : Env where
  now := 10
  info := []
  devs := [[0x76], [0x77, 0x78]]
  lua := fun l => if l = [0x61] then 0 else 1
  recman := fun _ => 0
  pacErr := ([], 0)
  devErr := ([], 0)
  alarmHead := fun _ => [0x7b]
  alarmTail := fun i => bytes2 i
  params := []
  restore := fun _ => 0
  crc := []
  compressOn := false
  compress := fun _ => none

example : (serve St.init sample 3 (Tcp.zeros (command 102 [0x61]))).2 = (2, [0, 0]) ∧
    (serve St.init sample 3 (Tcp.zeros (command 104 [0x62]))).2 = (2, [1, 0]) ∧
    (serve St.init sample 3 (Tcp.zeros (command 200 [0x62]))).2 = (0, []) := by decide +kernel

/-! ### C66: the id of the list of devices -/

/-- C66. While the controller runs, the id of its list of devices does not change once it has been set. -/
theorem C66_stable (s : St) (l : List Call) (h : s.reqId ≠ 0) : (runs s l).reqId = s.reqId := by
  induction l using List.reverseRecOn with
  | nil => rfl
  | append_singleton l c ih =>
    rw [runs_snoc, serve_id, ih, if_neg (fun h' => h h'.1)]

/-- C66. It is set by the first request for the list that comes with an id other than 0. -/
theorem C66_set (l : List Call) (c : Call) (hl : ∀ d ∈ l, d.2.2 0 = 100 → word d.2.2 1 = 0)
    (hc : 1 ≤ c.2.1) (hc' : c.2.2 0 = 100) : (runs St.init (l ++ [c])).reqId = word c.2.2 1 := by
  have h0 : (runs St.init l).reqId = 0 := by
    induction l using List.reverseRecOn with
    | nil => rfl
    | append_singleton l d ih =>
      rw [runs_snoc, serve_id, ih (fun d hd => hl d (by simp [hd]))]
      by_cases h : (0 : BitVec 16) = 0 ∧ 1 ≤ d.2.1 ∧ d.2.2 0 = 100
      · rw [if_pos h]
        exact hl d (by simp) h.2.2
      · rw [if_neg h]
  rw [runs_snoc, serve_id, h0, if_pos ⟨rfl, hc, hc'⟩]

/-- C66. The list of devices and the list of states begin with the id and hold the texts of all devices in their order. -/
theorem C66_list (s : St) (c : Call) (hc : 1 ≤ c.2.1) (hk : c.2.2 0 = 100 ∨ c.2.2 0 = 101) (ho : c.1.compressOn = false) :
    (serve s c.1 c.2.1 c.2.2).2.2 =
      bytes2 (serve s c.1 c.2.1 c.2.2).1.reqId ++ c.1.devs.flatten ++ [0] := by
  have h1 : ¬ c.2.1 < 1 := by omega
  unfold serve
  rw [if_neg h1]
  rcases hk with h | h
  · simp only [plain, h, pack, ho]
    rw [show (100 : BitVec 8).toNat = 100 from rfl]
    simp
  · simp only [plain, h, pack, ho]
    rw [show (101 : BitVec 8).toNat = 101 from rfl]
    simp

/-- C66 (part: as long as no other client uses the same id). A client that has been given its own id `i` sees the restart
of the controller: afterwards the id is another one. -/
theorem C66_restart_partial (i : BitVec 16) (hi : i ≠ 0) (l : List Call)
    (hl : ∀ c ∈ l, c.2.2 0 = 100 → word c.2.2 1 ≠ i) : (runs St.init l).reqId ≠ i := by
  induction l using List.reverseRecOn with
  | nil => exact fun h => hi h.symm
  | append_singleton l c ih =>
    rw [runs_snoc, serve_id]
    split
    · rename_i h
      exact hl c (by simp) h.2.2
    · exact ih (fun d hd => hl d (by simp [hd]))

/-- C66 fails with two clients that use the same id: after a restart the request of the one hides the restart from the
other, for every id. -/
theorem C66_hidden_violated (i : BitVec 16) (e : Env) :
    (runs St.init [(e, 3, Tcp.zeros (100 :: bytes2 i))]).reqId = i := by
  have := C66_set [] (e, 3, Tcp.zeros (100 :: bytes2 i)) (by simp) (by simp) rfl
  rw [List.nil_append] at this
  rw [this]
  simp only [word, Tcp.zeros, bytes2]
  change i.extractLsb' 8 8 ++ i.extractLsb' 0 8 = i
  apply BitVec.eq_of_getLsbD_eq
  intro k hk
  rw [BitVec.getLsbD_append]
  by_cases h : k < 8
  · simp [h]
  · have h8 : k - 8 < 8 := by omega
    have h9 : 8 + (k - 8) = k := by omega
    simp [h, h8, h9]

/-- Two clients: the second one is given the id of the first. -/
example : (serve (runs St.init [(sample, 3, Tcp.zeros [100, 7, 1])]) sample 3 (Tcp.zeros [100, 9, 9])).2.2 =
    [7, 1, 0x76, 0x77, 0x78, 0] := by rfl

/-! ### C67: the id of the alarms -/

/-- C67. The text of a poll shows what there is to show, and the id. -/
theorem C67_text (s : St) (c : Call) (h : c.polls) (ho : c.1.compressOn = false) :
    (serve s c.1 c.2.1 c.2.2).2.2 = c.1.alarmHead (c.2.2 1) ++ (shown s c.1).1 ++ (shown s c.1).2 ++
      c.1.alarmTail (serve s c.1 c.2.1 c.2.2).1.errorsId ++ [0] := by
  rw [serve_poll _ _ h]
  have p := (poll_fields s c.1 (c.2.2 1)).2.2.2.2.2
  simp only [pack, ho]
  simpa using p

/-- C67 (part: fewer than 32767 polls in between; managers of errors that change their id with their text). Two polls with
the same id show the same: a server may skip lists with the id it already knows. Any other calls may come between, the
clock does not go back. -/
theorem C67_same_partial (pac dev : BitVec 16 → List Byte) (hdev : dev 0 = []) (pre mid : List Call) (j k : Call)
    (hj : j.polls) (hk : k.polls) (hh : ∀ c ∈ pre ++ j :: mid ++ [k], Honest pac dev c)
    (ho : InOrder (pre ++ j :: mid ++ [k])) (hm : mid.countP (fun c => decide c.polls) < 32767)
    (hid : (runs St.init (pre ++ [j])).errorsId = (runs St.init (pre ++ j :: mid ++ [k])).errorsId) :
    shown (runs St.init pre) j.1 = shown (runs St.init (pre ++ j :: mid)) k.1 := by
  -- the state after the first of the two polls
  have hrun : runs St.init (pre ++ [j]) = (pollErrors (runs St.init pre) j.1 (j.2.2 1)).1 := by
    rw [runs_snoc, serve_poll _ _ hj]
  obtain ⟨-, p1, p2, p3, -, -⟩ := poll_fields (runs St.init pre) j.1 (j.2.2 1)
  rw [← hrun] at p1 p2 p3
  generalize hf : (runs St.init pre).firstPoll.getD j.1.now = f at p1 p3
  -- what lies between
  have e1 : pre ++ j :: mid ++ [k] = (pre ++ [j]) ++ (mid ++ [k]) := by simp
  have e2 : pre ++ j :: mid = (pre ++ [j]) ++ mid := by simp
  obtain ⟨N, hN, he, -, h0⟩ := runs_incr (runs St.init (pre ++ [j])) f p1 (mid ++ [k])
  obtain ⟨N', hN', he', hf', h0'⟩ := runs_incr (runs St.init (pre ++ [j])) f p1 mid
  rw [e1, runs_append _ (pre ++ [j]), he] at hid
  have hN2 : N < 65536 := by
    rw [List.countP_append] at hN
    have : [k].countP (fun c => decide c.polls) ≤ 1 := List.countP_le_length
    omega
  have hz : N = 0 := by
    have := congrArg BitVec.toNat hid
    simp only [BitVec.toNat_add, BitVec.toNat_ofNat] at this
    have hlt := (runs St.init (pre ++ [j])).errorsId.isLt
    omega
  -- the state after the second one
  obtain ⟨q1, q2⟩ := h0 hz
  rw [runs_snoc, serve_poll _ _ hk] at q1 q2
  obtain ⟨-, -, r2, r3, r4, -⟩ := poll_fields (runs (runs St.init (pre ++ [j])) mid) k.1 (k.2.2 1)
  rw [r2] at q1
  rw [r3, hf', Option.getD_some] at q2
  -- the two texts
  have hhj := hh j (by simp)
  have hhk := hh k (by simp)
  have hpac : j.1.pacErr.1 = k.1.pacErr.1 := by rw [hhj.1, hhk.1, q1, p2]
  have hshj : shown (runs St.init pre) j.1 = (j.1.pacErr.1, if showDev j.1 f then j.1.devErr.1 else []) := by
    rw [shown, hf]
  have hshk : shown (runs St.init (pre ++ j :: mid)) k.1 =
      (k.1.pacErr.1, if showDev k.1 f then k.1.devErr.1 else []) := by
    rw [shown, e2, runs_append _ (pre ++ [j]), hf', Option.getD_some]
  rw [hshj, hshk, ← hpac]
  congr 1
  -- times
  have hord := ho
  unfold InOrder at hord
  rw [e1, List.pairwise_append] at hord
  have hjk : j.1.now.toNat ≤ k.1.now.toNat := hord.2.2 j (by simp) k (by simp)
  have hpj : ∀ c ∈ pre, c.1.now.toNat ≤ j.1.now.toNat := by
    have := hord.1
    rw [List.pairwise_append] at this
    exact fun c hc => this.2.2 c hc j (by simp)
  obtain ⟨⟨c0, hc0, hc0f⟩, hdev5⟩ := (runs_first (pre ++ [j]) hord.1).2 f p1
  have hmin : ∀ c ∈ pre ++ [j], c.1.now.toNat ≤ j.1.now.toNat := by
    intro c hc
    rw [List.mem_append] at hc
    rcases hc with hc | hc
    · exact hpj c hc
    · rw [List.mem_singleton] at hc
      rw [hc]; exact Nat.le_refl _
  have hfj : f.toNat ≤ j.1.now.toNat := by rw [← hc0f]; exact hmin c0 hc0
  by_cases hsj : showDev j.1 f = true
  · -- shown at the first, hence at the second
    have hsk : showDev k.1 f = true := by
      simp only [showDev, Bool.and_eq_true, decide_eq_true_eq] at hsj ⊢
      exact ⟨by rw [← hpac]; exact hsj.1, later hfj hjk hsj.2⟩
    rw [if_pos hsj, if_pos hsk, hhj.2, hhk.2]
    rw [if_pos hsk] at q2
    rw [if_pos hsj] at p3
    rw [q2, p3]
  · rw [if_neg hsj]
    by_cases hsk : showDev k.1 f = true
    · rw [if_pos hsk, hhk.2]
      rw [if_pos hsk] at q2
      rw [q2]
      -- nothing was looked at before
      have : (runs St.init (pre ++ [j])).prevDev = 0 := by
        by_contra hne
        obtain ⟨d, hd, hfd, h5⟩ := hdev5 hne
        apply hsj
        simp only [showDev, Bool.and_eq_true, decide_eq_true_eq] at hsk ⊢
        exact ⟨by rw [hpac]; exact hsk.1, later hfd (hmin d hd) h5⟩
      rw [this, hdev]
    · rw [if_neg hsk]

/-- Two polls without errors have the same id; a critical error in between changes it. -/
example : let p : Env → Call := fun e => (e, 2, Tcp.zeros [103, 1])
    let err : Env := { sample with pacErr := ([0x65], 1) }
    (runs St.init [p sample]).errorsId = 10 ∧ (runs St.init [p sample, p sample]).errorsId = 10 ∧
    (runs St.init [p sample, p err]).errorsId = 11 ∧
    (serve (runs St.init [p sample]) err 2 (Tcp.zeros [103, 1])).2.2 = [0x7b, 0x65, 11, 0, 0] := by decide +kernel

/-- Polls that show three critical errors in turn. -/
def turn (i : Nat) : Call :=
  ({ sample with pacErr := ([BitVec.ofNat 8 (i % 3 + 1)], BitVec.ofNat 16 (i % 3 + 1)) }, 2, Tcp.zeros [103, 1])

theorem turn_runs (n : Nat) : (runs St.init ((List.range (n + 1)).map turn)).errorsId = 11 + BitVec.ofNat 16 n ∧
    (runs St.init ((List.range (n + 1)).map turn)).prevPac = BitVec.ofNat 16 (n % 3 + 1) ∧
    (runs St.init ((List.range (n + 1)).map turn)).firstPoll = some 10 := by
  induction n with
  | zero => decide +kernel
  | succ n ih =>
    obtain ⟨h1, h2, h3⟩ := ih
    rw [List.range_succ, List.map_append]
    change (runs St.init ((List.range (n + 1)).map turn ++ [turn (n + 1)])).errorsId = _ ∧ _
    rw [List.map_singleton, runs_snoc, serve_poll _ (turn (n + 1)) ⟨by simp [turn], rfl⟩]
    obtain ⟨-, p1, p2, -, p4, -⟩ := poll_fields (runs St.init ((List.range (n + 1)).map turn)) (turn (n + 1)).1
      ((turn (n + 1)).2.2 1)
    rw [h3] at p1 p4
    have hne : BitVec.ofNat 16 ((n + 1) % 3 + 1) ≠ BitVec.ofNat 16 (n % 3 + 1) := by
      intro h
      have := congrArg BitVec.toNat h
      simp only [BitVec.toNat_ofNat] at this
      omega
    have hs : showDev (turn (n + 1)).1 10 = false := rfl
    refine ⟨?_, p2, p1⟩
    rw [p4, h1, h2]
    have hne' : (turn (n + 1)).1.pacErr.2 ≠ BitVec.ofNat 16 (n % 3 + 1) := hne
    rw [if_neg (by simp), if_pos hne', if_neg (by rw [Option.getD_some, hs]; simp)]
    simp [BitVec.ofNat_add, BitVec.add_assoc]

/-- C67 fails over more polls: the id has 16 bits. After 65536 changes the same id shows another error, although the
managers change their ids with their texts. -/
theorem C67_wrap_violated : ∃ (pac dev : BitVec 16 → List Byte) (pre mid : List Call) (j k : Call), dev 0 = [] ∧ j.polls ∧ k.polls ∧
    (∀ c ∈ pre ++ j :: mid ++ [k], Honest pac dev c) ∧ InOrder (pre ++ j :: mid ++ [k]) ∧
    (runs St.init (pre ++ [j])).errorsId = (runs St.init (pre ++ j :: mid ++ [k])).errorsId ∧
    shown (runs St.init pre) j.1 ≠ shown (runs St.init (pre ++ j :: mid)) k.1 := by
  have hall : ∀ n, (List.range (n + 2)).map turn = [] ++ turn 0 :: (List.range n).map (fun i => turn (i + 1)) ++ [turn (n + 1)] := by
    intro n
    rw [List.range_succ, List.map_append, List.range_succ_eq_map]
    simp [Function.comp_def]
  have hmem : ∀ c, c ∈ [] ++ turn 0 :: (List.range 65535).map (fun i => turn (i + 1)) ++ [turn 65536] → ∃ i, c = turn i := by
    intro c hc
    rw [← hall 65535, List.mem_map] at hc
    obtain ⟨i, -, rfl⟩ := hc
    exact ⟨i, rfl⟩
  refine ⟨fun i => [BitVec.ofNat 8 i.toNat], fun _ => [], [], (List.range 65535).map (fun i => turn (i + 1)), turn 0,
    turn 65536, rfl, ⟨by decide, rfl⟩, ⟨by decide, rfl⟩, ?_, ?_, ?_, ?_⟩
  · intro c hc
    obtain ⟨i, rfl⟩ := hmem c hc
    refine ⟨?_, rfl⟩
    change [BitVec.ofNat 8 (i % 3 + 1)] = [BitVec.ofNat 8 (BitVec.ofNat 16 (i % 3 + 1)).toNat]
    rw [BitVec.toNat_ofNat, Nat.mod_eq_of_lt (a := i % 3 + 1) (by omega)]
  · rw [← hall 65535]
    unfold InOrder
    rw [List.pairwise_map]
    exact List.Pairwise.imp (fun _ => Nat.le_refl _) List.pairwise_lt_range
  · rw [← hall 65535, (turn_runs 65536).1]
    rfl
  · intro h
    have := congrArg Prod.fst h
    exact absurd this (by decide)

/-! ### C68: long lists -/

/-- C68 fails: the texts of the devices are written without looking at the size of the buffer. Every request for the list or
the states of devices whose texts take more than 511992 bytes makes the controller write past the buffer. -/
theorem C68_overflow_violated (sv : Services) (old : Buf) (sock : Sock) (idx code : Byte) (text : List Byte)
    (es : List SendEv) (s : St) (e : Env) (hcode : code = 100 ∨ code = 101) (hl : text.length < 65534)
    (hsv : sv 1 = some (srv s e)) (hdev : 511992 < e.devs.flatten.length) :
    doEcho sv old sock (.data (request 1 idx (command code text))) es = none := by
  have hbuf := Tcp.bufSize_eq
  have hlen : (command code text).length = text.length + 2 := by simp [command]
  refine Tcp.echo_overflow sv old sock 1 idx _ (srv s e) es (by decide) hsv (srv_reads s e) (by omega) ?_
  have hd : Tcp.zeros (command code text) 0 = code := by simp [Tcp.zeros, command]
  have hp : 511995 < (plain s e (Tcp.zeros (command code text))).2.length := by
    unfold plain
    rw [hd]
    rcases hcode with rfl | rfl
    · rw [show (100 : BitVec 8).toNat = 100 from rfl]
      simp only [List.length_append, bytes2, List.length_cons, List.length_nil]
      omega
    · rw [show (101 : BitVec 8).toNat = 101 from rfl]
      simp only [List.length_append, bytes2, List.length_cons, List.length_nil]
      omega
  simp only [srv, serve]
  rw [if_neg (by omega)]
  simp only
  generalize (plain s e (Tcp.zeros (command code text))).2 = out at hp
  unfold pack
  split
  · simp only; omega
  · split
    · simp only [List.length_append, List.length_drop]; omega
    · simp only [List.length_append, List.length_drop, List.length_cons, List.length_nil]; omega

example : ∃ e : Env, 511992 < e.devs.flatten.length :=
  ⟨{ sample with devs := [List.replicate 600000 0x76] }, by
    change 511992 < [List.replicate 600000 (0x76 : Byte)].flatten.length
    rw [List.flatten_singleton, List.length_replicate]
    omega⟩

/-- C68 (part: lists that fit). Lists of up to 65535 bytes packed, with texts up to 511992 bytes, come back whole. -/
theorem C68_fits_partial (sv : Services) (old : Buf) (sock : Sock) (idx code : Byte) (text : List Byte)
    (es : List SendEv) (x : Echo) (s : St) (e : Env) (expand : List Byte → List Byte) (hcode : code = 100 ∨ code = 101)
    (hl : text.length < 65534) (hsv : sv 1 = some (srv s e)) (hz : e.compressOn = true → Lossless e expand)
    (hfit : if e.compressOn then ∀ l z, e.compress l = some z → z.length < 65536 else e.devs.flatten.length + 3 < 65536)
    (hdev : e.devs.flatten.length ≤ 511992) (hes : es.all SendEv.ok = true)
    (hx : doEcho sv old sock (.data (request 1 idx (command code text))) es = some x) :
    ∃ data id, parse x.out = some ⟨0x73, 12, idx, data⟩ ∧
      unpacked e expand data = bytes2 id ++ e.devs.flatten ++ [0] := by
  have hbuf := Tcp.bufSize_eq
  have hlen : (command code text).length = text.length + 2 := by simp [command]
  have hd : Tcp.zeros (command code text) 0 = code := by simp [Tcp.zeros, command]
  have hp : ∃ s' id, plain s e (Tcp.zeros (command code text)) = (s', bytes2 id ++ e.devs.flatten ++ [0]) := by
    unfold plain
    rw [hd]
    rcases hcode with rfl | rfl <;> exact ⟨_, _, rfl⟩
  obtain ⟨s', id, hp⟩ := hp
  have hser : serve s e (command code text).length (Tcp.zeros (command code text)) =
      (s', pack e (bytes2 id ++ e.devs.flatten ++ [0])) := by
    unfold serve
    rw [if_neg (by omega), hp]
  generalize hout : bytes2 id ++ e.devs.flatten ++ [0] = out at hser
  have hol : out.length = e.devs.flatten.length + 3 := by
    rw [← hout]; simp only [List.length_append, bytes2, List.length_cons, List.length_nil]; omega
  have hone : out.isEmpty = false := by cases out with
    | nil => simp at hol
    | cons a l => rfl
  have key : ∀ n w, pack e out = (n, w) → n ≤ w.length → n < 65536 → 5 + w.length ≤ Tcp.bufSize →
      unpacked e expand (w.take n) = out → ∃ data id, parse x.out = some ⟨0x73, 12, idx, data⟩ ∧
      unpacked e expand data = bytes2 id ++ e.devs.flatten ++ [0] := by
    intro n w hp hn hn2 hw hu
    have hnt : (BitVec.ofNat 64 n).toNat = n := by simp only [BitVec.toNat_ofNat]; omega
    have := Tcp.C59_answered_partial sv old sock 1 idx (command code text) (srv s e) (BitVec.ofNat 64 n) w es x
      (by decide) hsv (srv_reads s e) (by omega) (by simp only [srv, hser, hp]) (by omega) (by omega) hw hes hx
    rw [hnt] at this
    exact ⟨_, id, this.1, by rw [hu, hout]⟩
  by_cases hc : e.compressOn = true
  · obtain ⟨z, hz1, hz2, hz3, hz4⟩ := hz hc out (by rintro rfl; simp at hol)
    rw [if_pos hc] at hfit
    have hzl := hfit _ _ hz1
    refine key z.length (z ++ out.drop z.length) (by simp [pack, hone, hc, hz1]) (by simp) (by omega) ?_ ?_
    · simp only [List.length_append, List.length_drop]; omega
    · simp [unpacked, hc, hz4]
  · rw [if_neg hc] at hfit
    refine key out.length out (by simp [pack, hc]) (Nat.le_refl _) (by omega) (by omega) ?_
    simp [unpacked, hc]

end Ptusa.DevSrv
