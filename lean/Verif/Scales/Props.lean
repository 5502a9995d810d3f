import Verif.Scales.Lemmas

/-!
# C105, C106, C107, C108
-/
namespace Ptusa.Scales

/-! ### C105: strain gauge module -/

/-- **C105, partial.** Missing: an even number of evaluations since the coupler answered
(`C105_stale_violated`).  After any history, when the module sent the registers `a`, `b`: the weight is
thousandths of the number sent times the coefficient, plus the tare; the state is that of the
number. -/
theorem C105_weight_partial (s : Axl) (h : List AxlEv) (a b : BitVec 16) (n : Nat) (hn : n % 2 = 0) :
    let s0 := s.run h
    let s' := s.run (h ++ .recv a b :: List.replicate (n + 1) .eval)
    s'.value = .num (0.001 * (sent a b : Int)) * s0.k + s0.cz ∧ s'.st = faultOf (sent a b) := by
  intro s0 s'
  have hs : s' = ({ s0 with r0 := a, r1 := b } : Axl).run (List.replicate (n + 1) .eval) := by
    show Axl.run _ _ = _
    unfold Axl.run
    rw [List.foldl_append]
    rfl
  rw [hs, axl_evals, if_pos hn, axl_eval]
  refine ⟨?_, rfl⟩
  show Fl.num _ * Fl.num _ * s0.k + s0.cz = _
  rw [Fl.mul_num]
  norm_num

example : sent 0 12345 = 12345 ∧ sent 0xFFFF 0xFF9C = -100 ∧ faultOf (sent 0x8000 2) = -2 ∧
    faultOf 12345 = 0 := by decide

/-- A concrete history: 12.345 kg, tare, 15 kg: 2.655 kg. -/
example : (Axl.run ⟨0, 0, 0, 0, 0, 1⟩ [.recv 0 12345, .eval, .cmd 1, .recv 0 15000, .eval]).value =
    .num (2655 / 1000) := by decide +kernel

/-- **C105, violated.** The words are exchanged in the image itself: in the second cycle without an
answer of the coupler (the fourth, …) the weight is that of the exchanged words. -/
theorem C105_stale_violated (s : Axl) (h : List AxlEv) (a b : BitVec 16) (n : Nat) (hn : n % 2 = 1) :
    let s0 := s.run h
    let s' := s.run (h ++ .recv a b :: List.replicate (n + 1) .eval)
    s'.value = .num (0.001 * (sent b a : Int)) * s0.k + s0.cz ∧ s'.st = faultOf (sent b a) := by
  intro s0 s'
  have hs : s' = ({ s0 with r0 := a, r1 := b } : Axl).run (List.replicate (n + 1) .eval) := by
    show Axl.run _ _ = _
    unfold Axl.run
    rw [List.foldl_append]
    rfl
  rw [hs, axl_evals, if_neg (by omega), axl_eval, axl_eval]
  refine ⟨?_, rfl⟩
  show Fl.num _ * Fl.num _ * s0.k + s0.cz = _
  rw [Fl.mul_num]
  norm_num

/-- 1 kg measured, 65536 kg shown in the cycle after the coupler was lost. -/
example : (Axl.run ⟨0, 0, 0, 0, 0, 1⟩ [.recv 0 1000, .eval]).value = .num 1 ∧
    (Axl.run ⟨0, 0, 0, 0, 0, 1⟩ [.recv 0 1000, .eval, .eval]).value = .num 65536 := by decide +kernel

/-- **C105 (tare).** From a tare on, until the next tare or its reset, the weight shown is the
difference to the weight at the tare; right after the tare it is zero. -/
theorem C105_tare (s : Axl) (h1 h2 : List AxlEv) (hc : ∀ n, AxlEv.cmd n ∈ h2 → n ≠ 1 ∧ n ≠ 2) :
    (s.run (h1 ++ .cmd 1 :: h2)).value = (s.run (h1 ++ .cmd 1 :: h2)).w + -(s.run h1).w := by
  have key : ∀ (h2 : List AxlEv) (t : Axl), (∀ n, AxlEv.cmd n ∈ h2 → n ≠ 1 ∧ n ≠ 2) →
      (t.run h2).cz = t.cz := by
    intro h2
    induction h2 with
    | nil => intro t _; rfl
    | cons e h2 ih =>
      intro t hc
      show ((t.step e).run h2).cz = _
      rw [ih _ (fun n hn => hc n (by simp [hn]))]
      cases e with
      | recv a b => rfl
      | eval => rfl
      | cmd n =>
        obtain ⟨c1, c2⟩ := hc n (by simp)
        show (if n = 1 then t.tare else if n = 2 then t.resetTare else t).cz = _
        rw [if_neg c1, if_neg c2]
  have hr : s.run (h1 ++ .cmd 1 :: h2) = ((s.run h1).tare).run h2 := by
    unfold Axl.run
    rw [List.foldl_append]
    rfl
  show _ + _ = _
  rw [hr, key h2 _ hc]
  rfl

/-- **C105 (tare), zero.** -/
theorem C105_tare_zero (s : Axl) (h : List AxlEv) (q : Rat) (hw : (s.run h).w = .num q) :
    (s.run (h ++ [.cmd 1])).value = .num 0 := by
  have hr : s.run (h ++ [.cmd 1]) = (s.run h).tare := by
    unfold Axl.run
    rw [List.foldl_append]
    rfl
  rw [hr]
  show (s.run h).w + -(s.run h).w = _
  rw [hw]
  simp

/-- **C105 (reset of the tare).** -/
theorem C105_reset (s : Axl) (h : List AxlEv) : (s.run (h ++ [.cmd 2])).value = (s.run h).w + 0 := by
  have hr : s.run (h ++ [.cmd 2]) = (s.run h).resetTare := by
    unfold Axl.run
    rw [List.foldl_append]
    rfl
  rw [hr]
  rfl

/-- **C105, violated.** During a fault the code of the fault is shown as the weight, and a tare then
keeps it as the correction: with an empty scale (0 sent) it goes on showing more than 2147483 kg. -/
theorem C105_fault_tare_violated (s : Axl) (a b : BitVec 16) (k : Rat) (hk : s.k = .num k)
    (hf : faultOf (sent a b) ≠ 0) :
    (s.run [.recv a b, .eval, .cmd 1, .recv 0 0, .eval]).value = .num (-(0.001 * (sent a b : Int) * k)) ∧
    sent a b < -2147483519 := by
  constructor
  · have hr : s.run [.recv a b, .eval, .cmd 1, .recv 0 0, .eval] =
        ({ (({ s with r0 := a, r1 := b } : Axl).eval).tare with r0 := 0, r1 := 0 } : Axl).eval := rfl
    rw [hr, axl_eval, axl_eval]
    simp only [Axl.tare, Axl.value, hk]
    have h0 : sent 0 0 = 0 := by decide
    rw [h0]
    simp only [Fl.mul_num, Fl.add_num, Fl.neg_num]
    norm_num
  · have key : ∀ z : Int, faultOf z ≠ 0 → z < -2147483519 := by
      intro z hz
      by_contra hlt
      apply hz
      have c : ∀ y : Int, y < -2147483519 → (z == y) = false := by
        intro y hy
        simp only [beq_eq_false_iff_ne]
        omega
      unfold faultOf faults
      simp only [List.lookup]
      rw [c _ (by omega), c _ (by omega), c _ (by omega), c _ (by omega), c _ (by omega), c _ (by omega),
        c _ (by omega)]
      rfl
    exact key _ hf

example : faultOf (sent 0x8000 0x0040) = -6 := by decide

/-! ### C106: weight sent as a text -/

/-- **C106 (serial line), partial.** Missing: evaluating the same answer twice
(`C106_serial_stale_violated`), a digit behind the module (`C106_serial_neighbour_violated`), a silent
scale.  The module sent the registers of a message: 4th character `+`, characters 7 to 12 a decimal
number `i`.`f`.  The registers lie in the image low byte first; the byte behind the module (`t`) is not
a digit.  Then after the evaluation the weight is the number plus the correction, and the state is
good. -/
theorem C106_serial_partial (s s0 : Rs) (h : List RsEv) (hr : s.run h = some s0)
    (a0 a1 a3 a4 a5 w0 w1 w2 w3 w4 w5 t : Byte) (tail : List Byte) (i f : List Nat)
    (hst : ¬(a0 = 0 ∧ a1 = 0) ∧ ¬(a0 = 1 ∧ a1 = 0)) (hi : Digits i) (hf : Digits f)
    (hw : [w0, w1, w2, w3, w4, w5] = enc i ++ 46 :: enc f) (ht : isDigit t = false) :
    ∃ s', s.run (h ++ [.recv ([a0, a1, 43, a3, a4, a5, w1, w0, w3, w2, w5, w4] ++ t :: tail), .eval]) = some s' ∧
      s'.getValue = .num (number i f) + s0.cz ∧ s'.state = 1 ∧ s'.out = 0 := by
  rw [rs_run_append, hr]
  simp only [Option.bind_some, Rs.run]
  unfold Rs.eval
  simp only [List.cons_append, List.nil_append, List.length_cons, List.getD_cons_zero, List.getD_cons_succ]
  rw [if_neg (by omega), if_neg hst.1, if_neg hst.2, if_neg (by simp)]
  have hm : List.drop 6 (swapAt (swapAt (swapAt (a0 :: a1 :: 43 :: a3 :: a4 :: a5 :: w1 :: w0 :: w3 :: w2 :: w5 ::
      w4 :: t :: tail) 6) 8) 10) = [] ++ (enc i ++ 46 :: (enc f ++ t :: tail)) := by
    show w0 :: w1 :: w2 :: w3 :: w4 :: w5 :: t :: tail = _
    have : w0 :: w1 :: w2 :: w3 :: w4 :: w5 :: t :: tail = [w0, w1, w2, w3, w4, w5] ++ t :: tail := rfl
    rw [this, hw]
    simp
  rw [hm, atof_enc [] (by simp) i f hi hf t ht tail]
  exact ⟨_, rfl, rfl, rfl, rfl⟩

/-- A message with 012.50 and a zero byte behind the module. -/
example : (Rs.run ⟨[], 0, 0, 1, 0⟩ [.recv ([2, 2, 43, 32, 48, 48, 49, 48, 46, 50, 48, 53] ++ [0]), .eval]).map
    (fun s => s.getValue) = some (.num (25 / 2)) := by decide +kernel

/-- **C106 (commands to the module).** An empty buffer: nothing changes.  Data are waiting: they are
asked for.  A message without `+`: error, weight zero. -/
theorem C106_serial_protocol (s : Rs) (hl : 12 ≤ s.mem.length) :
    (s.mem.getD 0 0 = 0 → s.mem.getD 1 0 = 0 → s.eval = some s) ∧
    (s.mem.getD 0 0 = 1 → s.mem.getD 1 0 = 0 → s.eval = some { s with out := 12288 }) ∧
    (2 ≤ (s.mem.getD 0 0).toNat → s.mem.getD 2 0 ≠ (43 : Byte) →
      s.eval = some { s with out := 0, state := -1, value := 0 }) := by
  have hl' : ¬ s.mem.length < 12 := by omega
  refine ⟨fun h0 h1 => ?_, fun h0 h1 => ?_, fun h0 h2 => ?_⟩
  · unfold Rs.eval
    rw [if_neg hl', if_pos ⟨h0, h1⟩]
  · unfold Rs.eval
    rw [if_neg hl', if_neg (by rw [h0]; simp), if_pos ⟨h0, h1⟩]
  · unfold Rs.eval
    rw [if_neg hl', if_neg (by rintro ⟨e, _⟩; rw [e] at h0; simp at h0),
      if_neg (by rintro ⟨e, _⟩; rw [e] at h0; revert h0; decide)]
    dsimp only
    rw [if_pos h2]

/-- **C106, violated.** The bytes are exchanged in the image itself: 12.50 is shown as 10.205 in a
cycle in which the coupler does not answer (a second evaluation of the same data). -/
theorem C106_serial_stale_violated :
    (Rs.run ⟨[], 0, 0, 1, 0⟩ [.recv ([2, 2, 43, 32, 48, 48, 49, 48, 46, 50, 48, 53] ++ [0]), .eval, .eval]).map
      (fun s => (s.getValue, s.state)) = some (.num (10205 / 1000), 1) := by decide +kernel

/-- **C106, violated.** The number has no end inside the module: a digit in the image of the next module
is taken as a further digit of the weight. -/
theorem C106_serial_neighbour_violated (s s0 : Rs) (h : List RsEv) (hr : s.run h = some s0)
    (a0 a1 a3 a4 a5 w0 w1 w2 w3 w4 w5 t : Byte) (tail : List Byte) (i f : List Nat) (d : Nat)
    (hst : ¬(a0 = 0 ∧ a1 = 0) ∧ ¬(a0 = 1 ∧ a1 = 0)) (hi : Digits i) (hf : Digits f) (hd : d < 10)
    (hw : [w0, w1, w2, w3, w4, w5] = enc i ++ 46 :: enc f) (ht : isDigit t = false) :
    ∃ s', s.run (h ++ [.recv ([a0, a1, 43, a3, a4, a5, w1, w0, w3, w2, w5, w4] ++
        BitVec.ofNat 8 (48 + d) :: t :: tail), .eval]) = some s' ∧
      s'.getValue = .num (number i (f ++ [d])) + s0.cz ∧ s'.state = 1 := by
  rw [rs_run_append, hr]
  simp only [Option.bind_some, Rs.run]
  unfold Rs.eval
  simp only [List.cons_append, List.nil_append, List.length_cons, List.getD_cons_zero, List.getD_cons_succ]
  rw [if_neg (by omega), if_neg hst.1, if_neg hst.2, if_neg (by simp)]
  have hm : List.drop 6 (swapAt (swapAt (swapAt (a0 :: a1 :: 43 :: a3 :: a4 :: a5 :: w1 :: w0 :: w3 :: w2 :: w5 ::
      w4 :: BitVec.ofNat 8 (48 + d) :: t :: tail) 6) 8) 10) =
        [] ++ (enc i ++ 46 :: (enc (f ++ [d]) ++ t :: tail)) := by
    show w0 :: w1 :: w2 :: w3 :: w4 :: w5 :: BitVec.ofNat 8 (48 + d) :: t :: tail = _
    have : w0 :: w1 :: w2 :: w3 :: w4 :: w5 :: BitVec.ofNat 8 (48 + d) :: t :: tail =
      [w0, w1, w2, w3, w4, w5] ++ BitVec.ofNat 8 (48 + d) :: t :: tail := rfl
    rw [this, hw]
    simp [enc]
  have hf' : Digits (f ++ [d]) := by
    intro x hx
    rcases List.mem_append.1 hx with hx | hx
    · exact hf x hx
    · simp only [List.mem_singleton] at hx; omega
  rw [hm, atof_enc [] (by simp) i (f ++ [d]) hi hf' t ht tail]
  exact ⟨_, rfl, rfl, rfl⟩

example : [(48 : Byte), 49, 50, 46, 53, 48] = enc [0, 1, 2] ++ 46 :: enc [5, 0] := by decide

/-- **C106 (network), partial.** Missing: lost connections and messages in pieces (below).  A message
has the number in characters 2 to 8 (blanks before and behind it are allowed) and `kg` in characters 9
and 10; then, whatever was received before, the weight is the number plus the correction. -/
theorem C106_network_partial (s : Eth) (c : Byte) (pad trail rest : List Byte) (i f : List Nat)
    (hp : ∀ x ∈ pad, isSpace x = true) (ht : ∀ x ∈ trail, isSpace x = true) (hi : Digits i) (hf : Digits f)
    (hl : (pad ++ (enc i ++ 46 :: enc f) ++ trail).length = 7) :
    ∃ s', s.eval (c :: (pad ++ (enc i ++ 46 :: enc f) ++ trail) ++ 107 :: 103 :: rest) = some s' ∧
      s'.getValue = .num (number i f) + s.cz ∧ s'.state = 1 := by
  obtain ⟨body, hb⟩ : ∃ b, b = pad ++ (enc i ++ 46 :: enc f) ++ trail := ⟨_, rfl⟩
  rw [← hb] at hl ⊢
  unfold Eth.eval
  rw [if_neg (by simp)]
  dsimp only
  have h8 : ∀ r : List Byte, (c :: body ++ 107 :: 103 :: r).getD 8 0 = (107 : Byte) := by
    intro r
    rw [List.getD_eq_getElem?_getD, List.getElem?_append_right (by simp [hl])]
    simp [hl]
  have h9 : ∀ r : List Byte, (c :: body ++ 107 :: 103 :: r).getD 9 0 = (103 : Byte) := by
    intro r
    rw [List.getD_eq_getElem?_getD, List.getElem?_append_right (by simp [hl])]
    simp [hl]
  have hap : ∀ u : List Byte, (c :: body ++ 107 :: 103 :: rest) ++ u = c :: body ++ 107 :: 103 :: (rest ++ u) := by
    intro u; simp
  rw [hap, h8, h9, if_neg (by simp)]
  have hdrop : ∀ u : List Byte, (c :: body ++ 107 :: 103 :: u).drop 1 =
      pad ++ (enc i ++ 46 :: (enc f ++ (trail ++ 107 :: 103 :: u))) := by
    intro u
    rw [hb]
    simp
  rw [hdrop]
  cases trail with
  | nil =>
    rw [List.nil_append, atof_enc pad hp i f hi hf 107 (by decide)]
    exact ⟨_, rfl, rfl, rfl⟩
  | cons x trail =>
    have hx : isDigit x = false := by
      have := ht x (by simp)
      unfold isSpace at this
      unfold isDigit
      simp only [Bool.or_eq_true, Bool.and_eq_true, decide_eq_true_eq] at this
      simp only [Bool.and_eq_false_iff, decide_eq_false_iff_not]
      omega
    rw [List.cons_append, atof_enc pad hp i f hi hf x hx]
    exact ⟨_, rfl, rfl, rfl⟩

/-- `"+  12.34kg"`. -/
example : ((⟨List.replicate 256 0, 0, 0, 0⟩ : Eth).eval [43, 32, 32, 49, 50, 46, 51, 52, 107, 103]).map
    (fun s => (s.getValue, s.state)) = some (.num (1234 / 100), 1) := by decide +kernel

/-- **C106 (network).** A message without `kg` in its place: state 0, the weight is kept. -/
theorem C106_network_bad (s : Eth) (got : List Byte) (h8 : 10 ≤ got.length)
    (hk : got.getD 8 0 ≠ 107 ∨ got.getD 9 0 ≠ 103) :
    ∃ s', s.eval got = some s' ∧ s'.state = 0 ∧ s'.getValue = s.getValue := by
  unfold Eth.eval
  rw [if_neg (by rintro rfl; simp at h8)]
  dsimp only
  have e : ∀ k, k < 10 → (got ++ s.buff.drop got.length).getD k 0 = got.getD k 0 := by
    intro k hk
    rw [List.getD_eq_getElem?_getD, List.getD_eq_getElem?_getD, List.getElem?_append_left (by omega)]
  rw [e 8 (by omega), e 9 (by omega), if_pos hk]
  exact ⟨_, rfl, rfl, rfl⟩

example : ([43, 32, 32, 49, 50, 46, 51, 52, 108, 98] : List Byte).getD 8 0 ≠ 107 := by decide

/-- **C106, violated.** A scale that is switched off or whose connection is lost stays in good order
with its last weight for ever. -/
theorem C106_network_silent_violated (s : Eth) (n : Nat) : s.run (List.replicate n []) = some s := by
  induction n with
  | zero => rfl
  | succ n ih =>
    rw [List.replicate_succ]
    show (match s.eval [] with | none => none | some s => s.run _) = _
    have : s.eval [] = some s := rfl
    rw [this]
    exact ih

/-- **C106, violated.** The beginning of a message that arrives alone is mixed with the rest of the
message before: after 12.34 kg the piece `+  9` gives 92.34 kg in good order. -/
theorem C106_network_piece_violated :
    ((⟨List.replicate 256 0, 0, 0, 0⟩ : Eth).run
      [[43, 32, 32, 49, 50, 46, 51, 52, 107, 103, 13, 10], [43, 32, 32, 57]]).map
        (fun s => (s.getValue, s.state)) = some (.num (9234 / 100), 1) := by decide +kernel

/-! ### C107: analog scale -/

/-- **C107.** Analog scale with a filter of `dt ≥ 0` kg, after any history of readings from the start:
a reading more than 500 ms after the last measurement differs from the weight measured at that moment
(plus the correction) by at most the filter. -/
theorem C107_close (p : Par) (t0 : BitVec 64) (h : List Sample) (x : Sample) (dt c0 m : Rat)
    (hp : p.dt = .num dt) (hdt : 0 ≤ dt) (hc : p.c0 = .num c0)
    (hx : ∀ y ∈ h, ∃ q, p.measure y.ud y.uref = .num q) (hm : x.ud / p.rkp / x.uref * p.nominal = .num m)
    (hrkp : p.rkp.eq 0 = false) (href : x.uref.eq 0 = false)
    (htime : 500 < Time.deltaMs x.now (An.run p ⟨0, t0⟩ h).time) :
    ∃ w, ((An.run p ⟨0, t0⟩ h).get p x.now x.ud x.uref).1 = .num w ∧ |w - (m + c0)| ≤ dt := by
  obtain ⟨q, hq⟩ := weight_num p (h0 := t0) h hx
  replace hm : p.measure x.ud x.uref = .num m := hm
  unfold An.get
  rw [if_pos htime]
  dsimp only
  rw [hrkp, href, hm, hp]
  simp only [Bool.false_eq_true, if_false, hq, Fl.sub_num, flAbs, Fl.lt_num, decide_eq_true_eq]
  have h1 : Fl.le 1 (.num dt) = decide (1 ≤ dt) := by
    show decide (((1 : Nat) : Rat) ≤ dt) = _
    norm_num
  rw [h1]
  by_cases hbig : dt < |m - q|
  · simp only [hbig, if_true]
    by_cases h2 : 1 ≤ dt
    · simp only [decide_eq_true h2, if_true, flCeil, hc, Fl.add_num]
      refine ⟨_, rfl, ?_⟩
      have a1 := Int.le_ceil m
      have a2 := Int.ceil_lt_add_one m
      rw [abs_le]
      constructor <;> linarith
    · simp only [decide_eq_false h2, Bool.false_eq_true, if_false, hc, Fl.add_num]
      refine ⟨_, rfl, ?_⟩
      simpa using hdt
  · have hle : |m - q| ≤ dt := not_lt.1 hbig
    have hle' : |q - m| ≤ dt := by rw [abs_sub_comm]; exact hle
    simp only [hbig, if_false]
    by_cases h2 : 1 ≤ dt
    · obtain ⟨z, hz⟩ := weight_whole p (h0 := t0) (by rw [hp, h1]; exact decide_eq_true h2) h hx
      have hqz : q = z := by rw [hq] at hz; exact Fl.num.inj hz
      simp only [decide_eq_true h2, if_true, hq, flCeil, hc, Fl.add_num]
      refine ⟨_, rfl, ?_⟩
      rw [hqz, Int.ceil_intCast] 
      rw [hqz] at hle'
      have : (z : Rat) + c0 - (m + c0) = z - m := by ring
      rw [this]
      exact hle'
    · simp only [decide_eq_false h2, Bool.false_eq_true, if_false, hq, hc, Fl.add_num]
      refine ⟨_, rfl, ?_⟩
      have : q + c0 - (m + c0) = q - m := by ring
      rw [this]
      exact hle'

/-- Parameters of a scale for 100 kg. -/
def demoPar : Par := ⟨.num 100, .num 2, .num 0, .num (1 / 2)⟩

example : (An.run demoPar ⟨0, 0⟩ [⟨1000, .num 10, .num 10⟩]).weight = .num 50 ∧
    (An.run demoPar ⟨0, 0⟩ [⟨1000, .num 10, .num 10⟩, ⟨2000, .num (1006 / 100), .num 10⟩]).weight = .num 50 := by
  decide +kernel

/-- **C107 (between measurements).** Within 500 ms the kept weight is shown. -/
theorem C107_kept (p : Par) (s : An) (now : BitVec 64) (ud uref : Fl)
    (h : ¬ 500 < Time.deltaMs now s.time) : s.get p now ud uref = (s.weight + p.c0, s) := by
  unfold An.get
  rw [if_neg h]

/-- **C107, violated.** Without a working coefficient (or reference voltage) the error number −1001
(−1002) is shown in one reading only: the next one within 500 ms shows the kept weight. -/
theorem C107_error_violated (p : Par) (s : An) (now : BitVec 64) (ud uref : Fl) (h0 : p.rkp.eq 0 = true)
    (ht : 500 < Time.deltaMs now s.time) :
    (s.get p now ud uref).1 = .num (-1001) ∧
    ((s.get p now ud uref).2.get p now ud uref).1 = s.weight + p.c0 := by
  have hd : Time.deltaMs now now = 0 := by
    unfold Time.deltaMs
    simp
  unfold An.get
  rw [if_pos ht]
  simp only [h0, if_true, hd]
  refine ⟨trivial, ?_⟩
  rw [if_neg (by decide)]

example : (500 : BitVec 64) < Time.deltaMs 1000 0 := by decide

/-! ### C108: volume of a tank -/

/-- **C108 (rounding).** A volume shown differs from the volume computed by at most 5 kg. -/
theorem C108_rounding (v : Rat) (n : Int) (hv : 0 ≤ v) (h : kilograms v = some n) :
    |(n : Rat) - 1000 * v| ≤ 5 := by
  rw [kilograms_eq hv h]
  have a1 := Int.floor_le (v * 100 + 1 / 2)
  have a2 := Int.lt_floor_add_one (v * 100 + 1 / 2)
  push_cast
  rw [abs_le]
  constructor <;> linarith

example : kilograms (12345 / 10000) = some 1230 := by decide +kernel

/-- **C108 (conical tank).** The volume shown is that of the cone up to its height and of the cone and
a cylinder above it. -/
theorem C108_cone (pi r hCone p extra : Rat) (hh : 0 < hCone) :
    iolVolume pi r hCone p extra = kilograms (coneV pi r hCone (100 * (p - extra) / 9.81)) := by
  unfold iolVolume
  dsimp only
  rw [if_neg (not_le.2 hh), if_pos hh]
  have e : (100 * (p - extra) / 9.81 : Rat) = 100 * (p - extra) / (981 / 100) := by norm_num
  rw [e]
  congr 1
  unfold coneV
  split
  · ring
  · ring

/-- The same for the sensor with an analog signal. -/
theorem C108_cone_analog (pi r hCone maxP level : Rat) (hh : 0 < hCone) :
    coneVolume pi r hCone maxP level = kilograms (coneV pi r hCone (maxP * level / 9.81)) := by
  unfold coneVolume
  dsimp only
  rw [if_pos hh]
  have e : (maxP * level / 9.81 : Rat) = maxP * level / (981 / 100) := by norm_num
  rw [e]
  congr 1
  unfold coneV
  split
  · ring
  · ring

/-- **C108 (cylindrical tank).** Without a cone the volume shown is that of a cylinder. -/
theorem C108_cylinder (pi r maxP level p extra hCone : Rat) (hh : hCone ≤ 0) :
    cylVolume pi r maxP level = kilograms (pi * r ^ 2 * (maxP * level / 9.81)) ∧
    iolVolume pi r hCone p extra = kilograms (pi * r ^ 2 * (100 * (p - extra) / 9.81)) := by
  constructor
  · unfold cylVolume
    congr 1
    norm_num
    ring
  · unfold iolVolume
    dsimp only
    rw [if_pos hh]
    congr 1
    norm_num
    ring

example : cylVolume (314 / 100) 1 20 (1 / 2) = some 3200 ∧ iolVolume (314 / 100) 1 0 (1 / 10) 0 = some 3200 := by
  decide +kernel

/-- **C108 (more level, more volume).** A higher pressure never shows a smaller volume. -/
theorem C108_monotone (pi r hCone p p' extra : Rat) (n n' : Int) (hpi : 0 ≤ pi) (hp : extra ≤ p)
    (hle : p ≤ p') (h : iolVolume pi r hCone p extra = some n)
    (h' : iolVolume pi r hCone p' extra = some n') : n ≤ n' := by
  by_cases hh : 0 < hCone
  · rw [C108_cone _ _ _ _ _ hh] at h h'
    have b0 : 0 ≤ 100 * (p - extra) / 9.81 := by
      have : 0 ≤ p - extra := by linarith
      positivity
    have b1 : 100 * (p - extra) / 9.81 ≤ 100 * (p' - extra) / 9.81 := by
      apply div_le_div_of_nonneg_right _ (by norm_num)
      linarith
    obtain ⟨m0, m1⟩ := coneV_mono pi r hCone _ _ hpi hh b0 b1
    rw [kilograms_eq m0 h, kilograms_eq (le_trans m0 m1) h']
    have := Int.floor_le_floor (show coneV pi r hCone (100 * (p - extra) / 9.81) * 100 + 1 / 2 ≤
      coneV pi r hCone (100 * (p' - extra) / 9.81) * 100 + 1 / 2 by linarith)
    omega
  · unfold iolVolume at h h'
    dsimp only at h h'
    rw [if_pos (not_lt.1 hh)] at h h'
    have hc : 0 ≤ pi * r * r := by
      have : pi * r * r = pi * r ^ 2 := by ring
      rw [this]; positivity
    have v0 : 0 ≤ pi * r * r * (p - extra) * 100 / (981 / 100) := by
      have : 0 ≤ p - extra := by linarith
      positivity
    have v1 : pi * r * r * (p - extra) * 100 / (981 / 100) ≤ pi * r * r * (p' - extra) * 100 / (981 / 100) := by
      apply div_le_div_of_nonneg_right _ (by norm_num)
      apply mul_le_mul_of_nonneg_right _ (by norm_num)
      exact mul_le_mul_of_nonneg_left (by linarith) hc
    rw [kilograms_eq v0 h, kilograms_eq (le_trans v0 v1) h']
    have := Int.floor_le_floor (show pi * r * r * (p - extra) * 100 / (981 / 100) * 100 + 1 / 2 ≤
      pi * r * r * (p' - extra) * 100 / (981 / 100) * 100 + 1 / 2 by linarith)
    omega

example : iolVolume (314 / 100) 1 2 (1 / 2) 0 = some 11820 ∧ iolVolume (314 / 100) 1 2 (1 / 10) 0 = some 280 := by
  decide +kernel

end Ptusa.Scales
