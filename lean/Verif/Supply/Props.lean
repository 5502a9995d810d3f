import Verif.Supply.Lemmas

/-!
# C110, C111
-/
namespace Ptusa.Supply

/-- Bytes of the image, zeros behind. -/
def img (l : List Byte) : Img := fun k => l.getD k 0

/-! ### C110: electronic fuse with 4 channels -/

/-- **C110 (what it shows).** After any history ended by a cycle with the data `m`: the voltage is tenths
of byte 7, the state is on when one of the upper bits of byte 0 is set, an error when one of the lower
bits is; with a broken link the state is the negative number of the link's state. -/
theorem C110_shows (s : F) (h : List FEv) (m : Img) (ok : Bool) (link : Int) :
    let s' := s.run (h ++ [.eval m ok])
    s'.v = .num ((m 7).toNat / 10) ∧
    (s'.state 0 = if (m 0).toNat / 16 = 0 then 0 else 1) ∧
    (s'.err = if (m 0).toNat % 16 = 0 then 0 else 1) ∧
    (link ≠ 0 → s'.state link = -link) := by
  intro s'
  have hs : s' = (s.run h).eval m ok := by
    show F.run _ _ = _
    rw [f_run_append]
    rfl
  have key : ∀ b : Byte, ((b.getLsbD 7 || b.getLsbD 6 || b.getLsbD 5 || b.getLsbD 4) = !decide (b.toNat / 16 = 0)) ∧
      ((b.getLsbD 3 || b.getLsbD 2 || b.getLsbD 1 || b.getLsbD 0) = !decide (b.toNat % 16 = 0)) := by
    decide
  obtain ⟨k1, k2⟩ := key (m 0)
  refine ⟨?_, ?_, ?_, fun hl => if_pos hl⟩
  · rw [hs]
    show Fl.num (1 / 10) * Fl.num _ = _
    rw [Fl.mul_num]
    congr 1
    show 1 / 10 * ((m 7).toNat : Rat) = _
    rw [div_mul_eq_mul_div, one_mul]
  · rw [hs]
    show (if ((m 0).getLsbD 7 || (m 0).getLsbD 6 || (m 0).getLsbD 5 || (m 0).getLsbD 4) = true then (1 : Int) else 0) = _
    rw [k1]
    by_cases h0 : (m 0).toNat / 16 = 0 <;> simp [h0]
  · rw [hs]
    show (if ((m 0).getLsbD 3 || (m 0).getLsbD 2 || (m 0).getLsbD 1 || (m 0).getLsbD 0) = true then (1 : Int) else 0) = _
    rw [k2]
    by_cases h0 : (m 0).toNat % 16 = 0 <;> simp [h0]

example : ((F.init.run [.eval (img [0x81, 0, 0, 0, 0, 0, 0, 240]) true]).v,
    (F.init.run [.eval (img [0x81, 0, 0, 0, 0, 0, 0, 240]) true]).st,
    (F.init.run [.eval (img [0x81, 0, 0, 0, 0, 0, 0, 240]) true]).err) = (.num 24, 1, 1) := by decide +kernel

/-- **C110 (commands), partial.** Missing: the flag that makes the fuse obey (`C110_channel_violated`),
broken links (`C110_reconnect_violated`).  After any history, from a cycle with a good link on and while
the link is good: every channel of the output is as the last command for it says, and as it was
otherwise. -/
theorem C110_commands_partial (s : F) (h : List FEv) (m : Img) (h2 : List FEv) (hg : FGood h2) :
    (s.run (h ++ .eval m true :: h2)).out.sw = fSwitched (s.run (h ++ [.eval m true])).out.sw h2 := by
  have e : h ++ FEv.eval m true :: h2 = (h ++ [.eval m true]) ++ h2 := by simp
  rw [e, f_run_append]
  refine (f_good h2 _ ?_ hg).1
  rw [f_run_append]
  show ((s.run h).eval m true).readOk = true
  unfold F.eval
  cases hr : (s.run h).readOk <;> simp [hr]

/-- The bytes sent: all on, then channel 2 off. -/
example : (F.init.run [.eval (img []) true, .all true, .eval (img []) true]).out.byte0 = 0x8F ∧
    (F.init.run [.eval (img []) true, .all true, .eval (img []) true, .channel 2 false]).out.byte0 = 0x8D := by
  decide +kernel

/-- **C110 (all channels).** A command for all channels is valid at once. -/
theorem C110_all (s : F) (h : List FEv) (b : Bool) :
    (s.run (h ++ [.all b])).out.byte0 = if b then 0x8F else 0x80 := by
  rw [f_run_append]
  cases b <;> rfl

/-- **C110, violated.** Commands for single channels never set the flag that makes them valid: until
the first command for all channels the fuse does not obey. -/
theorem C110_channel_violated (h : List FEv) (hn : FNoAll h) :
    (F.init.run h).out.valid = false ∧ (F.init.run h).out.byte0.getLsbD 7 = false := by
  have hv : (F.init.run h).out.valid = false := f_valid h _ hn
  refine ⟨hv, ?_⟩
  unfold FOut.byte0
  rw [hv]
  cases (F.init.run h).out.sw 0 <;> cases (F.init.run h).out.sw 1 <;> cases (F.init.run h).out.sw 2 <;>
    cases (F.init.run h).out.sw 3 <;> rfl

example : FNoAll [.eval (img []) true, .channel 1 true] := by
  intro b hb
  simp at hb

/-- **C110, violated.** When the link comes back the output is set to the states read in the cycle
before, while it was broken, and they are valid if any command for all channels was ever given: with an
image of zeros all channels are switched off, although the fuse reports them on (`m'`) and nobody
switched them. -/
theorem C110_reconnect_violated (s : F) (h : List FEv) (m m' : Img) :
    let s' := s.run (h ++ [.eval m false, .eval m' true])
    (∀ i, s'.out.sw i = (m 0).getLsbD (7 - i.val)) ∧ s'.out.valid = (s.run h).out.valid := by
  intro s'
  have hs : s' = ((s.run h).eval m false).eval m' true := by
    show F.run _ _ = _
    rw [f_run_append]
    rfl
  rw [hs]
  have hro : ((s.run h).eval m false).readOk = false := rfl
  constructor
  · intro i
    have e : (((s.run h).eval m false).eval m' true).out.sw = ((s.run h).eval m false).inp.st := by
      simp only [F.eval, if_true, Bool.false_eq_true, if_false]
    rw [e]
    rfl
  · simp only [F.eval, if_true, Bool.false_eq_true, if_false]

/-- On by command, reported on, link lost for one cycle with zeros: switched off. -/
example : (F.init.run [.all true, .eval (img [0xF0]) true, .eval (img [0xF0]) true]).out.byte0 = 0x80 ∧
    (F.init.run [.eval (img [0xF0]) true, .all true, .eval (img [0xF0]) true, .eval (img []) false,
      .eval (img [0xF0]) true]).out.byte0 = 0x80 := by decide +kernel

/-- **C110 (nominal currents).** At the first good cycle, be it the first contact or after a break, the
nominal currents set are those the fuse reported in the cycle before: nibbles of bytes 1 and 2, the upper one
for channels 1 and 3.  Commands do not change them, nor do further good cycles. -/
theorem C110_currents (s : F) (h : List FEv) (m m' : Img) (h2 : List FEv) (hg : FGood h2) (i : Fin 4) :
    ((s.run (h ++ .eval m false :: .eval m' true :: h2)).out.cur i).toNat =
      if i.val % 2 = 0 then (m (1 + i.val / 2)).toNat / 16 else (m (1 + i.val / 2)).toNat % 16 := by
  have hk : ∀ (h2 : List FEv) (s : F), s.readOk = true → FGood h2 → (s.run h2).out.cur = s.out.cur := by
    intro h2
    induction h2 with
    | nil => intro s _ _; rfl
    | cons ev h2 ih =>
      intro s hr hg
      have hg' : FGood h2 := fun m b hb => hg m b (List.mem_cons_of_mem _ hb)
      show ((s.step ev).run h2).out.cur = _
      cases ev with
      | eval m b =>
        have hb : b = true := hg m b (List.mem_cons_self ..)
        subst hb
        have e : (s.eval m true).readOk = true ∧ (s.eval m true).out.cur = s.out.cur := by
          unfold F.eval
          simp [hr]
        exact (ih _ e.1 hg').trans e.2
      | all b => exact ih _ hr hg'
      | channel n b => exact ih _ hr hg'
  have e : h ++ FEv.eval m false :: .eval m' true :: h2 = (h ++ [.eval m false, .eval m' true]) ++ h2 := by simp
  rw [e, f_run_append, f_run_append]
  show ((((((s.run h).eval m false).eval m' true).run h2).out.cur) i).toNat = _
  have hr : ((((s.run h).eval m false).eval m' true)).readOk = true := by
    simp only [F.eval, if_true, Bool.false_eq_true, if_false]
  rw [hk h2 _ hr hg]
  have hc : (((s.run h).eval m false).eval m' true).out.cur = (FIn.of m).cur := by
    simp only [F.eval, if_true, Bool.false_eq_true, if_false]
  rw [hc]
  show ((m (1 + i.val / 2)).extractLsb' (if i.val % 2 = 0 then 4 else 0) 4).toNat = _
  rw [extract_toNat]
  have := (m (1 + i.val / 2)).isLt
  split <;> simp <;> omega

example : FGood [.eval (img [0xF0]) true, .channel 2 true] ∧
    List.ofFn (fun i => ((F.init.run [.eval (img [0, 0x24, 0x68]) false, .eval (img []) true,
      .channel 2 true]).out.cur i).toNat) = [2, 4, 6, 8] := by
  refine ⟨?_, by decide +kernel⟩
  intro m b hb
  simp at hb
  exact hb.2

/-! ### C111: power supply with 8 channels -/

/-- **C111 (what it shows).** After any history ended by a cycle with the data `m`: the sum of currents is
tenths of the 10 bits in bytes 2 and 3; the state is on when a channel is not off; an error when bit 4 of
byte 0 is set. -/
theorem C111_shows (s : G) (h : List GEv) (now : BitVec 64) (m : Img) (ok : Bool) :
    let s' := s.run (h ++ [.eval now m ok])
    s'.v = .num ((256 * ((m 2).toNat % 4) + (m 3).toNat : Nat) / 10) ∧
    (s'.st = if (m 4).toNat = 0 ∧ (m 5).toNat = 0 then 0 else 1) ∧
    (s'.err = if (m 0).toNat / 16 % 2 = 0 then 0 else 1) := by
  intro s'
  have hs : s' = (s.run h).eval now m ok := by
    show G.run _ _ = _
    rw [g_run_append]
    rfl
  have hv : s'.v = .num (1 / 10) * .num (GIn.of m).sum ∧ (s'.err = if (GIn.of m).bad then 1 else 0) ∧
      (s'.st = if (List.finRange 8).any (fun k => (GIn.of m).status k != 0) then 1 else 0) := by
    rw [hs]
    by_cases hb : (s.run h).busy = true <;> by_cases h3 : 300 < Time.deltaMs now (s.run h).t <;>
      by_cases h4 : 1000 < Time.deltaMs now (s.run h).t <;> cases ok <;>
      simp only [G.eval, hb, h3, h4, if_true, if_false, Bool.false_eq_true, and_self]
  obtain ⟨v1, v2, v3⟩ := hv
  refine ⟨?_, ?_, ?_⟩
  · rw [v1, Fl.mul_num]
    congr 1
    have : (GIn.of m).sum = 256 * ((m 2).toNat % 4) + (m 3).toNat := by
      show ((m 2).extractLsb' 0 2).toNat * 256 + (m 3).toNat = _
      rw [extract_toNat]
      simp only [Nat.pow_zero, Nat.div_one]
      omega
    rw [this, div_mul_eq_mul_div, one_mul]
  · rw [v3]
    have key : ∀ b : Byte, (b.extractLsb' 6 2 != 0 || (b.extractLsb' 4 2 != 0 || (b.extractLsb' 2 2 != 0 ||
        (b.extractLsb' 0 2 != 0)))) = !decide (b.toNat = 0) := by decide
    have hany : (List.finRange 8).any (fun k => (GIn.of m).status k != 0) =
        (((m 4).extractLsb' 6 2 != 0 || ((m 4).extractLsb' 4 2 != 0 || ((m 4).extractLsb' 2 2 != 0 ||
        ((m 4).extractLsb' 0 2 != 0)))) || ((m 5).extractLsb' 6 2 != 0 || ((m 5).extractLsb' 4 2 != 0 ||
          ((m 5).extractLsb' 2 2 != 0 || ((m 5).extractLsb' 0 2 != 0))))) := by
      have e : List.finRange 8 = [0, 1, 2, 3, 4, 5, 6, 7] := by decide
      rw [e]
      simp only [List.any_cons, List.any_nil, Bool.or_false, Bool.or_assoc]
      rfl
    rw [hany, key, key]
    by_cases a : (m 4).toNat = 0 <;> by_cases b : (m 5).toNat = 0 <;> simp [a, b]
  · rw [v2]
    have key : ∀ b : Byte, b.getLsbD 4 = !decide (b.toNat / 16 % 2 = 0) := by decide
    show (if (m 0).getLsbD 4 then (1 : Int) else 0) = _
    rw [key]
    by_cases a : (m 0).toNat / 16 % 2 = 0 <;> simp [a]

example : (G.init.run [.eval 0 (img [0x10, 0, 1, 44, 0, 1]) true]).v = .num 30 := by decide +kernel

/-- **C111 (nobody touches it).** In every history without commands the output is never marked valid,
and with a good link it repeats what the unit reported. -/
theorem C111_untouched (h : List GEv) (now : BitVec 64) (m : Img) (hn : lastCmd h = none) :
    (G.init.run h).out.valid = false ∧
    (G.init.run (h ++ [.eval now m true])).out = .sync (GIn.of m) := by
  constructor
  · have key : ∀ (h : List GEv), lastCmd h = none → (G.init.run h).busy = false ∧ (G.init.run h).out.valid = false := by
      intro h
      induction h using List.reverseRecOn with
      | nil => intro _; exact ⟨rfl, rfl⟩
      | append_singleton h e ih =>
        intro hn
        rw [g_run_append]
        cases e with
        | cmd now c => simp [lastCmd] at hn
        | eval now m ok =>
          obtain ⟨i1, i2⟩ := ih (by simpa [lastCmd] using hn)
          show ((G.init.run h).eval now m ok).busy = false ∧ ((G.init.run h).eval now m ok).out.valid = false
          cases ok
          · simp only [G.eval, Bool.false_eq_true, if_false]
            exact ⟨i1, i2⟩
          · simp only [G.eval, i1, Bool.false_eq_true, if_false, if_true]
            exact ⟨trivial, rfl⟩
    exact (key h hn).2
  · exact (g_quiet h now m (by intro t ht; rw [hn] at ht; exact absurd ht (by simp))).2.1

/-- **C111 (commands), partial.** Missing: units not yet evaluated (`C111_early_violated`), pauses
(`C111_lost_violated`), currents above 7 (`C111_current_violated`), several commands within a second.
After any history, a quiet cycle in which the unit reported `m`, a command at the time `t`, then cycles
within a second: in a cycle with a good link more than 300 ms after the command the output is marked
valid and asks for what the unit reported, changed by the command and nothing else. -/
theorem C111_command_partial (h : List GEv) (t0 t now : BitVec 64) (m : Img) (c : GCmd) (es : List GEv) (m' : Img)
    (hq : Quiet h t0) (hc : c.ok)
    (he : ∀ e ∈ es, ∃ n m ok, e = .eval n m ok ∧ ¬ 1000 < Time.deltaMs n t)
    (h3 : 300 < Time.deltaMs now t) (h4 : ¬ 1000 < Time.deltaMs now t) :
    let s := G.init.run ((h ++ [.eval t0 m true]) ++ .cmd t c :: es ++ [.eval now m' true])
    s.out.valid = true ∧ s.out.sw = (wanted m c).1 ∧ (fun i => (s.out.cur i).toNat) = (wanted m c).2 := by
  intro s
  obtain ⟨q1, q2, q3⟩ := g_quiet h t0 m hq
  obtain ⟨sq, hsq⟩ : ∃ x, x = G.init.run (h ++ [.eval t0 m true]) := ⟨_, rfl⟩
  rw [← hsq] at q1 q2 q3
  have hs : s = ((sq.cmd t c).run es).eval now m' true := by
    show G.init.run _ = _
    rw [g_run_append, g_run_append, ← hsq]
    rfl
  have hcmd : (sq.cmd t c).at' = true ∧ (sq.cmd t c).busy = true ∧ (sq.cmd t c).t = t ∧
      (sq.cmd t c).out = (GOut.sync (GIn.of m)).apply c := by
    simp only [G.cmd, q3, if_true, q2]
    exact ⟨trivial, trivial, trivial, trivial⟩
  obtain ⟨c1, c2, c3, c4⟩ := hcmd
  obtain ⟨w1, w2, w3, w4, w5⟩ := g_wait es (sq.cmd t c) c1 c2 (by rw [c3]; exact he)
  rw [c3] at w2
  rw [c4] at w4 w5
  obtain ⟨a1, a2⟩ := sync_apply m c hc
  have hout : s.out = { ((sq.cmd t c).run es).out with valid := true } := by
    rw [hs]
    simp only [G.eval, w1, w2, h3, h4, if_true, if_false]
  rw [hout]
  refine ⟨rfl, ?_, ?_⟩
  · show ((sq.cmd t c).run es).out.sw = _
    rw [w4, a1]
  · show (fun i => (((sq.cmd t c).run es).out.cur i).toNat) = _
    rw [w5, a2]

/-- Channel 3 of a unit with all channels on is switched off. -/
example : Quiet [] 0 ∧ (GCmd.channel 3 false).ok ∧
    (let s := G.init.run [.eval 0 (img [0, 0, 0, 0, 0x55, 0x55]) true, .cmd 100 (.channel 3 false),
      .eval 500 (img [0, 0, 0, 0, 0x55, 0x55]) true]
    s.out.valid = true ∧ s.out.sw 2 = false ∧ s.out.sw 1 = true) := by
  refine ⟨fun t h => by simp [lastCmd] at h, trivial, ?_⟩
  decide +kernel

/-- **C111 (end of a command).** In the first cycle with a good link more than a second after the last
command the mark is removed and the output repeats what the unit reports. -/
theorem C111_end (h : List GEv) (now : BitVec 64) (m : Img) (hq : Quiet h now) :
    (G.init.run (h ++ [.eval now m true])).out = .sync (GIn.of m) ∧ (GOut.sync (GIn.of m)).valid = false :=
  ⟨(g_quiet h now m hq).2.1, rfl⟩

/-- **C111, violated.** If no cycle with a good link comes between 300 ms and a second after a command
(a broken link, a long cycle), the command is dropped: the output is never marked valid. -/
theorem C111_lost_violated (h : List GEv) (t0 t now : BitVec 64) (m : Img) (c : GCmd) (es : List GEv) (m' : Img)
    (hq : Quiet h t0)
    (he : ∀ e ∈ es, ∃ n m ok, e = .eval n m ok ∧ (ok = true → ¬ 300 < Time.deltaMs n t))
    (h4 : 1000 < Time.deltaMs now t) :
    (∀ k, (G.init.run ((h ++ [.eval t0 m true]) ++ .cmd t c :: es.take k)).out.valid = false) ∧
    (G.init.run ((h ++ [.eval t0 m true]) ++ .cmd t c :: es ++ [.eval now m' true])).out = .sync (GIn.of m') := by
  obtain ⟨q1, q2, q3⟩ := g_quiet h t0 m hq
  obtain ⟨sq, hsq⟩ : ∃ x, x = G.init.run (h ++ [.eval t0 m true]) := ⟨_, rfl⟩
  rw [← hsq] at q1 q2 q3
  have hcmd : (sq.cmd t c).busy = true ∧ (sq.cmd t c).t = t ∧ (sq.cmd t c).out.valid = false := by
    simp only [G.cmd, q3, if_true, q2]
    refine ⟨trivial, trivial, ?_⟩
    cases c <;> rfl
  obtain ⟨c2, c3, c4⟩ := hcmd
  constructor
  · intro k
    rw [g_run_append, ← hsq]
    show ((sq.cmd t c).run (es.take k)).out.valid = false
    obtain ⟨_, _, w⟩ := g_unsent (es.take k) (sq.cmd t c) c2 (by
      rw [c3]; intro e h; exact he e (List.mem_of_mem_take h))
    rw [w, c4]
  · rw [g_run_append, g_run_append, ← hsq]
    show (((sq.cmd t c).run es).eval now m' true).out = _
    obtain ⟨w1, w2, _⟩ := g_unsent es (sq.cmd t c) c2 (by rw [c3]; exact he)
    rw [c3] at w2
    have h3 : 300 < Time.deltaMs now t := by
      rw [BitVec.lt_def] at h4 ⊢
      have e1 : (1000 : BitVec 64).toNat = 1000 := rfl
      have e2 : (300 : BitVec 64).toNat = 300 := rfl
      omega
    simp only [G.eval, w1, w2, h3, h4, if_true]

example : (300 : BitVec 64) < Time.deltaMs 500 100 ∧ (1000 : BitVec 64) < Time.deltaMs 2000 100 := by decide

/-- **C111, violated.** A command given before the first cycle goes to a structure shared by all units;
what is marked valid is the empty image: switching on switches all channels off. -/
theorem C111_early_violated (t now : BitVec 64) (c : GCmd) (m : Img) (h3 : 300 < Time.deltaMs now t)
    (h4 : ¬ 1000 < Time.deltaMs now t) :
    let s := G.init.run [.cmd t c, .eval now m true]
    s.out.valid = true ∧ ∀ i, s.out.sw i = false := by
  intro s
  have hs : s = (G.init.cmd t c).eval now m true := rfl
  have e : G.init.cmd t c = { G.init with busy := true, t := t, stub := GOut.zero.apply c } := by
    simp only [G.cmd, G.init, Bool.false_eq_true, if_false]
  rw [hs, e]
  simp only [G.eval, h3, h4, if_true, if_false]
  exact ⟨trivial, fun _ => rfl⟩

/-- **C111, violated.** A current of 8 or more is set to its remainder by 8. -/
theorem C111_current_violated (o : GOut) (n : Fin 8) (val : Nat) :
    ((o.apply (.current (n.val + 1) val)).cur n).toNat = val % 8 := by
  show (if n.val + 1 = n.val + 1 then BitVec.ofInt 3 val else o.cur n).toNat = _
  rw [if_pos rfl, BitVec.toNat_ofInt]
  norm_cast

example : ((GOut.zero.apply (.current 1 10)).cur 0).toNat = 2 := by decide

end Ptusa.Supply
