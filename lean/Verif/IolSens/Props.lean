import Verif.IolSens.Lemmas

/-!
# C104

The value and the state of a sensor on IO-Link are those the sensor sent last, however often the
device is evaluated; with a broken link the configured value and an error state are shown.
-/
namespace Ptusa.IolSens

/-- Process data with the given first bytes. -/
def bytes (l : List Nat) : Img := fun k => BitVec.ofNat 8 (l.getD k 0)

/-! ### Pressure, level -/

/-- **C104 (pressure), partial.** Missing: sensors PM17xx evaluated an even number of times since the
coupler answered (`C104_stale_violated`), unknown articles (`C104_unknown_violated`).  After any
history, when the sensor sent `d` and the device was evaluated `n + 1` times since then: value and
status are those sent. -/
theorem C104_pressure_partial (a : PArticle) (s : Img × Reading) (h : List Ev) (d : Img) (n : Nat)
    (ha : a.short = true ∨ a.long = true ∧ n % 2 = 0) :
    (run (pressureEval a) s (h ++ .recv d :: List.replicate (n + 1) .eval)).2 =
      ⟨.num (a.measured d), a.status d⟩ := by
  rw [run_recv]
  rcases ha with ha | ⟨ha, hn⟩
  · rw [run_pure _ (fun m => by rw [short_eq a ha]) n d, short_eq a ha]
  · rw [long_run a ha, if_pos hn, long_eq a ha]

example : PArticle.pi2715.measured (bytes [0x0F, 0xA0]) = 1 := by norm_num [PArticle.measured,
  PArticle.short, PArticle.bar, bytes, be16, signed]

/-- The same for a sensor of the other kind: 2.5 bar with status 3. -/
example : PArticle.pm1704.measured (bytes [0x09, 0xC4, 0, 0x35]) = 5 / 2 ∧
    PArticle.pm1704.status (bytes [0x09, 0xC4, 0, 0x35]) = 3 := by
  norm_num [PArticle.measured, PArticle.status, PArticle.short, PArticle.long, PArticle.bar, bytes, be16,
    signed]

/-- **C104 (what the program sees).** With a good link the sensor's value and status; with a broken
link the configured value and −1 (not connected) or −2 (device error). -/
theorem C104_link (err : Fl) (l : Link) (r : Reading) :
    (l = .ok → getValue err l r = r.v ∧ getState l r = r.st) ∧
    (l = .notConnected → getValue err l r = err ∧ getState l r = -1) ∧
    (l = .deviceError → getValue err l r = err ∧ getState l r = -2) := by
  refine ⟨?_, ?_, ?_⟩ <;> (rintro rfl; exact ⟨rfl, rfl⟩)

/-- **C104 (level by pressure), partial.** Missing: see the pressure; `P_MAX_P` must be set.  The
level is the pressure in percent of the pressure of the full tank. -/
theorem C104_level_partial (a : PArticle) (s : Img × Reading) (h : List Ev) (d : Img) (n : Nat)
    (ha : a.short = true ∨ a.long = true ∧ n % 2 = 0) (err : Fl) (maxP : Rat) (hp : maxP ≠ 0) :
    levelEValue err (.num maxP) .ok
      (run (pressureEval a) s (h ++ .recv d :: List.replicate (n + 1) .eval)).2 =
        .num (a.measured d * 100 / maxP) := by
  rw [C104_pressure_partial a s h d n ha]
  simp only [levelEValue, ne_eq, not_true_eq_false, if_false]
  rw [Fl.div_num _ _ hp]
  show Fl.num _ = _
  congr 1
  push_cast
  ring

/-- **C104, violated.** The bytes of PM17xx are exchanged in the image itself.  When the coupler does
not answer in time and the device is evaluated a second time (fourth, …) on the same data, value and
status are those of the exchanged bytes. -/
theorem C104_stale_violated (a : PArticle) (ha : a.long = true) (s : Img × Reading) (h : List Ev) (d : Img)
    (n : Nat) (hn : n % 2 = 1) :
    (run (pressureEval a) s (h ++ .recv d :: List.replicate (n + 1) .eval)).2 =
      ⟨.num (a.bar * (signed 16 (be16 (d 1) (d 0)) : Int)), ((d 2).toNat / 16 : Nat)⟩ := by
  rw [run_recv, long_run a ha, if_neg (by omega), long_eq a ha]
  have hns : a.short = false := by cases a <;> first | rfl | simp [PArticle.long] at ha
  simp only [PArticle.measured, PArticle.status, ha, hns, if_true, Bool.false_eq_true, if_false]
  rfl

/-- 1 bar measured, −6.141 bar shown in the cycle after the coupler was lost. -/
example (s : Img × Reading) : (run (pressureEval .pm1704) s [.recv (bytes [0x03, 0xE8, 0, 0]), .eval]).2.v =
      .num 1 ∧
    (run (pressureEval .pm1704) s [.recv (bytes [0x03, 0xE8, 0, 0]), .eval, .eval]).2.v =
      .num (-6141 / 1000) := by
  have h1 := C104_pressure_partial .pm1704 s [] (bytes [0x03, 0xE8, 0, 0]) 0 (Or.inr ⟨rfl, rfl⟩)
  have h2 := C104_stale_violated .pm1704 rfl s [] (bytes [0x03, 0xE8, 0, 0]) 1 rfl
  refine ⟨(congrArg Reading.v h1).trans ?_, (congrArg Reading.v h2).trans ?_⟩ <;>
  norm_num [PArticle.measured, PArticle.short, PArticle.long, PArticle.bar, bytes, be16, signed]

/-- **C104 (level switch).** LMT1xx: bits 2 to 15 are the value, bit 0 the switching state; FTL33: bits
0 to 13 are tenths of the value, bit 14 the switching state. -/
theorem C104_level_switch (a : LArticle) (err : Fl) (r : Img × Reading) (h : List Ev) (d : Img) (n : Nat) :
    let x := (run (fun m => (m, levelSEval a err m)) r (h ++ .recv d :: List.replicate (n + 1) .eval)).2
    let w := be16 (d 0) (d 1)
    (a = .ftl33 → x = ⟨.num (0.1 * (signed 14 (w % 16384) : Int)), (w / 16384 % 2 : Nat)⟩) ∧
    (a ≠ .ftl33 → a ≠ .default → x = ⟨.num (signed 14 (w / 4) : Int), (w % 2 : Nat)⟩) := by
  intro x w
  have hx : x = levelSEval a err d := by
    show (run _ _ _).2 = _
    rw [run_recv, run_pure _ (fun _ => rfl)]
  have hw : w < 65536 := be16_lt _ _
  rw [hx]
  constructor
  · rintro rfl
    show (⟨_, _⟩ : Reading) = _
    rw [toInt_signed, field_toNat, field_toNat, word_toNat]
    congr 2
    simp only [pow_zero, Nat.div_one]
    norm_num
    rfl
  · intro h1 h2
    have : levelSEval a err d = ⟨.num ((word (d 1) (d 0)).extractLsb' 2 14).toInt,
        ((word (d 1) (d 0)).extractLsb' 0 1).toNat⟩ := by
      cases a <;> first | rfl | exact absurd rfl h1 | exact absurd rfl h2
    rw [this, toInt_signed, field_toNat, field_toNat, word_toNat]
    have e1 : be16 (d 0) (d 1) / 2 ^ 2 % 2 ^ 14 = w / 4 := Nat.mod_eq_of_lt (by omega)
    have e2 : be16 (d 0) (d 1) / 2 ^ 0 % 2 ^ 1 = w % 2 := by simp [w]
    rw [e1, e2]

example : levelSEval .lmt100 0 (bytes [0x01, 0x91]) = ⟨.num 100, 1⟩ := by decide +kernel

/-- **C104, violated.** A sensor whose article the program does not know is shown as 0 bar in good
order, whatever it measures. -/
theorem C104_unknown_violated (s : Img × Reading) (h : List Ev) (d : Img) (n : Nat) :
    (run (pressureEval .default) s (h ++ .recv d :: List.replicate (n + 1) .eval)).2 = ⟨.num 0, 0⟩ := by
  rw [run_recv, run_pure _ (fun _ => rfl)]
  rfl

/-! ### Conductivity, flow -/

/-- **C104 (conductivity).** Bytes 0 to 3 are thousandths of the value, bytes 6 to 9 tenths of a
degree, the upper half of byte 11 the status; with a broken link as for the pressure. -/
theorem C104_conductivity (s : Img × Qt) (h : List Ev) (d : Img) (n : Nat) (err : Fl) :
    let q := (run (fun m => (m, qtEval m)) s (h ++ .recv d :: List.replicate (n + 1) .eval)).2
    qtValue err .ok q = .num (0.001 * (be32 (d 0) (d 1) (d 2) (d 3) : Nat)) ∧
    q.getTemperature = .num (0.1 * (be32 (d 6) (d 7) (d 8) (d 9) : Nat)) ∧
    qtState .ok q = ((d 11).toNat / 16 : Nat) ∧
    (∀ l, l ≠ .ok → qtValue err l q = err ∧ qtState l q = -l.code) := by
  intro q
  have hq : q = qtEval d := by
    show (run _ _ _).2 = _
    rw [run_recv, run_pure _ (fun _ => rfl)]
  refine ⟨?_, ?_, ?_, ?_⟩
  · rw [hq]
    show Fl.num (1 / 1000 * ((dword (d 3) (d 2) (d 1) (d 0)).toNat : Nat)) = _
    rw [dword_toNat]
    norm_num
  · rw [hq]
    show Fl.num (1 / 10 * ((dword (d 9) (d 8) (d 7) (d 6)).toNat : Nat)) = _
    rw [dword_toNat]
    norm_num
  · rw [hq]
    show (((d 11).extractLsb' 4 4).toNat : Int) = _
    rw [BitVec.extractLsb'_toNat, Nat.shiftRight_eq_div_pow]
    have := (d 11).isLt
    norm_num
    omega
  · intro l hl
    exact ⟨if_pos hl, if_pos hl⟩

example : qtValue 0 .ok (qtEval (bytes [0, 0, 0x30, 0x39])) = .num (12345 / 1000) := by decide +kernel

/-- **C104 (flow meter).** Bytes 0 to 3 are the total quantity (a `float`), 4 and 5 hundredths of the
flow, the word of bytes 6 and 7 has tenths of a degree in bits 2 to 15, the outputs in bits 1 and 0.
All are sent high byte first. -/
theorem C104_flow (s : Img × Fqt) (h : List Ev) (d : Img) (n : Nat) (cz : Fl) :
    let q := (run (fun m => (m, fqtEval m)) s (h ++ .recv d :: List.replicate (n + 1) .eval)).2
    q.totalizer.toNat = be32 (d 0) (d 1) (d 2) (d 3) ∧
    q.getFlow cz = cz + .num (0.01 * (signed 16 (be16 (d 4) (d 5)) : Int)) ∧
    q.getTemperature = .num (0.1 * (signed 14 (be16 (d 6) (d 7) / 4) : Int)) ∧
    q.out1 = be16 (d 6) (d 7) / 2 % 2 ∧ q.out2 = be16 (d 6) (d 7) % 2 := by
  intro q
  have hq : q = fqtEval d := by
    show (run _ _ _).2 = _
    rw [run_recv, run_pure _ (fun _ => rfl)]
  have h67 := be16_lt (d 6) (d 7)
  rw [hq]
  refine ⟨?_, ?_, ?_, ?_, ?_⟩
  · exact dword_toNat (d 0) (d 1) (d 2) (d 3)
  · show cz + Fl.num (((word (d 5) (d 4)).toInt : Rat) * (1 / 100)) = _
    rw [toInt_signed, word_toNat]
    congr 2
    norm_num
    ring
  · show Fl.num (1 / 10 * (((word (d 7) (d 6)).extractLsb' 2 14).toInt : Rat)) = _
    rw [toInt_signed, field_toNat, word_toNat, Nat.mod_eq_of_lt (by omega)]
    norm_num
  · show ((word (d 7) (d 6)).extractLsb' 1 1).toNat = _
    rw [field_toNat, word_toNat]
    rfl
  · show ((word (d 7) (d 6)).extractLsb' 0 1).toNat = _
    rw [field_toNat, word_toNat]
    simp

example : (fqtEval (bytes [0x42, 0xC8, 0, 0, 0xFF, 0x38, 0x03, 0x22])) =
    ⟨0x42C80000, -200, 1, 0, 200⟩ := by decide +kernel

/-! ### Temperature -/

/-- **C104 (temperature), partial.** Missing: processors with a signed `char`
(`C104_temperature_violated`).  Tenths of a degree in two bytes, high byte first, plus the
correction. -/
theorem C104_temperature_partial (sg : Bool) (zero err : Fl) (d : Img)
    (h : sg = false ∨ (d 1).toNat < 128) :
    teValue sg zero err .ok d = zero + .num (0.1 * (signed 16 (be16 (d 0) (d 1)) : Int)) := by
  show zero + Fl.num (1 / 10 * (teWord sg d : Rat)) = _
  have key : teWord sg d = signed 16 (be16 (d 0) (d 1)) := by
    unfold teWord ofChar signed be16
    rw [BitVec.toInt_ofInt]
    have h0 := (d 0).isLt
    have h1 := (d 1).isLt
    have e0 : (d 0).toInt = if 2 * (d 0).toNat < 256 then ((d 0).toNat : Int) else (d 0).toNat - 256 := by
      rw [BitVec.toInt_eq_toNat_cond]; rfl
    have e1 : (d 1).toInt = if 2 * (d 1).toNat < 256 then ((d 1).toNat : Int) else (d 1).toNat - 256 := by
      rw [BitVec.toInt_eq_toNat_cond]; rfl
    rcases sg with _ | _
    · simp only [Bool.false_eq_true, if_false, Int.bmod]
      omega
    · simp only [if_true, e0, e1, Int.bmod]
      have := h.resolve_left (by simp)
      omega
  rw [key]
  norm_num

example : teValue false 0 0 .ok (bytes [0xFF, 0x9C]) = .num (-10) := by decide +kernel

/-- **C104, violated.** Where `char` is signed (the PC builds) every temperature whose low byte is 128
or more is shown 25.6 degrees too low (modulo the range). -/
theorem C104_temperature_violated (d : Img) (h : 128 ≤ (d 1).toNat)
    (hr : -32512 ≤ signed 16 (be16 (d 0) (d 1))) :
    teWord true d = signed 16 (be16 (d 0) (d 1)) - 256 := by
  unfold teWord ofChar
  unfold signed be16 at *
  rw [BitVec.toInt_ofInt]
  have h0 := (d 0).isLt
  have h1 := (d 1).isLt
  have e0 : (d 0).toInt = if 2 * (d 0).toNat < 256 then ((d 0).toNat : Int) else (d 0).toNat - 256 := by
    rw [BitVec.toInt_eq_toNat_cond]; rfl
  have e1 : (d 1).toInt = if 2 * (d 1).toNat < 256 then ((d 1).toNat : Int) else (d 1).toNat - 256 := by
    rw [BitVec.toInt_eq_toNat_cond]; rfl
  simp only [if_true, e0, e1, Int.bmod]
  omega

/-- 20.0 degrees measured, −5.6 shown. -/
example : teValue true 0 0 .ok (bytes [0, 200]) = .num (-56 / 10) := by decide +kernel

end Ptusa.IolSens
