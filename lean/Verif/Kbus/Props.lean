import Verif.Kbus.Lemmas

/-!
# The modules on the bus of a PFC200 (C165, C166, C167)
-/
namespace Ptusa.Kbus

/-- The example: three digital inputs, a counter and an ordinary analog input, ten digital and two analog outputs. -/
def exConf : Conf := ⟨3, [638, 461], 6, 10, [550, 550], 4⟩

/-- Its driver, with arbitrary contents of the buffers. -/
def exDrv : Drv := ⟨fun _ => 0xAA, fun _ => 0xFF, ⟨fun _ => true, fun _ => 0, fun i => i == 9, fun i => BitVec.ofNat 16 (513 + i),
  fun _ => false, fun _ => 0⟩⟩

/-- A successful reading. -/
def exOk : Answer := ⟨0, 0, 0, fun i => [1, 2, 3, 4, 5, 6, 0b101].getD i 0⟩

theorem exFits : Fits exConf := ⟨by decide, by decide, by decide, by decide, by decide, by decide⟩

/-! ## C165 -/

/-- A reading of a project that fits: what it does to the image. -/
theorem read_eq (c : Conf) (hf : Fits c) (d : Drv) (a : Answer) :
    ∃ d', d.read c a = some d' ∧ d'.pdIn = a.buf ∧ d'.pdOut = d.pdOut ∧
      d'.node.doTo = d.node.doTo ∧ d'.node.aoTo = d.node.aoTo ∧ d'.node.doIs = d.node.doIs ∧ d'.node.aoIs = d.node.aoIs ∧
      (∀ i, d'.node.di i = if i < c.diCnt ∧ a.ok then digital a.buf c.aiSize i else d.node.di i) ∧
      (∀ k v, analogIn c a.buf k = some v → d'.node.ai k = v) ∧
      (∀ k, c.aiTypes.length ≤ k → d'.node.ai k = d.node.ai k) := by
  unfold Drv.read
  have h0 : c.inSize ≤ bufSize := hf.bufIn
  rw [if_pos h0]
  have hsum : 0 + (c.aiTypes.map width).sum ≤ bufSize := by
    have := hf.ain; have := hf.bufIn; unfold bufSize; omega
  have hlen : 0 + c.aiTypes.length ≤ analogSize := by
    have := hf.arrIn; unfold analogSize; omega
  obtain ⟨ai', e, hai⟩ := readAi_eq a.buf c.aiTypes 0 0 d.node.ai hsum hlen
  have hv : ∀ k v, analogIn c a.buf k = some v → ai' k = v := by
    intro k v h
    unfold analogIn at h
    rw [Option.map_eq_some_iff] at h
    obtain ⟨t, ht, hv⟩ := h
    rw [(hai k).1 k t ht (by omega), ← hv]
    congr 1
    omega
  have hbeyond : ∀ k, c.aiTypes.length ≤ k → ai' k = d.node.ai k := fun k hk => (hai k).2 (Or.inr (by omega))
  have hnil : ¬ 0 < c.aiTypes.length → ∀ k v, analogIn c a.buf k ≠ some v := by
    intro h k v hkv
    have : c.aiTypes = [] := List.eq_nil_of_length_eq_zero (by omega)
    simp [analogIn, this] at hkv
  by_cases hd : 0 < c.diCnt ∧ a.start + a.bytes + a.fin = 0
  · simp only [hd, and_self, if_true]
    have hdi : ∀ i, readDi a.buf c.aiSize c.diCnt d.node.di i =
        if i < c.diCnt ∧ a.ok then digital a.buf c.aiSize i else d.node.di i := by
      intro i
      rw [readDi_eq]
      have : a.ok := hd.2
      by_cases hi : i < c.diCnt <;> simp [hi, this]
    by_cases ha : 0 < c.aiTypes.length
    · rw [if_pos ha, e]
      exact ⟨_, rfl, rfl, rfl, rfl, rfl, rfl, rfl, hdi, hv, hbeyond⟩
    · rw [if_neg ha]
      exact ⟨_, rfl, rfl, rfl, rfl, rfl, rfl, rfl, hdi, fun k v h => absurd h (hnil ha k v), fun _ _ => rfl⟩
  · dsimp only
    rw [if_neg hd]
    have hdi : ∀ i, d.node.di i = if i < c.diCnt ∧ a.ok then digital a.buf c.aiSize i else d.node.di i := by
      intro i
      have : ¬ (i < c.diCnt ∧ a.ok) := fun h => hd ⟨by omega, h.2⟩
      rw [if_neg this]
    by_cases ha : 0 < c.aiTypes.length
    · rw [if_pos ha]
      dsimp only
      rw [e]
      exact ⟨_, rfl, rfl, rfl, rfl, rfl, rfl, rfl, hdi, hv, hbeyond⟩
    · rw [if_neg ha]
      exact ⟨_, rfl, rfl, rfl, rfl, rfl, rfl, rfl, hdi, fun k v h => absurd h (hnil ha k v), fun _ _ => rfl⟩

/-- **C165**, one reading: when the library succeeds, every digital input is its bit and every analog input its word in
the data of the bus, where the channels follow each other and the digital part is behind the analog one; outputs and
their reports do not change. -/
theorem C165_read (c : Conf) (hf : Fits c) (d : Drv) (a : Answer) (ha : a.ok) :
    ∃ d', d.read c a = some d' ∧ (∀ i < c.diCnt, d'.node.di i = digital a.buf c.aiSize i) ∧
      (∀ k v, analogIn c a.buf k = some v → d'.node.ai k = v) ∧
      d'.node.doTo = d.node.doTo ∧ d'.node.aoTo = d.node.aoTo ∧ d'.node.doIs = d.node.doIs ∧
      d'.node.aoIs = d.node.aoIs := by
  obtain ⟨d', e, _, _, h1, h2, h3, h4, h5, h6, _⟩ := read_eq c hf d a
  refine ⟨d', e, fun i hi => ?_, h6, h1, h2, h3, h4⟩
  rw [h5, if_pos ⟨hi, ha⟩]

example : (exDrv.read exConf exOk).map (fun d => ((List.range 3).map d.node.di, (List.range 2).map d.node.ai)) =
    some ([true, false, true], [0x0403, 0x0605]) := by decide +kernel

theorem write_eq (c : Conf) (hf : Fits c) (d : Drv) (res : Int × Int × Int) :
    ∃ d' b, d.write c res = some (d', (List.range c.outSize).map b) ∧ d'.pdIn = d.pdIn ∧ d'.node.di = d.node.di ∧
      d'.node.ai = d.node.ai ∧ d'.node.doTo = d.node.doTo ∧ d'.node.aoTo = d.node.aoTo ∧
      (∀ i < c.doCnt, digital b c.aoSize i = d.node.doTo i) ∧
      (∀ k t, c.aoTypes[k]? = some t → t ≠ 638 → word b (pos c.aoTypes k) = d.node.aoTo k) ∧
      (∀ k, c.aoTypes[k]? = some 638 → word b (pos c.aoTypes k) = 0 ∧ word b (pos c.aoTypes k + 2) = 0) ∧
      (∀ i < c.doCnt, d'.node.doIs i = d.node.doTo i) ∧ (∀ i < c.aoTypes.length, d'.node.aoIs i = d.node.aoTo i) := by
  unfold Drv.write
  obtain ⟨b1, e1, h1, h2⟩ := writeDo_eq d.node.doTo c.aoSize c.doCnt d.pdOut hf.bufOut
  have hsum : 0 + (c.aoTypes.map width).sum ≤ bufSize := by
    have := hf.aout; have := hf.bufOut; unfold bufSize; omega
  have hlen : 0 + c.aoTypes.length ≤ analogSize := by
    have := hf.arrOut; unfold analogSize; omega
  obtain ⟨b2, e2, g1, g2, g3⟩ := writeAo_eq d.node.aoTo c.aoTypes 0 0 b1 hsum hlen
  have hs : c.outSize ≤ bufSize := hf.bufOut
  rw [e1]; dsimp only; rw [e2]; dsimp only; rw [if_pos hs]
  simp only [Nat.zero_add] at g1 g2
  refine ⟨_, b2, rfl, rfl, rfl, rfl, rfl, rfl, ?_, g1, g2, ?_, ?_⟩
  · intro i hi
    have : b2 (c.aoSize + i / 8) = b1 (c.aoSize + i / 8) := g3 _ (Or.inr (by have := hf.aout; omega))
    unfold digital
    rw [this]
    exact h1 i hi
  · intro i hi; simp [hi]
  · intro i hi; simp [hi]

/-- **C165**, histories: at every moment every digital input is that of the last reading that succeeded, whatever readings
failed and whatever was written in between. -/
theorem C165_digital (c : Conf) (hf : Fits c) : ∀ (h : List Ev) (d : Drv), ∃ d', d.run c h = some d' ∧
    ∀ i < c.diCnt, d'.node.di i = match lastOk h with
      | some a => digital a.buf c.aiSize i
      | none => d.node.di i := by
  intro h
  induction h with
  | nil => intro d; exact ⟨d, rfl, fun i _ => rfl⟩
  | cons e h ih =>
    intro d
    cases e with
    | read a =>
      obtain ⟨d1, e1, _, _, _, _, _, _, h5, _⟩ := read_eq c hf d a
      obtain ⟨d2, e2, hd2⟩ := ih d1
      refine ⟨d2, by simp only [Drv.run, Drv.step, e1]; exact e2, fun i hi => ?_⟩
      rw [hd2 i hi]
      unfold lastOk
      simp only [readings, List.find?_append]
      cases hx : (readings h).find? (fun a => decide a.ok) with
      | some x => rfl
      | none =>
        rw [h5]
        by_cases ha : a.ok <;> simp [ha, hi]
    | outputs o a =>
      obtain ⟨d2, e2, hd2⟩ := ih { d with node := { d.node with doTo := o, aoTo := a } }
      exact ⟨d2, e2, hd2⟩
    | write res =>
      obtain ⟨d1, b, e1, _, h2, _⟩ := write_eq c hf d res
      obtain ⟨d2, e2, hd2⟩ := ih d1
      refine ⟨d2, by simp only [Drv.run, Drv.step, e1, Option.map_some]; exact e2, fun i hi => ?_⟩
      rw [hd2 i hi, h2]
      rfl

/-- A reading that failed after some data had come. -/
def exBad : Answer := ⟨0, -1, 0, fun _ => 0x7F⟩

example : ((exDrv.run exConf [.read exOk, .write (0, 0, 0), .read exBad]).map fun d =>
    (List.range 3).map d.node.di) = some [true, false, true] := by decide +kernel

/-- **C165** is violated for analog inputs: a reading that failed changes them all the same, they take whatever is in the
buffer, while the digital inputs keep their values. -/
theorem C165_analog_violated (c : Conf) (hf : Fits c) (d : Drv) (a : Answer) (ha : ¬ a.ok) :
    ∃ d', d.read c a = some d' ∧ d'.node.di = d.node.di ∧ ∀ k v, analogIn c a.buf k = some v → d'.node.ai k = v := by
  obtain ⟨d', e, _, _, _, _, _, _, h5, h6, _⟩ := read_eq c hf d a
  refine ⟨d', e, ?_, h6⟩
  funext i
  rw [h5, if_neg fun h => ha h.2]

example : ((exDrv.run exConf [.read exOk, .read exBad]).map fun d => (List.range 2).map d.node.ai) =
    some [0x7F7F, 0x7F7F] := by decide +kernel

/-- The readings that fail leave the buffer as it was (`b` before the history). -/
def Steady : Buf → List Ev → Prop
  | _, [] => True
  | b, .read a :: rest => (a.ok ∨ a.buf = b) ∧ Steady a.buf rest
  | b, _ :: rest => Steady b rest

/-- **C165**, analog inputs over histories: if a reading that fails leaves the buffer alone, they are those of the last
reading that succeeded. -/
theorem C165_analog_partial (c : Conf) (hf : Fits c) : ∀ (h : List Ev) (d : Drv), Steady d.pdIn h →
    ∃ d', d.run c h = some d' ∧ ∀ k v, (∀ a, lastOk h = some a → analogIn c a.buf k = some v → d'.node.ai k = v) ∧
      (lastOk h = none → analogIn c d.pdIn k = some v → d.node.ai k = v → d'.node.ai k = v) := by
  intro h
  induction h with
  | nil =>
    intro d _
    exact ⟨d, rfl, fun k v => ⟨fun a ha => by simp [lastOk, readings] at ha, fun _ _ h => h⟩⟩
  | cons e h ih =>
    intro d hs
    cases e with
    | read a =>
      obtain ⟨d1, e1, hb, _, _, _, _, _, _, h6, _⟩ := read_eq c hf d a
      simp only [Steady] at hs
      obtain ⟨d2, e2, hd2⟩ := ih d1 (by rw [hb]; exact hs.2)
      refine ⟨d2, by simp only [Drv.run, Drv.step, e1]; exact e2, fun k v => ?_⟩
      have hl : lastOk (.read a :: h) = (lastOk h).or (if a.ok then some a else none) := by
        unfold lastOk
        simp only [readings, List.find?_append, List.find?_cons, List.find?_nil]
        by_cases ha : a.ok <;> simp [ha]
      rw [hl]
      cases hx : lastOk h with
      | some x =>
        rw [hx] at hd2
        simp only [Option.some_or]
        exact ⟨fun y hy hv => (hd2 k v).1 y hy hv, fun h => by cases h⟩
      | none =>
        rw [hx] at hd2
        simp only [Option.none_or]
        by_cases ha : a.ok
        · rw [if_pos ha]
          refine ⟨fun y hy hv => ?_, fun h => by cases h⟩
          injection hy with hy; subst hy
          exact (hd2 k v).2 rfl (by rw [hb]; exact hv) (h6 k v hv)
        · rw [if_neg ha]
          refine ⟨fun y hy => (by cases hy), fun _ hv _ => ?_⟩
          have hbuf : a.buf = d.pdIn := hs.1.resolve_left ha
          exact (hd2 k v).2 rfl (by rw [hb, hbuf]; exact hv) (h6 k v (by rw [hbuf]; exact hv))
    | outputs o a =>
      obtain ⟨d2, e2, hd2⟩ := ih { d with node := { d.node with doTo := o, aoTo := a } } hs
      exact ⟨d2, e2, hd2⟩
    | write res =>
      obtain ⟨d1, b, e1, hb, h2, h3, _⟩ := write_eq c hf d res
      obtain ⟨d2, e2, hd2⟩ := ih d1 (by rw [hb]; exact hs)
      refine ⟨d2, by simp only [Drv.run, Drv.step, e1, Option.map_some]; exact e2, fun k v => ?_⟩
      have hl : lastOk (.write res :: h) = lastOk h := rfl
      rw [hl]
      refine ⟨(hd2 k v).1, fun hn hv hai => (hd2 k v).2 hn (by rw [hb]; exact hv) (by rw [h3]; exact hai)⟩

example : Steady exDrv.pdIn [.read exOk, .write (0, 0, 0), .read { exBad with buf := exOk.buf }] ∧
    ((exDrv.run exConf [.read exOk, .write (0, 0, 0), .read { exBad with buf := exOk.buf }]).map fun d =>
      (List.range 2).map d.node.ai) = some [0x0403, 0x0605] := by
  refine ⟨⟨Or.inl (by decide), Or.inr rfl, trivial⟩, by decide +kernel⟩

/-! ## C166 -/

/-- **C166**, writing: whatever happened before and whatever the buffer holds, the bytes given to the bus contain every
digital output as its bit behind the analog part and every analog output as its word, a counter gets zeros. -/
theorem C166_write (c : Conf) (hf : Fits c) (h : List Ev) (d0 d : Drv) (_hr : d0.run c h = some d)
    (res : Int × Int × Int) :
    ∃ d' bytes, d.write c res = some (d', bytes) ∧
      (∀ i < c.doCnt, digital (fun p => bytes.getD p 0) c.aoSize i = d.node.doTo i) ∧
      (∀ k t, c.aoTypes[k]? = some t → t ≠ 638 → word (fun p => bytes.getD p 0) (pos c.aoTypes k) = d.node.aoTo k) ∧
      (∀ k, c.aoTypes[k]? = some 638 → word (fun p => bytes.getD p 0) (pos c.aoTypes k) = 0 ∧
        word (fun p => bytes.getD p 0) (pos c.aoTypes k + 2) = 0) ∧
      bytes.length = c.aoSize + c.doCnt / 8 + 1 := by
  obtain ⟨d', b, e, _, _, _, _, _, h1, h2, h3, _, _⟩ := write_eq c hf d res
  have hb : ∀ p, p < c.outSize → ((List.range c.outSize).map b).getD p 0 = b p := by
    intro p hp
    simp [List.getD, hp]
  have hsz : c.outSize = c.aoSize + c.doCnt / 8 + 1 := rfl
  refine ⟨d', _, e, ?_, ?_, ?_, by simp [hsz]⟩
  · intro i hi
    have hle : i / 8 ≤ c.doCnt / 8 := Nat.div_le_div_right (by omega)
    rw [← h1 i hi]
    unfold digital
    simp only
    rw [hb _ (by omega)]
  · intro k t hk ht
    have hp := pos_le c.aoTypes k t hk
    have hw := width_pos t
    have := hf.aout
    rw [← h2 k t hk ht]
    unfold word
    simp only
    rw [hb _ (by omega), hb _ (by omega)]
  · intro k hk
    have hp := pos_le c.aoTypes k 638 hk
    have hw : width 638 = 4 := rfl
    have := hf.aout
    have h := h3 k hk
    unfold word at h ⊢
    simp only
    rw [hb _ (by omega), hb _ (by omega), hb _ (by omega), hb _ (by omega)]
    exact h

example : (exDrv.write exConf (0, 0, 0)).map (·.2) = some [0x01, 0x02, 0x02, 0x02, 0x00, 0xFE] := by decide +kernel

/-- **C166** is violated for the report: whatever the library says about the writing, all outputs are reported as
written. -/
theorem C166_report_violated (c : Conf) (hf : Fits c) (d : Drv) (res : Int × Int × Int) :
    ∃ d' bytes, d.write c res = some (d', bytes) ∧ (∀ i < c.doCnt, d'.node.doIs i = d.node.doTo i) ∧
      ∀ i < c.aoTypes.length, d'.node.aoIs i = d.node.aoTo i := by
  obtain ⟨d', b, e, _, _, _, _, _, _, _, _, h1, h2⟩ := write_eq c hf d res
  exact ⟨d', _, e, h1, h2⟩

example : (exDrv.write exConf (-1, -1, -1)).map (fun r => (r.1.node.doIs 9, r.1.node.aoIs 1)) = some (true, 514) := by
  decide +kernel

/-! ## C167 -/

/-- **C167**, the start with a bus: of at most ten devices the last bus is opened and used; when a call of the library
fails the program ends in an orderly way. -/
theorem C167_start_partial (init scan list : Bool) (pre post : List Dev) (d : Dev) (hd : d.name = "libpackbus")
    (hp : ∀ x ∈ post, x.name ≠ "libpackbus") (hl : (pre ++ d :: post).length ≤ 10) (opened : Nat → Bool) (state : Bool) :
    start init scan list (pre ++ d :: post) opened state =
      if init && scan && list && opened d.id && state then some (.running d.id) else some .exit := by
  have hlen : pre.length < 10 := by simp at hl; omega
  have hn : (findKbus (pre ++ d :: post) 0 (-1)).toNat = pre.length := by
    rw [findKbus_last _ _ _ _ _ hd hp, BitVec.toNat_ofNat]
    omega
  unfold start
  simp only [hn]
  rw [if_neg (Nat.not_lt_zero _), if_pos (show pre.length < listSize from hlen)]
  have hg : (pre ++ d :: post)[pre.length]? = some d := by simp
  rw [hg]
  cases ho : opened d.id <;> cases init <;> cases scan <;> cases list <;> cases state <;> simp [ho]

example : start true true true [⟨"profibus", 4⟩, ⟨"libpackbus", 7⟩] (fun _ => true) true = some (.running 7) := by
  decide +kernel

/-- **C167** is violated when no bus is found: the check for it is never true (the number of the bus is unsigned), the
start does not end in an orderly way but reads outside of the list of devices. -/
theorem C167_missing_violated (devs : List Dev) (h : ∀ x ∈ devs, x.name ≠ "libpackbus") (opened : Nat → Bool)
    (state : Bool) : start true true true devs opened state = none := by
  unfold start
  simp only [Bool.true_eq_false, if_false]
  rw [findKbus_none _ _ _ h]
  rw [if_neg (Nat.not_lt_zero _), if_neg (by decide)]

example : start true true true [⟨"profibus", 4⟩] (fun _ => true) true = none := by decide +kernel

end Ptusa.Kbus
