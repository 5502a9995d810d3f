import Verif.MemDev.Lemmas
/-!
# C213: what is stored in non-volatile memory is read back after any restarts
-/
namespace Ptusa.MemDev

/-- C213, in order: through any history of starts, stops, handing over of the memory and writes, in
which the operating system serves every start and nothing is written while the memory is not
accessible, reading into a zeroed buffer gives at every address the last byte stored there, and what
the medium held before where nothing was stored (zero in a file beyond its end).
`_partial`: the full property asks this also for buffers that are not zeroed and for starts that fail. -/
theorem C213_stored_is_read_back_partial (d₀ d : Dev) (hd : d₀.handle = false) (es : List Ev)
    (hord : InOrder d₀.kind false es) (hr : run d₀ es = some d)
    (hacc : accessibleAfter d₀.kind es = true) (p n : Nat) (b : List Byte)
    (hread : read d p (List.replicate n 0) = some b) :
    b = (List.range n).map fun i => (Store.run (initial d₀.cells) es) (p + i) := by
  have r0 : Rel (initial d₀.cells) false d₀ := ⟨fun _ => rfl, hd⟩
  obtain ⟨r, _⟩ := run_rel es _ false d₀ d r0 hord hr
  have ha : es.foldl (accessible d₀.kind) false = true := hacc
  rw [ha] at r
  exact read_rel _ d r p n b hread

/-- C213, files: neither writing nor reading a file is ever undefined behaviour, whatever the
history. -/
theorem C213_file_never_undefined (d₀ : Dev) (hk : d₀.kind = .linuxFile ∨ d₀.kind = .winFile)
    (es : List Ev) (p : Nat) (buf : List Byte) :
    ∃ d b, run d₀ es = some d ∧ read d p buf = some b ∧ b.length = buf.length := by
  induction es generalizing d₀ with
  | nil =>
    refine ⟨d₀, ?_⟩
    cases d₀ with
    | mk k cells handle =>
    have len : (fileRead (cells.getD []) p buf).length = buf.length := by
      unfold fileRead; simp; omega
    cases handle with
    | false => exact ⟨buf, rfl, rfl, rfl⟩
    | true =>
      cases k with
      | linuxFile => exact ⟨_, rfl, rfl, len⟩
      | winFile => exact ⟨_, rfl, rfl, len⟩
      | pfc200 => simp at hk
      | plcNext => simp at hk
  | cons e es ih =>
    have go : ∀ d1, step d₀ e = some d1 → d1.kind = d₀.kind →
        ∃ d b, run d₀ (e :: es) = some d ∧ read d p buf = some b ∧ b.length = buf.length := by
      intro d1 h1 k1
      obtain ⟨d, b, h⟩ := ih d1 (by rw [k1]; exact hk)
      refine ⟨d, b, ?_, h.2⟩
      unfold run; rw [h1]; exact h.1
    cases e with
    | start e₁ e₂ => exact go _ rfl (start_kind _ _ _)
    | initEx g => exact go _ rfl (initEx_kind _ _)
    | stop => exact go _ rfl rfl
    | write a q data =>
      cases hw : write d₀ (absPos a q) data with
      | some d1 => exact go d1 hw (write_kind _ _ _ _ hw)
      | none =>
        cases d₀ with
        | mk k cells handle =>
        cases handle with
        | false => cases hw
        | true =>
          cases k with
          | linuxFile => cases hw
          | winFile => cases hw
          | pfc200 => simp at hk
          | plcNext => simp at hk

/-- C213, chips: on mapped memory a history is defined exactly when every write lies inside the chip,
provided it is accessible throughout; here: an accessible chip accepts a write exactly inside it. -/
theorem C213_chip_write_defined (d : Dev) (hk : d.kind = .pfc200 ∨ d.kind = .plcNext)
    (hh : d.handle = true) (a p : Word) (data : List Byte) :
    (step d (.write a p data)).isSome = true ↔
      (a + p).toNat + data.length ≤ (d.cells.getD []).length := by
  cases d with
  | mk k cells handle =>
  have hh : handle = true := hh
  subst hh
  have chip : (if absPos a p + data.length ≤ (cells.getD []).length then
      some (⟨k, some ((cells.getD []).take (absPos a p) ++ data
        ++ (cells.getD []).drop (absPos a p + data.length)), true⟩ : Dev) else none).isSome = true ↔
      (a + p).toNat + data.length ≤ (cells.getD []).length := by
    by_cases hb : absPos a p + data.length ≤ (cells.getD []).length
    · rw [if_pos hb]; exact ⟨fun _ => hb, fun _ => rfl⟩
    · rw [if_neg hb]; exact ⟨fun h => (by cases h), fun h => absurd h hb⟩
  cases k with
  | linuxFile => simp at hk
  | winFile => simp at hk
  | pfc200 => exact chip
  | plcNext => exact chip

/-- C213 is violated for a buffer that is not zeroed: a Linux controller reads a file that was just
created, and the buffer keeps whatever it held, where the store holds zeros. -/
theorem C213_unzeroed_buffer_violated (e₁ e₂ : Env) (h₁ : e₁.Healthy) (h₂ : e₂.Healthy) (p : Nat)
    (buf : List Byte) :
    ∃ d, run ⟨.linuxFile, none, false⟩ [.start e₁ e₂] = some d ∧ d.handle = true ∧
      read d p buf = some buf ∧
      ∀ i, (Store.run (initial none) [.start e₁ e₂]) i = 0 := by
  obtain ⟨a1, a2, a3⟩ := h₁
  refine ⟨⟨.linuxFile, some [], true⟩, ?_, rfl, ?_, fun i => rfl⟩
  · simp [run, step, start, ctor, a2, a3]
  · simp [read, fileRead]

/-- C213 is violated when the file cannot be opened, or gets descriptor 0 twice: everything written
is lost, and each write and read passes for the program as any other. -/
theorem C213_not_opened_violated (f : List Byte) (e₁ e₂ : Env)
    (h : (e₁.rw = false ∧ e₂.rw = false) ∨ (e₁.fd = 0 ∧ e₂.fd = 0))
    (ws : List (Word × Word × List Byte)) (p : Nat) (buf : List Byte) :
    ∃ d, run ⟨.linuxFile, some f, false⟩
        (.start e₁ e₂ :: ws.map fun w => .write w.1 w.2.1 w.2.2) = some d ∧
      d.cells = some f ∧ read d p buf = some buf := by
  have hs : start e₁ e₂ ⟨.linuxFile, some f, false⟩ = ⟨.linuxFile, some f, false⟩ := by
    rcases h with ⟨h1, h2⟩ | ⟨h1, h2⟩
    · simp [start, ctor, h1, h2]
    · cases hb1 : e₁.rw <;> cases hb2 : e₂.rw <;> simp [start, ctor, h1, h2, hb1, hb2]
  refine ⟨⟨.linuxFile, some f, false⟩, ?_, rfl, rfl⟩
  unfold run
  simp only [step, hs]
  induction ws with
  | nil => rfl
  | cons w ws ih =>
    unfold List.map run
    exact ih

/-- C213, a rescue by accident: with standard input closed the first driver gets descriptor 0 and
takes it for a failure, but the second one opens the file again, and the handle is shared. -/
theorem C213_descriptor_zero_rescued (cells : Option (List Byte)) (e₁ e₂ : Env)
    (h₁ : e₁.rw = true ∧ e₁.create = true ∧ e₁.fd = 0) (h₂ : e₂.Healthy) :
    (start e₁ e₂ ⟨.linuxFile, cells, false⟩).handle = true ∧
      (start e₁ e₂ ⟨.linuxFile, cells, false⟩).cells = some (cells.getD []) := by
  obtain ⟨a1, a2, a3⟩ := h₁
  obtain ⟨b1, b2, b3⟩ := h₂
  cases cells with
  | none => simp [start, ctor, a1, a2, a3, b1, b2, b3]
  | some f => simp [start, ctor, a1, a2, a3, b1, b2, b3]

/-- C213 is violated on Windows when the existing file cannot be opened for a moment (another program
holds it) but may be created: everything stored is replaced by zeros. -/
theorem C213_windows_emptied_violated (f : List Byte) (e₁ e₂ : Env) (h : e₁.rw = false)
    (hc : e₁.create = true) (p : Nat) (n : Nat) :
    ∃ d, run ⟨.winFile, some f, false⟩ [.start e₁ e₂] = some d ∧ d.handle = true ∧
      read d p (List.replicate n 0) = some (List.replicate n 0) := by
  refine ⟨⟨.winFile, some (List.replicate (totalSize + 1) 0), true⟩, ?_, rfl, ?_⟩
  · simp only [run, step, start, ctor, h, hc, Bool.and_false, Bool.false_eq_true, if_false, if_true]
  · show some (fileRead (List.replicate (totalSize + 1) 0) p (List.replicate n 0)) = _
    rw [fileRead_zero]
    congr 1
    apply List.ext_getElem
    · simp
    · intro i h1 h2
      simp only [List.getElem_map, List.getElem_replicate, List.getElem_range]
      exact at0_replicate _ _

/-- C213 is violated on PLCnext before the runtime has handed over its memory: what is written is lost
and the program is not told, the result is 0 as always. -/
theorem C213_before_handover_violated (f : List Byte) (e₁ e₂ : Env) (a p : Word) (data : List Byte) :
    run ⟨.plcNext, some f, false⟩ [.start e₁ e₂, .write a p data, .initEx true]
      = some ⟨.plcNext, some f, true⟩ ∧
    writeResult ⟨.plcNext, some f, false⟩ data = writeResult ⟨.plcNext, some f, true⟩ data :=
  ⟨rfl, rfl⟩

/-- C213, the result of a write: on a file it is the number of bytes stored, and 0 when nothing was
stored; on a chip it says nothing. -/
theorem C213_write_result (d : Dev) (data : List Byte) :
    writeResult d data =
      if (d.kind = .linuxFile ∨ d.kind = .winFile) ∧ d.handle = true then data.length else 0 := by
  cases d with
  | mk k cells handle =>
  cases k <;> cases handle <;> simp [writeResult]

/-- A concrete history: a fresh Linux file, a write leaving a gap, a stop, a second start, another
write overlapping the first. -/
example : ∃ d, run ⟨.linuxFile, none, false⟩
    [.start ⟨true, true, 3⟩ ⟨true, true, 4⟩, .write 32 1 [7, 8, 9], .stop,
      .start ⟨true, true, 3⟩ ⟨true, true, 4⟩, .write 32 2 [5]] = some d ∧
    read d 32 [0, 0, 0, 0, 0, 0] = some [0, 7, 5, 9, 0, 0] := by
  refine ⟨_, rfl, ?_⟩
  decide +kernel

example : InOrder .linuxFile false
    [.start ⟨true, true, 3⟩ ⟨true, true, 4⟩, .write 32 1 [7, 8, 9], .stop,
      .start ⟨true, true, 3⟩ ⟨true, true, 4⟩, .write 32 2 [5]] ∧
    accessibleAfter .linuxFile
    [.start ⟨true, true, 3⟩ ⟨true, true, 4⟩, .write 32 1 [7, 8, 9], .stop,
      .start ⟨true, true, 3⟩ ⟨true, true, 4⟩, .write 32 2 [5]] = true := by
  simp [InOrder, Env.Healthy, accessible, accessibleAfter]

/-- A PLCnext history in order. -/
example : InOrder .plcNext false
    [.start ⟨true, true, 3⟩ ⟨true, true, 4⟩, .initEx true, .write 0 1 [7]] ∧
    run ⟨.plcNext, some [1, 2, 3], false⟩
      [.start ⟨true, true, 3⟩ ⟨true, true, 4⟩, .initEx true, .write 0 1 [7]]
      = some ⟨.plcNext, some [1, 7, 3], true⟩ := by
  constructor
  · simp [InOrder, Env.Healthy, accessible]
  · decide +kernel

end Ptusa.MemDev
