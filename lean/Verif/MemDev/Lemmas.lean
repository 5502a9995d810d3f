import Verif.MemDev.Spec
/-! Helper lemmas for the drivers of the non-volatile memory. -/
namespace Ptusa.MemDev

/-- Byte at an index, zero outside. -/
def at0 (f : List Byte) (i : Nat) : Byte := (f[i]?).getD 0

theorem at0_replicate (n i : Nat) : at0 (List.replicate n 0) i = 0 := by
  unfold at0
  by_cases h : i < n
  · rw [List.getElem?_replicate]; simp [h]
  · rw [List.getElem?_replicate]; simp [h]

theorem at0_append (a b : List Byte) (i : Nat) :
    at0 (a ++ b) i = if i < a.length then at0 a i else at0 b (i - a.length) := by
  unfold at0
  by_cases h : i < a.length
  · rw [if_pos h, List.getElem?_append_left h]
  · rw [if_neg h, List.getElem?_append_right (by omega)]

theorem at0_take (a : List Byte) (n i : Nat) :
    at0 (a.take n) i = if i < n then at0 a i else 0 := by
  unfold at0
  rw [List.getElem?_take]
  by_cases h : i < n <;> simp [h]

theorem at0_drop (a : List Byte) (n i : Nat) : at0 (a.drop n) i = at0 a (n + i) := by
  unfold at0; rw [List.getElem?_drop]

theorem at0_len (a : List Byte) (i : Nat) (h : a.length ≤ i) : at0 a i = 0 := by
  unfold at0; rw [List.getElem?_eq_none h]; rfl

/-- Writing into a file, by address. -/
theorem at0_fileWrite (f : List Byte) (p : Nat) (data : List Byte) (i : Nat) :
    at0 (fileWrite f p data) i
      = if p ≤ i ∧ i < p + data.length then at0 data (i - p) else at0 f i := by
  unfold fileWrite
  by_cases h : data = []
  · rw [if_pos h, h, if_neg (by simp)]
  · rw [if_neg h]
    have l1 : ((f ++ List.replicate (p - f.length) 0).take p).length = p := by
      simp; omega
    rw [at0_append, List.length_append, l1]
    by_cases h1 : i < p
    · rw [if_pos (by omega), at0_append, l1, if_pos h1, at0_take, if_pos h1, at0_append,
        if_neg (show ¬ (p ≤ i ∧ i < p + data.length) by omega)]
      by_cases h2 : i < f.length
      · rw [if_pos h2]
      · rw [if_neg h2, at0_replicate, at0_len f i (by omega)]
    · by_cases h2 : i < p + data.length
      · rw [if_pos h2, if_pos ⟨by omega, h2⟩, at0_append, l1, if_neg h1]
      · rw [if_neg h2, if_neg (by omega), at0_drop]
        congr 1; omega

/-- Copying into a chip, by address. -/
theorem at0_splice (f : List Byte) (p : Nat) (data : List Byte) (i : Nat)
    (h : p + data.length ≤ f.length) :
    at0 (f.take p ++ data ++ f.drop (p + data.length)) i
      = if p ≤ i ∧ i < p + data.length then at0 data (i - p) else at0 f i := by
  have l1 : (f.take p).length = p := by simp; omega
  rw [at0_append, List.length_append, l1]
  by_cases h1 : i < p
  · rw [if_pos (by omega), at0_append, l1, if_pos h1, at0_take, if_pos h1, if_neg (by omega)]
  · by_cases h2 : i < p + data.length
    · rw [if_pos h2, if_pos ⟨by omega, h2⟩, at0_append, l1, if_neg h1]
    · rw [if_neg h2, if_neg (by omega), at0_drop]
      congr 1; omega

/-- A list of known length is what its bytes are. -/
theorem eq_map_at0 (l : List Byte) (n : Nat) (g : Nat → Byte) (hl : l.length = n)
    (hg : ∀ i, i < n → at0 l i = g i) : l = (List.range n).map g := by
  apply List.ext_getElem
  · simp [hl]
  · intro i h1 h2
    have := hg i (by omega)
    unfold at0 at this
    rw [List.getElem?_eq_getElem h1] at this
    simpa using this

/-- Reading a file into a zeroed buffer. -/
theorem fileRead_zero (f : List Byte) (p n : Nat) :
    fileRead f p (List.replicate n 0) = (List.range n).map fun i => at0 f (p + i) := by
  apply eq_map_at0
  · unfold fileRead; simp; omega
  · intro i hi
    unfold fileRead
    simp only [List.length_replicate]
    rw [at0_append]
    by_cases h : i < ((f.drop p).take n).length
    · rw [if_pos h, at0_take, if_pos hi, at0_drop]
    · rw [if_neg h, at0_drop, at0_replicate, at0_len f]
      simp at h; omega

/-- The medium after a step in order shows the expected contents, and is open as expected. -/
structure Rel (s : Store) (o : Bool) (d : Dev) : Prop where
  cells : ∀ i, at0 (d.cells.getD []) i = s i
  handle : d.handle = o

theorem ctor_kind (e : Env) (d : Dev) : (ctor e d).kind = d.kind := by
  cases d with
  | mk k cells handle =>
  cases e with
  | mk rw create fd =>
  cases k <;> cases cells <;> cases handle <;> cases rw <;> cases create <;> rfl

theorem ctor_rel (e : Env) (he : e.Healthy) (s : Store) (o : Bool) (d : Dev) (r : Rel s o d) :
    Rel s (decide (d.kind ≠ .plcNext)) (ctor e d) := by
  obtain ⟨h1, h2, h3⟩ := he
  cases d with
  | mk k cells handle =>
  have hc := r.cells
  cases k with
  | linuxFile =>
    cases handle with
    | true => exact ⟨hc, rfl⟩
    | false =>
      cases cells with
      | none => 
        refine ⟨?_, ?_⟩
        · intro i; rw [← hc i]; simp [ctor, h2]
        · simp [ctor, h2, h3]
      | some f =>
        refine ⟨?_, ?_⟩
        · intro i; rw [← hc i]; simp [ctor, h1]
        · simp [ctor, h1, h3]
  | winFile =>
    cases handle with
    | true => exact ⟨hc, rfl⟩
    | false =>
      cases cells with
      | none =>
        refine ⟨?_, ?_⟩
        · intro i; rw [← hc i]
          have : (ctor e ⟨.winFile, none, false⟩).cells
              = some (List.replicate (totalSize + 1) 0) := by simp [ctor, h2]
          rw [this]
          show at0 (List.replicate (totalSize + 1) 0) i = at0 [] i
          rw [at0_replicate, at0_len [] i (Nat.zero_le _)]
        · simp [ctor, h2]
      | some f =>
        refine ⟨?_, ?_⟩
        · intro i; rw [← hc i]; simp [ctor, h1]
        · simp [ctor, h1]
  | pfc200 => exact ⟨hc, by simp [ctor, h1]⟩
  | plcNext => exact ⟨hc, rfl⟩

theorem start_rel (e₁ e₂ : Env) (h₁ : e₁.Healthy) (h₂ : e₂.Healthy) (s : Store) (o : Bool)
    (d : Dev) (r : Rel s o d) :
    Rel s (decide (d.kind ≠ .plcNext)) (start e₁ e₂ d) := by
  have r1 := ctor_rel e₁ h₁ s false { d with handle := false } ⟨r.cells, rfl⟩
  have r2 := ctor_rel e₂ h₂ s _ _ r1
  rw [ctor_kind] at r2
  exact r2

theorem start_kind (e₁ e₂ : Env) (d : Dev) : (start e₁ e₂ d).kind = d.kind := by
  unfold start; rw [ctor_kind, ctor_kind]

theorem write_kind (d d' : Dev) (p : Nat) (data : List Byte) (h : write d p data = some d') :
    d'.kind = d.kind := by
  cases d with
  | mk k cells handle =>
  unfold write at h
  cases handle with
  | false => simp at h; rw [← h]
  | true =>
    cases k <;> simp only [if_true] at h
    · simp only [Option.some.injEq] at h; rw [← h]
    · simp only [Option.some.injEq] at h; rw [← h]
    · by_cases hh : p + data.length ≤ (cells.getD []).length
      · rw [if_pos hh] at h; simp only [Option.some.injEq] at h; rw [← h]
      · rw [if_neg hh] at h; cases h
    · by_cases hh : p + data.length ≤ (cells.getD []).length
      · rw [if_pos hh] at h; simp only [Option.some.injEq] at h; rw [← h]
      · rw [if_neg hh] at h; cases h

theorem write_rel (s : Store) (d d' : Dev) (a p : Word) (data : List Byte) (r : Rel s true d)
    (h : write d (absPos a p) data = some d') :
    Rel (s.after (.write a p data)) true d' := by
  cases d with
  | mk k cells handle =>
  have hh : handle = true := r.handle
  subst hh
  have hc := r.cells
  have file : ∀ k', d' = ⟨k', some (fileWrite (cells.getD []) (absPos a p) data), true⟩ →
      Rel (s.after (.write a p data)) true d' := by
    intro k' e
    subst e
    refine ⟨?_, rfl⟩
    intro i
    show at0 (fileWrite (cells.getD []) (absPos a p) data) i = _
    rw [at0_fileWrite]
    show _ = if (a + p).toNat ≤ i ∧ i < (a + p).toNat + data.length then _ else s i
    rw [← hc i]
    rfl
  have chip : ∀ k', absPos a p + data.length ≤ (cells.getD []).length →
      d' = ⟨k', some ((cells.getD []).take (absPos a p) ++ data
        ++ (cells.getD []).drop (absPos a p + data.length)), true⟩ →
      Rel (s.after (.write a p data)) true d' := by
    intro k' hb e
    subst e
    refine ⟨?_, rfl⟩
    intro i
    show at0 ((cells.getD []).take (absPos a p) ++ data
        ++ (cells.getD []).drop (absPos a p + data.length)) i = _
    rw [at0_splice _ _ _ _ hb]
    show _ = if (a + p).toNat ≤ i ∧ i < (a + p).toNat + data.length then _ else s i
    rw [← hc i]
    rfl
  unfold write at h
  cases k <;> simp only [if_true] at h
  · simp only [Option.some.injEq] at h; exact file _ h.symm
  · simp only [Option.some.injEq] at h; exact file _ h.symm
  · by_cases hb : absPos a p + data.length ≤ (cells.getD []).length
    · rw [if_pos hb] at h; simp only [Option.some.injEq] at h; exact chip _ hb h.symm
    · rw [if_neg hb] at h; cases h
  · by_cases hb : absPos a p + data.length ≤ (cells.getD []).length
    · rw [if_pos hb] at h; simp only [Option.some.injEq] at h; exact chip _ hb h.symm
    · rw [if_neg hb] at h; cases h

theorem initEx_rel (g : Bool) (s : Store) (o : Bool) (d : Dev) (r : Rel s o d) :
    Rel s (accessible d.kind o (.initEx g)) (initEx g d) := by
  cases d with
  | mk k cells handle =>
  cases k
  · exact ⟨r.cells, r.handle⟩
  · exact ⟨r.cells, r.handle⟩
  · exact ⟨r.cells, r.handle⟩
  · exact ⟨r.cells, rfl⟩

theorem initEx_kind (g : Bool) (d : Dev) : (initEx g d).kind = d.kind := by
  cases d with
  | mk k cells handle => cases k <;> rfl

/-- The refinement over histories. -/
theorem run_rel (es : List Ev) : ∀ (s : Store) (o : Bool) (d d' : Dev), Rel s o d →
    InOrder d.kind o es → run d es = some d' →
    Rel (s.run es) (es.foldl (accessible d.kind) o) d' ∧ d'.kind = d.kind := by
  induction es with
  | nil =>
    intro s o d d' r _ h
    cases h
    exact ⟨r, rfl⟩
  | cons e es ih =>
    intro s o d d' r hord h
    unfold run at h
    cases e with
    | start e₁ e₂ =>
      obtain ⟨h1, h2, h3⟩ := hord
      have r1 := start_rel e₁ e₂ h1 h2 s o d r
      have k1 := start_kind e₁ e₂ d
      have := ih s _ (start e₁ e₂ d) d' r1 (by rw [k1]; exact h3) h
      rw [k1] at this
      exact this
    | initEx g =>
      have r1 := initEx_rel g s o d r
      have k1 := initEx_kind g d
      have := ih s _ (initEx g d) d' r1 (by rw [k1]; exact hord) h
      rw [k1] at this
      exact this
    | write a p data =>
      obtain ⟨h1, h2⟩ := hord
      subst h1
      cases hw : write d (absPos a p) data with
      | none => simp only [step, hw] at h; cases h
      | some d1 =>
        simp only [step, hw] at h
        have r1 := write_rel s d d1 a p data r hw
        have k1 := write_kind d d1 _ data hw
        have := ih _ true d1 d' r1 (by rw [k1]; exact h2) h
        rw [k1] at this
        exact this
    | stop =>
      exact ih s false (stop d) d' ⟨r.cells, rfl⟩ hord h

/-- A read from an open medium into a zeroed buffer. -/
theorem read_rel (s : Store) (d : Dev) (r : Rel s true d) (p n : Nat) (b : List Byte)
    (h : read d p (List.replicate n 0) = some b) :
    b = (List.range n).map fun i => s (p + i) := by
  cases d with
  | mk k cells handle =>
  have hh : handle = true := r.handle
  subst hh
  have hc := r.cells
  have e : (fun i => s (p + i)) = fun i => at0 (cells.getD []) (p + i) := by
    funext i; exact (hc (p + i)).symm
  rw [e]
  have chip : p + n ≤ (cells.getD []).length → b = ((cells.getD []).drop p).take n →
      b = (List.range n).map fun i => at0 (cells.getD []) (p + i) := by
    intro hb eb
    subst eb
    apply eq_map_at0
    · simp; omega
    · intro i hi; rw [at0_take, if_pos hi, at0_drop]
  unfold read at h
  cases k <;> simp only [if_true, List.length_replicate] at h
  · simp only [Option.some.injEq] at h; rw [← h]; exact fileRead_zero _ _ _
  · simp only [Option.some.injEq] at h; rw [← h]; exact fileRead_zero _ _ _
  · by_cases hb : p + n ≤ (cells.getD []).length
    · rw [if_pos hb] at h; simp only [Option.some.injEq] at h; exact chip hb h.symm
    · rw [if_neg hb] at h; cases h
  · by_cases hb : p + n ≤ (cells.getD []).length
    · rw [if_pos hb] at h; simp only [Option.some.injEq] at h; exact chip hb h.symm
    · rw [if_neg hb] at h; cases h

/-- On a chip the size never changes. -/
theorem write_len (d d' : Dev) (p : Nat) (data : List Byte) (h : write d p data = some d')
    (hk : d.kind = .pfc200 ∨ d.kind = .plcNext) :
    (d'.cells.getD []).length = (d.cells.getD []).length := by
  cases d with
  | mk k cells handle =>
  unfold write at h
  cases handle with
  | false => simp at h; rw [← h]
  | true =>
    have chip : (if p + data.length ≤ (cells.getD []).length then
        some (⟨k, some ((cells.getD []).take p ++ data ++ (cells.getD []).drop (p + data.length)), true⟩ : Dev)
        else none) = some d' → (d'.cells.getD []).length = (cells.getD []).length := by
      intro h
      by_cases hb : p + data.length ≤ (cells.getD []).length
      · rw [if_pos hb] at h
        simp only [Option.some.injEq] at h
        rw [← h]
        show ((cells.getD []).take p ++ data ++ (cells.getD []).drop (p + data.length)).length = _
        simp only [List.length_append, List.length_take, List.length_drop]; omega
      · rw [if_neg hb] at h; cases h
    cases k with
    | linuxFile => simp at hk
    | winFile => simp at hk
    | pfc200 => exact chip h
    | plcNext => exact chip h

end Ptusa.MemDev
