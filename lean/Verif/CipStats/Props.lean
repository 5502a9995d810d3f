import Verif.CipStats.LemmasSys

/-!
# C99, C100: the statistics of washed objects
-/
namespace Ptusa.CipStats

open Ptusa.Tcp (Byte)
open Ptusa.Registry (Name cmp_eq)

/-- Memory that happens to hold zeros. -/
def zeros : Junk := ⟨fun _ => 0, fun _ => 0, fun _ => 0, fun _ => 0, 0⟩

/-- The name of an object, with signs that the file uses between its parts. -/
def tank : Name := [0x54, 0x23, 0x31, 0x20, 0x0A]

/-- A wash of a tank with caustic that comes to its end. -/
def oneWash : List Ev :=
  [.select 1 tank zeros, .caustic 1, .finish 1 [0x41] [0x42, 0x43] false]

theorem tank_fits : Fits 96 tank := by constructor <;> decide

theorem oneWash_fit : ∀ e ∈ oneWash, e.Fit := by
  intro e he
  simp only [oneWash, List.mem_cons, List.not_mem_nil, or_false] at he
  rcases he with rfl | rfl | rfl
  · exact tank_fits
  · trivial
  · constructor <;> constructor <;> decide

/-! ### C99 -/

/-- The statistics are a table with a copy on disk, whatever their texts contain and whatever memory held before: after
every history without a loss of power during a save, what is shown for every name is what the table has. -/
theorem C99_table_partial (js : Nat → Junk) (h : List Ev) (hf : ∀ e ∈ h, e.Fit) (hc : ∀ e ∈ h, e.Calm)
    (hl : h.length ≤ 500000000) :
    ∃ s, (Sys.init js).run false h = some s ∧ ∀ n, look s.base n = (Tab.init.run h).mem n := by
  obtain ⟨s, e, -, r⟩ := run_inv (init_inv js) h hf (by omega)
  exact ⟨s, e, (r _ (init_rel js) hc).mem⟩

example (js : Nat → Junk) (m : Mem) : ∃ s, (Sys.init js).run false (oneWash ++ [.cycle, .restart m js]) = some s ∧
    look s.base tank = some ⟨[0x42, 0x43], [0x41], unknown, 1⟩ := by
  obtain ⟨s, e, h⟩ := C99_table_partial js (oneWash ++ [.cycle, .restart m js])
    (by
      intro e he
      rcases List.mem_append.1 he with he | he
      · exact oneWash_fit e he
      · simp only [List.mem_cons, List.not_mem_nil, or_false] at he
        rcases he with rfl | rfl <;> trivial)
    (by
      intro e he
      simp only [oneWash, List.cons_append, List.nil_append, List.mem_cons, List.not_mem_nil, or_false] at he
      rcases he with rfl | rfl | rfl | rfl | rfl <;> trivial)
    (by simp [oneWash])
  refine ⟨s, e, ?_⟩
  rw [h]
  rfl

theorem tab_run_append (t : Tab) (a b : List Ev) : t.run (a ++ b) = (t.run a).run b := by
  simp [Tab.run, List.foldl_append]

/-- A wash that came to its end, and one cycle of the first line: a restart shows what was shown before. -/
theorem C99_saved_partial (js js' : Nat → Junk) (m : Mem) (h : List Ev) (hf : ∀ e ∈ h, e.Fit) (hc : ∀ e ∈ h, e.Calm)
    (hl : h.length ≤ 499999990) (i : Nat) (p d : Name) (hp : Fits 72 p) (hd : Fits 72 d) :
    ∃ s s', (Sys.init js).run false (h ++ [.finish i p d false]) = some s ∧
      (Sys.init js).run false (h ++ [.finish i p d false, .cycle, .restart m js']) = some s' ∧
      ∀ n, look s'.base n = look s.base n := by
  obtain ⟨s, e, h1⟩ := C99_table_partial js (h ++ [.finish i p d false])
    (by
      intro e he
      rcases List.mem_append.1 he with he | he
      · exact hf e he
      · simp only [List.mem_singleton] at he; subst he; exact ⟨hp, hd⟩)
    (by
      intro e he
      rcases List.mem_append.1 he with he | he
      · exact hc e he
      · simp only [List.mem_singleton] at he; subst he; trivial)
    (by simp; omega)
  obtain ⟨s', e', h2⟩ := C99_table_partial js (h ++ [.finish i p d false, .cycle, .restart m js'])
    (by
      intro e he
      rcases List.mem_append.1 he with he | he
      · exact hf e he
      · simp only [List.mem_cons, List.not_mem_nil, or_false] at he
        rcases he with rfl | rfl | rfl
        · exact ⟨hp, hd⟩
        · trivial
        · trivial)
    (by
      intro e he
      rcases List.mem_append.1 he with he | he
      · exact hc e he
      · simp only [List.mem_cons, List.not_mem_nil, or_false] at he
        rcases he with rfl | rfl | rfl <;> trivial)
    (by simp; omega)
  refine ⟨s, s', e, e', ?_⟩
  intro n
  rw [h1, h2, tab_run_append, tab_run_append]
  have : ∀ t : Tab, (t.run [.finish i p d false, .cycle, .restart m js']).mem = (t.run [.finish i p d false]).mem := by
    intro t
    simp [Tab.run, Tab.step]
  rw [this]

example (js : Nat → Junk) (m : Mem) : ∃ s s', (Sys.init js).run false (([.select 1 tank zeros, .caustic 1] : List Ev) ++
    [.finish 1 [0x41] [0x42] false]) = some s ∧
    (Sys.init js).run false (([.select 1 tank zeros, .caustic 1] : List Ev) ++
      [.finish 1 [0x41] [0x42] false, .cycle, .restart m js]) = some s' ∧ ∀ n, look s'.base n = look s.base n :=
  C99_saved_partial js js m [.select 1 tank zeros, .caustic 1]
    (by
      intro e he
      simp only [List.mem_cons, List.not_mem_nil, or_false] at he
      rcases he with rfl | rfl
      · exact tank_fits
      · trivial)
    (by
      intro e he
      simp only [List.mem_cons, List.not_mem_nil, or_false] at he
      rcases he with rfl | rfl <;> trivial)
    (by simp) 1 _ _ (by constructor <;> decide) (by constructor <;> decide)

/-- No history, with losses of power at any moments, brings the station to an undefined state. -/
theorem C99_safe (js : Nat → Junk) (h : List Ev) (hf : ∀ e ∈ h, e.Fit) (hl : h.length ≤ 500000000) :
    ∃ s, (Sys.init js).run false h = some s := by
  obtain ⟨s, e, -, -⟩ := run_inv (init_inv js) h hf (by omega)
  exact ⟨s, e⟩

example (js : Nat → Junk) (m : Mem) : ∃ s, (Sys.init js).run false (oneWash ++ [.crash 9 m js]) = some s :=
  C99_safe js _ (by
    intro e he
    rcases List.mem_append.1 he with he | he
    · exact oneWash_fit e he
    · simp only [List.mem_singleton] at he; subst he; trivial) (by simp [oneWash])

theorem run_append (plc : Bool) (s : Sys) (a b : List Ev) :
    s.run plc (a ++ b) = (s.run plc a).bind fun s => s.run plc b := by
  induction a generalizing s with
  | nil => rfl
  | cons e a ih =>
    simp only [List.cons_append, Sys.run]
    cases s.step plc e with
    | none => rfl
    | some s1 => exact ih s1

/-- When the power is lost while the file is written, the objects that were already written as a whole keep their
statistics. -/
theorem C99_crash_partial (js js' : Nat → Junk) (m : Mem) (h : List Ev) (hf : ∀ e ∈ h, e.Fit) (hl : h.length ≤ 499999990)
    (s : Sys) (hs : (Sys.init js).run false h = some s) (hch : s.changed = true)
    (l1 l2 : Base) (hb : s.base = l1 ++ l2) (g : List Byte) (hg : putAll l1 = some g)
    (k : Nat) (hk : (decInt s.base.length ++ 0x0A :: g).length ≤ k) :
    ∃ s', (Sys.init js).run false (h ++ [.crash k m js']) = some s' ∧
      ∀ n, (find n l1).isSome → look s'.base n = look s.base n ∧ (look s.base n).isSome := by
  obtain ⟨s0, e0, i0, -⟩ := run_inv (init_inv js) h hf (by omega)
  rw [hs, Option.some.injEq] at e0
  subst e0
  have hgood := i0.good
  have hlen := i0.len
  rw [decInt_nat] at hk
  obtain ⟨f, -, hp⟩ := put_base hgood
  rw [hb] at hgood hp hk hlen
  obtain ⟨b', e, g', l', lk⟩ := load_kept (by omega) hgood (by omega) hp hg k hk m
  refine ⟨{ base := b', at' := fun _ => none, empty := fun i => Obj.empty (js' i), 
                         file := some ((dec (l1 ++ l2).length ++ 0x0A :: f).take k), changed := false }, ?_, ?_⟩
  · rw [run_append, hs]
    simp only [Option.bind_some, Sys.run, Sys.step, hch, ↓reduceIte, hb, hp, Sys.boot, load, e, Option.map_some]
  · intro n hn
    have h1 : Good (0 + h.length) l1 := ⟨(List.pairwise_append.1 hgood.sorted).1,
      fun p hp => hgood.shape p (List.mem_append_left _ hp), fun p hp => hgood.key p (List.mem_append_left _ hp)⟩
    have hfind : ∀ (l : Base), (find n l).isSome → find n (l ++ l2) = find n l := by
      intro l
      induction l with
      | nil => simp [find]
      | cons p l ih =>
        obtain ⟨a, b⟩ := p
        intro hx
        rw [List.cons_append, find_cons, find_cons]
        split
        · rfl
        · next hne => rw [find_cons, if_neg hne] at hx; exact ih hx
    have : look s.base n = look l1 n := by rw [hb]; simp only [look, hfind l1 hn]
    simp only
    rw [lk n hn, this, h1.look_some]
    exact ⟨rfl, hn⟩

/-- The station of the examples after one wash. -/
def washed : Sys := ((Sys.init fun _ => zeros).run false oneWash).get (by decide +kernel)

theorem washed_run : (Sys.init fun _ => zeros).run false oneWash = some washed := (Option.some_get _).symm

example (js : Nat → Junk) (m : Mem) : ∃ s', (Sys.init fun _ => zeros).run false (oneWash ++ [.crash 63 m js]) = some s' ∧
    look s'.base tank = some ⟨[0x42, 0x43], [0x41], unknown, 1⟩ := by
  obtain ⟨s', e, h⟩ := C99_crash_partial (fun _ => zeros) js m oneWash oneWash_fit (by simp [oneWash]) washed washed_run
    (by decide +kernel) washed.base [] (by simp) ((putAll washed.base).get (by decide +kernel)) (Option.some_get _).symm 63
    (by decide +kernel)
  refine ⟨s', e, ?_⟩
  rw [(h tank (by decide +kernel)).1]
  decide +kernel

/-- The file is emptied before it is written: when the power is lost then, nothing is left of any object. -/
theorem C99_truncated_violated (js js' : Nat → Junk) (m : Mem) (h : List Ev) (hf : ∀ e ∈ h, e.Fit) (hl : h.length ≤ 500000000)
    (s : Sys) (hs : (Sys.init js).run false h = some s) (hch : s.changed = true) :
    ∃ s', (Sys.init js).run false (h ++ [.crash 0 m js']) = some s' ∧
      ∀ n r, look s'.base n = some r → n <+: tmp ∧ r.caustic = 0 := by
  obtain ⟨s0, e0, i0, -⟩ := run_inv (init_inv js) h hf (by omega)
  rw [hs, Option.some.injEq] at e0
  subst e0
  obtain ⟨f, -, hp⟩ := put_base i0.good
  obtain ⟨b', e, g', hall⟩ := load_empty m
  refine ⟨{ base := b', at' := fun _ => none, empty := fun i => Obj.empty (js' i), file := some [], changed := false }, ?_, ?_⟩
  · rw [run_append, hs]
    simp only [Option.bind_some, Sys.run, Sys.step, hch, ↓reduceIte, hp, Sys.boot, load, List.take_zero, e, Option.map_some]
  · intro n r hr
    simp only [look, Option.bind_eq_some_iff] at hr
    obtain ⟨o, ho, hv⟩ := hr
    have := hall _ (find_mem ho)
    refine ⟨this.1, ?_⟩
    simp only [Obj.view, Option.bind_eq_bind, Option.bind_eq_some_iff, Option.some.injEq] at hv
    obtain ⟨_, _, _, _, _, _, rfl⟩ := hv
    exact this.2

example (js : Nat → Junk) (m : Mem) : ∃ s s', (Sys.init js).run false oneWash = some s ∧ (look s.base tank).isSome ∧
    (Sys.init js).run false (oneWash ++ [.crash 0 m js]) = some s' ∧ look s'.base tank = none := by
  obtain ⟨s, es, is, rs⟩ := run_inv (init_inv js) oneWash oneWash_fit (by simp [oneWash])
  have hr := rs _ (init_rel js) (by
      intro e he
      simp only [oneWash, List.mem_cons, List.not_mem_nil, or_false] at he
      rcases he with rfl | rfl | rfl <;> trivial)
  obtain ⟨s', e', h⟩ := C99_truncated_violated js js m oneWash oneWash_fit (by simp [oneWash]) s es hr.dirty
  refine ⟨s, s', es, by rw [hr.mem]; rfl, e', ?_⟩
  cases hl : look s'.base tank with
  | none => rfl
  | some r =>
    have := (h _ _ hl).1
    simp [tank, tmp] at this

theorem disk_none (h : List Ev) (hn : ∀ e ∈ h, e ≠ .cycle) (t : Tab) (ht : ∀ n, t.disk n = none) (n : Name) :
    (t.run h).disk n = none := by
  induction h generalizing t with
  | nil => exact ht n
  | cons e h ih =>
    refine ih (fun x hx => hn x (List.mem_cons_of_mem _ hx)) _ ?_
    intro x
    have he := hn e (List.mem_cons_self ..)
    cases e <;> simp only [Tab.step, ne_eq, not_true_eq_false] at he ⊢
    all_goals first
      | exact ht x
      | (unfold Tab.on; split <;> exact ht x)

/-- The statistics are written by the first line, and not while it is locked: whatever the other lines wash meanwhile is
forgotten at a restart. -/
theorem C99_locked_violated (js js' : Nat → Junk) (m : Mem) (h : List Ev) (hf : ∀ e ∈ h, e.Fit) (hc : ∀ e ∈ h, e.Calm)
    (hl : h.length ≤ 499999990) (hn : ∀ e ∈ h, e ≠ .cycle) :
    ∃ s', (Sys.init js).run false (h ++ [.restart m js']) = some s' ∧ ∀ n, look s'.base n = none := by
  obtain ⟨s', e', h2⟩ := C99_table_partial js (h ++ [.restart m js'])
    (by
      intro e he
      rcases List.mem_append.1 he with he | he
      · exact hf e he
      · simp only [List.mem_singleton] at he; subst he; trivial)
    (by
      intro e he
      rcases List.mem_append.1 he with he | he
      · exact hc e he
      · simp only [List.mem_singleton] at he; subst he; trivial)
    (by simp; omega)
  refine ⟨s', e', fun n => ?_⟩
  rw [h2, tab_run_append]
  exact disk_none h hn Tab.init (fun _ => rfl) n

example (js : Nat → Junk) (m : Mem) : ∃ s s', (Sys.init js).run false (oneWash ++ [.locked]) = some s ∧
    (look s.base tank).isSome ∧
    (Sys.init js).run false ((oneWash ++ [.locked]) ++ [.restart m js]) = some s' ∧ look s'.base tank = none := by
  have hf : ∀ e ∈ oneWash ++ [.locked], e.Fit := by
    intro e he
    rcases List.mem_append.1 he with he | he
    · exact oneWash_fit e he
    · simp only [List.mem_singleton] at he; subst he; trivial
  have hc : ∀ e ∈ oneWash ++ [.locked], e.Calm := by
    intro e he
    simp only [oneWash, List.cons_append, List.nil_append, List.mem_cons, List.not_mem_nil, or_false] at he
    rcases he with rfl | rfl | rfl | rfl <;> trivial
  obtain ⟨s, es, h1⟩ := C99_table_partial js (oneWash ++ [.locked]) hf hc (by simp [oneWash])
  obtain ⟨s', es', h2⟩ := C99_locked_violated js js m (oneWash ++ [.locked]) hf hc (by simp [oneWash]) (by
    intro e he
    simp only [oneWash, List.cons_append, List.nil_append, List.mem_cons, List.not_mem_nil, or_false] at he
    rcases he with rfl | rfl | rfl | rfl <;> simp)
  exact ⟨s, s', es, by rw [h1]; rfl, es', h2 tank⟩

/-- A file with a text longer than the array it is read into: the length is looked at after the text was stored. -/
theorem C99_corrupt_violated (m : Mem) (id r : List Byte) (hid : 96 < id.length) (hmax : id.length ≤ 2147483647) (n : Nat)
    (hn : n ≤ 2147483647) :
    Base.get m (dec 1 ++ 0x0A :: (dec n ++ fieldBytes id ++ r)) = none := by
  have h1 := int_num (w := []) (d := dec 1) (r := 0x0A :: (dec n ++ fieldBytes id ++ r)) (by simp) (dec_digits _) (dec_ne _)
    (nl_not_digit _) (by rw [dec_number]; omega) m.count
  rw [dec_number] at h1
  simp only [List.nil_append, List.isEmpty_cons, Bool.not_false] at h1
  simp only [Base.get]
  rw [h1]
  obtain ⟨o, eo, so, -, -, -⟩ := new_ok (m.recs 0) fits_tmp
  have h2 := int_num (w := [0x0A]) (d := dec n) (r := fieldBytes id ++ r) ws_nl (dec_digits _) (dec_ne _)
    (field_not_digit _ _) (by rw [dec_number]; exact hn) o.caustic
  rw [dec_number] at h2
  have hne : (!(fieldBytes id ++ r).isEmpty) = true := rfl
  rw [hne] at h2
  simp only [List.cons_append, List.nil_append] at h2
  have h3 := int_num (w := []) (d := dec id.length) (r := 0x23 :: (id ++ r)) (by simp) (dec_digits _) (dec_ne _)
    (sharp_not_digit _) (by rw [dec_number]; exact hmax) (m.recs 0).sl
  rw [dec_number] at h3
  simp only [List.nil_append, List.isEmpty_cons, Bool.not_false] at h3
  have hft : (In.mk (fieldBytes id ++ r) true).field o.id (m.recs 0).sl = none := by
    simp only [In.field, fieldBytes, List.cons_append, List.append_assoc]
    rw [char_num sharp_not_ws, h3]
    simp only [char_num sharp_not_ws]
    have ht : (id ++ r).take id.length = id := by simp
    simp only [In.text, ↓reduceIte, Int.toNat_natCast, ht]
    rw [if_pos (by rw [so.id]; exact hid)]
    rfl
  show getAll 1 m.recs ⟨0x0A :: (dec n ++ fieldBytes id ++ r), true⟩ [] = none
  simp only [getAll, eo, Option.bind_eq_bind, Option.bind_some, Obj.get, List.append_assoc]
  rw [h2]
  simp only [hft, Option.bind_none]

example (m : Mem) : Base.get m (dec 1 ++ 0x0A :: (dec 0 ++ fieldBytes (List.replicate 97 0x41) ++ [])) = none :=
  C99_corrupt_violated m _ _ (by simp) (by simp) 0 (by omega)

/-- On a PLCnext controller every save writes past the end of an array. -/
theorem C99_plcnext_violated (s : Sys) (h : s.changed = true) : s.step true .cycle = none := by
  simp [Sys.step, h, Sys.save]

example : (Sys.init fun _ => zeros).run true oneWash = some washed ∧ washed.step true .cycle = none :=
  ⟨washed_run, C99_plcnext_violated washed (by decide +kernel)⟩

end Ptusa.CipStats
