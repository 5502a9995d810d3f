import Verif.CipStats.LemmasBase

namespace Ptusa.CipStats

open Ptusa.Tcp (Byte)
open Ptusa.Registry (Name cmp cmp_eq cmp_lt cmp_gt cmp_self)

/-! ### Files -/

theorem put_base {m : Nat} {b : Base} (h : Good m b) :
    ∃ g, putAll b = some g ∧ b.put = some (dec b.length ++ 0x0A :: g) := by
  obtain ⟨g, hg⟩ := putAll_some h
  exact ⟨g, hg, by simp [Base.put, hg, decInt_nat]⟩

theorem nl_not_digit (l : List Byte) : (0x0A :: l : List Byte).takeWhile isDigit = [] := by
  simp [List.takeWhile_cons, isDigit]

theorem putAll_append {a b : Base} {f g : List Byte} (hf : putAll a = some f) (hg : putAll b = some g) :
    putAll (a ++ b) = some (f ++ g) := by
  induction a generalizing f with
  | nil => simp only [putAll, Option.some.injEq] at hf; subst hf; simpa using hg
  | cons p a ih =>
    obtain ⟨k, o⟩ := p
    simp only [putAll, Option.bind_eq_bind, Option.bind_eq_some_iff, Option.some.injEq] at hf
    obtain ⟨x, hx, y, hy, rfl⟩ := hf
    simp only [List.cons_append, putAll, hx, ih hy, Option.bind_eq_bind, Option.bind_some, List.append_assoc]

/-- The first records of a file that ends early are all loaded. -/
theorem load_kept {m : Nat} (hm : m ≤ 2147483647) {l1 l2 : Base} (h : Good m (l1 ++ l2))
    (hlen : (l1 ++ l2).length ≤ 2147483647) {f g : List Byte} (hf : (l1 ++ l2).put = some f) (hg : putAll l1 = some g)
    (k : Nat) (hk : (dec (l1 ++ l2).length ++ 0x0A :: g).length ≤ k) (mem : Mem) :
    ∃ b', Base.get mem (f.take k) = some b' ∧ Good m b' ∧ b'.length ≤ (l1 ++ l2).length ∧
      ∀ x, (find x l1).isSome → look b' x = look l1 x := by
  have h1 : Good m l1 := ⟨(List.pairwise_append.1 h.sorted).1, fun p hp => h.shape p (List.mem_append_left _ hp),
    fun p hp => h.key p (List.mem_append_left _ hp)⟩
  have h2 : Good m l2 := ⟨(List.pairwise_append.1 h.sorted).2.1, fun p hp => h.shape p (List.mem_append_right _ hp),
    fun p hp => h.key p (List.mem_append_right _ hp)⟩
  obtain ⟨g2, hg2⟩ := putAll_some h2
  have hall := putAll_append hg hg2
  simp only [Base.put, hall, Option.bind_eq_bind, Option.bind_some, Option.some.injEq, decInt_nat] at hf
  subst hf
  have htake : (dec (l1 ++ l2).length ++ 0x0A :: (g ++ g2)).take k
      = dec (l1 ++ l2).length ++ 0x0A :: (g ++ g2.take (k - (dec (l1 ++ l2).length ++ 0x0A :: g).length)) := by
    rw [show dec (l1 ++ l2).length ++ 0x0A :: (g ++ g2) = (dec (l1 ++ l2).length ++ 0x0A :: g) ++ g2 by simp,
      List.take_append, List.take_of_length_le hk]
    simp
  rw [htake]
  generalize hz : k - (dec (l1 ++ l2).length ++ 0x0A :: g).length = z
  have hint := int_num (w := []) (d := dec (l1 ++ l2).length) (r := 0x0A :: (g ++ g2.take z)) (by simp) (dec_digits _)
    (dec_ne _) (nl_not_digit _) (by rw [dec_number]; exact hlen) mem.count
  rw [dec_number] at hint
  simp only [List.nil_append, List.isEmpty_cons, Bool.not_false] at hint
  simp only [Base.get]
  rw [hint]
  simp only [Int.toNat_natCast, List.length_append]
  obtain ⟨js', w', b', hw', e, gb, len, lk⟩ := loop_num hm l1 h1 g hg l2.length (g2.take z) mem.recs [0x0A] ws_nl []
    (good_nil m)
  obtain ⟨b'', e2, gb2, len2⟩ := loop_pre hm l2 h2 g2 hg2 js' w' hw' ⟨w' ++ g2.take z, true⟩
    (Or.inr ⟨rfl, List.prefix_append_right_inj w' |>.2 (List.take_prefix _ _)⟩) b' gb
  refine ⟨b'', ?_, gb2, ?_, ?_⟩
  · simp only [List.cons_append, List.nil_append] at e
    rw [e, e2]
  · simp only [List.length_nil] at len; omega
  · intro x hx
    have hl := lk x
    simp only [find, Option.isSome_none, Bool.false_eq_true, ↓reduceIte] at hl
    have hsome : (find x b').isSome := by
      rw [← gb.look_some, hl, h1.look_some]; exact hx
    have hk := getAll_keep _ _ _ _ _ e2 gb.sorted x hsome
    rw [← hl]
    simp only [look, hk]

/-- A file that is whole is loaded as it was. -/
theorem load_full {m : Nat} (hm : m ≤ 2147483647) {b : Base} (h : Good m b) (hlen : b.length ≤ 2147483647) {f : List Byte}
    (hf : b.put = some f) (mem : Mem) :
    ∃ b', Base.get mem f = some b' ∧ Good m b' ∧ b'.length ≤ b.length ∧ ∀ x, look b' x = look b x := by
  obtain ⟨g, hg, hp⟩ := put_base h
  rw [hp] at hf
  simp only [Option.some.injEq] at hf
  subst hf
  have hint := int_num (w := []) (d := dec b.length) (r := 0x0A :: g) (by simp) (dec_digits _)
    (dec_ne _) (nl_not_digit _) (by rw [dec_number]; exact hlen) mem.count
  rw [dec_number] at hint
  simp only [List.nil_append, List.isEmpty_cons, Bool.not_false] at hint
  simp only [Base.get, hint, Int.toNat_natCast]
  obtain ⟨js', w', b', hw', e, gb, len, lk⟩ := loop_num hm b h g hg 0 [] mem.recs [0x0A] ws_nl [] (good_nil m)
  refine ⟨b', ?_, gb, by simpa using len, ?_⟩
  · simpa [getAll] using e
  · intro x
    have := lk x
    simpa [find] using this

/-- A file that ends early is loaded without harm. -/
theorem load_prefix {m : Nat} (hm : m ≤ 2147483647) {b : Base} (h : Good m b) (hlen : b.length ≤ 2147483647) {f : List Byte}
    (hf : b.put = some f) (k : Nat) (mem : Mem) :
    ∃ b', Base.get mem (f.take k) = some b' ∧ Good m b' ∧ b'.length ≤ b.length + 4 := by
  obtain ⟨g, hg, hp⟩ := put_base h
  rw [hp] at hf
  simp only [Option.some.injEq] at hf
  subst hf
  have hpre : Pre (In.mk ((dec b.length ++ 0x0A :: g).take k) true) ([] ++ (dec b.length ++ 0x0A :: g)) :=
    Or.inr ⟨rfl, List.take_prefix _ _⟩
  obtain ⟨p, -, hn⟩ := int_pre (by simp) (nl_not_digit g) hlen hpre mem.count
  simp only [Base.get]
  generalize hs : (In.mk ((dec b.length ++ 0x0A :: g).take k) true).int mem.count = q at p hn
  obtain ⟨s, n⟩ := q
  simp only at p hn ⊢
  by_cases hok : s.ok = true
  · have := hn hok
    subst this
    obtain ⟨b', e, g', len⟩ := loop_pre hm b h g hg mem.recs [0x0A] ws_nl s p [] (good_nil m)
    exact ⟨b', by simpa using e, g', by simp at len; omega⟩
  · obtain ⟨b', e, g', hall⟩ := loop_fail n.toNat mem.recs s (by simpa using hok) [] (good_nil m)
    refine ⟨b', e, g', ?_⟩
    have := sorted_tmp_length g'.sorted fun p hp => by
      rcases hall p hp with h | h
      · simp at h
      · exact h.1
    omega

/-- An empty file. -/
theorem load_empty (mem : Mem) :
    ∃ b', Base.get mem [] = some b' ∧ Good 0 b' ∧ ∀ p ∈ b', p.1 <+: tmp ∧ p.2.caustic = 0 := by
  have : (In.mk [] true).int mem.count = (⟨[], false⟩, mem.count) := by simp [In.int]
  simp only [Base.get, this]
  obtain ⟨b', e, g', hall⟩ := loop_fail (m := 0) mem.count.toNat mem.recs ⟨[], false⟩ rfl [] (good_nil 0)
  refine ⟨b', e, g', fun p hp => ?_⟩
  rcases hall p hp with h | h
  · simp at h
  · exact h

/-! ### Changes of an object -/

/-- `f` does to an object what `g` does to what is shown of it. -/
structure Op (m : Nat) (f : Obj → Option Obj) (g : Stat → Stat) : Prop where
  run : ∀ o, Shape m o → ∃ o', f o = some o' ∧ Shape (m + 1) o' ∧ o'.id = o.id ∧ o'.view = o.view.map g

theorem op_caustic {m : Nat} (hm : m < 2147483647) : Op m Obj.addCaustic fun r => { r with caustic := r.caustic + 1 } where
  run o h := by
    have h1 := h.low; have h2 := h.high
    refine ⟨{ o with caustic := o.caustic + 1 }, by simp only [Obj.addCaustic]; rw [if_pos (by omega)], ?_, rfl, ?_⟩
    · exact { h with low := by simp only; omega, high := by simp only; omega }
    · simp only [Obj.view, Option.bind_eq_bind]
      cases cstr o.wash <;> cases cstr o.prog <;> cases cstr o.acid <;> rfl

theorem op_acid (m : Nat) {d : Name} (hd : Fits 72 d) : Op m (Obj.setAcid d) fun r => { r with caustic := 0, acid := d } where
  run o h := by
    obtain ⟨b, e, l, z, c⟩ := strcpy_fit (b := o.acid) (s := d) (by rw [h.acid]; exact hd)
    rw [h.acid] at l
    refine ⟨{ o with caustic := 0, acid := b }, by simp [Obj.setAcid, e], ?_, rfl, ?_⟩
    · exact { h with acid := l, acid0 := z, low := by simp, high := by simp only; omega }
    · obtain ⟨a, ha, -⟩ := cstr_some h.acid0
      simp only [Obj.view, Option.bind_eq_bind, c, ha]
      cases cstr o.wash <;> cases cstr o.prog <;> rfl

theorem op_wash (m : Nat) {p d : Name} (hp : Fits 72 p) (hd : Fits 72 d) :
    Op m (Obj.setWash p d) fun r => { r with prog := p, wash := d } where
  run o h := by
    obtain ⟨b, e, l, z, c⟩ := strcpy_fit (b := o.prog) (s := p) (by rw [h.prog]; exact hp)
    obtain ⟨b', e', l', z', c'⟩ := strcpy_fit (b := o.wash) (s := d) (by rw [h.wash]; exact hd)
    rw [h.prog] at l
    rw [h.wash] at l'
    have hh := h.high
    refine ⟨{ o with prog := b, wash := b' }, by simp [Obj.setWash, e, e'], ?_, rfl, ?_⟩
    · exact { h with prog := l, prog0 := z, wash := l', wash0 := z', high := by simp only; omega }
    · obtain ⟨x, hx, -⟩ := cstr_some h.prog0
      obtain ⟨y, hy, -⟩ := cstr_some h.wash0
      simp only [Obj.view, Option.bind_eq_bind, c, c', hx, hy]
      cases cstr o.acid <;> rfl

theorem reset_ok {m : Nat} {o : Obj} (h : Shape m o) : ∃ o', o.reset = some o' ∧ Shape 0 o' ∧ o'.caustic = 0 := by
  obtain ⟨a, e1, l1, z1, -⟩ := strcpy_fit (b := o.acid) (s := unknown) (by rw [h.acid]; exact fits_unknown)
  obtain ⟨p, e2, l2, z2, -⟩ := strcpy_fit (b := o.prog) (s := undetermined) (by rw [h.prog]; exact fits_undetermined)
  obtain ⟨w, e3, l3, z3, -⟩ := strcpy_fit (b := o.wash) (s := unknown) (by rw [h.wash]; exact fits_unknown)
  rw [h.acid] at l1
  rw [h.prog] at l2
  rw [h.wash] at l3
  exact ⟨{ o with acid := a, prog := p, wash := w, caustic := 0 }, by simp [Obj.reset, e1, e2, e3],
    ⟨h.id, l3, l2, l1, h.id0, z3, z2, z1, by simp, by simp⟩, rfl⟩

theorem modify_ok {m : Nat} {f : Obj → Option Obj} {g : Stat → Stat} (hf : Op m f g) {b : Base} (hb : Good m b) {n : Name}
    (hn : (find n b).isSome) :
    ∃ b', modify n f b = some b' ∧ Good (m + 1) b' ∧ b'.map (·.1) = b.map (·.1) ∧
      (∀ x, (find x b').isSome = (find x b).isSome) ∧
      ∀ x, look b' x = if x = n then (look b x).map g else look b x := by
  induction b with
  | nil => simp [find] at hn
  | cons p b ih =>
    obtain ⟨k, o⟩ := p
    have hso := hb.shape (k, o) (List.mem_cons_self ..)
    have hko := hb.key (k, o) (List.mem_cons_self ..)
    have hpw := List.pairwise_cons.1 hb.sorted
    simp only [modify, cmp_eq]
    by_cases e : n = k
    · subst e
      obtain ⟨o', e1, s1, i1, v1⟩ := hf.run o hso
      refine ⟨(n, o') :: b, by simp [e1], ⟨List.pairwise_cons.2 ⟨hpw.1, hpw.2⟩, ?_, ?_⟩, rfl, ?_, ?_⟩
      · intro p hp
        simp only [List.mem_cons] at hp
        rcases hp with rfl | hp
        · exact s1
        · exact (hb.shape p (List.mem_cons_of_mem _ hp)).mono (by omega)
      · intro p hp
        simp only [List.mem_cons] at hp
        rcases hp with rfl | hp
        · simp only; rw [i1]; exact hko
        · exact hb.key p (List.mem_cons_of_mem _ hp)
      · intro x; rw [find_cons, find_cons]; split <;> simp
      · intro x
        simp only [look, find_cons]
        by_cases hx : x = n
        · simp [hx, v1]
        · simp [hx]
    · rw [find_cons, if_neg e] at hn
      obtain ⟨b', e1, g1, m1, f1, k1⟩ := ih hb.tail hn
      rw [if_neg e]
      refine ⟨(k, o) :: b', by simp [e1], ⟨List.pairwise_cons.2 ⟨?_, g1.sorted⟩, ?_, ?_⟩, by simp [m1], ?_, ?_⟩
      · intro p hp
        have hmem : p.1 ∈ b'.map (·.1) := List.mem_map_of_mem hp
        rw [m1] at hmem
        obtain ⟨q, hq, hqe⟩ := List.mem_map.1 hmem
        rw [← hqe]
        exact hpw.1 q hq
      · intro p hp
        simp only [List.mem_cons] at hp
        rcases hp with rfl | hp
        · exact hso.mono (by omega)
        · exact g1.shape p hp
      · intro p hp
        simp only [List.mem_cons] at hp
        rcases hp with rfl | hp
        · exact hko
        · exact g1.key p hp
      · intro x; rw [find_cons, find_cons]; split
        · rfl
        · exact f1 x
      · intro x
        have := k1 x
        simp only [look, find_cons] at this ⊢
        by_cases hx : x = k
        · have : ¬ k = n := fun hh => e hh.symm
          simp [hx, this]
        · simpa [hx] using this

/-! ### The station -/

/-- What holds after at most `m` events. -/
structure Inv (m : Nat) (s : Sys) : Prop where
  good : Good m s.base
  len : s.base.length ≤ 4 * m
  empty : ∀ i, Shape m (s.empty i)
  ptr : ∀ i n, s.at' i = some n → (find n s.base).isSome
  file : s.file = none ∨ ∃ b0 f k, Good m b0 ∧ b0.length ≤ 4 * m ∧ b0.put = some f ∧ s.file = some (f.take k)

/-- The station and the table agree. -/
structure Rel (m : Nat) (s : Sys) (t : Tab) : Prop where
  mem : ∀ n, look s.base n = t.mem n
  at' : s.at' = t.at'
  dirty : s.changed = t.dirty
  disk : s.file = none ∧ (∀ n, t.disk n = none) ∨
    ∃ b0 f, Good m b0 ∧ b0.length ≤ 4 * m ∧ b0.put = some f ∧ s.file = some f ∧ ∀ n, t.disk n = look b0 n

theorem Inv.fileMono {m m' : Nat} {s : Sys} (h : Inv m s) (hm : m ≤ m') :
    s.file = none ∨ ∃ b0 f k, Good m' b0 ∧ b0.length ≤ 4 * m' ∧ b0.put = some f ∧ s.file = some (f.take k) := by
  rcases h.file with h | ⟨b0, f, k, h1, h2, h3, h4⟩
  · exact Or.inl h
  · exact Or.inr ⟨b0, f, k, h1.mono hm, by omega, h3, h4⟩

theorem Rel.diskMono {m m' : Nat} {s : Sys} {t : Tab} (h : Rel m s t) (hm : m ≤ m') :
    s.file = none ∧ (∀ n, t.disk n = none) ∨
    ∃ b0 f, Good m' b0 ∧ b0.length ≤ 4 * m' ∧ b0.put = some f ∧ s.file = some f ∧ ∀ n, t.disk n = look b0 n := by
  rcases h.disk with h | ⟨b0, f, h1, h2, h3, h4, h5⟩
  · exact Or.inl h
  · exact Or.inr ⟨b0, f, h1.mono hm, by omega, h3, h4, h5⟩

theorem empty_shape (j : Junk) : Shape 0 (Obj.empty j) ∧ (Obj.empty j).caustic = 0 := by
  obtain ⟨o, e, s, -, -, z⟩ := new_ok j (n := emptyName) (by constructor <;> decide)
  simp only [Obj.empty, e, Option.getD_some]
  exact ⟨s, z⟩

theorem upd_self {α : Type} (f : Nat → α) (i : Nat) (v : α) : upd f i v i = v := by simp [upd]
theorem upd_ne {α : Type} (f : Nat → α) {i j : Nat} (v : α) (h : j ≠ i) : upd f i v j = f j := by simp [upd, h]

/-- Loading what the station has on disk. -/
theorem load_inv {m : Nat} (hm : m < 500000000) {s : Sys} (h : Inv m s) (mem : Mem) :
    ∃ b', load mem s.file = some b' ∧ Good (m + 1) b' ∧ b'.length ≤ 4 * (m + 1) ∧
      ∀ t, Rel m s t → ∀ n, look b' n = t.disk n := by
  rcases h.file with hf | ⟨b0, f, k, h1, h2, h3, h4⟩
  · rw [hf]
    refine ⟨[], rfl, good_nil _, by simp, ?_⟩
    intro t ht n
    rcases ht.disk with ⟨-, hd⟩ | ⟨_, _, _, _, _, hd, _⟩
    · rw [hd]; rfl
    · rw [hf] at hd; cases hd
  · obtain ⟨b', e, g, l⟩ := load_prefix (by omega) h1 (by omega) h3 k mem
    rw [h4]
    refine ⟨b', e, g.mono (by omega), by omega, ?_⟩
    intro t ht n
    rcases ht.disk with ⟨hd, -⟩ | ⟨b1, f1, k1, k2, k3, k4, k5⟩
    · rw [h4] at hd; cases hd
    · obtain ⟨b'', e', -, -, lk⟩ := load_full (by omega) k1 (by omega) k3 mem
      rw [h4, Option.some.injEq] at k4
      rw [← k4, e, Option.some.injEq] at e'
      subst e'
      rw [lk, k5]

/-- A change of the object of a line. -/
theorem onObj_inv {m : Nat} {s : Sys} (h : Inv m s) {f : Obj → Option Obj} {g : Stat → Stat} (hf : Op m f g) (i : Nat) :
    ∃ s', s.onObj i f = some s' ∧ Inv (m + 1) s' ∧ ∀ t, Rel m s t → Rel (m + 1) s' (t.on i g) := by
  unfold Sys.onObj
  cases hat : s.at' i with
  | some n =>
    obtain ⟨b', e, g1, m1, f1, k1⟩ := modify_ok hf h.good (h.ptr i n hat)
    have hlen : b'.length = s.base.length := by simpa using congrArg List.length m1
    refine ⟨{ s with base := b' }, by simp [e], ⟨g1, ?_, fun i => (h.empty i).mono (by omega), ?_, h.fileMono (by omega)⟩, ?_⟩
    · have := h.len; simp only; omega
    · intro j x hx; simp only; rw [f1]; exact h.ptr j x hx
    · intro t ht
      have : t.on i g = { t with mem := fun x => if x = n then (t.mem x).map g else t.mem x } := by
        simp only [Tab.on, ← ht.at', hat]
      rw [this]
      refine ⟨?_, ht.at', ht.dirty, ht.diskMono (by omega)⟩
      intro x
      simp only
      rw [k1, ht.mem]
  | none =>
    obtain ⟨o', e, s1, -, -⟩ := hf.run _ (h.empty i)
    refine ⟨{ s with empty := upd s.empty i o' }, by simp [e], ⟨h.good.mono (by omega), ?_, ?_, h.ptr, h.fileMono (by omega)⟩, ?_⟩
    · have := h.len; simp only; omega
    · intro j
      by_cases hj : j = i
      · subst hj; simp only; rw [upd_self]; exact s1
      · simp only; rw [upd_ne _ _ hj]; exact (h.empty j).mono (by omega)
    · intro t ht
      have : t.on i g = t := by simp only [Tab.on, ← ht.at', hat]
      rw [this]
      exact ⟨ht.mem, ht.at', ht.dirty, ht.diskMono (by omega)⟩

theorem forget_inv {m : Nat} {s : Sys} (h : Inv m s) (i : Nat) :
    ∃ s', s.forget i = some s' ∧ Inv m s' ∧ s'.changed = s.changed ∧ s'.base = s.base ∧ s'.file = s.file ∧
      s'.at' = upd s.at' i none ∧ ∀ t, Rel m s t → Rel m s' { t with at' := upd t.at' i none } := by
  obtain ⟨o, e, s1, -⟩ := reset_ok (h.empty i)
  refine ⟨{ s with empty := upd s.empty i o, at' := upd s.at' i none }, by simp [Sys.forget, e],
    ⟨h.good, h.len, ?_, ?_, h.file⟩, rfl, rfl, rfl, rfl, ?_⟩
  · intro j
    by_cases hj : j = i
    · subst hj; simp only; rw [upd_self]; exact s1.mono (by omega)
    · simp only; rw [upd_ne _ _ hj]; exact h.empty j
  · intro j n hn
    by_cases hj : j = i
    · subst hj; simp only at hn; rw [upd_self] at hn; cases hn
    · simp only at hn; rw [upd_ne _ _ hj] at hn; exact h.ptr j n hn
  · intro t ht
    exact ⟨ht.mem, by simp only; rw [ht.at'], ht.dirty, ht.disk⟩

theorem Inv.mono {m m' : Nat} {s : Sys} (h : Inv m s) (hm : m ≤ m') : Inv m' s :=
  ⟨h.good.mono hm, by have := h.len; omega, fun i => (h.empty i).mono hm, h.ptr, h.fileMono hm⟩

theorem Rel.mono {m m' : Nat} {s : Sys} {t : Tab} (h : Rel m s t) (hm : m ≤ m') : Rel m' s t :=
  ⟨h.mem, h.at', h.dirty, h.diskMono hm⟩

/-- No event does harm, and those without a loss of power do what they do to the table. -/
theorem step_inv {m : Nat} (hm : m < 500000000) {s : Sys} (h : Inv m s) {e : Ev} (he : e.Fit) :
    ∃ s', s.step false e = some s' ∧ Inv (m + 1) s' ∧ ∀ t, Rel m s t → e.Calm → Rel (m + 1) s' (t.step e) := by
  have hlen := h.len
  cases e with
  | select i n j =>
    simp only [Sys.step]
    cases hf : find n s.base with
    | some o =>
      refine ⟨_, rfl, ⟨h.good.mono (by omega), by simp only; omega, fun i => (h.empty i).mono (by omega), ?_,
        h.fileMono (by omega)⟩, ?_⟩
      · intro k x hx
        by_cases hk : k = i
        · subst hk; simp only at hx; rw [upd_self] at hx; cases hx; simp [hf]
        · simp only at hx; rw [upd_ne _ _ hk] at hx; exact h.ptr k x hx
      · intro t ht _
        refine ⟨?_, by simp only [Tab.step]; rw [ht.at'], ht.dirty, ht.diskMono (by omega)⟩
        intro x
        simp only [Tab.step]
        rw [← ht.mem]
        split
        · next e =>
          subst e
          have := h.good.look_some x
          rw [hf] at this
          cases hl : look s.base x with
          | none => rw [hl] at this; cases this
          | some r => rfl
        · rfl
    | none =>
      obtain ⟨o, e, s1, k1, v1, -⟩ := new_ok j he
      rw [e]
      refine ⟨_, rfl, ⟨(h.good.mono (by omega)).emplace (s1.mono (by omega)) k1, ?_, fun i => (h.empty i).mono (by omega), ?_,
        h.fileMono (by omega)⟩, ?_⟩
      · have := emplace_length n o s.base; simp only; omega
      · intro k x hx
        simp only
        rw [find_emplace o h.good.sorted]
        by_cases hk : k = i
        · subst hk; simp only at hx; rw [upd_self] at hx; cases hx; simp
        · simp only at hx; rw [upd_ne _ _ hk] at hx
          have := h.ptr k x hx
          split <;> simp_all
      · intro t ht _
        refine ⟨?_, by simp only [Tab.step]; rw [ht.at'], ht.dirty, ht.diskMono (by omega)⟩
        intro x
        simp only [Tab.step, look]
        rw [find_emplace o h.good.sorted, ← ht.mem]
        split
        · next e =>
          subst e
          simp [look, hf, v1]
        · rfl
  | car i n =>
    refine ⟨_, rfl, ⟨h.good.mono (by omega), by simp only; omega, fun i => (h.empty i).mono (by omega), ?_,
        h.fileMono (by omega)⟩, ?_⟩
    · intro k x hx
      by_cases hk : k = i
      · subst hk; simp only at hx; rw [upd_self] at hx
        cases hf : find n s.base with
        | none => rw [hf] at hx; cases hx
        | some o => rw [hf] at hx; cases hx; simp [hf]
      · simp only at hx; rw [upd_ne _ _ hk] at hx; exact h.ptr k x hx
    · intro t ht _
      refine ⟨ht.mem, ?_, ht.dirty, ht.diskMono (by omega)⟩
      simp only [Tab.step]
      rw [ht.at', ← ht.mem, h.good.look_some]
      cases find n s.base <;> rfl
  | caustic i =>
    obtain ⟨s', e, i1, r1⟩ := onObj_inv h (op_caustic (by omega)) i
    exact ⟨s', e, i1, fun t ht _ => r1 t ht⟩
  | acid i d =>
    obtain ⟨s', e, i1, r1⟩ := onObj_inv h (op_acid m he) i
    exact ⟨s', e, i1, fun t ht _ => r1 t ht⟩
  | finish i p d reset =>
    obtain ⟨s1, e1, i1, r1⟩ := onObj_inv h (op_wash m he.1 he.2) i
    have i2 : Inv (m + 1) { s1 with changed := s1.changed || !reset } := ⟨i1.good, i1.len, i1.empty, i1.ptr, i1.file⟩
    obtain ⟨s2, e2, i3, -, -, -, -, r2⟩ := forget_inv i2 i
    refine ⟨s2, by simp [Sys.step, e1, e2], i3, ?_⟩
    intro t ht _
    have hr := r1 t ht
    have := r2 { t.on i fun r => { r with prog := p, wash := d } with
      dirty := (t.on i fun r => { r with prog := p, wash := d }).dirty || !reset }
      ⟨hr.mem, hr.at', by simp only; rw [hr.dirty], hr.disk⟩
    exact this
  | forget i =>
    obtain ⟨s', e, i1, -, -, -, -, r1⟩ := forget_inv h i
    exact ⟨s', e, i1.mono (by omega), fun t ht _ => (r1 t ht).mono (by omega)⟩
  | cycle =>
    obtain ⟨g, -, hp⟩ := put_base h.good
    simp only [Sys.step]
    by_cases hc : s.changed = true
    · rw [if_pos hc]
      simp only [Sys.save, Bool.false_eq_true, ↓reduceIte, hp, Option.map_some]
      refine ⟨_, rfl, ⟨h.good.mono (by omega), by simp only; omega, fun i => (h.empty i).mono (by omega), h.ptr, ?_⟩, ?_⟩
      · exact Or.inr ⟨s.base, _, (dec s.base.length ++ 0x0A :: g).length, h.good.mono (by omega), by omega, hp, by rw [List.take_length]⟩
      · intro t ht _
        have : t.dirty = true := by rw [← ht.dirty]; exact hc
        simp only [Tab.step, this, ↓reduceIte]
        exact ⟨ht.mem, ht.at', rfl, Or.inr ⟨s.base, _, h.good.mono (by omega), by omega, hp, rfl, fun n => (ht.mem n).symm⟩⟩
    · rw [if_neg hc]
      refine ⟨s, rfl, h.mono (by omega), ?_⟩
      intro t ht _
      have : t.dirty = false := by rw [← ht.dirty]; simpa using hc
      simp only [Tab.step, this, Bool.false_eq_true, ↓reduceIte]
      exact ht.mono (by omega)
  | locked => exact ⟨s, rfl, h.mono (by omega), fun t ht _ => ht.mono (by omega)⟩
  | reload w mem =>
    obtain ⟨b', e, g, l, lk⟩ := load_inv hm h mem
    simp only [Sys.step, e, Option.map_some]
    refine ⟨_, rfl, ⟨g, l, fun i => (h.empty i).mono (by omega), ?_,
      h.fileMono (by omega)⟩, ?_⟩
    · intro i n hn
      simp only [Option.bind_eq_some_iff, Option.map_eq_some_iff] at hn
      obtain ⟨x, -, o, ho, rfl⟩ := hn
      simp [ho]
    · intro t ht _
      refine ⟨lk t ht, ?_, rfl, ht.diskMono (by omega)⟩
      simp only [Tab.step]
      funext i
      cases w i with
      | none => rfl
      | some n =>
        simp only [Option.bind_some]
        rw [← lk t ht n, g.look_some]
        cases find n b' <;> rfl
  | restart mem js =>
    obtain ⟨b', e, g, l, lk⟩ := load_inv hm h mem
    simp only [Sys.step, Sys.boot, e, Option.map_some]
    refine ⟨_, rfl, ⟨g, l, ?_, ?_, h.fileMono (by omega)⟩, ?_⟩
    · intro i; exact (empty_shape (js i)).1.mono (by omega)
    · intro i n hn; cases hn
    · intro t ht _
      exact ⟨lk t ht, rfl, rfl, ht.diskMono (by omega)⟩
  | crash k mem js =>
    simp only [Sys.step]
    by_cases hc : s.changed = true
    · rw [if_pos hc]
      obtain ⟨g, -, hp⟩ := put_base h.good
      obtain ⟨b', e, g', l⟩ := load_prefix (by omega) h.good (by omega) hp k mem
      rw [hp]
      simp only [Option.bind_some, Sys.boot, load, e, Option.map_some]
      refine ⟨_, rfl, ⟨g'.mono (by omega), by simp only; omega, ?_,
        ?_, Or.inr ⟨s.base, _, k, h.good.mono (by omega), by omega, hp, rfl⟩⟩, fun _ _ hcalm => hcalm.elim⟩
      · intro i; exact (empty_shape (js i)).1.mono (by omega)
      · intro i n hn; cases hn
    · rw [if_neg hc]
      obtain ⟨b', e, g, l, lk⟩ := load_inv hm h mem
      simp only [Sys.boot, e, Option.map_some]
      refine ⟨_, rfl, ⟨g, l, ?_, ?_, h.fileMono (by omega)⟩,
        fun _ _ hcalm => hcalm.elim⟩
      · intro i; exact (empty_shape (js i)).1.mono (by omega)
      · intro i n hn; cases hn

theorem init_inv (js : Nat → Junk) : Inv 0 (Sys.init js) :=
  ⟨good_nil 0, by simp [Sys.init], fun i => (empty_shape (js i)).1, by simp [Sys.init], Or.inl rfl⟩

theorem init_rel (js : Nat → Junk) : Rel 0 (Sys.init js) Tab.init :=
  ⟨fun _ => rfl, rfl, rfl, Or.inl ⟨rfl, fun _ => rfl⟩⟩

/-- A whole history. -/
theorem run_inv {m : Nat} {s : Sys} (h : Inv m s) (es : List Ev) (hes : ∀ e ∈ es, e.Fit) (hm : m + es.length ≤ 500000000) :
    ∃ s', s.run false es = some s' ∧ Inv (m + es.length) s' ∧
      ∀ t, Rel m s t → (∀ e ∈ es, e.Calm) → Rel (m + es.length) s' (t.run es) := by
  induction es generalizing m s with
  | nil => exact ⟨s, rfl, h, fun t ht _ => ht⟩
  | cons e es ih =>
    simp only [List.length_cons] at hm
    obtain ⟨s1, e1, i1, r1⟩ := step_inv (by omega) h (hes e (List.mem_cons_self ..))
    obtain ⟨s2, e2, i2, r2⟩ := ih i1 (fun x hx => hes x (List.mem_cons_of_mem _ hx)) (by omega)
    have harith : m + 1 + es.length = m + (e :: es).length := by simp only [List.length_cons]; omega
    rw [harith] at i2 r2
    refine ⟨s2, by simp [Sys.run, e1, e2], i2, ?_⟩
    intro t ht hc
    exact r2 _ (r1 t ht (hc e (List.mem_cons_self ..))) fun x hx => hc x (List.mem_cons_of_mem _ hx)

end Ptusa.CipStats
