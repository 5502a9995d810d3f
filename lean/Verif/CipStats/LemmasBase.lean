import Verif.CipStats.Lemmas

namespace Ptusa.CipStats

open Ptusa.Tcp (Byte)
open Ptusa.Registry (Name cmp cmp_eq cmp_lt cmp_gt cmp_self)

/-! ### Texts -/

theorem cstr_text {s : Name} (h : (0 : Byte) ∉ s) (t : List Byte) : cstr (s ++ 0 :: t) = some s := by
  have : (s ++ 0 :: t).takeWhile (· != 0) = s := by
    induction s with
    | nil => simp
    | cons x s ih =>
      simp only [List.mem_cons, not_or] at h
      have hx : (x != 0) = true := by simpa using fun e => h.1 e.symm
      simp only [List.cons_append, List.takeWhile_cons, hx, ↓reduceIte, ih h.2]
  simp only [cstr, List.mem_append, List.mem_cons, true_or, or_true, ↓reduceIte, this]

theorem cstr_some {b : List Byte} (h : (0 : Byte) ∈ b) : ∃ s, cstr b = some s ∧ (0 : Byte) ∉ s ∧ s.length < b.length := by
  refine ⟨b.takeWhile (· != 0), by rw [cstr, if_pos h], ?_, ?_⟩
  · intro hm
    have := List.all_eq_true.1 (List.all_takeWhile (p := fun x : Byte => x != 0) (l := b)) _ hm
    simp at this
  · induction b with
    | nil => simp at h
    | cons x b ih =>
      simp only [List.takeWhile_cons]
      split
      · next hx =>
        simp only [List.mem_cons] at h
        rcases h with h | h
        · subst h; simp at hx
        · simpa using ih h
      · simp

theorem strcpy_fit {b : List Byte} {s : Name} (h : Fits b.length s) :
    ∃ b', strcpy b s = some b' ∧ b'.length = b.length ∧ (0 : Byte) ∈ b' ∧ cstr b' = some s := by
  refine ⟨s ++ 0 :: b.drop (s.length + 1), by simp [strcpy, h.2], ?_, by simp, cstr_text h.1 _⟩
  have := h.2
  simp; omega

/-! ### Objects -/

/-- Arrays of the right size with texts that have an end, and a counter below `m`. -/
structure Shape (m : Nat) (o : Obj) : Prop where
  id : o.id.length = 96
  wash : o.wash.length = 72
  prog : o.prog.length = 72
  acid : o.acid.length = 72
  id0 : (0 : Byte) ∈ o.id
  wash0 : (0 : Byte) ∈ o.wash
  prog0 : (0 : Byte) ∈ o.prog
  acid0 : (0 : Byte) ∈ o.acid
  low : 0 ≤ o.caustic
  high : o.caustic ≤ m

theorem Shape.mono {m m' : Nat} {o : Obj} (h : Shape m o) (hm : m ≤ m') : Shape m' o :=
  { h with high := by have := h.high; omega }

theorem Shape.view {m : Nat} {o : Obj} (h : Shape m o) : ∃ r, o.view = some r := by
  obtain ⟨w, hw, -⟩ := cstr_some h.wash0
  obtain ⟨p, hp, -⟩ := cstr_some h.prog0
  obtain ⟨a, ha, -⟩ := cstr_some h.acid0
  exact ⟨⟨w, p, a, o.caustic⟩, by simp [Obj.view, hw, hp, ha]⟩

theorem fits_unknown : Fits 72 unknown := by constructor <;> decide
theorem fits_undetermined : Fits 72 undetermined := by constructor <;> decide
theorem fits_tmp : Fits 96 tmp := by constructor <;> decide

theorem new_ok (j : Junk) {n : Name} (h : Fits 96 n) :
    ∃ o, Obj.new j n = some o ∧ Shape 0 o ∧ cstr o.id = some n ∧ o.view = some Stat.fresh ∧ o.caustic = 0 := by
  have l1 : ((List.range maxId).map j.id).length = 96 := by simp [maxId]
  have l2 : ∀ f : Nat → Byte, ((List.range maxField).map f).length = 72 := by simp [maxField]
  obtain ⟨id, e1, g1, g2, g3⟩ := strcpy_fit (b := (List.range maxId).map j.id) (s := n) (by rw [l1]; exact h)
  obtain ⟨ac, a1, a2, a3, a4⟩ := strcpy_fit (b := (List.range maxField).map j.acid) (s := unknown)
    (by rw [l2]; exact fits_unknown)
  obtain ⟨pr, p1, p2, p3, p4⟩ := strcpy_fit (b := (List.range maxField).map j.prog) (s := undetermined)
    (by rw [l2]; exact fits_undetermined)
  obtain ⟨wa, w1, w2, w3, w4⟩ := strcpy_fit (b := (List.range maxField).map j.wash) (s := unknown)
    (by rw [l2]; exact fits_unknown)
  rw [l1] at g1
  rw [l2] at a2 p2 w2
  refine ⟨⟨id, wa, pr, ac, 0⟩, by simp [Obj.new, e1, a1, p1, w1], ⟨g1, w2, p2, a2, g2, w3, p3, a3, by simp, by simp⟩, g3,
    by simp [Obj.view, w4, p4, a4, Stat.fresh], rfl⟩

/-- A record as it is written. -/
def recBytes (n : Nat) (id wash prog acid : List Byte) (r : List Byte) : List Byte :=
  dec n ++ (fieldBytes id ++ (fieldBytes wash ++ (fieldBytes prog ++ (fieldBytes acid ++ r))))

theorem putText_some {b s : List Byte} (h : cstr b = some s) : putText b = some (fieldBytes s) := by
  simp [putText, h, fieldBytes, decInt_nat]

theorem put_ok {m : Nat} {o : Obj} (h : Shape m o) :
    ∃ id wash prog acid, cstr o.id = some id ∧ cstr o.wash = some wash ∧ cstr o.prog = some prog ∧
      cstr o.acid = some acid ∧ (0 : Byte) ∉ id ∧ (0 : Byte) ∉ wash ∧ (0 : Byte) ∉ prog ∧ (0 : Byte) ∉ acid ∧
      id.length < 96 ∧ wash.length < 72 ∧ prog.length < 72 ∧ acid.length < 72 ∧
      o.put = some (recBytes o.caustic.toNat id wash prog acid [0x0A]) := by
  obtain ⟨i, i1, i2, i3⟩ := cstr_some h.id0
  obtain ⟨w, w1, w2, w3⟩ := cstr_some h.wash0
  obtain ⟨p, p1, p2, p3⟩ := cstr_some h.prog0
  obtain ⟨a, a1, a2, a3⟩ := cstr_some h.acid0
  rw [h.id] at i3
  rw [h.wash] at w3
  rw [h.prog] at p3
  rw [h.acid] at a3
  refine ⟨i, w, p, a, i1, w1, p1, a1, i2, w2, p2, a2, i3, w3, p3, a3, ?_⟩
  simp [Obj.put, putText_some i1, putText_some w1, putText_some p1, putText_some a1, decInt_nonneg _ h.low, recBytes]

theorem field_not_digit (s r : List Byte) : (fieldBytes s ++ r).takeWhile isDigit = [] := sharp_not_digit _

/-- Reading a whole record. -/
theorem get_num {m : Nat} {o : Obj} (h : Shape m o) {w id wash prog acid r : List Byte} (hw : ∀ x ∈ w, isWs x = true)
    (h1 : id.length < 96) (h2 : wash.length < 72) (h3 : prog.length < 72) (h4 : acid.length < 72)
    (z1 : (0 : Byte) ∉ id) (z2 : (0 : Byte) ∉ wash) (z3 : (0 : Byte) ∉ prog) (z4 : (0 : Byte) ∉ acid)
    {n : Nat} (hn : n ≤ 2147483647) (sl : Int) :
    ∃ o', o.get sl (In.mk (w ++ recBytes n id wash prog acid r) true) = some (⟨r, true⟩, o') ∧ Shape n o' ∧
      cstr o'.id = some id ∧ o'.view = some ⟨wash, prog, acid, n⟩ := by
  have e0 := int_num (r := fieldBytes id ++ (fieldBytes wash ++ (fieldBytes prog ++ (fieldBytes acid ++ r)))) hw
    (dec_digits n) (dec_ne n) (field_not_digit _ _) (by rw [dec_number]; exact hn) o.caustic
  rw [dec_number] at e0
  have k1 := h.id; have k2 := h.wash; have k3 := h.prog; have k4 := h.acid
  refine ⟨⟨id ++ 0 :: o.id.drop (id.length + 1), wash ++ 0 :: o.wash.drop (wash.length + 1),
    prog ++ 0 :: o.prog.drop (prog.length + 1), acid ++ 0 :: o.acid.drop (acid.length + 1), n⟩, ?_, ?_, ?_, ?_⟩
  · have hne : (!(fieldBytes id ++ (fieldBytes wash ++ (fieldBytes prog ++ (fieldBytes acid ++ r)))).isEmpty) = true := rfl
    rw [hne] at e0
    simp only [Obj.get, recBytes, e0]
    rw [field_num (by omega) (by omega)]
    simp only [Option.bind_eq_bind, Option.bind_some]
    rw [field_num (by omega) (by omega)]
    simp only [Option.bind_some]
    rw [field_num (by omega) (by omega)]
    simp only [Option.bind_some]
    rw [field_num (by omega) (by omega)]
    rfl
  · constructor <;> simp <;> omega
  · exact cstr_text z1 _
  · simp only [Obj.view, cstr_text z2, cstr_text z3, cstr_text z4, Option.bind_eq_bind, Option.bind_some]

/-- Reading a record of which a part is there. -/
theorem get_pre {o : Obj} (h : Shape 0 o) {w id wash prog acid r : List Byte} (hw : ∀ x ∈ w, isWs x = true)
    (h1 : id.length < 96) (h2 : wash.length < 72) (h3 : prog.length < 72) (h4 : acid.length < 72)
    {n : Nat} (hn : n ≤ 2147483647) (sl : Int) {s : In} (hs : Pre s (w ++ recBytes n id wash prog acid r)) :
    ∃ s' o', o.get sl s = some (s', o') ∧ Pre s' r ∧ Shape n o' := by
  have k1 := h.id; have k2 := h.wash; have k3 := h.prog; have k4 := h.acid
  obtain ⟨p0, q0, -⟩ := int_pre hw (field_not_digit _ _) hn hs o.caustic
  obtain ⟨s1, b1, sl1, e1, p1, l1, z1⟩ := field_pre h.id0 (by omega) (by omega) p0 sl
  obtain ⟨s2, b2, sl2, e2, p2, l2, z2⟩ := field_pre h.wash0 (by omega) (by omega) p1 sl1
  obtain ⟨s3, b3, sl3, e3, p3, l3, z3⟩ := field_pre h.prog0 (by omega) (by omega) p2 sl2
  obtain ⟨s4, b4, sl4, e4, p4, l4, z4⟩ := field_pre h.acid0 (by omega) (by omega) p3 sl3
  refine ⟨s4, ⟨b1, b2, b3, b4, (s.int o.caustic).2⟩, by simp [Obj.get, e1, e2, e3, e4], p4, ?_⟩
  have := h.low; have := h.high
  constructor <;> first | assumption | (simp only; omega)

/-- A place of an array set to zero. -/
def cut (b : List Byte) (sl : Int) : List Byte := if 0 ≤ sl ∧ sl < b.length then b.set sl.toNat 0 else b

theorem cut_len (b : List Byte) (sl : Int) : (cut b sl).length = b.length := by unfold cut; split <;> simp

theorem cut_mem {b : List Byte} (h : (0 : Byte) ∈ b) (sl : Int) : (0 : Byte) ∈ cut b sl := by
  unfold cut; split
  · exact mem_set_zero h _
  · exact h

theorem takeWhile_set (b : List Byte) (k : Nat) : (b.set k 0).takeWhile (· != 0) <+: b.takeWhile (· != 0) := by
  induction b generalizing k with
  | nil => simp
  | cons x b ih =>
    cases k with
    | zero => simp
    | succ k =>
      simp only [List.set_cons_succ, List.takeWhile_cons]
      split
      · simpa using ih k
      · simp

theorem cut_cstr {b : List Byte} {s : Name} (h : cstr b = some s) (sl : Int) : ∃ t, cstr (cut b sl) = some t ∧ t <+: s := by
  have hm : (0 : Byte) ∈ b := by
    by_contra hn; rw [cstr, if_neg hn] at h; cases h
  simp only [cstr, hm, ↓reduceIte, Option.some.injEq] at h
  subst h
  refine ⟨(cut b sl).takeWhile (· != 0), by rw [cstr, if_pos (cut_mem hm sl)], ?_⟩
  unfold cut; split
  · exact takeWhile_set b _
  · exact List.prefix_rfl

/-- Nothing is read any more. -/
theorem get_fail {m : Nat} {o : Obj} (h : Shape m o) (sl : Int) {s : In} (hs : s.ok = false) :
    ∃ o', o.get sl s = some (s, o') ∧ Shape m o' ∧ o'.caustic = o.caustic ∧ o'.id = cut o.id sl := by
  refine ⟨⟨cut o.id sl, cut o.wash sl, cut o.prog sl, cut o.acid sl, o.caustic⟩, ?_, ?_, rfl, rfl⟩
  · simp [Obj.get, int_fail s hs, field_fail s hs, cut]
  · exact ⟨by rw [cut_len, h.id], by rw [cut_len, h.wash], by rw [cut_len, h.prog], by rw [cut_len, h.acid],
      cut_mem h.id0 _, cut_mem h.wash0 _, cut_mem h.prog0 _, cut_mem h.acid0 _, h.low, h.high⟩

/-! ### The map -/

def Sorted (b : Base) : Prop := b.Pairwise fun p q => p.1 < q.1

theorem mem_emplace {k : Name} {o : Obj} {b : Base} {p : Name × Obj} (h : p ∈ emplace k o b) : p = (k, o) ∨ p ∈ b := by
  induction b with
  | nil => simpa [emplace] using h
  | cons q b ih =>
    obtain ⟨k', o'⟩ := q
    simp only [emplace] at h
    split at h
    · simpa using h
    · exact Or.inr h
    · simp only [List.mem_cons] at h ⊢
      rcases h with h | h
      · exact Or.inr (Or.inl h)
      · rcases ih h with h | h
        · exact Or.inl h
        · exact Or.inr (Or.inr h)

theorem emplace_length (k : Name) (o : Obj) (b : Base) : (emplace k o b).length ≤ b.length + 1 := by
  induction b with
  | nil => simp [emplace]
  | cons q b ih =>
    obtain ⟨k', o'⟩ := q
    simp only [emplace]
    split <;> simp <;> omega

theorem emplace_sorted {k : Name} (o : Obj) {b : Base} (h : Sorted b) : Sorted (emplace k o b) := by
  induction b with
  | nil => simp [emplace, Sorted]
  | cons q b ih =>
    obtain ⟨k', o'⟩ := q
    have h' := List.pairwise_cons.1 h
    simp only [emplace]
    split
    · next hc =>
      have hlt := cmp_lt.1 hc
      refine List.pairwise_cons.2 ⟨?_, h⟩
      intro p hp
      simp only [List.mem_cons] at hp
      rcases hp with rfl | hp
      · exact hlt
      · exact List.lt_trans hlt (h'.1 p hp)
    · exact h
    · next hc =>
      have hlt := cmp_gt.1 hc
      refine List.pairwise_cons.2 ⟨?_, ih h'.2⟩
      intro p hp
      rcases mem_emplace hp with rfl | hp
      · exact hlt
      · exact h'.1 p hp

theorem lt_ne {a b : Name} (h : a < b) : a ≠ b := by
  rintro rfl
  have := cmp_lt.2 h
  rw [cmp_self] at this
  cases this

theorem lt_asymm' {a b : Name} (h : a < b) : ¬ b < a := by
  intro h2
  have h1 := cmp_lt.2 h
  rw [cmp_gt.2 h2] at h1
  cases h1

theorem find_cons (n k : Name) (o : Obj) (t : Base) : find n ((k, o) :: t) = if n = k then some o else find n t := by
  simp only [find, cmp_eq]

theorem find_none_of_lt {n : Name} {b : Base} (h : ∀ p ∈ b, n < p.1) : find n b = none := by
  induction b with
  | nil => rfl
  | cons p b ih =>
    obtain ⟨k, o⟩ := p
    rw [find_cons, if_neg (lt_ne (h (k, o) (List.mem_cons_self ..))), ih fun q hq => h q (List.mem_cons_of_mem _ hq)]

theorem find_emplace {k : Name} (o : Obj) {b : Base} (h : Sorted b) (n : Name) :
    find n (emplace k o b) = if n = k then some ((find k b).getD o) else find n b := by
  induction b with
  | nil => simp [emplace, find_cons, find]
  | cons q b ih =>
    obtain ⟨k', o'⟩ := q
    have h' := List.pairwise_cons.1 h
    simp only [emplace]
    split
    · next hc =>
      have hlt := cmp_lt.1 hc
      have hn : find k ((k', o') :: b) = none := by
        apply find_none_of_lt
        intro p hp
        simp only [List.mem_cons] at hp
        rcases hp with rfl | hp
        · exact hlt
        · exact List.lt_trans hlt (h'.1 p hp)
      rw [find_cons]
      split
      · next e => subst e; rw [hn]; rfl
      · rfl
    · next hc =>
      have e := cmp_eq.1 hc
      subst e
      simp only [find_cons, ↓reduceIte, Option.getD_some]
      split <;> simp_all
    · next hc =>
      have hlt := cmp_gt.1 hc
      rw [find_cons, find_cons, find_cons, ih h'.2]
      have := lt_ne hlt
      by_cases e1 : n = k'
      · subst e1
        simp [lt_ne hlt]
      · by_cases e2 : n = k
        · subst e2; simp [e1]
        · simp [e1, e2]

theorem find_mem {n : Name} {b : Base} {o : Obj} (h : find n b = some o) : (n, o) ∈ b := by
  induction b with
  | nil => simp [find] at h
  | cons p b ih =>
    obtain ⟨k, o'⟩ := p
    rw [find_cons] at h
    split at h
    · next e => subst e; simp at h; subst h; exact List.mem_cons_self ..
    · exact List.mem_cons_of_mem _ (ih h)

/-- A base in order: keys ascending, every object of the right shape and under its name. -/
structure Good (m : Nat) (b : Base) : Prop where
  sorted : Sorted b
  shape : ∀ p ∈ b, Shape m p.2
  key : ∀ p ∈ b, cstr p.2.id = some p.1

theorem Good.mono {m m' : Nat} {b : Base} (h : Good m b) (hm : m ≤ m') : Good m' b :=
  { h with shape := fun p hp => (h.shape p hp).mono hm }

theorem Good.emplace {m : Nat} {b : Base} (h : Good m b) {k : Name} {o : Obj} (ho : Shape m o) (hk : cstr o.id = some k) :
    Good m (emplace k o b) where
  sorted := emplace_sorted o h.sorted
  shape p hp := by
    rcases mem_emplace hp with rfl | hp
    · exact ho
    · exact h.shape p hp
  key p hp := by
    rcases mem_emplace hp with rfl | hp
    · exact hk
    · exact h.key p hp

theorem Good.tail {m : Nat} {p : Name × Obj} {b : Base} (h : Good m (p :: b)) : Good m b where
  sorted := (List.pairwise_cons.1 h.sorted).2
  shape q hq := h.shape q (List.mem_cons_of_mem _ hq)
  key q hq := h.key q (List.mem_cons_of_mem _ hq)

theorem good_nil (m : Nat) : Good m [] := ⟨List.Pairwise.nil, by simp, by simp⟩

theorem Good.look_some {m : Nat} {b : Base} (h : Good m b) (n : Name) : (look b n).isSome = (find n b).isSome := by
  simp only [look]
  cases hf : find n b with
  | none => rfl
  | some o =>
    obtain ⟨r, hr⟩ := (h.shape _ (find_mem hf)).view
    simp [hr]

/-! ### Loading -/

theorem putAll_some {m : Nat} {b : Base} (h : Good m b) : ∃ f, putAll b = some f := by
  induction b with
  | nil => exact ⟨[], rfl⟩
  | cons p b ih =>
    obtain ⟨f, hf⟩ := ih h.tail
    obtain ⟨k, o⟩ := p
    obtain ⟨_, _, _, _, -, -, -, -, -, -, -, -, -, -, -, -, hp⟩ := put_ok (h.shape (k, o) (List.mem_cons_self ..))
    simp only [putAll]
    rw [hp, hf]
    exact ⟨_, rfl⟩

theorem ws_nl : ∀ x ∈ ([0x0A] : List Byte), isWs x = true := by simp [isWs]

/-- Whole records are read one after another. -/
theorem loop_num {m : Nat} (hm : m ≤ 2147483647) (l : Base) (hl : Good m l) (f : List Byte) (hf : putAll l = some f)
    (n : Nat) (r : List Byte) (js : Nat → Junk) (w : List Byte) (hw : ∀ x ∈ w, isWs x = true) (b : Base) (hb : Good m b) :
    ∃ js' w' b', (∀ x ∈ w', isWs x = true) ∧
      getAll (l.length + n) js ⟨w ++ (f ++ r), true⟩ b = getAll n js' ⟨w' ++ r, true⟩ b' ∧ Good m b' ∧
      b'.length ≤ b.length + l.length ∧
      ∀ x, look b' x = if (find x b).isSome then look b x else look l x := by
  induction l generalizing f js w b with
  | nil =>
    simp only [putAll, Option.some.injEq] at hf
    subst hf
    refine ⟨js, w, b, hw, by simp, hb, by simp, ?_⟩
    intro x
    cases hx : find x b <;> simp [look, find, hx]
  | cons p l ih =>
    obtain ⟨k, o⟩ := p
    have ho := hl.shape _ (List.mem_cons_self ..)
    have hk := hl.key _ (List.mem_cons_self ..)
    simp only at ho hk
    obtain ⟨id, wash, prog, acid, c1, c2, c3, c4, z1, z2, z3, z4, l1, l2, l3, l4, hp⟩ := put_ok ho
    obtain ⟨g, hg⟩ := putAll_some hl.tail
    simp only [putAll, hp, hg, Option.bind_eq_bind, Option.bind_some, Option.some.injEq] at hf
    subst hf
    rw [hk] at c1
    simp only [Option.some.injEq] at c1
    subst c1
    obtain ⟨o0, e0, s0, -, -, -⟩ := new_ok (js 0) fits_tmp
    have hlow := ho.low; have hhigh := ho.high
    obtain ⟨o', e1, s1, k1, v1⟩ := get_num (r := [0x0A] ++ (g ++ r)) s0 hw l1 l2 l3 l4 z1 z2 z3 z4
      (n := o.caustic.toNat) (by omega) (js 0).sl
    have hb' : Good m (emplace k o' b) := hb.emplace (s1.mono (by omega)) k1
    obtain ⟨js', w', b', hw', e2, g2, len, lk⟩ := ih hl.tail g hg (fun i => js (i + 1)) [0x0A] ws_nl _ hb'
    refine ⟨js', w', b', hw', ?_, g2, ?_, ?_⟩
    · rw [← e2, show ((k, o) :: l).length + n = (l.length + n) + 1 by simp; omega]
      simp only [getAll, e0, Option.bind_eq_bind, Option.bind_some]
      have hlist : w ++ (recBytes o.caustic.toNat k wash prog acid [0x0A] ++ g ++ r)
          = w ++ recBytes o.caustic.toNat k wash prog acid ([0x0A] ++ (g ++ r)) := by
        simp [recBytes]
      rw [hlist, e1]
      simp only [Option.bind_some, k1]
    · have := emplace_length k o' b
      simp only [List.length_cons]; omega
    · intro x
      rw [lk x]
      have hv : o.view = some ⟨wash, prog, acid, o.caustic⟩ := by simp [Obj.view, c2, c3, c4]
      have hv' : o'.view = o.view := by rw [v1, hv]; simp; omega
      simp only [look, find_emplace o' hb.sorted, find_cons]
      by_cases e : x = k
      · subst e
        cases hx : find x b <;> simp [hv']
      · simp [e]

/-- What is there is not replaced. -/
theorem getAll_keep (n : Nat) (js : Nat → Junk) (s : In) (b b' : Base) (h : getAll n js s b = some b') (hb : Sorted b)
    (x : Name) (hx : (find x b).isSome) : find x b' = find x b := by
  induction n generalizing js s b with
  | zero => simp only [getAll, Option.some.injEq] at h; subst h; rfl
  | succ n ih =>
    simp only [getAll, Option.bind_eq_bind, Option.bind_eq_some_iff] at h
    obtain ⟨o, -, ⟨s', o'⟩, -, k, -, h⟩ := h
    have hf := find_emplace (k := k) o' hb x
    have : find x (emplace k o' b) = find x b := by
      rw [hf]
      split
      · next e => subst e; cases hq : find x b <;> simp_all
      · rfl
    rw [ih _ _ _ h (emplace_sorted _ hb) (by rw [this]; exact hx), this]

/-- Records of which a part is there are read without harm. -/
theorem loop_pre {m : Nat} (hm : m ≤ 2147483647) (l : Base) (hl : Good m l) (f : List Byte) (hf : putAll l = some f)
    (js : Nat → Junk) (w : List Byte) (hw : ∀ x ∈ w, isWs x = true) (s : In) (hs : Pre s (w ++ f)) (b : Base)
    (hb : Good m b) :
    ∃ b', getAll l.length js s b = some b' ∧ Good m b' ∧ b'.length ≤ b.length + l.length := by
  induction l generalizing f js w s b with
  | nil => exact ⟨b, rfl, hb, by simp⟩
  | cons p l ih =>
    obtain ⟨k, o⟩ := p
    have ho := hl.shape _ (List.mem_cons_self ..)
    simp only at ho
    obtain ⟨id, wash, prog, acid, c1, c2, c3, c4, z1, z2, z3, z4, l1, l2, l3, l4, hp⟩ := put_ok ho
    obtain ⟨g, hg⟩ := putAll_some hl.tail
    simp only [putAll, hp, hg, Option.bind_eq_bind, Option.bind_some, Option.some.injEq] at hf
    subst hf
    obtain ⟨o0, e0, s0, -, -, -⟩ := new_ok (js 0) fits_tmp
    have hlow := ho.low; have hhigh := ho.high
    have hlist : w ++ (recBytes o.caustic.toNat id wash prog acid [0x0A] ++ g)
        = w ++ recBytes o.caustic.toNat id wash prog acid ([0x0A] ++ g) := by
      simp [recBytes]
    rw [hlist] at hs
    obtain ⟨s', o', e1, p1, sh⟩ := get_pre s0 hw l1 l2 l3 l4 (n := o.caustic.toNat) (by omega) (js 0).sl hs
    obtain ⟨k', hk', -⟩ := cstr_some sh.id0
    have hb' : Good m (emplace k' o' b) := hb.emplace (sh.mono (by omega)) hk'
    obtain ⟨b', e2, g2, len⟩ := ih hl.tail g hg (fun i => js (i + 1)) [0x0A] ws_nl s' p1 _ hb'
    refine ⟨b', ?_, g2, ?_⟩
    · simp only [List.length_cons, getAll, e0, e1, hk', Option.bind_eq_bind, Option.bind_some]
      exact e2
    · have := emplace_length k' o' b
      simp only [List.length_cons]; omega

/-- Nothing is read: only objects of the name "tmp", or of a part of it. -/
theorem loop_fail {m : Nat} (n : Nat) (js : Nat → Junk) (s : In) (hs : s.ok = false) (b : Base) (hb : Good m b) :
    ∃ b', getAll n js s b = some b' ∧ Good m b' ∧ ∀ p ∈ b', p ∈ b ∨ p.1 <+: tmp ∧ p.2.caustic = 0 := by
  induction n generalizing js b with
  | zero => exact ⟨b, rfl, hb, fun p hp => Or.inl hp⟩
  | succ n ih =>
    obtain ⟨o0, e0, s0, k0, -, z0⟩ := new_ok (js 0) fits_tmp
    obtain ⟨o', e1, s1, z1, i1⟩ := get_fail s0 (js 0).sl hs
    obtain ⟨k', hk', hpre⟩ := cut_cstr k0 (js 0).sl
    rw [← i1] at hk'
    have hb' : Good m (emplace k' o' b) := hb.emplace (s1.mono (by omega)) hk'
    obtain ⟨b', e2, g2, hall⟩ := ih (fun i => js (i + 1)) _ hb'
    refine ⟨b', ?_, g2, ?_⟩
    · simp only [getAll, e0, e1, hk', Option.bind_eq_bind, Option.bind_some]
      exact e2
    · intro p hp
      rcases hall p hp with h | h
      · rcases mem_emplace h with rfl | h
        · exact Or.inr ⟨hpre, by simp only; rw [z1, z0]⟩
        · exact Or.inl h
      · exact Or.inr h

theorem tmp_prefixes {n : Name} (h : n <+: tmp) : n ∈ ([[], [0x74], [0x74, 0x6D], tmp] : List Name) := by
  obtain ⟨q, hq⟩ := h
  rcases n with _ | ⟨a, _ | ⟨b, _ | ⟨c, _ | ⟨d, n⟩⟩⟩⟩ <;> simp_all [tmp]

theorem sorted_tmp_length {b : Base} (h : Sorted b) (hp : ∀ p ∈ b, p.1 <+: tmp) : b.length ≤ 4 := by
  have hn : (b.map (·.1)).Nodup := by
    rw [List.Nodup, List.pairwise_map]
    exact h.imp fun hlt => lt_ne hlt
  have hs : b.map (·.1) ⊆ ([[], [0x74], [0x74, 0x6D], tmp] : List Name) := by
    intro x hx
    obtain ⟨p, hp', rfl⟩ := List.mem_map.1 hx
    exact tmp_prefixes (hp p hp')
  have := (hn.subperm hs).length_le
  simpa using this

end Ptusa.CipStats
