import Verif.CipRec.Lemmas

/-!
# The recipes of washing lines keep what is set (C84), their names (C85), and are saved (C86)
-/
namespace Ptusa.CipRec

open Ptusa.Text (Byte Plain toUtf8)
open Ptusa.Valve (Tm)

/-- What the user does with the recipes of a line from its first start on. -/
def history (t0 : Tm) (es : List (Tm × List Byte × Act)) : Option St :=
  (start none t0).bind (·.run (es.map event))

/-- The bytes found in a temporary buffer, for examples. -/
def junk : List Byte := List.replicate 25 0xAA

/-! ### C84 -/

/-- Whatever is set, copied, pasted, cleared and reset, the program does nothing undefined and every value of every recipe
is the one of the table in the specification. -/
theorem C84_table_partial (t0 : Tm) (es : List (Tm × List Byte × Act)) (hes : History es) :
    ∃ s, history t0 es = some s ∧ s.cur = ((Screen.start .empty t0).run es).cur ∧
      ∀ (r k : Nat), r < 25 → k < 120 → getValue s.mem r k = some (unset (((Screen.start .empty t0).run es).tab.val r k)) := by
  obtain ⟨s, h1, h2⟩ := reach t0 es hes
  exact ⟨s, h1, h2.cur, fun r k hr hk => h2.mem.getValue r k hr hk⟩

/-- A value that is set is read back; no other value of any recipe changes. -/
theorem C84_set_partial (t0 : Tm) (es : List (Tm × List Byte × Act)) (hes : History es) (s : St)
    (hs : history t0 es = some s) (now : Tm) (j : List Byte) (k : Nat) (v : BitVec 32) (hk : ValOk k v) :
    ∃ s', s.step ⟨now, j, (Act.par k v).op⟩ = some s' ∧ s'.cur = s.cur ∧ getValue s'.mem s.cur k = some (unset v) ∧
      ∀ (r' k' : Nat), r' < 25 → k' < 120 → (r' ≠ s.cur ∨ k' ≠ k) → getValue s'.mem r' k' = getValue s.mem r' k' := by
  obtain ⟨s0, h1, h2⟩ := reach t0 es hes
  obtain rfl : s0 = s := by simpa [history, h1] using hs
  have h2' : Sim s0 ((Screen.start .empty t0).run es) := h2
  obtain ⟨s', h3, h4⟩ := Sim.step h2' now (List.replicate 25 0) (by simp) (.par k v) hk
  have he : s0.step ⟨now, j, (Act.par k v).op⟩ = s0.step ⟨now, List.replicate 25 0, (Act.par k v).op⟩ := rfl
  refine ⟨s', by rw [he, h3], by rw [h4.cur, h2.cur]; rfl, ?_, ?_⟩
  · rw [h2.cur, h4.mem.getValue _ k h2.lt hk.1]
    simp [Screen.step, Screen.set, Table.setVal]
  · intro r' k' hr' hk' hn
    rw [h4.mem.getValue _ _ hr' hk', h2.mem.getValue _ _ hr' hk']
    rw [h2.cur] at hn
    simp only [Screen.step, Screen.set, Table.setVal]
    rw [if_neg (by omega)]

/-- Recipes other than the current one are changed by nothing on its screen: neither values set, nor orders (defaults, paste,
clear), nor renaming and going from one recipe to another. -/
theorem C84_others_partial (t0 : Tm) (es : List (Tm × List Byte × Act)) (hes : History es) (s : St)
    (hs : history t0 es = some s) (now : Tm) (j : List Byte) (hj : j.length = 25) (a : Act) (ha : a.Ok)
    (hn : (∃ k v, a = .par k v) ∨ (∃ l, a = .name l) ∨ (∃ r, a = .goto r) ∨ a = .next ∨ a = .prev ∨ ∃ w, a = .eval w) :
    ∃ s', s.step ⟨now, j, a.op⟩ = some s' ∧
      ∀ (r k : Nat), r < 25 → k < 120 → r ≠ s.cur → getValue s'.mem r k = getValue s.mem r k := by
  obtain ⟨s0, h1, h2⟩ := reach t0 es hes
  obtain rfl : s0 = s := by simpa [history, h1] using hs
  obtain ⟨s', h3, h4⟩ := h2.step now j hj a ha
  refine ⟨s', h3, ?_⟩
  intro r k hr hk hne
  rw [h4.mem.getValue _ _ hr hk, h2.mem.getValue _ _ hr hk]
  rw [h2.cur] at hne
  generalize (Screen.start .empty t0).run es = x at *
  refine congrArg (fun v => some (unset v)) ?_
  have hgoto : ∀ i, (x.goto i).tab.val r k = x.tab.val r k := by
    intro i
    unfold Screen.goto
    split <;> rfl
  rcases hn with ⟨k', v, rfl⟩ | ⟨l, rfl⟩ | ⟨i, rfl⟩ | rfl | rfl | ⟨w, rfl⟩
  · simp [Screen.step, Screen.set, Table.setVal, hne]
  · rfl
  · exact hgoto i
  · exact hgoto _
  · exact hgoto _
  · show (x.eval now w).tab.val r k = _
    have hcmd : ∀ y : Screen, y.cur = x.cur → (y.command now).tab.val r k = y.tab.val r k := by
      intro y hy
      unfold Screen.command
      split
      · split
        · rfl
        · rename_i c _
          have ho : (y.order now c).tab.val r k = y.tab.val r k := by
            unfold Screen.order
            split
            · simp [Table.setRec, hy, hne]
            split
            · rfl
            split
            · split
              · rfl
              · simp [Screen.show, Table.setRec, hy, hne]
            split
            · simp [Screen.show, Table.setRec, hy, hne]
            · rfl
          simp [Screen.set, Table.setVal, ho, hy, hne]
      · rfl
    obtain ⟨y, he, hp⟩ := eval_pre x now w
    rw [he, hcmd y hp.cur, hp.val]

example : History [(0, junk, .par 2 0x42C80000), (5, junk, .next), (9, junk, .par 1 0x40400000), (10, junk, .eval 20000)] := by
  decide +kernel

/-- The index that comes from the server is not checked: 129 and more are values of the following recipe, 121 to 128 lie
in its name and head, and in the last recipe they are written behind the memory. -/
theorem C84_index_violated (s : St) (hm : s.mem.length = 12800) (now : Tm) (j : List Byte) (v : BitVec 32) :
    (s.cur < 24 → ∃ s', s.step ⟨now, j, .par 129 v⟩ = some s' ∧ getValue s'.mem (s.cur + 1) 0 = some (unset v)) ∧
    (s.cur < 24 → ∃ s', s.step ⟨now, j, .par 121 v⟩ = some s' ∧ rd s'.mem (startAddr (s.cur + 1)) 4 = some (bytes4 v)) ∧
    (s.cur = 24 → s.step ⟨now, j, .par 121 v⟩ = none) ∧
    (s.cur = 0 → s.step ⟨now, j, .par 0 v⟩ = (wr s.mem 28 (bytes4 v)).map fun m =>
      { s with mem := m, changed := true, tCheck := now }) := by
  refine ⟨?_, ?_, ?_, ?_⟩
  · intro hc
    show ∃ s', s.setRec now s.cur (128 : Int) v = some s' ∧ _
    unfold St.setRec
    have := addr s.cur 128
    rw [show ((128 : Nat) : Int) = 128 from rfl] at this
    rw [this, wr_eq _ _ _ (by rw [bytes_length]; omega)]
    refine ⟨_, rfl, ?_⟩
    dsimp only
    unfold getValue
    have h2 := addr (s.cur + 1) 0
    rw [show ((s.cur + 1 : Nat) : Int) = (s.cur : Int) + 1 from rfl, show ((0 : Nat) : Int) = 0 from rfl] at h2
    rw [h2, rd_eq _ _ _ (by rw [patch_length _ _ _ (by rw [bytes_length]; omega)]; omega)]
    have h3 := seg_inside s.mem (512 * s.cur + 32 + 4 * 128) (bytes4 v) (by rw [bytes_length]; omega) 0 4 (by rw [bytes_length])
    rw [show 512 * (s.cur + 1) + 32 + 4 * 0 = 512 * s.cur + 32 + 4 * 128 + 0 by omega, h3]
    show some (if word4 (bytes4 v) = _ then _ else word4 (bytes4 v)) = _
    rw [word_bytes]
    rfl
  · intro hc
    show ∃ s', s.setRec now s.cur (120 : Int) v = some s' ∧ _
    unfold St.setRec
    have := addr s.cur 120
    rw [show ((120 : Nat) : Int) = 120 from rfl] at this
    rw [this, wr_eq _ _ _ (by rw [bytes_length]; omega)]
    refine ⟨_, rfl, ?_⟩
    dsimp only
    have h2 := addr0 (s.cur + 1)
    rw [show ((s.cur + 1 : Nat) : Int) = (s.cur : Int) + 1 from rfl] at h2
    rw [h2, rd_eq _ _ _ (by rw [patch_length _ _ _ (by rw [bytes_length]; omega)]; omega)]
    have h3 := seg_inside s.mem (512 * s.cur + 32 + 4 * 120) (bytes4 v) (by rw [bytes_length]; omega) 0 4 (by rw [bytes_length])
    rw [show 512 * (s.cur + 1) = 512 * s.cur + 32 + 4 * 120 + 0 by omega, h3]
    rfl
  · intro hc
    show s.setRec now s.cur (120 : Int) v = none
    unfold St.setRec wr
    rw [if_neg, Option.map_none]
    rw [bytes_length, hc, hm]
    decide
  · intro hc
    show s.setRec now s.cur (-1 : Int) v = _
    unfold St.setRec
    rw [show startAddr s.cur + parOffset + 4 * (-1 : Int) = 28 by rw [hc]; rfl]

example : (start none 0).bind (fun s => s.step ⟨0, junk, .par 129 5⟩) ≠ none := by
  obtain ⟨s, h1, h2⟩ := reach 0 [] (by decide)
  simp only [List.map_nil, St.run] at h1
  have h3 : start none 0 = some s := by simpa using h1
  rw [h3, Option.bind_some]
  obtain ⟨s', h4, _⟩ := (C84_index_violated s h2.mem.len 0 junk 5).1 (by rw [h2.cur]; decide)
  rw [h4]
  exact Option.some_ne_none _

/-- The order "set to defaults" forgets the value 82 (the circulation signal): it keeps what it was. -/
theorem C84_default_violated (v : BitVec 32) (now t0 : Tm) :
    ∃ s, history t0 [(now, junk, .par 82 v), (now, junk, .par 1 0x3F800000), (now, junk, .eval 12800)] = some s ∧
      getValue s.mem 0 82 = some (unset v) ∧ getValue s.mem 0 83 = some 0 ∧ getValue s.mem 0 2 = some 0x43480000 := by
  obtain ⟨s, h1, h2⟩ := reach t0 [(now, junk, .par 82 v), (now, junk, .par 1 0x3F800000), (now, junk, .eval 12800)] (by
    intro e he
    simp only [List.mem_cons, List.not_mem_nil, or_false] at he
    rcases he with rfl | rfl | rfl
    · exact ⟨rfl, by decide, fun h => absurd h (by decide)⟩
    · exact ⟨rfl, by decide, by decide⟩
    · exact ⟨rfl, .inr (by decide)⟩)
  have hv : ∀ k : Nat, k < 120 → getValue s.mem 0 k = some (unset (if k = 1 then 0 else
      (defaults.lookup k).getD (if k = 1 then 0x3F800000 else if k = 82 then v else 0))) := by
    intro k hk
    have := h2.mem.getValue 0 k (by omega) hk
    rw [Nat.cast_zero] at this
    rw [this]
    refine congrArg (fun v => some (unset v)) ?_
    simp only [Screen.run, Screen.step]
    generalize hx : ((Screen.start Table.empty t0).set now (Screen.start Table.empty t0).cur 82 v) = x
    have hxc : x.cur = 0 := by rw [← hx]; rfl
    have hxv : x.tab.val 0 = fun k => if k = 82 then v else 0 := by
      rw [← hx]
      funext k
      simp [Screen.set, Table.setVal, Screen.start, Table.empty]
    obtain ⟨y, he, hp⟩ := eval_pre (x.set now x.cur 1 0x3F800000) now 12800
    rw [he]
    have hy : y.cur = 0 := by rw [hp.cur]; exact hxc
    have hyv : y.tab.val 0 = fun k => if k = 1 then 0x3F800000 else if k = 82 then v else 0 := by
      rw [hp.val]
      funext k
      simp [Screen.set, Table.setVal, hxc, hxv]
    unfold Screen.command
    have h1 : y.tab.val y.cur 1 = 0x3F800000 := by rw [hy, hyv]; rfl
    rw [h1, if_pos (by decide), show trunc 0x3F800000 = some 1 by decide]
    dsimp only
    unfold Screen.order
    simp [Screen.set, Table.setVal, Table.setRec, hy, hyv]
  refine ⟨s, h1, ?_, ?_, ?_⟩
  · exact hv 82 (by omega)
  · exact hv 83 (by omega)
  · exact hv 2 (by omega)

/-- Where `unsigned long` has 64 bits the mark "not set" is not recognised unless the stack happens to hold zeros. -/
theorem C84_unset64_violated (m : List Byte) (r k : Nat) (hi : BitVec 32) (h : hi ≠ 0)
    (hw : rd m (startAddr r + parOffset + 4 * k) 4 = some [0xFF, 0xFF, 0xFF, 0xFF]) :
    getValue m r k = some 0xC47A0000 ∧ raw64 hi m r k = some 0xFFFFFFFF := by
  unfold raw64 getValue
  rw [hw, Option.map_some, Option.map_some]
  have hne : ¬ (hi ++ word4 [0xFF, 0xFF, 0xFF, 0xFF] = (0xFFFFFFFF : BitVec 64)) := by
    intro he
    apply h
    have h2 := congrArg BitVec.toNat he
    have h3 : (hi ++ word4 [0xFF, 0xFF, 0xFF, 0xFF]).toNat = hi.toNat * 2 ^ 32 + 0xFFFFFFFF := by
      rw [BitVec.toNat_append, Nat.shiftLeft_eq, ← Nat.shiftLeft_eq, ← Nat.shiftLeft_add_eq_or_of_lt (by decide), Nat.shiftLeft_eq]
      rfl
    rw [h3] at h2
    apply BitVec.eq_of_toNat_eq
    have : (0xFFFFFFFF : BitVec 64).toNat = 0xFFFFFFFF := rfl
    rw [this] at h2
    show hi.toNat = 0
    omega
  refine ⟨by decide, ?_⟩
  rw [if_neg hne]
  decide

example : rd (List.replicate 12800 0xFF) (startAddr (0 : Nat) + parOffset + 4 * (0 : Nat)) 4 = some [0xFF, 0xFF, 0xFF, 0xFF] := by
  decide +kernel

/-! ### C85 -/

/-- The name on the screen and the list of used recipes are those of the specification. -/
theorem C85_table_partial (t0 : Tm) (es : List (Tm × List Byte × Act)) (hes : History es) :
    ∃ s, history t0 es = some s ∧ s.name = some (toUtf8 ((Screen.start .empty t0).run es).shown) ∧
      s.list = ((Screen.start .empty t0).run es).list ∧
      ∀ r : Nat, r < 25 → readName s.mem r = some (toUtf8 (((Screen.start .empty t0).run es).tab.name r)) := by
  obtain ⟨s, h1, h2⟩ := reach t0 es hes
  exact ⟨s, h1, h2.shown, h2.list, fun r hr => h2.mem.readName r hr⟩

/-- A name that is given to a recipe is there again after going to another recipe and back, and going about changes the
name of no other recipe. -/
theorem C85_back_partial (t0 : Tm) (es : List (Tm × List Byte × Act)) (hes : History es) (s : St)
    (hs : history t0 es = some s) (l : List Byte) (hl : NameOk l) (r : Nat) (hr : r < 25) (t1 t2 t3 : Tm) (j1 j2 j3 : List Byte)
    (h1 : j1.length = 25) (h2 : j2.length = 25) (h3 : j3.length = 25) :
    ∃ s1 s2, s.run [⟨t1, j1, .name (toUtf8 l)⟩, ⟨t2, j2, .goto r⟩] = some s1 ∧ s1.cur = r ∧
      s1.step ⟨t3, j3, .goto s.cur⟩ = some s2 ∧ s2.cur = s.cur ∧ s2.name = some (toUtf8 l) ∧
      ∀ r' : Nat, r' < 25 → r' ≠ s.cur → readName s2.mem r' = readName s.mem r' := by
  obtain ⟨s0, g1, g2⟩ := reach t0 es hes
  obtain rfl : s0 = s := by simpa [history, g1] using hs
  generalize (Screen.start .empty t0).run es = x at *
  obtain ⟨s1, e1, f1⟩ := g2.run [(t1, j1, .name l), (t2, j2, .goto r)] (by
    intro e he
    simp only [List.mem_cons, List.not_mem_nil, or_false] at he
    rcases he with rfl | rfl
    · exact ⟨h1, hl⟩
    · exact ⟨h2, trivial⟩)
  obtain ⟨s2, e2, f2⟩ := f1.step t3 j3 h3 (.goto s0.cur) trivial
  have hx : x.run [(t1, j1, .name l), (t2, j2, .goto r)] =
      { x with tab := x.tab.setName x.cur l, cur := r, shown := (x.tab.setName x.cur l).name r } := by
    simp [Screen.run, Screen.step, Screen.goto, hr, Screen.show, Screen.keep]
  have hc : (s0.cur : Int) = x.cur := by rw [g2.cur]
  have hx2 : (x.run [(t1, j1, .name l), (t2, j2, .goto r)]).step t3 (.goto s0.cur) =
      { x with tab := (x.tab.setName x.cur l).setName r ((x.tab.setName x.cur l).name r), cur := x.cur,
               shown := ((x.tab.setName x.cur l).setName r ((x.tab.setName x.cur l).name r)).name x.cur } := by
    have := g2.lt
    rw [hx, hc]
    simp [Screen.step, Screen.goto, this, Screen.show, Screen.keep]
  refine ⟨s1, s2, e1, ?_, e2, ?_, ?_, ?_⟩
  · rw [f1.cur, hx]
  · rw [f2.cur, hx2, g2.cur]
  · rw [f2.shown, hx2]
    simp only [Table.setName]
    by_cases he : x.cur = r
    · simp [he]
    · simp [he]
  · intro r' hr' hne
    rw [f2.mem.readName _ hr', g2.mem.readName _ hr', hx2]
    rw [g2.cur] at hne
    simp only [Table.setName]
    by_cases he : r' = r
    · subst he
      simp [hne]
    · simp [he, hne]

/-- The list made when ten seconds have passed has exactly the recipes in use with their names, the name on the screen
included. -/
theorem C85_list_partial (t0 : Tm) (es : List (Tm × List Byte × Act)) (hes : History es) (s : St)
    (hs : history t0 es = some s) (now : Tm) (j : List Byte) (hj : j.length = 25) (w : Nat) (hw : DiskOk w)
    (ht : 10000#64 < Time.deltaMs now s.tEval) (n : Nat) (l : List Byte) :
    ∃ s', s.step ⟨now, j, .eval w⟩ = some s' ∧
      ((n, l) ∈ s'.list ↔ ∃ (r : Nat) (v : BitVec 32), r < 25 ∧ n = r + 1 ∧ getValue s.mem r 0 = some v ∧ nonzero v ∧
        (if r = s.cur then s.name = some l else readName s.mem r = some l)) := by
  obtain ⟨s0, g1, g2⟩ := reach t0 es hes
  obtain rfl : s0 = s := by simpa [history, g1] using hs
  generalize (Screen.start .empty t0).run es = x at *
  obtain ⟨s', h3, h4⟩ := g2.step now j hj (.eval w) hw
  refine ⟨s', h3, ?_⟩
  have hl : s'.list = x.keep.tab.used := by
    rw [h4.list]
    show (x.eval now w).list = _
    obtain ⟨y, he, hp⟩ := eval_pre x now w
    rw [he, command_list, hp.list (g2.tEval ▸ ht)]
  rw [hl, Table.used]
  simp only [List.mem_map, List.mem_filter, List.mem_range, Prod.mk.injEq]
  constructor
  · rintro ⟨r, ⟨hr, hz⟩, rfl, rfl⟩
    refine ⟨r, _, hr, rfl, g2.mem.getValue r 0 hr (by omega), by rw [nonzero_unset]; exact hz, ?_⟩
    rw [g2.cur, g2.shown, g2.mem.readName r hr]
    simp only [Screen.keep, Table.setName]
    split <;> rfl
  · rintro ⟨r, v, hr, rfl, hv, hz, hn⟩
    have := g2.mem.getValue r 0 hr (by omega)
    rw [Nat.cast_zero, hv] at this
    obtain rfl : v = unset (x.tab.val r 0) := by simpa using this
    rw [nonzero_unset] at hz
    refine ⟨r, ⟨hr, hz⟩, rfl, ?_⟩
    rw [g2.cur, g2.shown, g2.mem.readName r hr] at hn
    simp only [Screen.keep, Table.setName]
    split at hn
    · rename_i he
      rw [if_pos he]
      simpa using hn
    · rename_i he
      rw [if_neg he]
      simpa using hn

example : History [(0, junk, .name [0xCC, 0xEE, 0xE9, 0xEA, 0xE0]), (1, junk, .par 0 0x3F800000), (20000, junk, .eval 0)] ∧
    10000#64 < Time.deltaMs (20000 : Tm) 0 := by decide +kernel

/-- `setCurrentRecipe` does not read the name of the recipe it goes to: the next time names are kept the recipe has lost
its own name to the one that was on the screen. -/
theorem C85_set_current_violated (t0 : Tm) (es : List (Tm × List Byte × Act)) (hes : History es) (s : St)
    (hs : history t0 es = some s) (r : Nat) (hr : r < 25) (j j' : List Byte) (hj : j.length = 25) (hj' : j'.length = 25) :
    ∃ s1 s2, s.setCurrent j r = some s1 ∧ s1.saveName j' = some s2 ∧ readName s2.mem r = s.name := by
  obtain ⟨s0, g1, g2⟩ := reach t0 es hes
  obtain rfl : s0 = s := by simpa [history, g1] using hs
  generalize (Screen.start .empty t0).run es = x at *
  unfold St.setCurrent
  rw [show ((perLine : Nat) : Int) = 25 from rfl, if_pos (by omega)]
  obtain ⟨s1, h1, h2⟩ := g2.keep j hj
  rw [h1, Option.map_some]
  have h3 : Sim { s1 with cur := (r : Int).toNat } { x.keep with cur := r } := { h2 with cur := rfl, lt := hr }
  obtain ⟨s2, h4, h5⟩ := h3.keep j' hj'
  refine ⟨_, s2, rfl, h4, ?_⟩
  rw [h5.mem.readName r hr, g2.shown]
  simp [Screen.keep, Table.setName]

/-- A new name followed within ten seconds by the order "copy": the paste brings the old name. -/
theorem C85_copy_violated :
    ∃ s s', history 0 [(0, junk, .name [0x41]), (20000, junk, .eval 12800), (20001, junk, .name [0x42]),
        (20002, junk, .par 1 0x40000000), (20003, junk, .eval 12800)] = some s ∧ s.name = some [0x42] ∧
      s.run ([(20004, junk, Act.next), (20005, junk, .par 1 0x40400000), (20006, junk, .eval 12800)].map event) = some s' ∧
      s'.name = some [0x41] := by
  obtain ⟨s, h1, h2⟩ := reach 0 [(0, junk, .name [0x41]), (20000, junk, .eval 12800), (20001, junk, .name [0x42]),
        (20002, junk, .par 1 0x40000000), (20003, junk, .eval 12800)] (by decide +kernel)
  obtain ⟨s', h3, h4⟩ := h2.run [(20004, junk, .next), (20005, junk, .par 1 0x40400000), (20006, junk, .eval 12800)] (by
    decide +kernel)
  refine ⟨s, s', h1, ?_, h3, ?_⟩
  · rw [h2.shown]
    decide +kernel
  · rw [h4.shown]
    decide +kernel

/-- A name with a sign outside of the letters (here a dash) is stored as far as the sign, and behind it the bytes that
happened to be in a temporary buffer. -/
theorem C85_sign_violated (s : St) (hm : s.mem.length = 12800) (hc : s.cur < 25) (j : List Byte) (hj : j.length = 25)
    (t : Byte) (b : Byte) (hb : Text.isSign b) (ht : Plain t) (hn : s.name = some (toUtf8 [t, b])) :
    ∃ s', s.saveName j = some s' ∧ rd s'.mem (startAddr s.cur) 24 = some (t :: (j.drop 1).take 23) := by
  unfold St.saveName
  have hv : Text.conv (toUtf8 [t, b]).length (toUtf8 [t, b]) = some (false, [t]) := by
    have he : toUtf8 [t, b] = toUtf8 [t] ++ toUtf8 [b] := by simp [toUtf8]
    have hb2 : toUtf8 [b] = Text.encode b ++ [] := by simp [toUtf8]
    have hlen : 1 ≤ (toUtf8 [b]).length := by
      have := Text.encode_length b (by rintro rfl; revert hb; decide)
      simpa [toUtf8] using this
    rw [he, Text.conv_plain [t] (by simpa using ht) _ _ (by simp), List.length_append, Nat.add_sub_cancel_left, hb2,
      Text.conv_sign b hb _ _ (by rw [← hb2]; exact hlen)]
    simp
  rw [hn, Option.bind_some, hv, Option.bind_some]
  dsimp only
  rw [if_neg (by simp [nameLen]), addr0]
  have hw : (([t] ++ (if false = true then [(0 : Byte)] else []) ++
      j.drop ([t] ++ if false = true then [(0 : Byte)] else []).length).take nameLen) = t :: (j.drop 1).take 23 := by
    simp [nameLen]
  rw [hw]
  have hl : (t :: (j.drop 1).take 23).length = 24 := by simp; omega
  rw [wr_eq _ _ _ (by omega)]
  refine ⟨_, rfl, ?_⟩
  rw [rd_eq _ _ _ (by rw [patch_length _ _ _ (by omega)]; omega)]
  have := seg_inside s.mem (512 * s.cur) (t :: (j.drop 1).take 23) (by omega) 0 24 (by omega)
  rw [Nat.add_zero] at this
  rw [this, seg, List.drop_zero, List.take_of_length_le (by omega)]

example : Text.isSign 0x97 ∧ Plain 0x41 := by decide

/-- A long name with a wrong byte counts as short, and its conversion writes behind the temporary buffer. -/
theorem C85_long_violated (s : St) (n : Nat) (hn : 26 ≤ n) (hn' : n < 71) (t1 t2 : Tm) (j1 j2 : List Byte) (r : Nat) (hr : r < 25) :
    s.run [⟨t1, j1, .name (List.replicate n 0x41 ++ [0xFF])⟩, ⟨t2, j2, .goto r⟩] = none := by
  have hcount : ∀ n, Text.count (List.replicate n 0x41 ++ [0xFF]) = none := by
    intro n
    induction n with
    | zero => decide +kernel
    | succ n ih =>
      have hf : Text.follow 0x41 = some 0 := by decide
      rw [List.replicate_succ, List.cons_append, Text.count, hf]
      dsimp only
      rw [List.drop_zero, ih]
      rfl
  have hconv : ∀ n k, n + 1 ≤ k → Text.conv k (List.replicate n 0x41 ++ [0xFF]) = some (false, List.replicate n 0x41) := by
    intro n
    induction n with
    | zero =>
      intro k hk
      obtain ⟨k, rfl⟩ : ∃ m, k = m + 1 := ⟨k - 1, by omega⟩
      rw [List.replicate_zero, List.nil_append, Text.conv]
      simp
    | succ n ih =>
      intro k hk
      have hA : Text.encode 0x41 = [0x41] := by decide
      have h1 := Text.conv_encode 0x41 (by decide) k (List.replicate n 0x41 ++ [0xFF]) (by rw [hA]; simp; omega)
      rw [hA] at h1
      rw [List.replicate_succ, List.cons_append, ← List.singleton_append, h1, List.length_singleton, ih _ (by omega)]
      rfl
  have h1 : s.step ⟨t1, j1, .name (List.replicate n 0x41 ++ [0xFF])⟩ =
      some { s with name := some (List.replicate n 0x41 ++ [0xFF]) } := by
    show (match Text.setName nameLen (3 * nameLen) (List.replicate n 0x41 ++ [0xFF]) with
      | none => some s | some m => some { s with name := m }) = _
    rw [Text.setName, Text.strlen, hcount, Option.getD_none, if_pos (by decide),
      if_pos (by simp only [List.length_append, List.length_replicate, List.length_singleton, nameLen]; omega)]
  rw [St.run, h1, Option.bind_some, St.run]
  show (St.goto _ j2 (r : Int)).bind _ = none
  unfold St.goto
  rw [show ((perLine : Nat) : Int) = 25 from rfl, if_pos (by omega)]
  unfold St.saveName
  rw [Option.bind_some, hconv n _ (by simp), Option.bind_some]
  dsimp only
  rw [if_pos (by simp [nameLen]; omega)]
  rfl

/-- Every name the server accepts for a recipe of caustic or acid is written behind the field of 30 bytes. -/
theorem C85_medium_overflow_violated (field val : List Byte) (h : Text.strlen val < 30) : setMedium field val = none := by
  unfold setMedium
  rw [if_pos (show Text.strlen val < mediumName from h), if_pos (by decide)]

example : Text.strlen [0x41, 0x42] < 30 := by decide +kernel

/-- A Russian name of a recipe of caustic or acid is stored in UTF-8 and read as if it were Windows-1251: after going to
another recipe and back it is another text, twice as long; after three times it does not fit and memory behind the field
is overwritten. -/
theorem C85_medium_encoding_violated :
    awayAndBack (0xD0 :: 0x90 :: List.replicate 28 0) =
      some (0xD0 :: 0x90 :: List.replicate 28 0, [0xD0, 0xA0, 0xD1, 0x92] ++ List.replicate 26 0) ∧
    (((((awayAndBack (0xD0 :: 0x90 :: List.replicate 28 0)).bind (awayAndBack ·.2)).bind (awayAndBack ·.2)).bind
      (awayAndBack ·.2)).bind (awayAndBack ·.2)) = none := by
  decide +kernel

/-! ### C86 -/

/-- A value that was set survives a power failure: after half a minute without further changes, during which the screen may
be used, the next cyclic call writes the recipes to the disk, and the program that starts again has the value. -/
theorem C86_saved_partial (t0 : Tm) (es : List (Tm × List Byte × Act)) (hes : History es) (s : St)
    (hs : history t0 es = some s) (ho : NoOrder s.mem) (t : Tm) (j : List Byte) (hj : j.length = 25) (k : Nat) (v : BitVec 32)
    (hk : k < 120) (hk1 : k ≠ 1) (mid : List (Tm × List Byte × Act))
    (hmid : ∀ e ∈ mid, Quiet e.2.2 ∧ e.2.1.length = 25 ∧ ¬ 30000#64 < Time.deltaMs e.1 t)
    (now now' : Tm) (hnow : 30000#64 < Time.deltaMs now t) (w : Nat) (hw : 12800 ≤ w) (j1 j2 : List Byte) (hj1 : j1.length = 25)
    (hj2 : j2.length = 25) :
    ∃ s', s.run ([(t, j, Act.par k v)] ++ mid ++ [(now, j1, Act.eval w), (now', j2, Act.restart)] |>.map event) = some s' ∧
      getValue s'.mem s.cur k = some (unset v) ∧
      ∀ (r' k' : Nat), r' < 25 → k' < 120 → (r' ≠ s.cur ∨ k' ≠ k) → getValue s'.mem r' k' = getValue s.mem r' k' := by
  obtain ⟨s0, g1, g2⟩ := reach t0 es hes
  obtain rfl : s0 = s := by simpa [history, g1] using hs
  generalize (Screen.start .empty t0).run es = x at *
  obtain ⟨s', h1, h2⟩ := g2.run ([(t, j, Act.par k v)] ++ mid ++ [(now, j1, Act.eval w), (now', j2, Act.restart)]) (by
    intro e he
    simp only [List.mem_append, List.mem_cons, List.not_mem_nil, or_false] at he
    rcases he with (rfl | he) | rfl | rfl
    · exact ⟨hj, hk, fun h => absurd h hk1⟩
    · exact quiet_ok (fun e he => ⟨(hmid e he).1, (hmid e he).2.1⟩) e he
    · exact ⟨hj1, .inr hw⟩
    · exact ⟨hj2, trivial⟩)
  refine ⟨s', h1, ?_⟩
  have hx0 := g2.noOrder ho
  have hrun : ∀ (x : Screen) (a b : List (Tm × List Byte × Act)), x.run (a ++ b) = (x.run a).run b := by
    intro x a b
    induction a generalizing x with
    | nil => rfl
    | cons e a ih => obtain ⟨n, j, c⟩ := e; exact ih _
  have hval : (x.run ([(t, j, Act.par k v)] ++ mid ++ [(now, j1, Act.eval w), (now', j2, Act.restart)])).tab.val =
      (x.tab.setVal x.cur k v).val := by
    rw [hrun, hrun]
    have hy0 : ∀ r < 25, (x.set t x.cur k v).tab.val r 1 = 0 := by
      intro r hr
      simp only [Screen.set, Table.setVal]
      rw [if_neg (by omega)]
      exact hx0 r hr
    obtain ⟨i1, i2, i3, i4, i5⟩ := quiet_run (x.set t x.cur k v) t mid (fun e he => ⟨(hmid e he).1, (hmid e he).2.2⟩) hy0 g2.lt rfl
    change ((((x.set t x.cur k v).run mid).eval now w).disk).val = _
    generalize (x.set t x.cur k v).run mid = y at i1 i2 i3 i4 i5
    obtain ⟨z, he, hp⟩ := eval_pre y now w
    rw [he, command_disk, (hp.saved (by rw [i4]; exact hnow)).1, if_pos ⟨by rw [i3]; rfl, by omega⟩, hp.val, i1]
    rfl
  constructor
  · rw [g2.cur, h2.mem.getValue _ k g2.lt hk, hval]
    simp [Table.setVal]
  · intro r' k' hr' hk' hn
    rw [h2.mem.getValue _ _ hr' hk', g2.mem.getValue _ _ hr' hk', hval]
    rw [g2.cur] at hn
    simp only [Table.setVal]
    rw [if_neg (by omega)]

example : NoOrder (List.replicate 12800 0) ∧ 30000#64 < Time.deltaMs (31000 : Tm) 500 ∧
    ¬ 30000#64 < Time.deltaMs (30400 : Tm) 500 := by
  refine ⟨?_, by decide, by decide⟩
  intro r hr
  exact rep_zero.getValue r 1 hr (by omega)

/-- After a regular end of the program everything is there again: values, and names including the one on the screen. -/
theorem C86_shutdown_partial (t0 : Tm) (es : List (Tm × List Byte × Act)) (hes : History es) (s : St)
    (hs : history t0 es = some s) (now : Tm) (j : List Byte) (hj : j.length = 25) (w : Nat) (hw : 12800 ≤ w) :
    ∃ s', s.step ⟨now, j, .shutdown w⟩ = some s' ∧ s'.cur = 0 ∧
      (∀ (r k : Nat), r < 25 → k < 120 → getValue s'.mem r k = getValue s.mem r k) ∧
      ∀ r : Nat, r < 25 → readName s'.mem r = if r = s.cur then s.name else readName s.mem r := by
  obtain ⟨s0, g1, g2⟩ := reach t0 es hes
  obtain rfl : s0 = s := by simpa [history, g1] using hs
  generalize (Screen.start .empty t0).run es = x at *
  obtain ⟨s', h1, h2⟩ := g2.step now j hj (.shutdown w) (.inr hw)
  have ht : (x.step now (.shutdown w)).tab = x.keep.tab := by
    simp only [Screen.step]
    rw [if_pos (by omega)]
    rfl
  refine ⟨s', h1, h2.cur, ?_, ?_⟩
  · intro r k hr hk
    rw [h2.mem.getValue r k hr hk, g2.mem.getValue r k hr hk, ht]
    rfl
  · intro r hr
    rw [h2.mem.readName r hr, g2.mem.readName r hr, ht, g2.cur, g2.shown]
    simp only [Screen.keep, Table.setName]
    split <;> rfl

/-- A new name alone is not saved: however often the cyclic call is made and however long the time, after a power failure
the old name of the disk is there again. -/
theorem C86_name_violated (t0 : Tm) (es : List (Tm × List Byte × Act)) (hes : History es) (s : St)
    (hs : history t0 es = some s) (ho : NoOrder s.mem) (hd : s.changed = false) (mid : List (Tm × List Byte × Act))
    (hmid : ∀ e ∈ mid, Quiet e.2.2 ∧ e.2.1.length = 25) (now : Tm) (j : List Byte) (hj : j.length = 25) (r : Nat) (hr : r < 25) :
    ∃ s', s.run ((mid ++ [(now, j, Act.restart)]).map event) = some s' ∧
      readName s'.mem r = readName (loadFile s.file) r := by
  obtain ⟨s0, g1, g2⟩ := reach t0 es hes
  obtain rfl : s0 = s := by simpa [history, g1] using hs
  generalize (Screen.start .empty t0).run es = x at *
  obtain ⟨s', h1, h2⟩ := g2.run (mid ++ [(now, j, Act.restart)]) (by
    intro e he
    simp only [List.mem_append, List.mem_cons, List.not_mem_nil, or_false] at he
    rcases he with he | rfl
    · exact quiet_ok hmid e he
    · exact ⟨hj, trivial⟩)
  refine ⟨s', h1, ?_⟩
  have hx0 := g2.noOrder ho
  have hrun : ∀ (x : Screen), (∀ r < 25, x.tab.val r 1 = 0) → x.cur < 25 → x.dirty = false →
      (x.run (mid ++ [(now, j, Act.restart)])).tab = x.disk := by
    clear h1 h2
    induction mid with
    | nil => intro x _ _ _; rfl
    | cons e mid ih =>
      intro x hx hc hdx
      obtain ⟨n, jj, a⟩ := e
      have hq := (hmid (n, jj, a) (by simp)).1
      obtain ⟨q1, q2, _⟩ := quiet_step x n a hq hx hc
      have q3 := quiet_clean x n a hq hx hc hdx
      have := ih (fun e he => hmid e (by simp [he])) (x.step n a) (by rw [q1]; exact hx) q2 q3.1
      rw [List.cons_append, Screen.run, this, q3.2]
  rw [h2.mem.readName r hr, g2.disk.readName r hr, hrun x hx0 g2.lt (by rw [← g2.dirty, hd])]

example : Quiet (.name [0x41]) ∧ Quiet (.eval 12800) := ⟨(by decide : NameOk [0x41]), .inr (by decide)⟩

/-- Someone who keeps changing values at least every half a minute keeps them from being saved at all: the disk stays as it
was, whatever the number of changes and of cyclic calls between them. -/
theorem C86_busy_violated (t0 : Tm) (es : List (Tm × List Byte × Act)) (hes : History es) (s : St)
    (hs : history t0 es = some s) (ho : NoOrder s.mem) (edits : List (Tm × Nat × BitVec 32 × Tm × Nat))
    (hed : ∀ e ∈ edits, e.2.1 < 120 ∧ e.2.1 ≠ 1 ∧ ¬ 30000#64 < Time.deltaMs e.2.2.2.1 e.1 ∧ DiskOk e.2.2.2.2) :
    ∃ s', s.run ((edits.flatMap fun e => [(e.1, junk, Act.par e.2.1 e.2.2.1), (e.2.2.2.1, junk, .eval e.2.2.2.2)]).map event) =
        some s' ∧
      ∀ (r k : Nat), r < 25 → k < 120 → getValue (loadFile s'.file) r k = getValue (loadFile s.file) r k := by
  obtain ⟨s0, g1, g2⟩ := reach t0 es hes
  obtain rfl : s0 = s := by simpa [history, g1] using hs
  generalize (Screen.start .empty t0).run es = x at *
  have hh : History (edits.flatMap fun e => [(e.1, junk, Act.par e.2.1 e.2.2.1), (e.2.2.2.1, junk, .eval e.2.2.2.2)]) := by
    intro e he
    simp only [List.mem_flatMap, List.mem_cons, List.not_mem_nil, or_false] at he
    obtain ⟨d, hd, rfl | rfl⟩ := he
    · exact ⟨rfl, (hed d hd).1, fun h => absurd h (hed d hd).2.1⟩
    · exact ⟨rfl, (hed d hd).2.2.2⟩
  obtain ⟨s', h1, h2⟩ := g2.run _ hh
  refine ⟨s', h1, ?_⟩
  have hx0 := g2.noOrder ho
  have hdisk : ∀ (x : Screen), (∀ r < 25, x.tab.val r 1 = 0) → x.cur < 25 →
      (x.run (edits.flatMap fun e => [(e.1, junk, Act.par e.2.1 e.2.2.1), (e.2.2.2.1, junk, .eval e.2.2.2.2)])).disk = x.disk := by
    clear h1 h2 hh
    induction edits with
    | nil => intro x _ _; rfl
    | cons d ds ih =>
      intro x hx hc
      obtain ⟨t, k, v, n, w⟩ := d
      have hd := hed _ (by simp : (t, k, v, n, w) ∈ _)
      have hy0 : ∀ r < 25, (x.set t x.cur k v).tab.val r 1 = 0 := by
        intro r hr
        simp only [Screen.set, Table.setVal]
        rw [if_neg (by have := hd.2.1; simp only at this; omega)]
        exact hx r hr
      obtain ⟨q1, q2, q3⟩ := quiet_step (x.set t x.cur k v) n (.eval w) hd.2.2.2 hy0 hc
      obtain ⟨q4, q5, q6⟩ := q3 hd.2.2.1
      have := ih (fun e he => hed e (by simp [he])) ((x.set t x.cur k v).step n (.eval w)) (by rw [q1]; exact hy0) q2
      rw [List.flatMap_cons]
      show (((x.set t x.cur k v).step n (.eval w)).run (ds.flatMap fun e =>
        [(e.1, junk, Act.par e.2.1 e.2.2.1), (e.2.2.2.1, junk, .eval e.2.2.2.2)])).disk = _
      rw [this, q6]
      rfl
  intro r k hr hk
  rw [h2.disk.getValue r k hr hk, g2.disk.getValue r k hr hk, hdisk x hx0 g2.lt]

example : ∀ e ∈ [((0 : Tm), 5, (7 : BitVec 32), (29000 : Tm), 12800), (29001, 6, 8, 59001, 12800)],
    e.2.1 < 120 ∧ e.2.1 ≠ 1 ∧ ¬ 30000#64 < Time.deltaMs e.2.2.2.1 e.1 ∧ DiskOk e.2.2.2.2 := by decide

/-- A write that fails is not repeated: the mark "changed" is gone, later calls write nothing, and a power failure brings
the old value. -/
theorem C86_failed_write_violated (v : BitVec 32) :
    ∃ s, history 0 [(0, junk, .par 5 v), (40000, junk, .eval 0), (80000, junk, .eval 12800), (120000, junk, .eval 12800),
        (120001, junk, .restart)] = some s ∧ getValue s.mem 0 5 = some 0 := by
  obtain ⟨s, h1, h2⟩ := reach 0 [(0, junk, .par 5 v), (40000, junk, .eval 0), (80000, junk, .eval 12800),
    (120000, junk, .eval 12800), (120001, junk, .restart)] (by
    intro e he
    simp only [List.mem_cons, List.not_mem_nil, or_false] at he
    rcases he with rfl | rfl | rfl | rfl | rfl
    · exact ⟨rfl, by decide, fun h => absurd h (by decide)⟩
    · exact ⟨rfl, .inl rfl⟩
    · exact ⟨rfl, .inr (by decide)⟩
    · exact ⟨rfl, .inr (by decide)⟩
    · exact ⟨rfl, trivial⟩)
  refine ⟨s, h1, ?_⟩
  have := h2.mem.getValue 0 5 (by omega) (by omega)
  rw [Nat.cast_zero] at this
  rw [show ((5 : Nat) : Int) = 5 from rfl] at this
  rw [this]
  have hr : ∀ y : Screen, (y.step 120001 .restart).tab = y.disk := fun _ => rfl
  simp only [Screen.run]
  rw [hr]
  generalize hx : (Screen.start .empty 0).step 0 (.par 5 v) = x
  have hc : x.cur < 25 := by rw [← hx]; show 0 < 25; decide
  have h0 : ∀ r < 25, x.tab.val r 1 = 0 := by
    intro r _
    rw [← hx]
    simp [Screen.step, Screen.set, Table.setVal, Screen.start, Table.empty]
  have hd : x.disk = .empty := by rw [← hx]; rfl
  have ht : x.tCheck = 0 := by rw [← hx]; rfl
  have key : (x.step 40000 (.eval 0)).dirty = false ∧ (x.step 40000 (.eval 0)).disk = .empty := by
    obtain ⟨y, he, hp⟩ := eval_pre x 40000 0
    have hn : y.command 40000 = y := command_none y 40000 (by rw [hp.val, hp.cur]; exact h0 _ hc)
    have hs := hp.saved (by rw [ht]; decide)
    simp only [Screen.step]
    rw [he, hn]
    refine ⟨hs.2.1, ?_⟩
    rw [hs.1, if_neg (by simp), hd]
  have q1 := quiet_step x 40000 (.eval 0) (.inl rfl) h0 hc
  have h01 : ∀ r < 25, (x.step 40000 (.eval 0)).tab.val r 1 = 0 := by rw [q1.1]; exact h0
  have q2 := quiet_clean _ 80000 (.eval 12800) (.inr (by decide)) h01 q1.2.1 key.1
  have q3 := quiet_step (x.step 40000 (.eval 0)) 80000 (.eval 12800) (.inr (by decide)) h01 q1.2.1
  have h02 : ∀ r < 25, ((x.step 40000 (.eval 0)).step 80000 (.eval 12800)).tab.val r 1 = 0 := by rw [q3.1]; exact h01
  have q4 := quiet_clean _ 120000 (.eval 12800) (.inr (by decide)) h02 q3.2.1 q2.1
  rw [q4.2, q2.2, key.2]
  rfl

/-- A power failure during the write leaves a mixture: a recipe with some of its new values and some of the old ones. -/
theorem C86_torn_violated (m old : List Byte) (hm : m.length = 12800) (ho : old.length = 12800) (w : Nat) (hw : w < 12800)
    (r k : Nat) (hr : r < 25) (hk : k < 120) (s : St) (hs : s.mem = m) (hf : s.file = some old) :
    (512 * r + 32 + 4 * k + 4 ≤ w → getValue (loadFile (s.save w).file) r k = getValue m r k) ∧
    (w ≤ 512 * r + 32 + 4 * k → getValue (loadFile (s.save w).file) r k = getValue old r k) := by
  have hl : loadFile (s.save w).file = m.take w ++ old.drop w := by
    unfold loadFile St.save
    simp only [hs, hf, Option.getD_some]
    have h1 : (m.take w).length = w := by simp; omega
    have h2 : (m.take w ++ old.drop w).length = 12800 := by simp; omega
    rw [h1, show memSize = 12800 from rfl, List.take_of_length_le (by omega), h2, Nat.sub_self, List.replicate_zero,
      List.append_nil]
  have h2 : (m.take w ++ old.drop w).length = 12800 := by simp; omega
  have h1 : (m.take w).length = w := by simp; omega
  rw [hl]
  unfold getValue
  rw [addr, rd_eq _ _ _ (by omega), rd_eq _ _ _ (by omega), rd_eq _ _ _ (by omega)]
  constructor
  · intro h
    have : seg (m.take w ++ old.drop w) (512 * r + 32 + 4 * k) 4 = seg m (512 * r + 32 + 4 * k) 4 := by
      apply List.ext_getElem?
      intro i
      rw [seg_get, seg_get]
      split
      · rw [List.getElem?_append_left (by omega), List.getElem?_take_of_lt (by omega)]
      · rfl
    rw [this]
  · intro h
    have : seg (m.take w ++ old.drop w) (512 * r + 32 + 4 * k) 4 = seg old (512 * r + 32 + 4 * k) 4 := by
      apply List.ext_getElem?
      intro i
      rw [seg_get, seg_get]
      split
      · rw [List.getElem?_append_right (by omega), List.getElem?_drop]
        congr 1
        omega
      · rfl
    rw [this]

end Ptusa.CipRec
