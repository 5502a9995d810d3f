import Verif.CipDev.Lemmas

/-!
# C170 to C172: the devices of the object that is to be washed
-/
namespace Ptusa.CipDev
open Ptusa.Registry

/-- A motor, three inputs, an output. -/
def project : List Reg :=
  [{ type := 2, sub := 1, name := bytes "M7" }, { type := 13, sub := 1, name := bytes "DI5" },
   { type := 13, sub := 1, name := bytes "LINE1DI5" }, { type := 14, sub := 1, name := bytes "DO9" }]

/-- Parameters of an object: its answer is the input 5, the pump of the return is at no device, the signal of the end is the output 9. -/
def params : Slot → Int
  | .os => 5
  | .finished => 9
  | _ => 0

theorem project_proper : Proper project := by
  constructor
  · intro i j a b hij ha hb ht
    have hi : i < 4 := (List.getElem?_eq_some_iff.1 ha).1
    have hj : j < 4 := (List.getElem?_eq_some_iff.1 hb).1
    have : i = 1 ∧ j = 2 := by
      rcases (by omega : i = 0 ∨ i = 1 ∨ i = 2 ∨ i = 3) with rfl | rfl | rfl | rfl <;>
        rcases (by omega : j = 0 ∨ j = 1 ∨ j = 2 ∨ j = 3) with rfl | rfl | rfl | rfl <;>
        first
        | omega
        | (simp [project] at ha hb; subst ha; subst hb; simp at ht)
    obtain ⟨rfl, rfl⟩ := this
    simp only [project, List.getElem?_cons_succ, List.getElem?_cons_zero, Option.some.injEq] at ha hb
    subst ha
    subst hb
    refine ⟨by decide +kernel, fun k c h1 h2 => by omega⟩
  · intro r hr
    simp only [project, List.mem_cons, List.not_mem_nil, or_false] at hr
    rcases hr with rfl | rfl | rfl | rfl <;> exact ⟨_, rfl⟩

/-- Options that contradict each other: a medium is circulated over its tank and fed at the same time. -/
def Conflict (podp : Int) : Prop := (bit podp 6 = true ∧ bit podp 2 = true) ∨ (bit podp 5 = true ∧ bit podp 1 = true)

/-! ### C170 -/

/-- C170, part: if every parameter is zero or means a device of the project other than its first, and the options do not contradict, the
washing can start, and every signal is the device that its parameter means, none if it is zero. -/
theorem C170_bound_partial (b : Bool) (rs : List Reg) (m : Mgr) (hm : (fresh b).addAll rs = some m) (hp : Proper rs) (nmr podp : Int)
    (par : Slot → Int) (d : Devs) (hn : Small nmr) (hv : ∀ s, Small (par s)) (h0 : Small podp) (hc : ¬ Conflict podp)
    (hs : ∀ s, par s = 0 ∨ ∃ i, i ≠ 0 ∧ Meant rs nmr.toNat (kindOf s) (par s).toNat i) :
    ∃ c d', init m nmr podp par d = some (true, c, d') ∧
      ∀ s, (par s = 0 → d' s = none) ∧ (∀ i, par s ≠ 0 → Meant rs nmr.toNat (kindOf s) (par s).toNat i → d' s = some i) := by
  have hg := good b rs m hm hp
  have hex : ∀ s, ∃ o : Option Nat, check m nmr s.kind (par s) = some (match o with | none => .unused | some i => .dev i) ∧
      (par s = 0 → o = none) ∧ (∀ i, par s ≠ 0 → Meant rs nmr.toNat (kindOf s) (par s).toNat i → o = some i) := by
    intro s
    rcases hs s with hz | ⟨i, hi0, hi⟩
    · refine ⟨none, by rw [hz, check_zero], fun _ => rfl, fun i hne => absurd hz hne⟩
    · by_cases hz : par s = 0
      · exact ⟨none, by rw [hz, check_zero], fun _ => rfl, fun i hne => absurd hz hne⟩
      · have hpos : 0 < par s := by have := (hv s).1; omega
        refine ⟨some i, ?_, fun e => absurd e hz, fun j _ hj => ?_⟩
        · rw [check_eq m nmr (par s) s.kind hn (hv s) hpos, kind_eq]
          exact tryAll_first hg _ (ways_typed _ _ _) i hi0 hi
        · rw [first_unique hg _ i j hi hj]
  let res : Slot → Option Nat := fun s => Classical.choose (hex s)
  have hres := fun s => Classical.choose_spec (hex s)
  have ha := assign_ok m nmr par res order d order_nodup (fun s _ => (hres s).1)
  have hcirc := circ_eq podp h0.1 (by have := h0.2; omega)
  refine ⟨{ tankS := bit podp 6, tankK := bit podp 5, feedWater := bit podp 0, feedS := bit podp 2, feedK := bit podp 1,
             count := if podp.toNat / 4096 % 256 = 0 then 3 else podp.toNat / 4096 % 256, waterNoStop := bit podp 8,
             mediumNoStop := bit podp 7 }, res, ?_, fun s => ⟨(hres s).2.1, (hres s).2.2⟩⟩
  unfold init
  rw [hcirc]
  dsimp only
  rw [if_neg]
  · rw [ha]
    simp only [Option.map_some, order_all, if_true]
  · intro hx
    apply hc
    simpa [Conflict] using hx

/-- C170, part: if some parameter is not zero and means no device, the washing cannot start. -/
theorem C170_refused_partial (b : Bool) (rs : List Reg) (m : Mgr) (hm : (fresh b).addAll rs = some m) (hp : Proper rs) (nmr podp : Int)
    (par : Slot → Int) (d : Devs) (hn : Small nmr) (hv : ∀ s, Small (par s)) (h0 : Small podp) (s : Slot) (hz : par s ≠ 0)
    (hs : ¬ ∃ i, Meant rs nmr.toNat (kindOf s) (par s).toNat i) :
    ∃ c d', init m nmr podp par d = some (false, c, d') := by
  have hg := good b rs m hm hp
  have hpos : 0 < par s := by have := (hv s).1; omega
  have hmiss : check m nmr s.kind (par s) = some .missing := by
    rw [check_eq m nmr (par s) s.kind hn (hv s) hpos, kind_eq]
    exact tryAll_missing hg _ (ways_typed _ _ _) hs
  obtain ⟨d', ha⟩ := assign_bad m nmr par order d (fun x _ => check_defined hg nmr (par x) hn (hv x) x.kind) s (order_all s) hmiss
  unfold init
  rw [circ_eq podp h0.1 (by have := h0.2; omega)]
  dsimp only
  split
  · exact ⟨_, _, rfl⟩
  · rw [ha]
    exact ⟨_, _, rfl⟩

/-- What the checks give for some signals: whether the washing can start, and the devices. -/
def sees (rs : List Reg) (nmr podp : Int) (par : Slot → Int) (d : Devs) (ss : List Slot) : Option (Bool × List (Option Nat)) :=
  ((fresh true).addAll rs).bind fun m => (init m nmr podp par d).map fun r => (r.1, ss.map r.2.2)

/-- The input of the line comes before the common one with the same number. -/
example : sees project 1 0 params (fun _ => some 77) [.os, .finished, .retPump] = some (true, [some 2, some 3, none]) ∧
    sees project 2 0 params (fun _ => some 77) [.os, .finished, .retPump] = some (true, [some 1, some 3, none]) ∧
    (sees project 2 0 (fun s => if s = .acid then 8 else params s) (fun _ => none) []).map (·.1) = some false := by
  decide +kernel

example : Meant project 1 .di 5 2 := Or.inl ⟨_, rfl, rfl, by decide +kernel⟩

/-- C170 is violated: the first device of a project is never used, also where a parameter means it. -/
theorem C170_first_violated (b : Bool) (rs : List Reg) (m : Mgr) (hm : (fresh b).addAll rs = some m) (hp : Proper rs) (nmr podp : Int)
    (par : Slot → Int) (d : Devs) (hn : Small nmr) (hv : ∀ s, Small (par s)) (h0 : Small podp) (hd : ∀ s, d s ≠ some 0) (s : Slot) :
    ∃ ok c d', init m nmr podp par d = some (ok, c, d') ∧ d' s ≠ some 0 := by
  have hg := good b rs m hm hp
  have hdef : ∀ (ss : List Slot) (d : Devs), ∃ r, assign m nmr par ss d = some r := by
    intro ss
    induction ss with
    | nil => exact fun d => ⟨_, rfl⟩
    | cons x ss ih =>
      intro d
      simp only [assign]
      cases hx : check m nmr x.kind (par x) with
      | none => exact absurd hx (check_defined hg nmr (par x) hn (hv x) x.kind)
      | some f =>
        cases f with
        | missing => exact ⟨_, rfl⟩
        | unused => exact ih _
        | dev i => exact ih _
  obtain ⟨r, hr⟩ := hdef order d
  unfold init
  rw [circ_eq podp h0.1 (by have := h0.2; omega)]
  dsimp only
  split
  · exact ⟨_, _, _, rfl, hd s⟩
  · rw [hr]
    refine ⟨_, _, _, rfl, fun hz => hd s ?_⟩
    exact assign_zero m nmr par order d r (fun x i hx => check_dev_ne hg nmr (par x) hn (hv x) x.kind i hx) hr s hz

/-- Inputs only, "DI5" is the first. -/
def inputs : List Reg :=
  ["DI5", "DI6", "DI7", "DI8", "DI90", "DI91"].map fun n => { type := 13, sub := 1, name := bytes n }

/-- The number 5 means "DI5"; the sixth device, "DI91", is used in its place.  Without a sixth device the washing is refused. -/
theorem C170_other_violated : Meant inputs 1 .di 5 0 ∧
    sees inputs 1 0 params (fun _ => none) [.os] = some (false, [some 5]) ∧
    sees inputs 1 0 (fun s => if s = .os then 5 else 0) (fun _ => none) [.os] = some (true, [some 5]) ∧
    sees (inputs.take 5) 1 0 (fun s => if s = .os then 5 else 0) (fun _ => none) [.os] = some (false, [none]) := by
  refine ⟨Or.inr ⟨?_, Or.inl ⟨_, rfl, rfl, by decide +kernel⟩⟩, by decide +kernel, by decide +kernel, by decide +kernel⟩
  rintro ⟨j, r, hj, _, hn⟩
  have : ∀ r ∈ inputs, r.name ≠ bytes "LINE" ++ digits 1 ++ bytes (Kind.about .di).2 ++ digits 5 := by decide +kernel
  exact this r (List.mem_of_getElem? hj) hn

/-- C170 is violated: a negative parameter is converted to an unsigned number, which is undefined. -/
theorem C170_negative_violated (m : Mgr) (nmr podp : Int) (par : Slot → Int) (d : Devs) (h0 : Small podp) (hc : ¬ Conflict podp)
    (h : par .os < 0) : init m nmr podp par d = none := by
  unfold init
  rw [circ_eq podp h0.1 (by have := h0.2; omega)]
  dsimp only
  rw [if_neg]
  · have hn : check m nmr Slot.os.kind (par .os) = none := by
      simp only [Slot.kind, check, checkFull]
      rw [if_pos (Or.inl h)]
    have ha : assign m nmr par order d = none := by
      unfold order
      rw [assign, hn]
    rw [ha]
    rfl
  · intro hx
    apply hc
    simpa [Conflict] using hx

example : init {} 1 0 (fun _ => -1) (fun _ => none) = none :=
  C170_negative_violated {} 1 0 _ _ ⟨by decide, by decide⟩ (by unfold Conflict; decide) (by decide)

/-! ### C171 -/

/-- C171, part: when a check fails, the signals checked before it are those of the new object, and the signal that failed is none. -/
theorem C171_checked_partial (b : Bool) (rs : List Reg) (m : Mgr) (hm : (fresh b).addAll rs = some m) (hp : Proper rs) (nmr podp : Int)
    (par : Slot → Int) (d : Devs) (hn : Small nmr) (hv : ∀ s, Small (par s)) (h0 : Small podp) (hc : ¬ Conflict podp)
    (p q : List Slot) (s : Slot) (ho : order = p ++ s :: q) (hz : par s ≠ 0)
    (hs : ¬ ∃ i, Meant rs nmr.toNat (kindOf s) (par s).toNat i)
    (hok : ∀ x ∈ p, par x = 0 ∨ ∃ i, i ≠ 0 ∧ Meant rs nmr.toNat (kindOf x) (par x).toNat i) :
    ∃ c d', init m nmr podp par d = some (false, c, d') ∧ d' s = none ∧
      (∀ x ∈ p, (par x = 0 → d' x = none) ∧ (∀ i, par x ≠ 0 → Meant rs nmr.toNat (kindOf x) (par x).toNat i → d' x = some i)) ∧
      ∀ x ∈ q, d' x = d x := by
  have hg := good b rs m hm hp
  have hex : ∀ x, ∃ o : Option Nat, x ∈ p → (check m nmr x.kind (par x) = some (match o with | none => .unused | some i => .dev i) ∧
      (par x = 0 → o = none) ∧ (∀ i, par x ≠ 0 → Meant rs nmr.toNat (kindOf x) (par x).toNat i → o = some i)) := by
    intro x
    by_cases hx : x ∈ p
    · by_cases hz : par x = 0
      · exact ⟨none, fun _ => ⟨by rw [hz, check_zero], fun _ => rfl, fun i hne => absurd hz hne⟩⟩
      · rcases hok x hx with e | ⟨i, hi0, hi⟩
        · exact absurd e hz
        · have hpos : 0 < par x := by have := (hv x).1; omega
          refine ⟨some i, fun _ => ⟨?_, fun e => absurd e hz, fun j _ hj => ?_⟩⟩
          · rw [check_eq m nmr (par x) x.kind hn (hv x) hpos, kind_eq]
            exact tryAll_first hg _ (ways_typed _ _ _) i hi0 hi
          · rw [first_unique hg _ i j hi hj]
    · exact ⟨none, fun h => absurd h hx⟩
  have hres := fun x => Classical.choose_spec (hex x)
  have hpos : 0 < par s := by have := (hv s).1; omega
  have hmiss : check m nmr s.kind (par s) = some .missing := by
    rw [check_eq m nmr (par s) s.kind hn (hv s) hpos, kind_eq]
    exact tryAll_missing hg _ (ways_typed _ _ _) hs
  have hnd : (p ++ s :: q).Nodup := ho ▸ order_nodup
  have ha := assign_split m nmr par (fun x => Classical.choose (hex x)) p q s d hnd (fun x hx => (hres x hx).1) hmiss
  rw [← ho] at ha
  have hnd' := List.nodup_append.1 hnd
  refine ⟨{ tankS := bit podp 6, tankK := bit podp 5, feedWater := bit podp 0, feedS := bit podp 2, feedK := bit podp 1,
             count := if podp.toNat / 4096 % 256 = 0 then 3 else podp.toNat / 4096 % 256, waterNoStop := bit podp 8,
             mediumNoStop := bit podp 7 }, fun x => if x ∈ p then Classical.choose (hex x) else if x = s then none else d x, ?_, ?_, ?_, ?_⟩
  rotate_left 1
  · have : s ∉ p := fun h => hnd'.2.2 s h s (by simp) rfl
    simp [this]
  · intro x hx
    have e : (if x ∈ p then Classical.choose (hex x) else if x = s then none else d x) = Classical.choose (hex x) := if_pos hx
    dsimp only
    rw [e]
    exact (hres x hx).2
  · intro x hx
    have h1 : x ∉ p := fun h => hnd'.2.2 x h x (by simp [hx]) rfl
    have h2 : x ≠ s := by
      rintro rfl
      exact (List.nodup_cons.1 hnd'.2.1).1 hx
    simp [h1, h2]
  · unfold init
    rw [circ_eq podp h0.1 (by have := h0.2; omega)]
    dsimp only
    rw [if_neg]
    · rw [ha]
      rfl
    · intro hx
      apply hc
      simpa [Conflict] using hx

/-- C171 is violated: the signals behind the one that failed stay those of the object before (here: the output that reports caustic). -/
theorem C171_rest_violated : sees project 1 0 (fun s => if s = .os then 8 else 0) (fun s => if s = .caustic then some 3 else none)
    [.os, .caustic] = some (false, [none, some 3]) := by
  decide +kernel

/-- C171 is violated: with options that contradict, no signal is changed at all. -/
theorem C171_options_violated (m : Mgr) (nmr podp : Int) (par : Slot → Int) (d : Devs) (h0 : Small podp) (hc : Conflict podp) :
    ∃ c, init m nmr podp par d = some (false, c, d) := by
  unfold init
  rw [circ_eq podp h0.1 (by have := h0.2; omega)]
  dsimp only
  rw [if_pos (by simpa [Conflict] using hc)]
  exact ⟨_, rfl⟩

example : sees project 1 68 (fun _ => 0) (fun _ => some 2) [.os, .tempTask] = some (false, [some 2, some 2]) := by decide +kernel

/-! ### C172 -/

/-- C172, part: the options of the circulation are the bits of the parameter, the number of feedings its bits 12 to 19, three if these are zero; a
washing with options that contradict each other does not start. -/
theorem C172_options_partial (m : Mgr) (nmr podp : Int) (par : Slot → Int) (d : Devs) (h0 : 0 ≤ podp) (h1 : podp < 2 ^ 32)
    (ok : Bool) (c : Circ) (d' : Devs) (h : init m nmr podp par d = some (ok, c, d')) :
    c.feedWater = bit podp 0 ∧ c.feedK = bit podp 1 ∧ c.feedS = bit podp 2 ∧ c.tankK = bit podp 5 ∧ c.tankS = bit podp 6 ∧
    c.mediumNoStop = bit podp 7 ∧ c.waterNoStop = bit podp 8 ∧
    (podp.toNat / 2 ^ 12 % 2 ^ 8 ≠ 0 → c.count = podp.toNat / 2 ^ 12 % 2 ^ 8) ∧ (podp.toNat / 2 ^ 12 % 2 ^ 8 = 0 → c.count = 3) ∧
    (Conflict podp → ok = false) := by
  unfold init at h
  rw [circ_eq podp h0 h1] at h
  dsimp only at h
  split at h
  · cases h
    refine ⟨rfl, rfl, rfl, rfl, rfl, rfl, rfl, fun hz => ?_, fun hz => ?_, fun _ => rfl⟩
    · exact if_neg hz
    · exact if_pos hz
  · rename_i hx
    cases ha : assign m nmr par order d with
    | none => simp [ha] at h
    | some r =>
      rw [ha] at h
      cases h
      refine ⟨rfl, rfl, rfl, rfl, rfl, rfl, rfl, fun hz => ?_, fun hz => ?_, fun hc => ?_⟩
      · exact if_neg hz
      · exact if_pos hz
      · exact absurd (by simpa [Conflict] using hc) hx

example : (circ (2 ^ 13 + 64 + 1)).map (fun c => (c.tankS, c.feedWater, c.feedS, c.count)) = some (true, true, false, 2) := by decide +kernel

/-- C172 is violated: a negative value is converted to an unsigned number, which is undefined. -/
theorem C172_negative_violated (m : Mgr) (nmr podp : Int) (par : Slot → Int) (d : Devs) (h : podp < 0) : init m nmr podp par d = none := by
  unfold init circ
  rw [if_pos (Or.inl h)]

example : init {} 1 (-1) (fun _ => 0) (fun _ => none) = none := C172_negative_violated {} 1 (-1) _ _ (by decide)

end Ptusa.CipDev
