import Verif.Registry.Spec
import Mathlib.Data.List.Induction

namespace Ptusa.Registry

theorem cmp_self (a : Name) : cmp a a = .eq := by
  induction a with
  | nil => rfl
  | cons x a ih => simp [cmp, ih]

theorem cmp_eq {a b : Name} : cmp a b = .eq ↔ a = b := by
  constructor
  · induction a generalizing b with
    | nil => cases b <;> simp [cmp]
    | cons x a ih =>
      cases b with
      | nil => simp [cmp]
      | cons y b =>
        simp only [cmp]
        intro h
        split at h
        · cases h
        · rename_i h1
          split at h
          · cases h
          · rename_i h2
            have : x = y := by
              apply BitVec.eq_of_toNat_eq
              rw [BitVec.lt_def] at h1 h2
              omega
            rw [this, ih h]
  · rintro rfl; exact cmp_self a

theorem cmp_lt {a b : Name} : cmp a b = .lt ↔ a < b := by
  induction a generalizing b with
  | nil =>
    cases b with
    | nil => simp [cmp]
    | cons y b => simp [cmp]
  | cons x a ih =>
    cases b with
    | nil => simp [cmp]
    | cons y b =>
      rw [List.cons_lt_cons_iff]
      simp only [cmp]
      by_cases h1 : x < y
      · simp [h1]
      · rw [if_neg h1]
        by_cases h2 : y < x
        · rw [if_pos h2]
          have : x ≠ y := by
            rintro rfl
            exact absurd h2 h1
          simp [h1, this]
        · rw [if_neg h2]
          have : x = y := by
            apply BitVec.eq_of_toNat_eq
            rw [BitVec.lt_def] at h1 h2
            omega
          subst this
          simp [h1, ih]

theorem cmp_gt {a b : Name} : cmp a b = .gt ↔ b < a := by
  induction a generalizing b with
  | nil =>
    cases b with
    | nil => simp [cmp]
    | cons y b => simp [cmp]
  | cons x a ih =>
    cases b with
    | nil => simp [cmp]
    | cons y b =>
      rw [List.cons_lt_cons_iff]
      simp only [cmp]
      by_cases h1 : x < y
      · rw [if_pos h1]
        have h2 : ¬ y < x := by
          rw [BitVec.lt_def] at h1 ⊢
          omega
        have : y ≠ x := by
          rintro rfl
          exact absurd h1 h2
        simp [h2, this]
      · rw [if_neg h1]
        by_cases h2 : y < x
        · rw [if_pos h2]
          simp [h2]
        · rw [if_neg h2]
          have : x = y := by
            apply BitVec.eq_of_toNat_eq
            rw [BitVec.lt_def] at h1 h2
            omega
          subst this
          simp [h1, ih]

/-! ## The search -/

theorem search_sound (ds : List Dev) (name : Name) (l u : Int) (i : Nat) (h : search ds name l u = some (some i)) :
    (∃ d, ds[i]? = some d ∧ d.name = name) ∧ l ≤ i ∧ (i : Int) ≤ u := by
  induction l, u using search.induct (ds := ds) (name := name) with
  | case1 l u hlu j hj => rw [search] at h; simp [hlu, show (l + u) / 2 < 0 from hj] at h
  | case2 l u hlu j hj hn =>
    rw [search] at h
    simp only [hlu, ↓reduceDIte] at h
    rw [if_neg hj] at h
    simp only [show ds[((l + u) / 2).toNat]? = none from hn] at h
    cases h
  | case3 l u hlu j hj d hd hc =>
    rw [search] at h
    simp only [hlu, ↓reduceDIte] at h
    rw [if_neg hj] at h
    simp only [show ds[((l + u) / 2).toNat]? = some d from hd, hc] at h
    have hi : i = j.toNat := by
      have := Option.some.inj (Option.some.inj h)
      exact this.symm
    refine ⟨⟨d, by rw [hi]; exact hd, (cmp_eq.1 hc).symm⟩, ?_, ?_⟩ <;> omega
  | case4 l u hlu j hj d hd hc ih =>
    rw [search] at h
    simp only [hlu, ↓reduceDIte] at h
    rw [if_neg hj] at h
    simp only [show ds[((l + u) / 2).toNat]? = some d from hd, hc] at h
    have := ih h
    refine ⟨this.1, ?_, this.2.2⟩
    have := this.2.1
    omega
  | case5 l u hlu j hj d hd hc ih =>
    rw [search] at h
    simp only [hlu, ↓reduceDIte] at h
    rw [if_neg hj] at h
    simp only [show ds[((l + u) / 2).toNat]? = some d from hd, hc] at h
    have := ih h
    refine ⟨this.1, this.2.1, ?_⟩
    have := this.2.2
    omega
  | case6 l u hlu =>
    rw [search] at h
    simp [hlu] at h

theorem search_safe (ds : List Dev) (name : Name) (l u : Int) (hl : 0 ≤ l) (hu : u < ds.length) :
    search ds name l u ≠ none := by
  induction l, u using search.induct (ds := ds) (name := name) with
  | case1 l u hlu j hj => exfalso; omega
  | case2 l u hlu j hj hn =>
    exfalso
    rw [List.getElem?_eq_none_iff] at hn
    omega
  | case3 l u hlu j hj d hd hc =>
    rw [search]
    simp only [hlu, ↓reduceDIte]
    rw [if_neg hj]
    simp only [show ds[((l + u) / 2).toNat]? = some d from hd, hc]
    simp
  | case4 l u hlu j hj d hd hc ih =>
    rw [search]
    simp only [hlu, ↓reduceDIte]
    rw [if_neg hj]
    simp only [show ds[((l + u) / 2).toNat]? = some d from hd, hc]
    exact ih (by omega) hu
  | case5 l u hlu j hj d hd hc ih =>
    rw [search]
    simp only [hlu, ↓reduceDIte]
    rw [if_neg hj]
    simp only [show ds[((l + u) / 2).toNat]? = some d from hd, hc]
    exact ih hl (by omega)
  | case6 l u hlu =>
    rw [search]
    simp [hlu]

theorem name_lt_irrefl (a : Name) : ¬ a < a := by
  intro h
  have := cmp_lt.2 h
  rw [cmp_self] at this
  cases this

theorem name_lt_asymm {a b : Name} (h : a < b) : ¬ b < a := by
  intro h2
  have h1 := cmp_lt.2 h
  have h2 := cmp_gt.2 h2
  rw [h1] at h2
  cases h2

/-- In a sorted part of the list the search finds the device. -/
theorem search_complete (ds : List Dev) (name : Name) (l u : Int) (hl : 0 ≤ l) (hu : u < ds.length)
    (hs : ∀ (i j : Nat) (a b : Dev), i < j → l ≤ (i : Int) → (j : Int) ≤ u → ds[i]? = some a → ds[j]? = some b → a.name < b.name)
    (n : Nat) (d : Dev) (hn : l ≤ n) (hn' : (n : Int) ≤ u) (hd : ds[n]? = some d) (hname : d.name = name) :
    search ds name l u = some (some n) := by
  induction l, u using search.induct (ds := ds) (name := name) with
  | case1 l u hlu j hj => exfalso; omega
  | case2 l u hlu j hj hx =>
    exfalso
    rw [List.getElem?_eq_none_iff] at hx
    omega
  | case3 l u hlu j hj e he hc =>
    rw [search]
    simp only [hlu, ↓reduceDIte]
    rw [if_neg hj]
    simp only [show ds[((l + u) / 2).toNat]? = some e from he, hc]
    have hen : e.name = name := (cmp_eq.1 hc).symm
    have : j.toNat = n := by
      rcases Nat.lt_trichotomy j.toNat n with hlt | heq | hgt
      · have := hs _ _ e d hlt (by omega) (by omega) he hd
        rw [hen, hname] at this
        exact absurd this (name_lt_irrefl _)
      · exact heq
      · have := hs _ _ d e hgt (by omega) (by omega) hd he
        rw [hen, hname] at this
        exact absurd this (name_lt_irrefl _)
    rw [← this]
  | case4 l u hlu j hj e he hc ih =>
    rw [search]
    simp only [hlu, ↓reduceDIte]
    rw [if_neg hj]
    simp only [show ds[((l + u) / 2).toNat]? = some e from he, hc]
    have hlt : e.name < name := cmp_gt.1 hc
    have hjn : j < n := by
      rcases Nat.lt_trichotomy j.toNat n with h | h | h
      · omega
      · rw [h] at he
        rw [he] at hd
        cases hd
        rw [hname] at hlt
        exact absurd hlt (name_lt_irrefl _)
      · have := hs _ _ d e h (by omega) (by omega) hd he
        rw [hname] at this
        exact absurd this (name_lt_asymm hlt)
    exact ih (by omega) hu (fun i k a b hik h1 h2 => hs i k a b hik (by omega) h2) (by omega) hn'
  | case5 l u hlu j hj e he hc ih =>
    rw [search]
    simp only [hlu, ↓reduceDIte]
    rw [if_neg hj]
    simp only [show ds[((l + u) / 2).toNat]? = some e from he, hc]
    have hlt : name < e.name := cmp_lt.1 hc
    have hjn : (n : Int) < j := by
      rcases Nat.lt_trichotomy j.toNat n with h | h | h
      · have := hs _ _ e d h (by omega) (by omega) he hd
        rw [hname] at this
        exact absurd this (name_lt_asymm hlt)
      · rw [h] at he
        rw [he] at hd
        cases hd
        rw [hname] at hlt
        exact absurd hlt (name_lt_irrefl _)
      · omega
    exact ih hl (by omega) (fun i k a b hik h1 h2 => hs i k a b hik h1 (by omega)) hn (by omega)
  | case6 l u hlu => exfalso; omega

/-! ## The registrations -/

theorem addAll_snoc (m : Mgr) (rs : List Reg) (r : Reg) :
    m.addAll (rs ++ [r]) = (m.addAll rs).bind (·.add r) := by
  induction rs generalizing m with
  | nil => simp [Mgr.addAll, Option.bind_some]
  | cons x rs ih =>
    simp only [List.cons_append, Mgr.addAll]
    cases h : m.add x with
    | none => rfl
    | some m' => simpa using ih m'

/-- What the manager knows after registrations. -/
structure Known (m : Mgr) (rs : List Reg) : Prop where
  len : m.devs.length = rs.length
  dev : ∀ (i : Nat) (r : Reg), rs[i]? = some r → m.devs[i]? = build r i
  range : ∀ t : Int, 0 ≤ t → t < typeCnt →
    (m.met t = false ∧ m.start t = -1 ∧ m.stop t = -1 ∧ ∀ r ∈ rs, r.type ≠ t) ∨
    (m.met t = true ∧ ∃ i j : Nat, m.start t = i ∧ m.stop t = j ∧ i ≤ j ∧ j < rs.length ∧
      (∃ r, rs[i]? = some r ∧ r.type = t) ∧ (∃ r, rs[j]? = some r ∧ r.type = t) ∧
      ∀ (k : Nat) (r : Reg), rs[k]? = some r → r.type = t → i ≤ k ∧ k ≤ j)

theorem known (b : Bool) (rs : List Reg) : ∀ m, (fresh b).addAll rs = some m → Known m rs ∧ m.silent = b := by
  induction rs using List.reverseRecOn with
  | nil =>
    intro m h
    simp only [Mgr.addAll, Option.some.injEq] at h
    subst h
    refine ⟨⟨rfl, by simp, ?_⟩, rfl⟩
    intro t _ _
    exact Or.inl ⟨rfl, rfl, rfl, by simp⟩
  | append_singleton rs r ih =>
    intro m h
    rw [addAll_snoc] at h
    obtain ⟨m0, h0, h1⟩ := Option.bind_eq_some_iff.1 h
    obtain ⟨hk, hsil⟩ := ih m0 h0
    simp only [Mgr.add, Option.map_eq_some_iff] at h1
    obtain ⟨d, hd, rfl⟩ := h1
    rw [hk.len] at hd
    have hdev : ∀ (i : Nat) (x : Reg), (rs ++ [r])[i]? = some x → (m0.devs ++ [d])[i]? = build x i := by
      intro i x hx
      rcases Nat.lt_trichotomy i rs.length with hi | hi | hi
      · rw [List.getElem?_append_left hi] at hx
        rw [List.getElem?_append_left (by rw [hk.len]; exact hi)]
        exact hk.dev i x hx
      · subst hi
        have e1 : (rs ++ [r])[rs.length]? = some r := by simp
        rw [e1] at hx
        cases hx
        rw [hd, ← hk.len]
        simp
      · rw [List.getElem?_eq_none (by simp; omega)] at hx
        cases hx
    by_cases ht : 0 ≤ r.type ∧ r.type < typeCnt
    · rw [if_pos ht]
      refine ⟨⟨by simp [hk.len], hdev, ?_⟩, hsil⟩
      intro t h0 h1
      by_cases hrt : t = r.type
      · right
        simp only [if_pos hrt]
        rcases hk.range t h0 h1 with ⟨hm, _, _, hno⟩ | ⟨hm, i, j, hi, hj, hij, hjl, hfi, hfj, hall⟩
        · refine ⟨trivial, rs.length, rs.length, ?_, ?_, Nat.le_refl _, by simp, ⟨r, by simp, hrt.symm⟩,
            ⟨r, by simp, hrt.symm⟩, ?_⟩
          · rw [hm]; simp [hk.len]
          · simp [hk.len]
          · intro k x hx hxt
            rcases Nat.lt_trichotomy k rs.length with hk' | hk' | hk'
            · rw [List.getElem?_append_left hk'] at hx
              exact absurd hxt (hno x (List.mem_of_getElem? hx))
            · omega
            · rw [List.getElem?_eq_none (by simp; omega)] at hx
              cases hx
        · obtain ⟨ri, hri, hrit⟩ := hfi
          refine ⟨trivial, i, rs.length, ?_, ?_, by omega, by simp, ⟨ri, ?_, hrit⟩,
            ⟨r, by simp, hrt.symm⟩, ?_⟩
          · rw [hm]; simp [hi]
          · simp [hk.len]
          · rw [List.getElem?_append_left (by omega)]; exact hri
          · intro k x hx hxt
            rcases Nat.lt_trichotomy k rs.length with hk' | hk' | hk'
            · rw [List.getElem?_append_left hk'] at hx
              have := hall k x hx hxt
              omega
            · omega
            · rw [List.getElem?_eq_none (by simp; omega)] at hx
              cases hx
      · simp only [if_neg hrt]
        rcases hk.range t h0 h1 with ⟨hm, hs, he, hno⟩ | ⟨hm, i, j, hi, hj, hij, hjl, hfi, hfj, hall⟩
        · left
          refine ⟨hm, hs, he, ?_⟩
          intro x hx
          rcases List.mem_append.1 hx with hx | hx
          · exact hno x hx
          · rw [List.mem_singleton.1 hx]; exact fun h => hrt h.symm
        · right
          obtain ⟨ri, hri, hrit⟩ := hfi
          obtain ⟨rj, hrj, hrjt⟩ := hfj
          refine ⟨hm, i, j, hi, hj, hij, by simp; omega, ⟨ri, ?_, hrit⟩, ⟨rj, ?_, hrjt⟩, ?_⟩
          · rw [List.getElem?_append_left (by omega)]; exact hri
          · rw [List.getElem?_append_left (by omega)]; exact hrj
          · intro k x hx hxt
            rcases Nat.lt_trichotomy k rs.length with hk' | hk' | hk'
            · rw [List.getElem?_append_left hk'] at hx
              exact hall k x hx hxt
            · subst hk'
              have e1 : (rs ++ [r])[rs.length]? = some r := by simp
              rw [e1] at hx
              cases hx
              exact absurd hxt.symm hrt
            · rw [List.getElem?_eq_none (by simp; omega)] at hx
              cases hx
    · rw [if_neg ht]
      refine ⟨⟨by simp [hk.len], hdev, ?_⟩, hsil⟩
      intro t h0 h1
      have hrt : t ≠ r.type := by
        rintro rfl
        exact ht ⟨h0, h1⟩
      rcases hk.range t h0 h1 with ⟨hm, hs, he, hno⟩ | ⟨hm, i, j, hi, hj, hij, hjl, hfi, hfj, hall⟩
      · left
        refine ⟨hm, hs, he, ?_⟩
        intro x hx
        rcases List.mem_append.1 hx with hx | hx
        · exact hno x hx
        · rw [List.mem_singleton.1 hx]; exact fun h => hrt h.symm
      · right
        obtain ⟨ri, hri, hrit⟩ := hfi
        obtain ⟨rj, hrj, hrjt⟩ := hfj
        refine ⟨hm, i, j, hi, hj, hij, by simp; omega, ⟨ri, ?_, hrit⟩, ⟨rj, ?_, hrjt⟩, ?_⟩
        · rw [List.getElem?_append_left (by omega)]; exact hri
        · rw [List.getElem?_append_left (by omega)]; exact hrj
        · intro k x hx hxt
          rcases Nat.lt_trichotomy k rs.length with hk' | hk' | hk'
          · rw [List.getElem?_append_left hk'] at hx
            exact hall k x hx hxt
          · subst hk'
            have e1 : (rs ++ [r])[rs.length]? = some r := by simp
            rw [e1] at hx
            cases hx
            exact absurd hxt.symm hrt
          · rw [List.getElem?_eq_none (by simp; omega)] at hx
            cases hx

/-! ## Supported kinds -/

theorem make_type {t s : Int} {a : Article} {c : Cls} (h : make t s a = some c) : 0 ≤ t ∧ t < typeCnt := by
  unfold make at h
  unfold typeCnt
  split at h <;> first | omega | cases h

theorem build_supported {r : Reg} {n : Nat} {d : Dev} (hs : Supported r) (h : build r n = some d) :
    d.name = r.name ∧ d.number = n ∧ d.type = r.type ∧ make r.type r.sub r.article = some d.cls ∧
      d.sub = subOf d.cls r.sub ∧ r.name.length < maxName := by
  obtain ⟨c, hc⟩ := hs
  simp only [build, hc] at h
  split at h
  · rename_i hl
    cases h
    exact ⟨rfl, rfl, rfl, hc, rfl, hl⟩
  · cases h

theorem built {m : Mgr} {rs : List Reg} (hk : Known m rs) {i : Nat} {r : Reg} (h : rs[i]? = some r) :
    ∃ d, m.devs[i]? = some d ∧ build r i = some d := by
  have hi : i < m.devs.length := by
    rw [hk.len]
    exact (List.getElem?_eq_some_iff.1 h).1
  refine ⟨m.devs[i], List.getElem?_eq_getElem hi, ?_⟩
  rw [← hk.dev i r h, List.getElem?_eq_getElem hi]

theorem registered {m : Mgr} {rs : List Reg} (hk : Known m rs) {i : Nat} {d : Dev} (h : m.devs[i]? = some d) :
    ∃ r, rs[i]? = some r ∧ build r i = some d := by
  have hi : i < rs.length := by
    rw [← hk.len]
    exact (List.getElem?_eq_some_iff.1 h).1
  refine ⟨rs[i], List.getElem?_eq_getElem hi, ?_⟩
  rw [← hk.dev i _ (List.getElem?_eq_getElem hi), h]

theorem find_safe {m : Mgr} {rs : List Reg} (hk : Known m rs) (t : Int) (name : Name) : m.find t name ≠ none := by
  unfold Mgr.find
  by_cases ht : 0 ≤ t ∧ t < typeCnt
  · rw [if_pos ht]
    rcases hk.range t ht.1 ht.2 with ⟨_, hs, _⟩ | ⟨_, i, j, hi, hj, hij, hjl, _⟩
    · rw [if_pos hs]; simp
    · rw [if_neg (by omega)]
      rw [hi, hj]
      exact search_safe _ _ _ _ (by omega) (by rw [hk.len]; omega)
  · rw [if_neg ht]; simp

theorem find_sound {m : Mgr} {rs : List Reg} (hk : Known m rs) {t : Int} {name : Name} {i : Nat}
    (h : m.find t name = some (some i)) :
    (0 ≤ t ∧ t < typeCnt) ∧ (∃ d, m.devs[i]? = some d ∧ d.name = name) ∧
      ∃ k j : Nat, k ≤ i ∧ i ≤ j ∧ (∃ r, rs[k]? = some r ∧ r.type = t) ∧ (∃ r, rs[j]? = some r ∧ r.type = t) := by
  unfold Mgr.find at h
  by_cases ht : 0 ≤ t ∧ t < typeCnt
  · rw [if_pos ht] at h
    rcases hk.range t ht.1 ht.2 with ⟨_, hs, _⟩ | ⟨_, a, b, ha, hb, hab, hbl, hfa, hfb, _⟩
    · rw [if_pos hs] at h; cases h
    · rw [if_neg (by omega)] at h
      obtain ⟨h1, h2, h3⟩ := search_sound _ _ _ _ _ h
      exact ⟨ht, h1, a, b, by omega, by omega, hfa, hfb⟩
  · rw [if_neg ht] at h; cases h

/-- In an ordered description a search ends at a device of the type. -/
theorem find_type {m : Mgr} {rs : List Reg} (hk : Known m rs) (ho : Ordered rs) {t : Int} {name : Name} {i : Nat}
    (h : m.find t name = some (some i)) : ∃ r, rs[i]? = some r ∧ r.type = t := by
  obtain ⟨_, ⟨d, hd, _⟩, k, j, hki, hij, ⟨rk, hrk, hkt⟩, ⟨rj, hrj, hjt⟩⟩ := find_sound hk h
  rcases Nat.lt_or_ge k i with h1 | h1
  · rcases Nat.lt_or_ge i j with h2 | h2
    · obtain ⟨r, hr, _⟩ := registered hk hd
      exact ⟨r, hr, by rw [(ho k j rk rj (by omega) hrk hrj (by rw [hkt, hjt])).2 i r h1 h2 hr, hkt]⟩
    · have : i = j := by omega
      exact ⟨rj, this ▸ hrj, hjt⟩
  · have : i = k := by omega
    exact ⟨rk, this ▸ hrk, hkt⟩

theorem find_complete {m : Mgr} {rs : List Reg} (hk : Known m rs) (ho : Ordered rs) (hs : ∀ r ∈ rs, Supported r)
    {i : Nat} {r : Reg} (hr : rs[i]? = some r) : m.find r.type r.name = some (some i) := by
  obtain ⟨c, hc⟩ := hs r (List.mem_of_getElem? hr)
  have ht := make_type hc
  unfold Mgr.find
  rw [if_pos ht]
  rcases hk.range _ ht.1 ht.2 with ⟨_, _, _, hno⟩ | ⟨_, a, b, ha, hb, hab, hbl, ⟨ra, hra, hat⟩, ⟨rb, hrb, hbt⟩, hall⟩
  · exact absurd rfl (hno r (List.mem_of_getElem? hr))
  · rw [if_neg (by omega), ha, hb]
    obtain ⟨d, hd, hbd⟩ := built hk hr
    have hd' := build_supported (hs r (List.mem_of_getElem? hr)) hbd
    have hin := hall i r hr rfl
    refine search_complete _ _ _ _ (by omega) (by rw [hk.len]; omega) ?_ i d (by omega) (by omega) hd hd'.1
    intro p q x y hpq hp hq hx hy
    obtain ⟨rp, hrp, hbp⟩ := registered hk hx
    obtain ⟨rq, hrq, hbq⟩ := registered hk hy
    have tp : ∀ p rp, rs[p]? = some rp → a ≤ p → p ≤ b → rp.type = r.type := by
      intro p rp hrp h1 h2
      rcases Nat.lt_or_ge a p with h3 | h3
      · rcases Nat.lt_or_ge p b with h4 | h4
        · rw [(ho a b ra rb (by omega) hra hrb (by rw [hat, hbt])).2 p rp h3 h4 hrp, hat]
        · have : p = b := by omega
          subst this
          rw [hrp] at hrb
          cases hrb
          exact hbt
      · have : p = a := by omega
        subst this
        rw [hrp] at hra
        cases hra
        exact hat
    have e := (ho p q rp rq hpq hrp hrq (by rw [tp p rp hrp (by omega) (by omega), tp q rq hrq (by omega) (by omega)])).1
    rw [(build_supported (hs rp (List.mem_of_getElem? hrp)) hbp).1,
      (build_supported (hs rq (List.mem_of_getElem? hrq)) hbq).1]
    exact e

theorem find_absent {m : Mgr} {rs : List Reg} (hk : Known m rs) (ho : Ordered rs) (hs : ∀ r ∈ rs, Supported r)
    {t : Int} {name : Name} (h : ∀ r ∈ rs, r.type = t → r.name ≠ name) : m.find t name = some none := by
  cases hf : m.find t name with
  | none => exact absurd hf (find_safe hk t name)
  | some x =>
    cases x with
    | none => rfl
    | some i =>
      exfalso
      obtain ⟨r, hr, hrt⟩ := find_type hk ho hf
      obtain ⟨_, ⟨d, hd, hdn⟩, _⟩ := find_sound hk hf
      obtain ⟨d', hd', hb⟩ := built hk hr
      rw [hd] at hd'
      cases hd'
      have := (build_supported (hs r (List.mem_of_getElem? hr)) hb).1
      exact h r (List.mem_of_getElem? hr) hrt (this ▸ hdn)

theorem findFrom_found {m : Mgr} (name : Name) (i : Nat) (t0 : Int) (h0 : m.find t0 name = some (some i))
    (hn : ∀ t, t < t0 → m.find t name = some none) :
    ∀ (k : Nat) (t : Int), t ≤ t0 → t0 < t + k → m.findFrom name k t = some (some i) := by
  intro k
  induction k with
  | zero => intro t h1 h2; omega
  | succ k ih =>
    intro t h1 h2
    simp only [Mgr.findFrom]
    rcases eq_or_ne t t0 with h | h
    · rw [h, h0]
    · rw [hn t (by omega)]
      exact ih (t + 1) (by omega) (by omega)

theorem findFrom_absent {m : Mgr} (name : Name) (hn : ∀ t, m.find t name = some none) :
    ∀ (k : Nat) (t : Int), m.findFrom name k t = some none := by
  intro k
  induction k with
  | zero => intro t; rfl
  | succ k ih => intro t; simp only [Mgr.findFrom, hn t]; exact ih _

theorem findFrom_sound {m : Mgr} {rs : List Reg} (hk : Known m rs) (name : Name) (i : Nat) :
    ∀ (k : Nat) (t : Int), m.findFrom name k t = some (some i) → ∃ d, m.devs[i]? = some d ∧ d.name = name := by
  intro k
  induction k with
  | zero => intro t h; cases h
  | succ k ih =>
    intro t h
    simp only [Mgr.findFrom] at h
    split at h
    · cases h
    · rename_i j hf
      cases h
      exact (find_sound hk hf).2.1
    · exact ih _ h

theorem findFrom_safe {m : Mgr} {rs : List Reg} (hk : Known m rs) (name : Name) :
    ∀ (k : Nat) (t : Int), m.findFrom name k t ≠ none := by
  intro k
  induction k with
  | zero => intro t h; cases h
  | succ k ih =>
    intro t h
    simp only [Mgr.findFrom] at h
    split at h
    · rename_i hf
      exact find_safe hk _ _ hf
    · cases h
    · exact ih _ h

end Ptusa.Registry
