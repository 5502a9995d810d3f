import Verif.OpcUa.Spec
import Mathlib.Data.List.Induction

/-!
# Lemmas about the OPC UA server
-/
namespace Ptusa.OpcUa

theorem look_add (ns : List Node) (n : Node) (id : Txt) :
    look (addNode ns n) id = (look ns id).or (if n.id = id then some n.kind else none) := by
  unfold addNode look
  split
  · next h =>
    by_cases e : n.id = id
    · obtain ⟨m, hm, he⟩ := List.any_eq_true.1 h
      have : ∃ m ∈ ns, (m.id == id) = true := ⟨m, hm, by rw [← e]; exact he⟩
      have := List.find?_isSome.2 this
      obtain ⟨k, hk⟩ := Option.isSome_iff_exists.1 this
      rw [hk]; rfl
    · rw [if_neg e, Option.or_none]
  · rw [List.find?_append]
    cases ns.find? (·.id == id) with
    | some m => rfl
    | none =>
      by_cases e : n.id = id
      · simp [e]
      · have : (n.id == id) = false := by simpa using e
        simp [this, e]

theorem suffix_inj {a b s : Txt} : a ++ s = b ++ s ↔ a = b := List.append_left_inj s

theorem value_ne_state (a b : Txt) : a ++ ".value".toList ≠ b ++ ".state".toList := by
  intro h
  have := congrArg List.reverse h
  simp only [List.reverse_append] at this
  have h2 := congrArg (fun l => l[3]?) this
  have e1 : ∀ x : Txt, (".value".toList.reverse ++ x)[3]? = some 'a' := fun x => rfl
  have e2 : ∀ x : Txt, (".state".toList.reverse ++ x)[3]? = some 't' := fun x => rfl

  rw [e1, e2] at h2
  exact absurd h2 (by decide)

theorem look_dev_value (ns : List Node) (name x : Txt) (i : Nat) :
    look (addDev ns name i) (x ++ ".value".toList) =
      (look ns (x ++ ".value".toList)).or (if name = x then some (.value i) else none) := by
  unfold addDev
  rw [look_add, look_add, if_neg (c := name ++ ".state".toList = x ++ ".value".toList) (fun h => value_ne_state x name h.symm), Option.or_none]
  simp only [suffix_inj]

theorem look_dev_state (ns : List Node) (name x : Txt) (i : Nat) :
    look (addDev ns name i) (x ++ ".state".toList) =
      (look ns (x ++ ".state".toList)).or (if name = x then some (.state i) else none) := by
  unfold addDev
  rw [look_add, look_add, if_neg (c := name ++ ".value".toList = x ++ ".state".toList) (value_ne_state name x), Option.or_none]
  simp only [suffix_inj]

theorem look_devs_value (names : List Txt) (x : Txt) : ∀ (ns : List Node) (k : Nat),
    look (addDevs ns names k) (x ++ ".value".toList) =
      (look ns (x ++ ".value".toList)).or ((names.findIdx? (· == x)).map fun j => .value (k + j)) := by
  induction names with
  | nil => intro ns k; simp [addDevs]
  | cons name rest ih =>
    intro ns k
    unfold addDevs
    rw [ih, look_dev_value, Option.or_assoc, List.findIdx?_cons]
    congr 1
    by_cases e : name = x
    · simp [e]
    · have : (name == x) = false := by simpa using e
      rw [if_neg e, this]
      simp only [Option.none_or, Option.map_map, Bool.false_eq_true, ↓reduceIte]
      congr 1
      funext j
      simp only [Function.comp_apply, Kind.value.injEq]
      omega

theorem look_devs_state (names : List Txt) (x : Txt) : ∀ (ns : List Node) (k : Nat),
    look (addDevs ns names k) (x ++ ".state".toList) =
      (look ns (x ++ ".state".toList)).or ((names.findIdx? (· == x)).map fun j => .state (k + j)) := by
  induction names with
  | nil => intro ns k; simp [addDevs]
  | cons name rest ih =>
    intro ns k
    unfold addDevs
    rw [ih, look_dev_state, Option.or_assoc, List.findIdx?_cons]
    congr 1
    by_cases e : name = x
    · simp [e]
    · have : (name == x) = false := by simpa using e
      rw [if_neg e, this]
      simp only [Option.none_or, Option.map_map, Bool.false_eq_true, ↓reduceIte]
      congr 1
      funext j
      simp only [Function.comp_apply, Kind.state.injEq]
      omega

/-- Other identifiers are not made by devices. -/
theorem look_devs_other (names : List Txt) (id : Txt) (hv : ∀ x : Txt, id ≠ x ++ ".value".toList) (hs : ∀ x : Txt, id ≠ x ++ ".state".toList) :
    ∀ (ns : List Node) (k : Nat), look (addDevs ns names k) id = look ns id := by
  induction names with
  | nil => intro ns k; rfl
  | cons name rest ih =>
    intro ns k
    unfold addDevs addDev
    rw [ih, look_add, look_add, if_neg (fun h => hv _ h.symm), if_neg (fun h => hs _ h.symm), Option.or_none, Option.or_none]

theorem firstAt_iff (names : List Txt) (i : Nat) (x : Txt) : names.findIdx? (· == x) = some i ↔ firstAt names i x := by
  rw [List.findIdx?_eq_some_iff_getElem]
  unfold firstAt
  constructor
  · rintro ⟨h, h1, h2⟩
    refine ⟨by rw [List.getElem?_eq_getElem h]; simpa using h1, fun j hj hc => ?_⟩
    have hl : j < names.length := by omega
    rw [List.getElem?_eq_getElem hl, Option.some.injEq] at hc
    exact h2 j hj (by simpa using hc)
  · rintro ⟨h1, h2⟩
    obtain ⟨h, he⟩ := List.getElem?_eq_some_iff.1 h1
    refine ⟨h, by simpa using he, fun j hj => ?_⟩
    have hl : j < names.length := by omega
    intro hc
    exact h2 j hj (by rw [List.getElem?_eq_getElem hl]; simpa using hc)

/-- The variables of a server: of all devices, and of the controller or not. -/
def Inst.ok (names : List Txt) (info : Bool) (i : Inst) : Prop :=
  i.nodes = if info then addInfo (addDevs [] names 0) else addDevs [] names 0

/-- What holds of every reached state: a server has the variables of the devices; those of the controller may be missing only if
`create_PAC_info` was done for a server before. -/
structure Inv (names : List Txt) (s : St) : Prop where
  some_ : ∀ i, s.server = some i → s.devCreated = true ∧ s.infoCreated = true ∧ ∃ b, i.ok names b
  none_ : s.server = none → s.devCreated = false
  same : s.active = s.saved

theorem inv_initAll (names : List Txt) (s : St) (ok : Bool) (h : Inv names s) : Inv names (s.initAll names ok) := by
  cases e : s.server with
  | none =>
    have hd := h.none_ e
    cases hi : s.infoCreated <;>
      refine ⟨fun i hi' => ?_, fun hn => ?_, ?_⟩ <;>
      simp_all [St.initAll, St.init, St.createDev, St.createInfo, St.start, h.same]
    · subst hi'; exact .inr rfl
    · subst hi'; exact .inl rfl
  | some j =>
    obtain ⟨h1, h2, b, h3⟩ := h.some_ j e
    refine ⟨fun i hi' => ?_, fun hn => ?_, ?_⟩ <;>
      simp_all [St.initAll, St.init, St.createDev, St.createInfo, St.start, h.same]
    subst hi'
    cases b with
    | false => exact .inl h3
    | true => exact .inr h3

theorem inv_step (names : List Txt) (s : St) (e : Ev) (h : Inv names s) : Inv names (s.step names e) := by
  cases e with
  | cmd v ok =>
    unfold St.step
    simp only
    split
    · unfold St.cmd
      split
      · unfold St.shutdown
        cases e : s.server with
        | none => exact ⟨fun i hi => (by cases hi), fun _ => h.none_ e, rfl⟩
        | some j => exact ⟨fun i hi => (by cases hi), fun _ => rfl, rfl⟩
      · split
        · exact inv_initAll names _ ok ⟨h.some_, h.none_, rfl⟩
        · exact h
    · exact h
  | reset =>
    unfold St.step
    simp only
    split
    · exact ⟨h.some_, h.none_, rfl⟩
    · exact h
  | restart ok =>
    have h0 : Inv names { active := s.saved, saved := s.saved } := ⟨fun i hi => by simp at hi, fun _ => rfl, rfl⟩
    show Inv names (s.restart names ok)
    unfold St.restart
    simp only
    split
    · split
      · exact inv_initAll names _ ok h0
      · have := inv_initAll names _ ok h0
        exact ⟨this.some_, this.none_, this.same⟩
    · exact h0

theorem inv_run (names : List Txt) (es : List Ev) (s : St) (h : Inv names s) : Inv names (s.run names es) := by
  induction es generalizing s with
  | nil => exact h
  | cons e es ih => exact ih _ (inv_step names s e h)

theorem inv_fresh (names : List Txt) (n : Nat) : Inv names { active := n, saved := n } :=
  ⟨fun i hi => by simp at hi, fun _ => rfl, rfl⟩

/-- The first start of a program. -/
def boot (names : List Txt) (saved : Nat) (ok : Bool) : St := ({ saved := saved } : St).restart names ok

theorem inv_boot (names : List Txt) (n : Nat) (ok : Bool) : Inv names (boot names n ok) := by
  have h : boot names n ok = St.step names { active := n, saved := n } (.restart ok) := rfl
  rw [h]
  exact inv_step names _ _ (inv_fresh names n)

/-- What holds while all starts succeed (the last event first). -/
structure Good (names : List Txt) (s : St) (h : List Ev) : Prop where
  alive : s.alive = true
  active : s.active = if wanted h then 1 else 0
  saved : s.saved = s.active
  devs : s.devCreated = s.server.isSome
  up : wanted h = true → s.server.isSome = true
  inst : ∀ i, s.server = some i → i.running = true ∧ s.infoCreated = true ∧ i.ok names (!switchedOff h)
  info : switchedOff h = true → s.infoCreated = true
  noinfo : s.server = none → switchedOff h = false → s.infoCreated = false

theorem good_on (names : List Txt) (s : St) (h : List Ev) (ok : Bool) (g : Good names s h) (hw : wanted h = false) (hok : ok = true) :
    Good names (({ s with active := 1, saved := 1 } : St).initAll names ok) (.cmd 1 ok :: h) := by
  subst hok
  have hsw : switchedOff (.cmd 1 true :: h) = switchedOff h := by simp [switchedOff]
  have hwt : wanted (.cmd 1 true :: h) = true := by simp [wanted]
  have hdv := g.devs
  cases e : s.server with
  | none =>
    cases ho : switchedOff h with
    | true =>
      have hi := g.info ho
      rw [e] at hdv
      refine ⟨?_, ?_, ?_, ?_, ?_, ?_, ?_, ?_⟩ <;> (try rw [hwt]) <;> (try rw [hsw]) <;>
        simp_all [St.initAll, St.init, St.createDev, St.createInfo, St.start, g.alive, Inst.ok]
    | false =>
      have hi := g.noinfo e ho
      rw [e] at hdv
      refine ⟨?_, ?_, ?_, ?_, ?_, ?_, ?_, ?_⟩ <;> (try rw [hwt]) <;> (try rw [hsw]) <;>
        simp_all [St.initAll, St.init, St.createDev, St.createInfo, St.start, g.alive, Inst.ok]
  | some j =>
    obtain ⟨h1, h2, h3⟩ := g.inst j e
    rw [e] at hdv
    refine ⟨?_, ?_, ?_, ?_, ?_, ?_, ?_, ?_⟩ <;> (try rw [hwt]) <;> (try rw [hsw]) <;>
      simp_all [St.initAll, St.init, St.createDev, St.createInfo, St.start, g.alive, Inst.ok]

theorem good_step (names : List Txt) (s : St) (h : List Ev) (e : Ev) (g : Good names s h) (he : e.starts) :
    Good names (s.step names e) (e :: h) := by
  cases e with
  | cmd v ok =>
    unfold St.step
    simp only
    rw [if_pos g.alive]
    unfold St.cmd
    by_cases c1 : v = 0 ∧ s.active = 1
    · rw [if_pos c1]
      have hw : wanted h = true := by
        cases hw : wanted h with
        | true => rfl
        | false => rw [g.active, hw] at c1; simp at c1
      obtain ⟨j, hj⟩ := Option.isSome_iff_exists.1 (g.up hw)
      obtain ⟨h1, h2, h3⟩ := g.inst j hj
      have hsw : switchedOff (.cmd v ok :: h) = true := by simp [switchedOff, hw, c1.1]
      have hwt : wanted (.cmd v ok :: h) = false := by simp [wanted, c1.1]
      unfold St.shutdown
      simp only [hj]
      exact ⟨g.alive, by rw [hwt]; rfl, rfl, rfl, by rw [hwt]; simp, fun i hi => by simp at hi, fun _ => h2,
        fun _ hs => by rw [hsw] at hs; simp at hs⟩
    · rw [if_neg c1]
      by_cases c2 : v = 1 ∧ s.active = 0
      · rw [if_pos c2]
        have hw : wanted h = false := by
          cases hw : wanted h with
          | false => rfl
          | true => rw [g.active, hw] at c2; simp at c2
        obtain ⟨rfl, _⟩ := c2
        exact good_on names s h ok g hw he
      · rw [if_neg c2]
        have hwt : wanted (.cmd v ok :: h) = wanted h := by
          show (if v = 1 then true else if v = 0 then false else wanted h) = wanted h
          by_cases v1 : v = 1
          · rw [if_pos v1]
            cases hw : wanted h with
            | true => rfl
            | false => exact absurd ⟨v1, by rw [g.active, hw]; rfl⟩ c2
          · rw [if_neg v1]
            by_cases v0 : v = 0
            · rw [if_pos v0]
              cases hw : wanted h with
              | false => rfl
              | true => exact absurd ⟨v0, by rw [g.active, hw]; rfl⟩ c1
            · rw [if_neg v0]
        have hsw : switchedOff (.cmd v ok :: h) = switchedOff h := by
          show (switchedOff h || (v == 0 && wanted h)) = switchedOff h
          by_cases v0 : v = 0
          · cases hw : wanted h with
            | false => simp
            | true => exact absurd ⟨v0, by rw [g.active, hw]; rfl⟩ c1
          · have : (v == 0) = false := by simpa using v0
            simp [this]
        exact ⟨g.alive, by rw [hwt]; exact g.active, g.saved, g.devs, by rw [hwt]; exact g.up, by rw [hsw]; exact g.inst,
          by rw [hsw]; exact g.info, by rw [hsw]; exact g.noinfo⟩
  | reset =>
    unfold St.step
    simp only
    rw [if_pos g.alive]
    exact ⟨g.alive, rfl, rfl, g.devs, fun hw => by simp [wanted] at hw, g.inst, g.info, g.noinfo⟩
  | restart ok =>
    have hok : ok = true := he
    subst hok
    show Good names (s.restart names true) _
    unfold St.restart
    simp only [if_true]
    by_cases c : s.saved = 1
    · rw [if_pos c]
      have hw : wanted h = true := by
        cases hw : wanted h with
        | true => rfl
        | false => rw [g.saved, g.active, hw] at c; simp at c
      refine ⟨?_, ?_, ?_, ?_, ?_, ?_, ?_, ?_⟩ <;>
        simp_all [St.initAll, St.init, St.createDev, St.createInfo, St.start, wanted, switchedOff, Inst.ok]
    · rw [if_neg c]
      have hw : wanted h = false := by
        cases hw : wanted h with
        | false => rfl
        | true => rw [g.saved, g.active, hw] at c; simp at c
      refine ⟨rfl, ?_, rfl, rfl, ?_, fun i hi => by simp at hi, ?_, fun _ _ => rfl⟩
      · show s.saved = _
        rw [g.saved, g.active]; rfl
      · intro hc
        rw [show wanted (.restart true :: h) = wanted h from rfl, hw] at hc
        simp at hc
      · intro hc
        simp [switchedOff] at hc

theorem good_run (names : List Txt) (es : List Ev) (he : ∀ e ∈ es, e.starts) (ok : Bool) :
    Good names ((boot names 0 ok).run names es) es.reverse := by
  induction es using List.reverseRecOn with
  | nil => exact ⟨rfl, rfl, rfl, rfl, by simp [wanted], fun i hi => by simp [boot, St.restart, St.run] at hi, by simp [switchedOff], fun _ _ => rfl⟩
  | append_singleton es e ih =>
    rw [List.reverse_append]
    unfold St.run
    rw [List.foldl_append]
    exact good_step names _ _ e (ih fun x hx => he x (by simp [hx])) (he e (by simp))

end Ptusa.OpcUa
