import Verif.OpcUa.Lemmas

/-!
# C196: the OPC UA server shows the devices of the project while it is switched on
-/
namespace Ptusa.OpcUa

/-- **C196** Whatever has happened before: whenever clients are answered, the state and the value of a device are read under its name (of two
devices of one name, from the first), and nothing else is shown under names of this form. -/
theorem C196_devices (names : List Txt) (saved : Nat) (ok : Bool) (es : List Ev) (ns : List Node)
    (h : ((boot names saved ok).run names es).shown = some ns) (x : Txt) (i : Nat) :
    (look ns (x ++ ".state".toList) = some (.state i) ↔ firstAt names i x) ∧
    (look ns (x ++ ".value".toList) = some (.value i) ↔ firstAt names i x) ∧
    ((∀ j : Nat, names[j]? ≠ some x) → look ns (x ++ ".state".toList) = none ∧ look ns (x ++ ".value".toList) = none) := by
  have hi := inv_run names es _ (inv_boot names saved ok)
  unfold St.shown St.iterated at h
  split at h
  · next inst he =>
    split at he
    · obtain ⟨_, _, b, hb⟩ := hi.some_ inst he
      split at h
      · injection h with h
        subst h
        have key : (look inst.nodes (x ++ ".state".toList) = (names.findIdx? (· == x)).map .state) ∧
            (look inst.nodes (x ++ ".value".toList) = (names.findIdx? (· == x)).map .value) := by
          have hu : ∀ y z : Txt, y ++ z ≠ "PAC_info.uptime".toList ∨ z.reverse[0]? ≠ some 'e' ∨ z.reverse[1]? = some 'm' ∨ z.length < 2 := by
            intro y z
            by_cases hl : z.length < 2
            · exact .inr (.inr (.inr hl))
            · by_cases he : y ++ z = "PAC_info.uptime".toList
              · right; right; left
                have := congrArg (fun l => l.reverse[1]?) he
                simp only [List.reverse_append] at this
                rw [List.getElem?_append_left (by rw [List.length_reverse]; omega)] at this
                rw [this]; rfl
              · exact .inl he
          have hv : ∀ y z : Txt, y ++ z ≠ "PAC_info.version".toList ∨ z.reverse[0]? = some 'n' ∨ z.length < 1 := by
            intro y z
            by_cases hl : z.length < 1
            · exact .inr (.inr hl)
            · by_cases he : y ++ z = "PAC_info.version".toList
              · right; left
                have := congrArg (fun l => l.reverse[0]?) he
                simp only [List.reverse_append] at this
                rw [List.getElem?_append_left (by rw [List.length_reverse]; omega)] at this
                rw [this]; rfl
              · exact .inl he
          have hui : ∀ z : Txt, z = ".state".toList ∨ z = ".value".toList → x ++ z ≠ "PAC_info.uptime".toList ∧
              x ++ z ≠ "PAC_info.version".toList := by
            rintro z (rfl | rfl) <;> constructor
            · rcases hu x ".state".toList with h | h | h | h
              · exact h
              · exact absurd rfl h
              · exact absurd h (by decide)
              · exact absurd h (by decide)
            · rcases hv x ".state".toList with h | h | h
              · exact h
              · exact absurd h (by decide)
              · exact absurd h (by decide)
            · rcases hu x ".value".toList with h | h | h | h
              · exact h
              · exact absurd rfl h
              · exact absurd h (by decide)
              · exact absurd h (by decide)
            · rcases hv x ".value".toList with h | h | h
              · exact h
              · exact absurd h (by decide)
              · exact absurd h (by decide)
          have hadd : ∀ z : Txt, z = ".state".toList ∨ z = ".value".toList →
              look inst.nodes (x ++ z) = look (addDevs [] names 0) (x ++ z) := by
            intro z hz
            rw [hb]
            split
            · unfold addInfo
              rw [look_add, look_add, if_neg (fun e => (hui z hz).1 e.symm), if_neg (fun e => (hui z hz).2 e.symm), Option.or_none,
                Option.or_none]
            · rfl
          rw [hadd _ (.inl rfl), hadd _ (.inr rfl), look_devs_state, look_devs_value]
          simp only [look, List.find?_nil, Option.map_none, Option.none_or, Nat.zero_add]
          simp
        rw [key.1, key.2]
        refine ⟨?_, ?_, fun hn => ?_⟩
        · rw [← firstAt_iff]
          cases names.findIdx? (· == x) <;> simp
        · rw [← firstAt_iff]
          cases names.findIdx? (· == x) <;> simp
        · have : names.findIdx? (· == x) = none := by
            cases hf : names.findIdx? (· == x) with
            | none => rfl
            | some j => exact absurd ((firstAt_iff names j x).1 hf).1 (hn j)
          rw [this]
          exact ⟨rfl, rfl⟩
      · cases h
    · cases he
  · cases h

example : (((boot ["V1".toList, "M1".toList] 1 true).run ["V1".toList, "M1".toList] []).shown.map fun ns => look ns "M1.state".toList) =
    some (some (.state 1)) := by decide +kernel

/-- **C196** While every start of the server succeeds, clients are answered exactly when the last of the commands "on", "off" and "reset of the
parameters" was "on", also after new starts of the controller; and so the parameter is published. -/
theorem C196_answered_partial (names : List Txt) (es : List Ev) (ok : Bool) (he : ∀ e ∈ es, e.starts) :
    (((boot names 0 ok).run names es).shown.isSome = wanted es.reverse) ∧
    (((boot names 0 ok).run names es).active = if wanted es.reverse then 1 else 0) := by
  have g := good_run names es he ok
  refine ⟨?_, g.active⟩
  unfold St.shown St.iterated
  cases hw : wanted es.reverse with
  | true =>
    obtain ⟨i, hi⟩ := Option.isSome_iff_exists.1 (g.up hw)
    rw [if_pos ⟨g.alive, by rw [g.active, hw]; rfl⟩, hi]
    simp only
    rw [if_pos (g.inst i hi).1]
    rfl
  | false =>
    rw [if_neg (by rw [g.active, hw]; simp)]
    rfl

example : wanted [Ev.cmd (1 / 2) true, .restart true, .cmd 1 true, .reset] = true ∧ wanted [Ev.cmd 0 true, .cmd 1 true] = false := by
  decide +kernel

/-- **C196** While every start succeeds, the running time and the version of the controller are shown together with the devices, as long as the
server has not been switched off since the controller was started. -/
theorem C196_info_partial (names : List Txt) (es : List Ev) (ok : Bool) (he : ∀ e ∈ es, e.starts) (ns : List Node)
    (h : ((boot names 0 ok).run names es).shown = some ns) (hs : switchedOff es.reverse = false) :
    look ns "PAC_info.uptime".toList = some .uptime ∧ look ns "PAC_info.version".toList = some .version := by
  have g := good_run names es he ok
  unfold St.shown St.iterated at h
  split at h
  · next inst hi =>
    split at hi
    · split at h
      · injection h with h
        subst h
        obtain ⟨_, _, hn⟩ := g.inst inst hi
        unfold Inst.ok at hn
        rw [hs] at hn
        rw [hn]
        simp only [Bool.not_false, if_true]
        have l1 : look (addDevs [] names 0) "PAC_info.uptime".toList = none := by
          rw [look_devs_other]
          · rfl
          · intro x hx
            have := congrArg (fun l => l.reverse[1]?) hx
            simp only [List.reverse_append] at this
            rw [List.getElem?_append_left (by decide)] at this
            exact absurd this (by decide)
          · intro x hx
            have := congrArg (fun l => l.reverse[1]?) hx
            simp only [List.reverse_append] at this
            rw [List.getElem?_append_left (by decide)] at this
            exact absurd this (by decide)
        have l2 : look (addDevs [] names 0) "PAC_info.version".toList = none := by
          rw [look_devs_other]
          · rfl
          · intro x hx
            have := congrArg (fun l => l.reverse[0]?) hx
            simp only [List.reverse_append] at this
            rw [List.getElem?_append_left (by decide)] at this
            exact absurd this (by decide)
          · intro x hx
            have := congrArg (fun l => l.reverse[0]?) hx
            simp only [List.reverse_append] at this
            rw [List.getElem?_append_left (by decide)] at this
            exact absurd this (by decide)
        unfold addInfo
        rw [look_add, look_add, look_add, look_add, l1, l2]
        refine ⟨?_, ?_⟩ <;> decide
      · cases h
    · cases hi
  · cases h

example : switchedOff [Ev.cmd 1 true, .reset, .cmd 1 true, .restart true] = false := by decide +kernel

/-- What is missing in `C196_info_partial`: once the server has been switched off, its later starts by a command show neither the running time
nor the version, until the controller is started anew. -/
theorem C196_info_violated (names : List Txt) (es : List Ev) (ok : Bool) (he : ∀ e ∈ es, e.starts) (ns : List Node)
    (h : ((boot names 0 ok).run names es).shown = some ns) (hs : switchedOff es.reverse = true) :
    look ns "PAC_info.uptime".toList = none ∧ look ns "PAC_info.version".toList = none := by
  have g := good_run names es he ok
  unfold St.shown St.iterated at h
  split at h
  · next inst hi =>
    split at hi
    · split at h
      · injection h with h
        subst h
        obtain ⟨_, _, hn⟩ := g.inst inst hi
        unfold Inst.ok at hn
        rw [hs] at hn
        rw [hn]
        simp only [Bool.not_true, Bool.false_eq_true, if_false]
        constructor <;>
        · rw [look_devs_other]
          · rfl
          · intro x hx
            have h0 := congrArg (fun l => l.reverse[0]?) hx
            have h1 := congrArg (fun l => l.reverse[1]?) hx
            simp only [List.reverse_append] at h0 h1
            rw [List.getElem?_append_left (by decide)] at h0 h1
            revert h0 h1
            decide
          · intro x hx
            have h0 := congrArg (fun l => l.reverse[0]?) hx
            have h1 := congrArg (fun l => l.reverse[1]?) hx
            simp only [List.reverse_append] at h0 h1
            rw [List.getElem?_append_left (by decide)] at h0 h1
            revert h0 h1
            decide
      · cases h
    · cases hi
  · cases h

example : switchedOff [Ev.cmd 1 true, .cmd 0 true, .cmd 1 true] = true ∧
    ((boot [] 0 true).run [] [.cmd 1 true, .cmd 0 true, .cmd 1 true]).shown = some [] := by decide +kernel

/-- What is missing in `C196_answered_partial`: after a start which fails the server is published as switched on, its clients are not answered
though the library is called for it, further commands "on" answer "done" and change nothing, and the controller itself does not start any more
while the start of the server fails. -/
theorem C196_failed_violated (names : List Txt) (es : List Ev) (ok : Bool) (he : ∀ e ∈ es, e.starts) (hw : wanted es.reverse = false)
    (hr : ∀ e ∈ es, e ≠ .reset) (k : Nat) (oks : Nat → Bool) :
    let s := (boot names 0 ok).run names es
    let s1 := (s.cmd names 1 false).1
    (s.cmd names 1 false).2 = 1 ∧ s1.active = 1 ∧ s1.shown = none ∧ s1.iterated.isSome = true ∧
    s1.run names ((List.range k).map fun i => .cmd 1 (oks i)) = s1 ∧ (∀ b, (s1.cmd names 1 b).2 = 0) ∧
    (s1.step names (.restart false)).alive = false := by
  have g := good_run names es he ok
  have hnone : ((boot names 0 ok).run names es).server = none := by
    have key : ∀ es : List Ev, (∀ e ∈ es, e.starts) → (∀ e ∈ es, e ≠ .reset) → wanted es.reverse = false →
        ((boot names 0 ok).run names es).server = none := by
      intro es
      induction es using List.reverseRecOn with
      | nil => intro _ _ _; rfl
      | append_singleton es e ih =>
        intro he hr hw
        have g := good_run names es (fun x hx => he x (by simp [hx])) ok
        have ih := ih (fun x hx => he x (by simp [hx])) (fun x hx => hr x (by simp [hx]))
        unfold St.run
        rw [List.foldl_append]
        rw [List.reverse_append] at hw
        show ((St.run names (boot names 0 ok) es).step names e).server = none
        cases e with
        | reset => exact absurd rfl (hr .reset (by simp))
        | restart b =>
          have hw' : wanted es.reverse = false := hw
          show (St.restart _ names b).server = none
          unfold St.restart
          simp only
          rw [if_neg (by rw [g.saved, g.active, hw']; simp)]
        | cmd v b =>
          have hw' : (if v = 1 then true else if v = 0 then false else wanted es.reverse) = false := hw
          show (if (St.run names (boot names 0 ok) es).alive then _ else _ : St).server = none
          rw [if_pos g.alive]
          have v1 : v ≠ 1 := by
            intro e
            rw [if_pos e] at hw'
            cases hw'
          rw [if_neg v1] at hw'
          unfold St.cmd
          by_cases c : v = 0 ∧ (St.run names (boot names 0 ok) es).active = 1
          · rw [if_pos c]
            unfold St.shutdown
            cases e : (St.run names (boot names 0 ok) es).server <;> rfl
          · rw [if_neg c, if_neg (fun e => v1 e.1)]
            refine ih ?_
            by_cases v0 : v = 0
            · cases hw2 : wanted es.reverse with
              | false => rfl
              | true => exact absurd ⟨v0, by rw [g.active, hw2]; rfl⟩ c
            · rw [if_neg v0] at hw'
              exact hw'
    exact key es he hr hw
  have hact : ((boot names 0 ok).run names es).active = 0 := by rw [g.active, hw]; rfl
  have hdev : ((boot names 0 ok).run names es).devCreated = false := by rw [g.devs, hnone]; rfl
  have hal := g.alive
  intro s s1
  change s.server = none at hnone
  change s.active = 0 at hact
  change s.devCreated = false at hdev
  change s.alive = true at hal
  have hs1 : s1 = ({ s with active := 1, saved := 1 } : St).initAll names false := by
    show (s.cmd names 1 false).1 = _
    unfold St.cmd
    rw [if_neg (by rw [hact]; simp), if_pos ⟨rfl, hact⟩]
  have hr1 : s1.active = 1 ∧ s1.saved = 1 ∧ s1.alive = true ∧ ∃ i, s1.server = some i ∧ i.running = false := by
    rw [hs1]
    cases hi : s.infoCreated <;>
      simp [St.initAll, St.init, St.createDev, St.createInfo, St.start, hnone, hdev, hi, hal]
  obtain ⟨r1, r2, r3, i, r4, r5⟩ := hr1
  have hit : s1.iterated = some i := by
    unfold St.iterated
    rw [if_pos ⟨r3, r1⟩, r4]
  have hcmd : ∀ b, s1.cmd names 1 b = (s1, 0) := by
    intro b
    unfold St.cmd
    rw [if_neg (fun h => absurd h.1 (by decide)), if_neg (by rw [r1]; simp)]
  refine ⟨?_, r1, ?_, by rw [hit]; rfl, ?_, fun b => by rw [hcmd], ?_⟩
  · unfold St.cmd
    rw [if_neg (by rw [hact]; simp), if_pos ⟨rfl, hact⟩]
    rfl
  · unfold St.shown
    rw [hit]
    simp [r5]
  · unfold St.run
    induction (List.range k) with
    | nil => rfl
    | cons a l ih =>
      rw [List.map_cons, List.foldl_cons]
      have : s1.step names (.cmd 1 (oks a)) = s1 := by
        show (if s1.alive then _ else _ : St) = s1
        rw [if_pos r3, hcmd]
      rw [this]
      exact ih
  · show (s1.restart names false).alive = false
    unfold St.restart
    simp [r2]

example : wanted [Ev.restart true, .cmd 0 true, .cmd 1 true] = false := by decide +kernel

/-- **C196**. A server that answers goes on answering when the parameters are reset and the server is then switched on once more, whether or
not this second start of the library succeeds. -/
theorem C196_second_start (names : List Txt) (saved : Nat) (ok ok' : Bool) (es : List Ev)
    (h : (((boot names saved ok).run names es).shown).isSome = true) :
    (((boot names saved ok).run names (es ++ [.reset, .cmd 1 ok'])).shown).isSome = true := by
  have e : (boot names saved ok).run names (es ++ [.reset, .cmd 1 ok'])
      = (((boot names saved ok).run names es).step names .reset).step names (.cmd 1 ok') := by
    unfold St.run; rw [List.foldl_append]; rfl
  rw [e]
  generalize (boot names saved ok).run names es = s at h
  obtain ⟨server, dev, info, active, sv, alive⟩ := s
  unfold St.shown St.iterated at h
  cases alive with
  | false => simp at h
  | true =>
    cases server with
    | none => simp at h
    | some i =>
      have hr : i.running = true := by
        by_cases ha : active = 1
        · rw [if_pos ⟨rfl, ha⟩] at h
          cases hi : i.running with
          | true => rfl
          | false => simp [hi] at h
        · rw [if_neg fun x => ha x.2] at h; simp at h
      cases dev <;> cases info <;>
        simp [St.step, St.reset, St.cmd, St.initAll, St.init, St.createDev, St.createInfo, St.start, St.shown, St.iterated, hr]

example : (((boot ["V1".toList] 1 true).run ["V1".toList] ([] ++ [.reset, .cmd 1 false])).shown).isSome = true :=
  C196_second_start ["V1".toList] 1 true false [] (by decide +kernel)

end Ptusa.OpcUa
