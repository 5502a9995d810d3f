import Verif.IoConf.Lemmas

/-!
# C168, C169: the script of a project configures the nodes and binds the channels
-/
namespace Ptusa.IoConf

def byte (c : Char) : Nat := c.toNat

/-- `A100`, 10.0.0.1 -/
def node1 : Args :=
  { type := 200, number := 1, ip := some ("10.0.0.1".toList.map byte), name := some ("A100".toList.map byte), doCnt := 8, diCnt := 16,
    aoCnt := 2, aiCnt := 4 }

def script1 : List Call :=
  [.init 2, .add 0 node1, .initAo 0 1 555 7, .initAi 0 0 491 3, .add 1 { node1 with number := 2, ip := some [] },
   .bind 5 .dout 0 3, .bind 6 .di 1 20, .bind 7 .ai 1 2015]

/-! ### C168 -/

/-- C168, part: the calls of a script are defined exactly if each is in order after those before it: a number of nodes that is not negative,
nodes whose texts fit, whose numbers of channels are not negative and that have a name if they are to be reported, and analog
channels only of nodes that were added. -/
theorem C168_defined_partial (h : List Call) : (∃ m, Mgr.run {} h = some m) ↔ AllGood h := by
  constructor
  · rintro ⟨m, hm⟩
    exact run_bad h m hm
  · intro hg
    obtain ⟨m, hm, _⟩ := run_inv h hg
    exact ⟨m, hm⟩

/-- C168, part: after a script that is in order there are as many nodes as were declared, and each node that was added is as the last
call for it said, with the analog channels that were set since; there are no others. -/
theorem C168_nodes_partial (h : List Call) (hg : AllGood h) :
    ∃ m, Mgr.run {} h = some m ∧ m.arr.length = (said h).count ∧
      (∀ i, (said h).node i = none → m.node i = none) ∧
      ∀ i a, (said h).node i = some a → ∃ n, m.node i = some n ∧ AsSaid (said h) i a n := by
  obtain ⟨m, hm, hi⟩ := run_inv h hg
  refine ⟨m, hm, hi.len, fun i hn => ?_, fun i a ha => ?_⟩
  · unfold Mgr.node
    by_cases hc : i < (said h).count
    · rw [hi.missing i hc hn]
    · rw [List.getElem?_eq_none (by rw [hi.len]; omega)]
  · have hc : i < (said h).count := by
      apply Classical.byContradiction
      intro hc
      rw [hi.empty i (by omega)] at ha
      cases ha
    obtain ⟨id, n, e1, e2, e3⟩ := hi.present i hc a ha
    exact ⟨n, by simp only [Mgr.node, e1, e2], e3⟩

/-- Objects are not shared: two nodes with different numbers are different objects. -/
theorem C168_apart_partial (h : List Call) (m : Mgr) (hm : Mgr.run {} h = some m) (i j id : Nat)
    (hi : m.arr[i]? = some (some id)) (hj : m.arr[j]? = some (some id)) : i = j :=
  (run_some h m hm).apart i j id hi hj

example : (Mgr.run {} script1).isSome = true ∧ (said script1).count = 2 ∧ (said script1).ao 0 1 = (555, 7) ∧
    (∀ m, Mgr.run {} script1 = some m → (m.node 0).map (·.ao) = some [(0, 0), (555, 7)] ∧ (m.node 1).map (·.active) = some false) := by
  refine ⟨by decide +kernel, rfl, rfl, ?_⟩
  intro m hm
  have : Mgr.run {} script1 = some ((Mgr.run {} script1).get (by decide +kernel)) := by simp
  rw [this] at hm
  cases hm
  decide +kernel

/-- C168 is violated: a name of twenty bytes or more (ten letters of the alphabet that projects are written in have as many), or an address
of sixteen, is copied over the members behind it, whatever was configured before. -/
theorem C168_text_violated (h : List Call) (i : Nat) (a : Args) (hi : i < (said h).count)
    (ht : (∃ t, a.name = some t ∧ 20 ≤ t.length) ∨ (∃ t, a.ip = some t ∧ 16 ≤ t.length)) :
    Mgr.run {} (h ++ [.add i a]) = none := by
  cases hr : Mgr.run {} (h ++ [.add i a]) with
  | none => rfl
  | some m =>
    have := run_bad _ m hr h (.add i a) [] rfl hi
    obtain ⟨h1, h2, _⟩ := this
    rcases ht with ⟨t, e, hl⟩ | ⟨t, e, hl⟩
    · have := h2 t e; omega
    · have := h1 t e; omega

example : Mgr.run {} [.init 1, .add 0 { node1 with name := some (List.replicate 20 208) }] = none :=
  C168_text_violated [.init 1] 0 _ (by decide) (Or.inl ⟨_, rfl, by simp⟩)

/-- C168 is violated: setting an analog channel of a node that is declared and not yet added goes through a null pointer. -/
theorem C168_early_violated (h : List Call) (i j t o : Nat) (hi : i < (said h).count) (hn : (said h).node i = none) :
    Mgr.run {} (h ++ [.initAo i j t o]) = none ∧ Mgr.run {} (h ++ [.initAi i j t o]) = none := by
  constructor
  · cases hr : Mgr.run {} (h ++ [.initAo i j t o]) with
    | none => rfl
    | some m => exact absurd hn (run_bad _ m hr h (.initAo i j t o) [] rfl hi)
  · cases hr : Mgr.run {} (h ++ [.initAi i j t o]) with
    | none => rfl
    | some m => exact absurd hn (run_bad _ m hr h (.initAi i j t o) [] rfl hi)

example : Mgr.run {} [.init 2, .add 0 node1, .initAo 1 0 555 0] = none :=
  (C168_early_violated [.init 2, .add 0 node1] 1 0 555 0 (by decide) rfl).1

/-- C168 is violated: a node that cannot be used and has no name is reported with a null pointer for a text. -/
theorem C168_name_violated (h : List Call) (i : Nat) (a : Args) (hi : i < (said h).count) (hu : a.Useless) (hn : a.name = none) :
    Mgr.run {} (h ++ [.add i a]) = none := by
  cases hr : Mgr.run {} (h ++ [.add i a]) with
  | none => rfl
  | some m => exact absurd hn ((run_bad _ m hr h (.add i a) [] rfl hi).2.2.2.2.2.2 hu)

example : Mgr.run {} [.init 1, .add 0 { node1 with ip := none, name := none }] = none :=
  C168_name_violated [.init 1] 0 _ (by decide) (Or.inr ⟨by decide, Or.inl rfl⟩) rfl

/-! ### C169 -/

/-- C169, part: a channel that is bound after its node was added, in a script that does not add the node again, does not declare the nodes again and
does not bind the channel again, points to the channel of the node that the program uses with this number; it points somewhere exactly if
the node has such a channel. -/
theorem C169_bound_partial (h g : List Call) (c : Nat) (k : Kind) (i off : Nat) (m : Mgr)
    (hm : Mgr.run {} (h ++ .bind c k i off :: g) = some m) (hl : ∀ e ∈ g, e.Leaves i c) :
    (∀ a, (said h).node i = some a → (off : Int) < a.room k → ∃ id, m.arr[i]? = some (some id) ∧ m.bound c = some (id, off)) ∧
    ((¬ ∃ a, (said h).node i = some a ∧ (off : Int) < a.room k) → m.bound c = none) := by
  rw [run_append] at hm
  cases hh : Mgr.run {} h with
  | none => simp [hh] at hm
  | some m0 =>
    rw [hh] at hm
    simp only [Option.bind_some, Mgr.run, Mgr.step] at hm
    have hi := run_some h m0 hh
    have hk := kept g k i off c hl _ m hm (by simp; rfl) (fun id hx => id_old h m0 hh i id hx)
    have hp := place_eq m0 (said h) hi k i off
    -- the channel at the time of the binding
    have hb : m.bound c = m0.place k i off := by
      have : ∀ (g : List Call) (x : Mgr), (∀ e ∈ g, e.Leaves i c) → x.run g = some m → m.bound c = x.bound c := by
        intro g
        induction g with
        | nil => intro x _ hx; cases hx; rfl
        | cons e g ih =>
          intro x hl hx
          simp only [Mgr.run] at hx
          cases hs : x.step e with
          | none => simp [hs] at hx
          | some y =>
            rw [hs] at hx
            rw [ih y (fun z hz => hl z (by simp [hz])) hx]
            exact (place_leaves x y e k i off c (hl e (by simp)) hs).1
      rw [this g _ hl hm]
      simp
    constructor
    · intro a ha hr
      have hs : (m0.place k i off).isSome = true := hp.2 ⟨a, ha, hr⟩
      rw [← hb, hk] at hs
      rw [hk]
      unfold Mgr.place at hs ⊢
      split at hs
      · rename_i id e
        split at hs
        · rename_i n e2
          split at hs
          · rename_i hlt
            refine ⟨id, e, ?_⟩
            rw [if_pos hlt]
          · cases hs
        · cases hs
      · cases hs
    · intro hn
      rw [hb]
      cases hc : m0.place k i off with
      | none => rfl
      | some p => exact absurd (hp.1 (by rw [hc]; rfl)) hn

example : ∃ m, Mgr.run {} script1 = some m ∧ m.bound 5 = some (0, 3) ∧ m.bound 6 = none ∧ m.bound 7 = some (1, 2015) :=
  ⟨(Mgr.run {} script1).get (by decide +kernel), by simp, by decide +kernel, by decide +kernel, by decide +kernel⟩

/-- C169 is violated: if the node of a bound channel is added again, the channel stays at the object of before, which is no longer
any of the nodes the program exchanges data with; nothing is reported. -/
theorem C169_again_violated (h : List Call) (c : Nat) (k : Kind) (i off : Nat) (a b : Args) (m : Mgr)
    (ha : (said h).node i = some a) (hr : (off : Int) < a.room k) (hm : Mgr.run {} (h ++ [.bind c k i off, .add i b]) = some m) :
    ∃ id, m.bound c = some (id, off) ∧ ∀ j : Nat, m.arr[j]? ≠ some (some id) := by
  have e : h ++ [.bind c k i off, .add i b] = (h ++ [.bind c k i off]) ++ [.add i b] := by simp
  rw [e, run_append] at hm
  cases h1 : Mgr.run {} (h ++ [.bind c k i off]) with
  | none => simp [h1] at hm
  | some m1 =>
    rw [h1] at hm
    obtain ⟨id, e1, e2⟩ := (C169_bound_partial h [] c k i off m1 h1 (by simp)).1 a ha hr
    have hinv := run_some _ m1 h1
    have hl : i < m1.arr.length := (List.getElem?_eq_some_iff.1 e1).1
    have hid := id_old _ m1 h1 i id e1
    simp only [Option.bind_some, Mgr.run, Mgr.step] at hm
    rw [if_pos hl] at hm
    cases hc : create b with
    | none => simp [hc] at hm
    | some n =>
      simp only [hc, Option.some.injEq] at hm
      subst hm
      refine ⟨id, e2, fun j hj => ?_⟩
      dsimp only at hj
      by_cases hji : j = i
      · subst hji
        rw [List.getElem?_set_self hl] at hj
        cases hj
        omega
      · rw [List.getElem?_set_ne (Ne.symm hji)] at hj
        exact hji (hinv.apart j i id hj e1)

example : ∃ m, Mgr.run {} ([.init 1, .add 0 node1] ++ [.bind 5 .dout 0 3, .add 0 node1]) = some m ∧ m.bound 5 = some (0, 3) ∧
    m.arr = [some 1] :=
  ⟨(Mgr.run {} ([.init 1, .add 0 node1] ++ [.bind 5 .dout 0 3, .add 0 node1])).get (by decide +kernel), by simp, by decide +kernel,
    by decide +kernel⟩

/-- C169 is violated: a channel that is bound before its node is added is bound to nothing, and adding the node does not change this. -/
theorem C169_early_violated (h : List Call) (c : Nat) (k : Kind) (i off : Nat) (b : Args) (m : Mgr) (hn : (said h).node i = none)
    (hm : Mgr.run {} (h ++ [.bind c k i off, .add i b]) = some m) : m.bound c = none := by
  have e : h ++ [.bind c k i off, .add i b] = (h ++ [.bind c k i off]) ++ [.add i b] := by simp
  rw [e, run_append] at hm
  cases h1 : Mgr.run {} (h ++ [.bind c k i off]) with
  | none => simp [h1] at hm
  | some m1 =>
    rw [h1] at hm
    have hb := (C169_bound_partial h [] c k i off m1 h1 (by simp)).2 (by simp [hn])
    simp only [Option.bind_some, Mgr.run, Mgr.step] at hm
    split at hm
    · cases hm
    · rename_i x hx
      cases hm
      split at hx
      · split at hx
        · cases hx
        · cases hx; exact hb
      · cases hx; exact hb

example : ∃ m, Mgr.run {} ([.init 1] ++ [.bind 5 .dout 0 3, .add 0 node1]) = some m ∧ m.bound 5 = none ∧ m.arr = [some 0] :=
  ⟨(Mgr.run {} ([.init 1] ++ [.bind 5 .dout 0 3, .add 0 node1])).get (by decide +kernel), by simp, by decide +kernel, by decide +kernel⟩

end Ptusa.IoConf
