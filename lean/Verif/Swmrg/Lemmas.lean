import Verif.Swmrg.Spec

/-!
# Lemmas: counting threads
-/
namespace Ptusa.Swmrg

/-- The sum of a weight over the threads. -/
def tot (f : Th → Nat) (l : List Th) : Nat := (l.map f).sum

theorem tot_set (f : Th → Nat) (l : List Th) (i : Nat) (a b : Th) (h : l[i]? = some a) :
    tot f (l.set i b) + f a = tot f l + f b := by
  induction l generalizing i with
  | nil => simp at h
  | cons x l ih =>
    cases i with
    | zero =>
      simp at h
      subst h
      simp [tot]
      omega
    | succ i =>
      simp at h
      have := ih i h
      simp [tot] at this ⊢
      omega

theorem tot_ge (f : Th → Nat) (l : List Th) (i : Nat) (a : Th) (h : l[i]? = some a) : f a ≤ tot f l := by
  induction l generalizing i with
  | nil => simp at h
  | cons x l ih =>
    cases i with
    | zero =>
      simp at h
      subst h
      simp [tot]
    | succ i =>
      simp at h
      have := ih i h
      simp [tot] at this ⊢
      omega

theorem tot_two (f : Th → Nat) (l : List Th) (i j : Nat) (a b : Th) (hij : i ≠ j) (h : l[i]? = some a) (h' : l[j]? = some b) :
    f a + f b ≤ tot f l := by
  induction l generalizing i j with
  | nil => simp at h
  | cons x l ih =>
    cases i with
    | zero =>
      cases j with
      | zero => exact absurd rfl hij
      | succ j =>
        simp at h h'
        subst h
        have := tot_ge f l j b h'
        simp [tot] at this ⊢
        omega
    | succ i =>
      cases j with
      | zero =>
        simp at h h'
        subst h'
        have := tot_ge f l i a h
        simp [tot] at this ⊢
        omega
      | succ j =>
        simp at h h'
        have := ih i j (by omega) h h'
        simp [tot] at this ⊢
        omega

theorem tot_pos (f : Th → Nat) (l : List Th) (h : 0 < tot f l) : ∃ (i : Nat) (a : Th), l[i]? = some a ∧ 0 < f a := by
  induction l with
  | nil => simp [tot] at h
  | cons x l ih =>
    by_cases hx : 0 < f x
    · exact ⟨0, x, rfl, hx⟩
    · obtain ⟨i, a, h1, h2⟩ := ih (by simp [tot] at h ⊢; omega)
      exact ⟨i + 1, a, by simpa using h1, h2⟩

theorem tot_replicate (f : Th → Nat) (n : Nat) (h : f .out = 0) : tot f (List.replicate n .out) = 0 := by
  induction n with
  | zero => rfl
  | succ n ih => simp [tot, List.replicate_succ, h] at ih ⊢

theorem tot_le (f : Th → Nat) (c : Nat) (hf : ∀ t, f t ≤ c) (l : List Th) : tot f l ≤ c * l.length := by
  induction l with
  | nil => simp [tot]
  | cons x l ih =>
    have := hf x
    simp [tot, Nat.mul_add] at ih ⊢
    omega

def cR : Th → Nat | .reads => 1 | _ => 0
def cW : Th → Nat | .writes => 1 | _ => 0
def cWaitR : Th → Nat | .waitR => 1 | _ => 0
def cWaitW : Th → Nat | .waitW => 1 | _ => 0
def cFreeR : Th → Nat | .freeR n => n | _ => 0
def cFreeW : Th → Nat | .freeW => 1 | _ => 0
/-- The steps a thread still has to do, at most. -/
def rest : Th → Nat | .waitR | .waitW => 3 | .reads | .writes => 2 | .freeR _ | .freeW => 1 | .out => 0

/-- The invariant. -/
structure Inv (s : St) : Prop where
  r : s.waitingReaders + s.semR + tot cFreeR s.ths = tot cWaitR s.ths
  w : s.waitingWriters + s.semW + tot cFreeW s.ths = tot cWaitW s.ths
  act : (0 ≤ s.active ∧ s.active = (tot cR s.ths + s.semR + tot cFreeR s.ths : Nat) ∧ tot cW s.ths + s.semW + tot cFreeW s.ths = 0) ∨
    (s.active = -1 ∧ tot cR s.ths + s.semR + tot cFreeR s.ths = 0 ∧ tot cW s.ths + s.semW + tot cFreeW s.ths = 1)
  q : 0 ≤ s.active → 0 < s.waitingReaders → 0 < s.waitingWriters
  z : s.active = 0 → s.waitingReaders = 0 ∧ s.waitingWriters = 0

theorem inv_start (n : Nat) : Inv (start n) := by
  have e : ∀ f : Th → Nat, f .out = 0 → tot f (start n).ths = 0 := fun f h => tot_replicate f n h
  exact ⟨by rw [e _ rfl, e _ rfl]; rfl, by rw [e _ rfl, e _ rfl]; rfl, .inl ⟨Int.le_refl 0, by rw [e _ rfl, e _ rfl]; rfl, by rw [e _ rfl, e _ rfl]; rfl⟩,
    fun _ h => h, fun _ => ⟨rfl, rfl⟩⟩

theorem step_cases {s s' : St} {i : Nat} {a : Act} (h : step s i a = some s') :
    (s.ths[i]? = some .out ∧ a = .askR ∧ s' = askR s i) ∨ (s.ths[i]? = some .out ∧ a = .askW ∧ s' = askW s i) ∨
    (s.ths[i]? = some .waitR ∧ a = .wake ∧ 0 < s.semR ∧ s' = { s with semR := s.semR - 1 }.put i .reads) ∨
    (s.ths[i]? = some .waitW ∧ a = .wake ∧ 0 < s.semW ∧ s' = { s with semW := s.semW - 1 }.put i .writes) ∨
    (s.ths[i]? = some .reads ∧ a = .done ∧ s' = done s i) ∨ (s.ths[i]? = some .writes ∧ a = .done ∧ s' = done s i) ∨
    (∃ n, s.ths[i]? = some (.freeR n) ∧ a = .free ∧ s' = { s with semR := s.semR + n }.put i .out) ∨
    (s.ths[i]? = some .freeW ∧ a = .free ∧ s' = { s with semW := s.semW + 1 }.put i .out) := by
  unfold step at h
  split at h <;> simp_all <;> exact h.symm

/-- All sums after a thread has moved. -/
theorem sums (l : List Th) (i : Nat) (a b : Th) (h : l[i]? = some a) :
    tot cR (l.set i b) + cR a = tot cR l + cR b ∧ tot cW (l.set i b) + cW a = tot cW l + cW b ∧
    tot cWaitR (l.set i b) + cWaitR a = tot cWaitR l + cWaitR b ∧ tot cWaitW (l.set i b) + cWaitW a = tot cWaitW l + cWaitW b ∧
    tot cFreeR (l.set i b) + cFreeR a = tot cFreeR l + cFreeR b ∧ tot cFreeW (l.set i b) + cFreeW a = tot cFreeW l + cFreeW b :=
  ⟨tot_set _ _ _ _ _ h, tot_set _ _ _ _ _ h, tot_set _ _ _ _ _ h, tot_set _ _ _ _ _ h, tot_set _ _ _ _ _ h, tot_set _ _ _ _ _ h⟩

/-- Prove the invariant after a step from that before it. -/
macro "counts" h:ident t:term : tactic => `(tactic|
  (have hs := sums _ _ _ $t $h
   simp only [cR, cW, cWaitR, cWaitW, cFreeR, cFreeW] at hs
   constructor <;> simp only [St.put, true_and] <;> omega))

theorem inv_step {s s' : St} {i : Nat} {a : Act} (hi : Inv s) (h : step s i a = some s') : Inv s' := by
  obtain ⟨r, w, act, q, z⟩ := hi
  rcases step_cases h with ⟨h1, -, rfl⟩ | ⟨h1, -, rfl⟩ | ⟨h1, -, h2, rfl⟩ | ⟨h1, -, h2, rfl⟩ | ⟨h1, -, rfl⟩ | ⟨h1, -, rfl⟩ | ⟨n, h1, -, rfl⟩ | ⟨h1, -, rfl⟩
  · unfold askR
    split
    · counts h1 .waitR
    · counts h1 .reads
  · unfold askW
    split
    · counts h1 .waitW
    · counts h1 .writes
  · counts h1 .reads
  · counts h1 .writes
  · have hr := tot_ge cR _ _ _ h1
    simp only [cR] at hr
    have ha : s.active > 0 := by omega
    simp only [done, if_pos ha]
    split
    · split
      · counts h1 .freeW
      · split
        · counts h1 (.freeR s.waitingReaders)
        · counts h1 .out
    · counts h1 .out
  · have hr := tot_ge cW _ _ _ h1
    simp only [cW] at hr
    have ha : ¬s.active > 0 := by omega
    simp only [done, if_neg ha]
    split
    · split
      · counts h1 .freeW
      · split
        · counts h1 (.freeR s.waitingReaders)
        · counts h1 .out
    · counts h1 .out
  · counts h1 .out
  · counts h1 .out

theorem inv_run {s s' : St} {h : List (Nat × Act)} (hi : Inv s) (hr : run s h = some s') : Inv s' := by
  induction h generalizing s with
  | nil =>
    injection hr with hr
    exact hr ▸ hi
  | cons x h ih =>
    obtain ⟨i, a⟩ := x
    cases hs : step s i a with
    | none => simp [run, hs] at hr
    | some m => exact ih (inv_step hi hs) (by simpa [run, hs] using hr)

theorem inv_reached {n : Nat} {s : St} (h : Reached n s) : Inv s := h.elim fun _ hr => inv_run (inv_start n) hr

theorem len_step {s s' : St} {i : Nat} {a : Act} (h : step s i a = some s') : s'.ths.length = s.ths.length := by
  rcases step_cases h with ⟨_, -, rfl⟩ | ⟨_, -, rfl⟩ | ⟨_, -, _, rfl⟩ | ⟨_, -, _, rfl⟩ | ⟨_, -, rfl⟩ | ⟨_, -, rfl⟩ | ⟨_, _, -, rfl⟩ | ⟨_, -, rfl⟩
  all_goals
    try simp only [askR, askW, done]
    repeat' split
    all_goals simp [St.put]

theorem len_run {s s' : St} {h : List (Nat × Act)} (hr : run s h = some s') : s'.ths.length = s.ths.length := by
  induction h generalizing s with
  | nil =>
    injection hr with hr
    rw [hr]
  | cons x h ih =>
    obtain ⟨i, a⟩ := x
    cases hs : step s i a with
    | none => simp [run, hs] at hr
    | some m => rw [ih (by simpa [run, hs] using hr), len_step hs]

theorem len_reached {n : Nat} {s : St} (h : Reached n s) : s.ths.length = n :=
  h.elim fun _ hr => (len_run hr).trans (by simp [start])

/-- A step which finishes something leaves fewer steps to do. -/
theorem rest_step {s s' : St} {i : Nat} {a : Act} (h : step s i a = some s') (hf : a.Finishes) :
    tot rest s'.ths + 1 ≤ tot rest s.ths := by
  have key : ∀ (x y : Th), s.ths[i]? = some x → rest y + 1 ≤ rest x → tot rest (s.ths.set i y) + 1 ≤ tot rest s.ths := by
    intro x y hx hxy
    have := tot_set rest s.ths i x y hx
    have := tot_ge rest s.ths i x hx
    omega
  rcases step_cases h with ⟨_, rfl, _⟩ | ⟨_, rfl, _⟩ | ⟨h1, -, _, rfl⟩ | ⟨h1, -, _, rfl⟩ | ⟨h1, -, rfl⟩ | ⟨h1, -, rfl⟩ | ⟨_, h1, -, rfl⟩ | ⟨h1, -, rfl⟩
  · exact absurd rfl hf.1
  · exact absurd rfl hf.2
  · exact key _ _ h1 (by decide)
  · exact key _ _ h1 (by decide)
  · simp only [done]
    repeat' split
    all_goals exact key _ _ h1 (by simp [rest])
  · simp only [done]
    repeat' split
    all_goals exact key _ _ h1 (by simp [rest])
  · exact key _ _ h1 (by simp [rest])
  · exact key _ _ h1 (by decide)

/-- Whoever is inside, somebody can go on. -/
theorem go_on {s : St} (hi : Inv s) (i : Nat) (t : Th) (h : s.ths[i]? = some t) (ht : t ≠ .out) :
    ∃ j a s', a.Finishes ∧ step s j a = some s' := by
  obtain ⟨r, w, act, q, z⟩ := hi
  have fin : Act.Finishes .wake ∧ Act.Finishes .done ∧ Act.Finishes .free := by
    refine ⟨⟨?_, ?_⟩, ⟨?_, ?_⟩, ⟨?_, ?_⟩⟩ <;> decide
  by_cases hR : 0 < tot cR s.ths
  · obtain ⟨j, b, hj, hb⟩ := tot_pos _ _ hR
    cases b <;> simp [cR] at hb
    exact ⟨j, .done, _, fin.2.1, by unfold step; rw [hj]⟩
  by_cases hW : 0 < tot cW s.ths
  · obtain ⟨j, b, hj, hb⟩ := tot_pos _ _ hW
    cases b <;> simp [cW] at hb
    exact ⟨j, .done, _, fin.2.1, by unfold step; rw [hj]⟩
  by_cases hFR : 0 < tot cFreeR s.ths
  · obtain ⟨j, b, hj, hb⟩ := tot_pos _ _ hFR
    cases b <;> simp [cFreeR] at hb
    exact ⟨j, .free, _, fin.2.2, by unfold step; rw [hj]⟩
  by_cases hFW : 0 < tot cFreeW s.ths
  · obtain ⟨j, b, hj, hb⟩ := tot_pos _ _ hFW
    cases b <;> simp [cFreeW] at hb
    exact ⟨j, .free, _, fin.2.2, by unfold step; rw [hj]⟩
  by_cases hsR : 0 < s.semR
  · obtain ⟨j, b, hj, hb⟩ := tot_pos cWaitR s.ths (by omega)
    cases b <;> simp [cWaitR] at hb
    exact ⟨j, .wake, _, fin.1, by unfold step; rw [hj]; exact if_pos hsR⟩
  by_cases hsW : 0 < s.semW
  · obtain ⟨j, b, hj, hb⟩ := tot_pos cWaitW s.ths (by omega)
    cases b <;> simp [cWaitW] at hb
    exact ⟨j, .wake, _, fin.1, by unfold step; rw [hj]; exact if_pos hsW⟩
  have hzero : s.active = 0 := by omega
  have := z hzero
  cases t with
  | out => exact absurd rfl ht
  | waitR => have := tot_ge cWaitR _ _ _ h; simp only [cWaitR] at this; omega
  | waitW => have := tot_ge cWaitW _ _ _ h; simp only [cWaitW] at this; omega
  | reads => have := tot_ge cR _ _ _ h; simp only [cR] at this; omega
  | writes => have := tot_ge cW _ _ _ h; simp only [cW] at this; omega
  | freeR n => exact ⟨i, .free, _, fin.2.2, by unfold step; rw [h]⟩
  | freeW => exact ⟨i, .free, _, fin.2.2, by unfold step; rw [h]⟩

/-- The readings that may still begin. -/
def may (s : St) : Nat := s.semR + tot cFreeR s.ths

/-- While a writer waits, a step that begins a reading uses one of these up, and none come. -/
theorem may_step {s s' : St} {i : Nat} {a : Act} (hi : Inv s) (h : step s i a = some s') (w : Nat) (hw : s.ths[w]? = some .waitW) :
    may s' + (if s.ths[i]? ≠ some .reads ∧ s'.ths[i]? = some .reads then 1 else 0) ≤ may s := by
  have hww := tot_ge cWaitW _ _ _ hw
  simp only [cWaitW] at hww
  obtain ⟨r, wq, act, q, z⟩ := hi
  have get : ∀ x y, s.ths[i]? = some x → (s.ths.set i y)[i]? = some y := by
    intro x y hx
    have : i < s.ths.length := by
      rcases Nat.lt_or_ge i s.ths.length with h | h
      · exact h
      · rw [List.getElem?_eq_none h] at hx; cases hx
    simp [List.getElem?_set, this]
  rcases step_cases h with ⟨h1, -, rfl⟩ | ⟨h1, -, rfl⟩ | ⟨h1, -, h2, rfl⟩ | ⟨h1, -, h2, rfl⟩ | ⟨h1, -, rfl⟩ | ⟨h1, -, rfl⟩ | ⟨n, h1, -, rfl⟩ | ⟨h1, -, rfl⟩
  · unfold askR
    rw [if_pos (by omega)]
    have hs := sums _ _ _ .waitR h1
    simp only [cFreeR] at hs
    simp only [may, St.put, get _ _ h1, h1]
    simp
    omega
  · have : ∀ x : Th, cFreeR x = 0 → tot cFreeR (s.ths.set i x) = tot cFreeR s.ths := by
      intro x hx
      have := (sums _ _ _ x h1).2.2.2.2.1
      rw [hx] at this
      exact this
    unfold askW
    split <;> simp [may, St.put, get _ _ h1, h1, this .waitW rfl, this .writes rfl, this .out rfl, this .freeW rfl]
  · have hs := sums _ _ _ .reads h1
    simp only [cFreeR] at hs
    simp only [may, St.put, get _ _ h1, h1]
    simp
    omega
  · have hs := sums _ _ _ .writes h1
    simp only [cFreeR] at hs
    simp only [may, St.put, get _ _ h1, h1]
    simp
    omega
  · have hr := tot_ge cR _ _ _ h1
    simp only [cR] at hr
    have this : ∀ x : Th, cFreeR x = 0 → tot cFreeR (s.ths.set i x) = tot cFreeR s.ths := by
      intro x hx
      have := (sums _ _ _ x h1).2.2.2.2.1
      rw [hx] at this
      exact this
    have ha : s.active > 0 := by omega
    simp only [done, if_pos ha]
    split
    · rw [if_pos (by omega)]
      simp [may, St.put, h1, this .out rfl, this .freeW rfl]
    · simp [may, St.put, h1, this .out rfl, this .freeW rfl]
  · have hr := tot_ge cW _ _ _ h1
    simp only [cW] at hr
    have this : ∀ x : Th, cFreeR x = 0 → tot cFreeR (s.ths.set i x) = tot cFreeR s.ths := by
      intro x hx
      have := (sums _ _ _ x h1).2.2.2.2.1
      rw [hx] at this
      exact this
    have ha : ¬s.active > 0 := by omega
    simp only [done, if_neg ha]
    split
    · rw [if_pos (by omega)]
      simp [may, St.put, get _ _ h1, this .out rfl, this .freeW rfl]
    · simp [may, St.put, get _ _ h1, this .out rfl, this .freeW rfl]
  · have hs := sums _ _ _ .out h1
    simp only [cFreeR] at hs
    simp only [may, St.put, get _ _ h1, h1]
    simp
    omega
  · have hs := sums _ _ _ .out h1
    simp only [cFreeR] at hs
    simp only [may, St.put, get _ _ h1, h1]
    simp
    omega

end Ptusa.Swmrg
