import Verif.Column.Lemmas
import Verif.Timer.Lemmas

/-!
# C36: the signal column
-/
namespace Ptusa.Column

/-- **C36** (part: running batches are not mixed with stopped operations; the lights are those of the pictures, blue
apart) After the postings of a cycle the column is driven as the most important of them demands, whatever it
showed before and in whatever order they came. -/
theorem C36_most_important_partial (c : Col) (hm : c.manual = false) (ps : List (Show × BitVec 64))
    (hne : ps ≠ []) (hu : Unmixed (ps.map Prod.fst)) :
    ∃ e ∈ ps.map Prod.fst, (∀ e' ∈ ps.map Prod.fst, importance e' ≤ importance e) ∧
      (c.cycle ps).picture = pictureOf c.constRed (importance e) := by
  cases ps with
  | nil => exact absurd rfl hne
  | cons p ps =>
    obtain ⟨h1, h2⟩ := cycle_spec c hm p ps
    have h3 := foldShown_importance ((p :: ps).map Prod.fst) .idle (by
      rintro ⟨a | a, b | b⟩
      · exact hu ⟨a, b⟩
      · simp at b
      · simp at a
      · simp at a)
    obtain ⟨e, he, ht⟩ := top_mem ((p :: ps).map Prod.fst) (by simp)
    refine ⟨e, he, fun e' he' => ?_, ?_⟩
    · rw [ht]; exact importance_le_top _ e' he'
    · rw [h2, h1, h3, ht]
      simp [importance]

/-- **C36** (part as above) The picture does not depend on the order of the postings. -/
theorem C36_order_partial (c : Col) (hm : c.manual = false) (ps qs : List (Show × BitVec 64))
    (hp : (ps.map Prod.fst).Perm (qs.map Prod.fst)) (hne : ps ≠ []) (hu : Unmixed (ps.map Prod.fst)) :
    (c.cycle ps).picture = (c.cycle qs).picture := by
  have hqne : qs ≠ [] := by
    rintro rfl
    simp at hp
    exact hne hp
  have huq : Unmixed (qs.map Prod.fst) := fun h => hu ⟨hp.mem_iff.mpr h.1, hp.mem_iff.mpr h.2⟩
  obtain ⟨e, he, hmax, hpic⟩ := C36_most_important_partial c hm ps hne hu
  obtain ⟨f, hf, hmaxf, hpicf⟩ := C36_most_important_partial c hm qs hqne huq
  have h1 : importance e ≤ importance f := hmaxf e (hp.mem_iff.mp he)
  have h2 : importance f ≤ importance e := hmax f (hp.mem_iff.mpr hf)
  rw [hpic, hpicf, Nat.le_antisymm h1 h2]

/-- Two aggregates with a message and one with an error. -/
example : (({} : Col).cycle [(.opRun, 5), (.message, 5), (.error, 6), (.message, 6)]).picture =
    ⟨.steady, .dark, .dark, true⟩ := by decide

/-- **C36** In manual mode postings change nothing. -/
theorem C36_manual (c : Col) (h : c.manual = true) (ps : List (Show × BitVec 64)) : c.posts ps = c := by
  induction ps with
  | nil => rfl
  | cons p ps ih =>
    show (c.post p.1 p.2).posts ps = c
    rw [post_manual c p.1 p.2 h]
    exact ih

example : ({ manual := true, shown := .message } : Col).posts [(.error, 5)] =
    { manual := true, shown := .message } := by decide

/-- **C36 is false of the code**: a running batch and a stopped operation show the one that was posted last. -/
theorem C36_order_violated (t u : BitVec 64) :
    (({} : Col).cycle [(.batchRun, t), (.opNot, u)]).picture = ⟨.dark, .steady, .dark, false⟩ ∧
    (({} : Col).cycle [(.opNot, t), (.batchRun, u)]).picture = ⟨.dark, .dark, .steady, false⟩ := by
  constructor <;> rfl

/-- **C36 is false of the code** for the blue lamp: it goes out only when the less important event is posted first. -/
theorem C36_blue_violated (t u : BitVec 64) :
    let c : Col := { blue := { step := .on, out := true } }
    (c.cycle [(.opRun, t), (.error, u)]).blue.out = false ∧
    (c.cycle [(.error, t), (.opRun, u)]).blue.out = true := by
  constructor <;> rfl

/-- A lamp made to blink in several calls. -/
def Lamp.blinks (l : Lamp) (delay : BitVec 64) (ts : List (BitVec 64)) : Lamp := ts.foldl (fun l t => l.blink t delay) l

/-- **C36** Blinking, the lit half: a lamp that starts to blink at `t0` is lit at every later call, up to the first one
more than the delay after `t0`. -/
theorem C36_lit (l : Lamp) (hl : l.step = .off ∨ l.step = .on) (t0 delay : BitVec 64) (ts : List (BitVec 64))
    (ht : ∀ t ∈ ts, t0.toNat ≤ t.toNat ∧ t.toNat ≤ t0.toNat + delay.toNat) (t : BitVec 64) (h0 : t0.toNat ≤ t.toNat) :
    ((l.blink t0 delay).blinks delay (ts ++ [t])).out = true ∧
    (((l.blink t0 delay).blinks delay (ts ++ [t])).step = if t0.toNat + delay.toNat < t.toNat then .blinkOff else .blinkOn) := by
  have hd : ∀ t : BitVec 64, t0.toNat ≤ t.toNat → (Time.deltaMs t t0 > delay ↔ t0.toNat + delay.toNat < t.toNat) := by
    intro t h
    rw [gt_iff_lt, BitVec.lt_def, Timer.delta_eq h]
    omega
  have hs : (l.blink t0 delay).step = .blinkOn ∧ (l.blink t0 delay).start = t0 := by
    unfold Lamp.blink
    rcases hl with h | h <;> simp [h]
  have key : ∀ (ts : List (BitVec 64)) (m : Lamp), m.step = .blinkOn ∧ m.start = t0 →
      (∀ t ∈ ts, t0.toNat ≤ t.toNat ∧ t.toNat ≤ t0.toNat + delay.toNat) →
      (m.blinks delay ts).step = .blinkOn ∧ (m.blinks delay ts).start = t0 := by
    intro ts
    induction ts with
    | nil => intro m h _; exact h
    | cons u us ih =>
      intro m h hu
      have hu' := hu u List.mem_cons_self
      have hn : ¬ Time.deltaMs u t0 > delay := by rw [hd u hu'.1]; omega
      refine ih (m.blink u delay) ?_ (fun t ht => hu t (List.mem_cons_of_mem _ ht))
      simp [Lamp.blink, h.1, h.2, hn]
  have k := key ts _ hs ht
  have e : (l.blink t0 delay).blinks delay (ts ++ [t]) = ((l.blink t0 delay).blinks delay ts).blink t delay := by
    simp [Lamp.blinks]
  rw [e]
  generalize (l.blink t0 delay).blinks delay ts = m at k
  by_cases hc : Time.deltaMs t t0 > delay
  · have := (hd t h0).mp hc
    simp [Lamp.blink, k.1, k.2, hc, this]
  · have := mt (hd t h0).mpr hc
    simp [Lamp.blink, k.1, k.2, hc, this]

/-- **C36** Blinking, the dark half: after the call at `t0` that ended the lit half the lamp is dark at every later call,
up to the first one more than the delay after `t0`; then the next lit half begins. -/
theorem C36_dark (l : Lamp) (hl : l.step = .blinkOn) (t0 delay : BitVec 64) (hend : (l.blink t0 delay).step = .blinkOff)
    (ts : List (BitVec 64)) (ht : ∀ t ∈ ts, t0.toNat ≤ t.toNat ∧ t.toNat ≤ t0.toNat + delay.toNat)
    (t : BitVec 64) (h0 : t0.toNat ≤ t.toNat) :
    ((l.blink t0 delay).blinks delay (ts ++ [t])).out = false ∧
    (((l.blink t0 delay).blinks delay (ts ++ [t])).step = if t0.toNat + delay.toNat < t.toNat then .blinkOn else .blinkOff) := by
  have hd : ∀ t : BitVec 64, t0.toNat ≤ t.toNat → (Time.deltaMs t t0 > delay ↔ t0.toNat + delay.toNat < t.toNat) := by
    intro t h
    rw [gt_iff_lt, BitVec.lt_def, Timer.delta_eq h]
    omega
  have hs : (l.blink t0 delay).step = .blinkOff ∧ (l.blink t0 delay).wait = t0 := by
    refine ⟨hend, ?_⟩
    simp only [Lamp.blink, hl] at hend ⊢
    by_cases hc : Time.deltaMs t0 l.start > delay
    · rw [if_pos hc]
    · rw [if_neg hc] at hend
      simp at hend
  have key : ∀ (ts : List (BitVec 64)) (m : Lamp), m.step = .blinkOff ∧ m.wait = t0 →
      (∀ t ∈ ts, t0.toNat ≤ t.toNat ∧ t.toNat ≤ t0.toNat + delay.toNat) →
      (m.blinks delay ts).step = .blinkOff ∧ (m.blinks delay ts).wait = t0 := by
    intro ts
    induction ts with
    | nil => intro m h _; exact h
    | cons u us ih =>
      intro m h hu
      have hu' := hu u List.mem_cons_self
      have hn : ¬ Time.deltaMs u t0 > delay := by rw [hd u hu'.1]; omega
      refine ih (m.blink u delay) ?_ (fun t ht => hu t (List.mem_cons_of_mem _ ht))
      simp [Lamp.blink, h.1, h.2, hn]
  have k := key ts _ hs ht
  have e : (l.blink t0 delay).blinks delay (ts ++ [t]) = ((l.blink t0 delay).blinks delay ts).blink t delay := by
    simp [Lamp.blinks]
  rw [e]
  generalize (l.blink t0 delay).blinks delay ts = m at k
  by_cases hc : Time.deltaMs t t0 > delay
  · have := (hd t h0).mp hc
    simp [Lamp.blink, k.1, k.2, hc, this]
  · have := mt (hd t h0).mpr hc
    simp [Lamp.blink, k.1, k.2, hc, this]

/-- Slow blinking from 5000 on: lit until the call after 6000, dark until the call after 7001. -/
example : let l : Lamp := {}
    ((l.blinks slowTime [5000, 5500, 6000]).out, (l.blinks slowTime [5000, 5500, 6000, 6001, 6500]).out,
      (l.blinks slowTime [5000, 5500, 6000, 6001, 6500, 7002, 7003]).out) = (true, false, true) := by decide

/-- Cycles, each with its postings. -/
def Col.cycles (c : Col) (pss : List (List (Show × BitVec 64))) : Col := pss.foldl Col.cycle c

/-- **C36 is false of the code** for blinking: a red lamp that the program makes blink stays dark for ever when in
every cycle some aggregate posts a message before another one posts an error; a message behind a running operation is
never lit either. -/
theorem C36_dark_violated (c : Col) (hm : c.manual = false) (pss : List (BitVec 64 × BitVec 64)) (hne : pss ≠ []) :
    (c.constRed = true → (c.cycles (pss.map fun t => [(.message, t.1), (.error, t.2)])).red.out = false) ∧
    (c.cycles (pss.map fun t => [(.opRun, t.1), (.message, t.2)])).yellow.out = false := by
  have red : ∀ (c : Col) (t u : BitVec 64), c.manual = false → c.constRed = true →
      (c.cycle [(.message, t), (.error, u)]).red.out = false ∧
      (c.cycle [(.message, t), (.error, u)]).manual = false ∧
      (c.cycle [(.message, t), (.error, u)]).constRed = true := by
    intro c t u hm hc
    simp [Col.cycle, Col.posts, Col.post, Col.evaluateIo, hm, allowed, Col.lights, Col.blinkRed, hc, Lamp.blink,
      Lamp.turnOff]
  have yel : ∀ (c : Col) (t u : BitVec 64), c.manual = false →
      (c.cycle [(.opRun, t), (.message, u)]).yellow.out = false ∧
      (c.cycle [(.opRun, t), (.message, u)]).manual = false := by
    intro c t u hm
    simp [Col.cycle, Col.posts, Col.post, Col.evaluateIo, hm, allowed, Col.lights, Lamp.blink, Lamp.turnOff]
  constructor
  · intro hc
    have : ∀ (pss : List (BitVec 64 × BitVec 64)) (c : Col), c.manual = false → c.constRed = true →
        (c.red.out = false ∨ pss ≠ []) →
        (c.cycles (pss.map fun t => [(.message, t.1), (.error, t.2)])).red.out = false := by
      intro pss
      induction pss with
      | nil =>
        intro c _ _ h
        rcases h with h | h
        · exact h
        · exact absurd rfl h
      | cons t pss ih =>
        intro c hm hc _
        obtain ⟨h1, h2, h3⟩ := red c t.1 t.2 hm hc
        exact ih _ h2 h3 (.inl h1)
    exact this pss c hm hc (.inr hne)
  · have : ∀ (pss : List (BitVec 64 × BitVec 64)) (c : Col), c.manual = false →
        (c.yellow.out = false ∨ pss ≠ []) →
        (c.cycles (pss.map fun t => [(.opRun, t.1), (.message, t.2)])).yellow.out = false := by
      intro pss
      induction pss with
      | nil =>
        intro c _ h
        rcases h with h | h
        · exact h
        · exact absurd rfl h
      | cons t pss ih =>
        intro c hm _
        obtain ⟨h1, h2⟩ := yel c t.1 t.2 hm
        exact ih _ h2 (.inl h1)
    exact this pss c hm (.inr hne)

/-- Without such a posting before it the lamp does blink: it is lit in the second cycle. -/
example : (({ constRed := true } : Col).cycles [[(.error, 5)], [(.error, 6)]]).red.out = true := by decide

end Ptusa.Column
