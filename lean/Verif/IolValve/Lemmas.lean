import Verif.IolValve.Spec
import Verif.Valve.Lemmas
import Mathlib.Data.List.Induction
import Mathlib.Tactic.IntervalCases

/-!
# Lemmas about the IO-Link valves
-/
namespace Ptusa.IolValve

open Ptusa.Valve (Tm inTime passed toUnsigned)

theorem sol_on (k : Kind) (b : Byte) : solenoids k ((b &&& ~~~ k.mask) ||| k.main) = (true, false, false) := by
  cases k <;> simp [solenoids, Kind.mask, Kind.main]

theorem sol_off (k : Kind) (b : Byte) : solenoids k (b &&& ~~~ k.mask) = (false, false, false) := by
  cases k <;> simp [solenoids, Kind.mask]

theorem sol_upper (b : Byte) : solenoids .tvisDs ((b &&& ~~~ Kind.mask .tvisDs) ||| 0x04) = (false, false, true) := by
  simp [solenoids, Kind.mask]

theorem sol_lower (b : Byte) : solenoids .tvisDs ((b &&& ~~~ Kind.mask .tvisDs) ||| 0x02) = (false, true, false) := by
  simp [solenoids, Kind.mask]

theorem sol_wink (k : Kind) (b : Byte) (h : k = .thinktop ∨ k = .sorio) :
    solenoids k (b ||| k.wink) = solenoids k b ∧ solenoids k (b &&& ~~~ k.wink) = solenoids k b := by
  rcases h with rfl | rfl <;> simp [solenoids, Kind.wink]

/-- The bits which belong to the valve. -/
def own (k : Kind) : Byte := k.mask ||| k.wink

theorem rest_on (k : Kind) (b : Byte) : ((b &&& ~~~ k.mask) ||| k.main) &&& ~~~ own k = b &&& ~~~ own k := by
  ext i hi
  cases k <;> simp only [own, Kind.mask, Kind.main, Kind.wink] <;> interval_cases i <;> simp

theorem rest_off (k : Kind) (b : Byte) : (b &&& ~~~ k.mask) &&& ~~~ own k = b &&& ~~~ own k := by
  ext i hi
  cases k <;> simp only [own, Kind.mask, Kind.wink] <;> interval_cases i <;> simp

theorem rest_or (k : Kind) (b c : Byte) (h : c &&& ~~~ own k = 0) : (b ||| c) &&& ~~~ own k = b &&& ~~~ own k := by
  ext i hi
  have h1 : (c &&& ~~~ own k)[i] = false := by rw [h]; simp
  simp only [BitVec.getElem_and, BitVec.getElem_or, BitVec.getElem_not] at h1 ⊢
  revert h1
  cases b[i] <;> cases c[i] <;> cases (own k)[i] <;> simp

theorem rest_wink (k : Kind) (b : Byte) : (b &&& ~~~ k.wink) &&& ~~~ own k = b &&& ~~~ own k := by
  ext i hi
  cases k <;> simp only [own, Kind.mask, Kind.wink] <;> interval_cases i <;> simp

/-- The effect of an event on a valve whose output is linked. -/
theorem step_linked (k : Kind) (v : V) (hv : v.ptr = .image) (e : Ev) (he : e.linked = true) : ∃ w, v.step k e = some w ∧
    w.ptr = .image ∧ solenoids k w.img = (wanted k e).getD (solenoids k v.img) ∧ w.img &&& ~~~ own k = v.img &&& ~~~ own k := by
  have hout : v.out = some v.img := by simp [V.out, hv]
  have hon : ∀ t, ∃ w, v.on k t = some w ∧ w.ptr = .image ∧ solenoids k w.img = (true, false, false) ∧
      w.img &&& ~~~ own k = v.img &&& ~~~ own k := by
    intro t
    refine ⟨_, by simp only [V.on, hout]; rfl, ?_⟩
    by_cases hc : v.there k = true
    · simp [hc, V.write, hv, sol_on, rest_on]
    · simp [hc, V.write, hv, sol_on, rest_on]
  have hoff : ∀ t, ∃ w, v.off k t = some w ∧ w.ptr = .image ∧ w.img = v.img &&& ~~~ k.mask := by
    intro t
    refine ⟨_, by simp only [V.off, hout]; rfl, ?_⟩
    split <;> simp [V.write, hv]
  cases e with
  | cycle ao ai ok =>
    simp only [Ev.linked, Bool.and_eq_true, Option.isSome_iff_exists] at he
    obtain ⟨rfl, d, rfl⟩ := he
    refine ⟨{ v with ioOk := ok, ptr := .image, pos := (k.decode d).1, flags := (k.decode d).2 }, ?_, rfl, rfl, rfl⟩
    cases k <;> rfl
  | on t =>
    obtain ⟨w, h1, h2, h3, h4⟩ := hon t
    exact ⟨w, h1, h2, by simp [wanted, h3], h4⟩
  | off t =>
    obtain ⟨w, h1, h2, h3⟩ := hoff t
    exact ⟨w, h1, h2, by simp [wanted, h3, sol_off], by rw [h3, rest_off]⟩
  | set t n =>
    obtain ⟨w, h1, h2, h3⟩ := hoff t
    obtain ⟨u, g1, g2, g3, g4⟩ := hon t
    simp only [V.step, V.set, wanted]
    by_cases c0 : n = 0
    · rw [if_pos c0, if_pos c0]
      exact ⟨w, h1, h2, by simp [h3, sol_off], by rw [h3, rest_off]⟩
    · rw [if_neg c0, if_neg c0]
      by_cases c1 : n = 1
      · rw [if_pos c1]
        have n2 : n ≠ 2 := by omega
        have n3 : n ≠ 3 := by omega
        exact ⟨u, g1, g2, by simp [n2, n3, g3], g4⟩
      · rw [if_neg c1]
        have hw : w.out = some w.img := by simp [V.out, h2]
        by_cases c2 : k = .tvisDs ∧ n = 2
        · rw [if_pos c2, if_pos c2, h1]
          obtain ⟨rfl, -⟩ := c2
          refine ⟨w.write (w.img ||| 0x04), by simp [hw], by simp [V.write, h2], ?_, ?_⟩
          · simp only [V.write, h2, h3, sol_upper, Option.getD_some]
          · simp only [V.write, h2, h3]
            rw [rest_or _ _ _ (by decide), rest_off]
        · rw [if_neg c2, if_neg c2]
          by_cases c3 : k = .tvisDs ∧ n = 3
          · rw [if_pos c3, if_pos c3, h1]
            obtain ⟨rfl, -⟩ := c3
            refine ⟨w.write (w.img ||| 0x02), by simp [hw], by simp [V.write, h2], ?_, ?_⟩
            · simp only [V.write, h2, h3, sol_lower, Option.getD_some]
            · simp only [V.write, h2, h3]
              rw [rest_or _ _ _ (by decide), rest_off]
          · rw [if_neg c3, if_neg c3]
            exact ⟨u, g1, g2, by simp [g3], g4⟩
  | wink b =>
    simp only [V.step, V.wink, wanted, Option.getD_none]
    cases k with
    | thinktop =>
      refine ⟨_, by simp only [hout, Option.map_some]; rfl, by simp [V.write, hv], ?_, ?_⟩
      · cases b <;> simp [V.write, hv, sol_wink]
      · cases b
        · simp [V.write, hv, rest_wink]
        · simp only [V.write, hv, if_true]
          rw [rest_or _ _ _ (by decide)]
    | sorio =>
      refine ⟨_, by simp only [hout, Option.map_some]; rfl, by simp [V.write, hv], ?_, ?_⟩
      · cases b <;> simp [V.write, hv, sol_wink]
      · cases b
        · simp [V.write, hv, rest_wink]
        · simp only [V.write, hv, if_true]
          rw [rest_or _ _ _ (by decide)]
    | tvisSs => exact ⟨v, rfl, hv, rfl, rfl⟩
    | tvisDs => exact ⟨v, rfl, hv, rfl, rfl⟩

theorem run_linked (k : Kind) (es : List Ev) (he : ∀ e ∈ es, e.linked = true) (v : V) (hv : v.ptr = .image) :
    ∃ w, v.run k es = some w ∧ w.ptr = .image ∧ solenoids k w.img = asked k (solenoids k v.img) es ∧
      w.img &&& ~~~ own k = v.img &&& ~~~ own k := by
  induction es generalizing v with
  | nil => exact ⟨v, rfl, hv, rfl, rfl⟩
  | cons e es ih =>
    obtain ⟨u, h1, h2, h3, h4⟩ := step_linked k v hv e (he e (by simp))
    obtain ⟨w, g1, g2, g3, g4⟩ := ih (fun x hx => he x (by simp [hx])) u h2
    refine ⟨w, by simp [V.run, h1, g1], g2, ?_, by rw [g4, h4]⟩
    rw [g3, h3]
    rfl

theorem run_append (k : Kind) (a b : List Ev) (v : V) : v.run k (a ++ b) = (v.run k a).bind fun w => w.run k b := by
  induction a generalizing v with
  | nil => rfl
  | cons e a ih =>
    simp only [List.cons_append, V.run]
    cases v.step k e with
    | none => rfl
    | some w => simpa using ih w

/-- A byte is its bits. -/
theorem byte_bit (b7 b6 b5 b4 b3 b2 b1 b0 : Bool) : ∀ i : Fin 8,
    (byte b7 b6 b5 b4 b3 b2 b1 b0).getLsbD i = [b0, b1, b2, b3, b4, b5, b6, b7].getD i false := by
  revert b7 b6 b5 b4 b3 b2 b1 b0
  decide +kernel

theorem high_low (p : BitVec 16) : highByte p ++ lowByte p = p := by
  ext i hi
  simp only [highByte, lowByte, BitVec.getElem_append, BitVec.getElem_extractLsb']
  split
  · simp [BitVec.getLsbD_eq_getElem hi]
  · rw [show 8 + (i - 8) = i by omega, BitVec.getLsbD_eq_getElem hi]

theorem app_low (a b : Byte) (i : Nat) (hi : i < 8) : (a ++ b : BitVec 16).getLsbD i = b.getLsbD i := by
  rw [BitVec.getLsbD_append, if_pos hi]

theorem app_high (a b : Byte) (i : Nat) (hi : 8 ≤ i) : (a ++ b : BitVec 16).getLsbD i = a.getLsbD (i - 8) := by
  rw [BitVec.getLsbD_append, if_neg (by omega)]

/-- The flags of a ThinkTop. -/
theorem thinktop_flags (r : Report) (v : V) (h : v.flags = (Kind.decode .thinktop r.thinktop).2) :
    v.flag 0 = r.closed ∧ v.flag 1 = r.opened ∧ v.flag 4 = r.settled ∧ v.err .thinktop = r.faulty .thinktop := by
  simp only [V.flag, V.err, h, Kind.decode, Report.thinktop]
  refine ⟨?_, ?_, ?_, ?_⟩
  · rw [app_low _ _ _ (by omega)]; exact byte_bit _ _ _ _ _ _ _ _ 0
  · rw [app_low _ _ _ (by omega)]; exact byte_bit _ _ _ _ _ _ _ _ 1
  · rw [app_low _ _ _ (by omega)]; exact byte_bit _ _ _ _ _ _ _ _ 4
  · have : BitVec.extractLsb' 8 5
        ((byte false false false (r.err.getLsbD 4) (r.err.getLsbD 3) (r.err.getLsbD 2) (r.err.getLsbD 1) (r.err.getLsbD 0)) ++
          (byte false false false r.settled false false r.opened r.closed) : BitVec 16) = r.err := by
      ext i hi
      rw [BitVec.getElem_extractLsb', app_high _ _ _ (by omega), show 8 + i - 8 = i by omega,
        byte_bit _ _ _ _ _ _ _ _ ⟨i, by omega⟩, ← BitVec.getLsbD_eq_getElem hi]
      interval_cases i <;> rfl
    rw [this]
    simp [Report.faulty, bne, BEq.beq]

/-- The flags of a SORIO. -/
theorem sorio_flags (r : Report) (v : V) (h : v.flags = (Kind.decode .sorio r.sorio).2) :
    v.flag 0 = r.closed ∧ v.flag 1 = r.opened ∧ v.flag 8 = r.solenoid ∧ v.err .sorio = r.faulty .sorio := by
  simp only [V.flag, V.err, h, Kind.decode, Report.sorio]
  refine ⟨?_, ?_, ?_, ?_⟩
  · rw [app_low _ _ _ (by omega)]; exact byte_bit _ _ _ _ _ _ _ _ 0
  · rw [app_low _ _ _ (by omega)]; exact byte_bit _ _ _ _ _ _ _ _ 1
  · rw [app_high _ _ _ (by omega)]; exact byte_bit _ _ _ _ _ _ _ _ 0
  · have : BitVec.extractLsb' 4 4
        ((byte false false false false false false false r.solenoid) ++
          (byte (r.err.getLsbD 3) (r.err.getLsbD 2) (r.err.getLsbD 1) (r.err.getLsbD 0) false false r.opened r.closed) : BitVec 16) =
        r.err.extractLsb' 0 4 := by
      ext i hi
      rw [BitVec.getElem_extractLsb', app_low _ _ _ (by omega), byte_bit _ _ _ _ _ _ _ _ ⟨4 + i, by omega⟩,
        BitVec.getElem_extractLsb']
      interval_cases i <;> rfl
    rw [this]
    simp [Report.faulty, bne, BEq.beq]

/-- The flags of a T.VIS. -/
theorem tvis_flags (k : Kind) (hk : k = .tvisSs ∨ k = .tvisDs) (r : Tvis) (v : V) (h : v.flags = (k.decode r.data).2) :
    v.flag 0 = r.closed ∧ v.flag 1 = r.stroke ∧ v.flag 3 = r.rest ∧ v.flag 4 = r.setup ∧ v.flag 8 = r.y1 ∧ v.flag 9 = r.y2 ∧
      v.flag 10 = r.y3 ∧ v.flag 11 = r.err := by
  have h' : v.flags = (Kind.decode .tvisSs r.data).2 := by rcases hk with rfl | rfl <;> exact h
  simp only [V.flag, h', Kind.decode, Tvis.data]
  refine ⟨?_, ?_, ?_, ?_, ?_, ?_, ?_, ?_⟩
  · rw [app_low _ _ _ (by omega)]; exact byte_bit _ _ _ _ _ _ _ _ 0
  · rw [app_low _ _ _ (by omega)]; exact byte_bit _ _ _ _ _ _ _ _ 1
  · rw [app_low _ _ _ (by omega)]; exact byte_bit _ _ _ _ _ _ _ _ 3
  · rw [app_low _ _ _ (by omega)]; exact byte_bit _ _ _ _ _ _ _ _ 4
  · rw [app_high _ _ _ (by omega)]; exact byte_bit _ _ _ _ _ _ _ _ 0
  · rw [app_high _ _ _ (by omega)]; exact byte_bit _ _ _ _ _ _ _ _ 1
  · rw [app_high _ _ _ (by omega)]; exact byte_bit _ _ _ _ _ _ _ _ 2
  · rw [app_high _ _ _ (by omega)]; exact byte_bit _ _ _ _ _ _ _ _ 3

theorem tvis_pos (k : Kind) (hk : k = .tvisSs ∨ k = .tvisDs) (r : Tvis) : (k.decode r.data).1.toInt = (r.pos.toNat : Int) := by
  have h1 : (k.decode r.data).1 = r.pos.zeroExtend 16 := by
    have h2 : (k.decode r.data).1 = (highByte (r.pos.zeroExtend 16) ++ lowByte (r.pos.zeroExtend 16)) &&& 0x3FF := by
      rcases hk with rfl | rfl <;> rfl
    rw [h2, high_low]
    apply BitVec.eq_of_toNat_eq
    have := r.pos.isLt
    rw [BitVec.toNat_and, show (0x3FF : BitVec 16).toNat = 2 ^ 10 - 1 by rfl, Nat.and_two_pow_sub_one_eq_mod,
      BitVec.toNat_setWidth]
    omega
  have := r.pos.isLt
  rw [h1, BitVec.toInt_eq_toNat_of_lt] <;> rw [BitVec.toNat_setWidth] <;> omega

/-- A cycle with both channels. -/
theorem cycle_linked (k : Kind) (d : Data) (ok : Bool) (v : V) : v.step k (.cycle true (some d) ok) =
    some { v with ioOk := ok, ptr := .image, pos := (k.decode d).1, flags := (k.decode d).2 } := by
  cases k <;> rfl

/-- Events which do not drive the valve do not start the time. -/
theorem step_quiet (k : Kind) (v w : V) (e : Ev) (he : e.drives = false) (h : v.step k e = some w) : w.start = v.start := by
  cases e with
  | cycle ao ai ok =>
    cases k <;> cases ao <;> cases ai <;> simp [V.step, V.cycle] at h <;> subst h <;> rfl
  | wink b =>
    cases k
    · cases ho : v.out with
      | none => simp [V.step, V.wink, ho] at h
      | some x =>
        simp [V.step, V.wink, ho] at h
        subst h
        cases hp : v.ptr <;> simp [V.write, hp]
    · cases ho : v.out with
      | none => simp [V.step, V.wink, ho] at h
      | some x =>
        simp [V.step, V.wink, ho] at h
        subst h
        cases hp : v.ptr <;> simp [V.write, hp]
    · simp [V.step, V.wink] at h; rw [h]
    · simp [V.step, V.wink] at h; rw [h]
  | _ => simp [Ev.drives] at he

theorem run_quiet (k : Kind) (es : List Ev) (he : ∀ e ∈ es, e.drives = false) (v w : V) (h : v.run k es = some w) :
    w.start = v.start := by
  induction es generalizing v with
  | nil => simp [V.run] at h; rw [h]
  | cons e es ih =>
    simp only [V.run] at h
    cases hs : v.step k e with
    | none => simp [hs] at h
    | some u =>
      simp only [hs, Option.bind_some] at h
      rw [ih (fun x hx => he x (by simp [hx])) u h, step_quiet k v u e (he e (by simp)) hs]

theorem asked_quiet (k : Kind) (es : List Ev) (he : ∀ e ∈ es, e.drives = false) (o : Bool × Bool × Bool) : asked k o es = o := by
  induction es generalizing o with
  | nil => rfl
  | cons e es ih =>
    have : wanted k e = none := by
      have := he e (by simp)
      cases e <;> simp_all [Ev.drives, wanted]
    simp only [asked, List.foldl_cons, this, Option.getD_none]
    exact ih (fun x hx => he x (by simp [hx])) o

theorem asked_append (k : Kind) (o : Bool × Bool × Bool) (a b : List Ev) : asked k o (a ++ b) = asked k (asked k o a) b := by
  simp [asked]

theorem sol_none (k : Kind) (b : Byte) : solenoids k b = (false, false, false) ↔ b &&& k.mask = 0 := by
  have h : b &&& k.mask = 0 ↔ ∀ i : Fin 8, (b.getLsbD i && k.mask.getLsbD i) = false := by
    constructor
    · intro h i
      have := congrArg (fun x : Byte => x.getLsbD i) h
      simpa using this
    · intro h
      ext i hi
      have := h ⟨i, hi⟩
      simpa [BitVec.getLsbD_eq_getElem hi] using this
  rw [h]
  cases k <;> simp [solenoids, Kind.mask, Fin.forall_fin_succ]

theorem sol_main (k : Kind) (b : Byte) : b &&& k.main ≠ 0 ↔ (solenoids k b).1 = true := by
  have h : b &&& k.main = 0 ↔ ∀ i : Fin 8, (b.getLsbD i && k.main.getLsbD i) = false := by
    constructor
    · intro h i
      have := congrArg (fun x : Byte => x.getLsbD i) h
      simpa using this
    · intro h
      ext i hi
      have := h ⟨i, hi⟩
      simpa [BitVec.getLsbD_eq_getElem hi] using this
  rw [ne_eq, h]
  cases k <;> simp [solenoids, Kind.main, Fin.forall_fin_succ]

/-- The moment of a command which closes. -/
theorem off_start (k : Kind) (v w : V) (t : Tm) (hv : v.ptr = .image) (hs : solenoids k v.img ≠ (false, false, false))
    (h : v.off k t = some w) : w.start = t := by
  have ho : v.out = some v.img := by simp [V.out, hv]
  have hm : v.img &&& k.mask ≠ 0 := fun hh => hs ((sol_none k _).mpr hh)
  simp only [V.off, ho, if_pos hm, Option.some.injEq] at h
  rw [← h]
  simp [V.write, hv]

/-- The moment of a command which opens. -/
theorem on_start (k : Kind) (v w : V) (t : Tm) (hv : v.ptr = .image) (hs : v.there k = false) (h : v.on k t = some w) :
    w.start = t := by
  have ho : v.out = some v.img := by simp [V.out, hv]
  simp only [V.on, ho, hs, Option.some.injEq] at h
  rw [← h]
  simp [V.write, hv]

/-- The whole history: a first cycle, any events, a cycle, a command which starts the time, no command, a cycle. -/
theorem history (k : Kind) (v : V) (d0 d1 d2 : Data) (k0 k1 k2 : Bool) (es rest : List Ev) (he : ∀ e ∈ es, e.linked = true)
    (hr : ∀ e ∈ rest, e.linked = true ∧ e.drives = false) (c : Ev) (t0 : Tm)
    (hc : (c = .off t0 ∧ asked k (solenoids k v.img) es ≠ (false, false, false)) ∨
      (c = .on t0 ∧ ∀ u : V, u.flags = (k.decode d1).2 → u.there k = false)) :
    ∃ w, v.run k (.cycle true (some d0) k0 :: es ++ .cycle true (some d1) k1 :: c :: rest ++ [.cycle true (some d2) k2]) = some w ∧
      w.start = t0 ∧ w.flags = (k.decode d2).2 ∧ w.ioOk = k2 ∧ w.ptr = .image ∧ some (solenoids k w.img) = wanted k c := by
  have hcl : c.linked = true := by rcases hc with ⟨rfl, -⟩ | ⟨rfl, -⟩ <;> rfl
  obtain ⟨u, h1, h2, h3, -⟩ := run_linked k es he
    { v with ioOk := k0, ptr := .image, pos := (k.decode d0).1, flags := (k.decode d0).2 } rfl
  let u' : V := { u with ioOk := k1, ptr := .image, pos := (k.decode d1).1, flags := (k.decode d1).2 }
  obtain ⟨x, g1, g2, g3, -⟩ := step_linked k u' rfl c hcl
  have gs : x.start = t0 := by
    rcases hc with ⟨rfl, h⟩ | ⟨rfl, h⟩
    · refine off_start k u' x t0 rfl ?_ g1
      change solenoids k u.img ≠ _
      rw [h3]
      exact h
    · exact on_start k u' x t0 rfl (h u' rfl) g1
  obtain ⟨y, f1, f2, f3, -⟩ := run_linked k rest (fun e h => (hr e h).1) x g2
  have fs : y.start = x.start := run_quiet k rest (fun e h => (hr e h).2) x y f1
  refine ⟨{ y with ioOk := k2, ptr := .image, pos := (k.decode d2).1, flags := (k.decode d2).2 }, ?_, by rw [← gs, ← fs], rfl, rfl,
    rfl, ?_⟩
  · simp only [List.cons_append, List.append_assoc, V.run, cycle_linked, Option.bind_some, run_append, h1]
    rw [show u'.step k c = some x from g1] 
    simp [f1, run_append, V.run, cycle_linked]
  · change some (solenoids k y.img) = _
    rw [f3, asked_quiet k rest (fun e h => (hr e h).2), g3]
    rcases hc with ⟨rfl, -⟩ | ⟨rfl, -⟩ <;> rfl

/-- What is shown after the time has passed. -/
theorem shown_late (k : Kind) (w : V) (q : Rat) (h0 : 0 ≤ q) (h1 : q < 2 ^ 24) (pFb : Fl) (hf : pFb.eq (.num 0) = false) (t : Tm)
    (m : Bool) (ht : w.start ≤ t) (hlate : q < ((t.toNat - w.start.toNat : Nat) : Rat)) (h2 : w.state k ≠ 2) (h3 : w.state k ≠ 3)
    (f : Bool) (hfb : inTime t w.start (.num q) = false → w.fb k t (.num q) = some f) :
    ∃ n, w.shown k t (.num q) pFb m = some n ∧ Valve.isError n = !f := by
  have hl : ⌊q⌋.toNat < t.toNat - w.start.toNat := by
    have h2 : ⌊q⌋ < ((t.toNat - w.start.toNat : Nat) : Int) := by
      rw [Int.floor_lt]; exact_mod_cast hlate
    have := Int.floor_nonneg.mpr h0
    omega
  have hp : ⌊q⌋.toNat < passed t w.start := by rw [Valve.passed_eq _ _ ht]; exact hl
  have hin := Valve.inTime_late t w.start q h0 h1 hp
  unfold V.shown
  simp only [hfb hin, Valve.toUnsigned_floor 64 (by omega) q h0 h1, h2, h3, hf]
  cases f <;> cases m <;> simp [hp, Valve.isError] <;> split <;> simp

end Ptusa.IolValve
