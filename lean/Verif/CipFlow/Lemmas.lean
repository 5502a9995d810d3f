import Verif.CipFlow.Spec
import Verif.Cip.Lemmas

/-!
# Helper lemmas: invariants of the valves
-/
namespace Ptusa.CipFlow

open Ptusa.Cip (Outcome StepErr Opt knownSteps)

/-! ## Steps -/

/-- What is known of the valves in a step.  `caustic`: those of the acid tank are closed; `acid`: those of the caustic
tank are closed.  `fill`: filling with water.  `cross`: from tank to tank.  `w`, `k`, `s`: the return goes nowhere but to
the tank of used water, of acid, of caustic, the drain, the neutralisation; `ew`: nor to the neutralisation.  `head`:
washing heads may be open. -/
structure Flags where
  caustic : Bool
  acid : Bool
  fill : Bool
  cross : Bool
  w : Bool
  k : Bool
  s : Bool
  ew : Bool
  head : Bool

def flags (x : Int) : Flags where
  caustic := [22, 23, 24, 26, 28, 29, 31, 33, 34, 35, 105, 106, 108, 109, 111].contains x
  acid := [42, 43, 44, 46, 48, 49, 53, 54, 55, 115, 116, 118, 119, 121].contains x
  fill := [31, 61, 65, 71, 75, 81].contains x
  cross := [163, 164].contains x
  w := [39, 59, 67, 153, 156, 157, 161, 173, 175, 176, 180, 187].contains x
  k := [162, 167, 169, 170, 174, 186].contains x
  s := [155, 160, 163, 164, 168, 179, 185].contains x
  ew := [39, 59, 67].contains x
  head := decide (151 ≤ x) && decide (x ≤ 187)

def Flags.plain (f : Flags) : Bool := !f.fill && !f.cross && !f.w && !f.k && !f.s && !f.ew

def Flags.src (f : Flags) : Src → Bool
  | .tankK => f.acid && !f.caustic
  | .tankS => f.caustic && !f.acid
  | _ => true

def Flags.dest (f : Flags) : Dest → Bool
  | .tankK => f.acid && !f.caustic
  | .tankS => f.caustic && !f.acid
  | _ => true

def Flags.tank (f : Flags) : Tank → Bool
  | .acid => f.acid && !f.caustic
  | .caustic => f.caustic && !f.acid

def Flags.scDest (f : Flags) : ScDest → Bool
  | .tankW | .tankWmg => f.w && !f.k && !f.s && !f.ew
  | .tankK | .tankKmg => f.k && !f.w && !f.s && !f.ew && !f.cross
  | .tankS | .tankSmg => f.s && !f.w && !f.k && !f.ew
  | _ => !f.k && !f.s

def ScDest.isHead : ScDest → Bool
  | .tankWmg | .tankKmg | .tankSmg => true
  | _ => false

/-- The function of a step fits what is known of it. -/
def okOp (f : Flags) (x : Int) : Op → Bool
  | .first | .last | .custom => f.plain && !f.caustic && !f.acid
  | .toObject a d | .fromObject a d => f.plain && f.src a && f.dest d
  | .emptyObject d => f.plain && f.dest d
  | .fillWater => f.fill && !f.cross && !f.w && !f.k && !f.s && !f.ew && !f.acid
  | .fillReturn => f.plain && (x != 26 || f.caustic && !f.acid) && (x != 46 || f.acid && !f.caustic)
  | .circ m => f.plain && (match m with
      | .water => x != 28 && x != 48
      | .caustic => x == 28 && f.caustic && !f.acid
      | .acid => x == 48 && f.acid && !f.caustic)
  | .emptyCirc d => !f.fill && !f.cross && !f.k && !f.s && f.dest d &&
      (match d with | .tankW => f.ew && f.w | .drain => true | _ => !f.ew && !f.w)
  | .dose => f.plain && !f.caustic && !f.acid
  | .fillRR t | .circRR t | .checkConc t | .addRR t | .rinseRR t => f.plain && f.tank t
  | .pumping a d => !f.fill && !f.caustic && !f.acid && !f.ew && f.scDest d &&
      (a == none || d != .none) && (f.head || !d.isHead) &&
      (f.cross || !(a == some .tankK && (d == .tankS || d == .tankSmg)) &&
        !(a == some .tankS && (d == .tankK || d == .tankKmg)))

theorem op_ok : ∀ x ∈ knownSteps, ∀ i n a r : Bool, (op i n a r x).any (okOp (flags x) x) = true := by
  decide +kernel

/-- From a step with the first flags to one that does not set all valves. -/
def rel (f f' : Flags) : Bool :=
  (!f'.caustic || f.caustic) && (!f'.acid || f.acid) && (f'.fill || !f.fill) && !f.cross

/-- The step leaves the washing heads as they are. -/
def keepsHeads : Op → Bool
  | .pumping _ _ => false
  | _ => true

def partialOp : Op → Bool
  | .emptyObject _ | .fillWater | .fillReturn | .custom => true
  | _ => false

theorem succ_rel : ∀ x ∈ knownSteps, ∀ b : Bool, x ≠ 555 → ∀ y ∈ (Cip.succ x b).toList, ∀ n a r : Bool,
    ((op true n a r y).all fun o => !partialOp o || rel (flags x) (flags y)) = true := by
  decide +kernel

theorem succ_none_rel : ∀ x ∈ knownSteps, ∀ b : Bool, x ≠ 555 → Cip.succ x b = none →
    (!(flags x).fill && !(flags x).cross && !(flags x).head) = true := by
  decide +kernel

theorem succ_heads : ∀ x ∈ knownSteps, ∀ b : Bool, x ≠ 555 → ∀ y ∈ (Cip.succ x b).toList, ∀ n a r : Bool,
    ((op true n a r y).all fun o => !keepsHeads o || ((flags y).head || !(flags x).head)) = true := by
  decide +kernel

def startSteps : List Int := [5, 10, 22, 42, 61, 71, 91, 83, 81, 105, 115, 151, 300, 555]

theorem startStep_mem (prg : Int) (prog : Nat) (o : Opt) : Cip.startStep prg prog o ∈ startSteps := by
  unfold Cip.startStep
  repeat' apply Cip.ite_mem
  all_goals decide +kernel

theorem start_rel : ∀ y ∈ startSteps, ∀ n a r : Bool,
    ((op true n a r y).all fun o => !partialOp o || (!(flags y).caustic && !(flags y).acid)) = true := by
  decide +kernel

/-! ## The invariant -/

/-- At most one way of the return is open. -/
def V.single (v : V) : Bool :=
  (!v.v07 || !v.v08 && !v.v09 && !v.v10 && !v.v11 && !v.v12) && (!v.v08 || !v.v09 && !v.v10 && !v.v11 && !v.v12) &&
    (!v.v09 || !v.v10 && !v.v11 && !v.v12) && (!v.v10 || !v.v11 && !v.v12) && (!v.v11 || !v.v12)

/-- Some way of the return is open. -/
def V.outlet (v : V) : Bool := v.v07 || v.v08 || v.v09 || v.v10 || v.v11 || v.v12 || v.wmg || v.kmg || v.smg

structure Good (c : Cfg) (f : Flags) (v : V) (np last : Bool) : Prop where
  take : v.v02 = true → v.v03 = true → False
  give : v.v08 = true → v.v09 = true → False
  crossKS : f.cross = false → v.v02 = true → v.v09 = true → False
  crossSK : f.cross = false → v.v03 = true → v.v08 = true → False
  caustic : f.caustic = true → v.v02 = false ∧ v.v08 = false
  acid : f.acid = true → v.v03 = false ∧ v.v09 = false
  w : f.w = true → v.v08 = false ∧ v.v09 = false ∧ v.v10 = false
  k : f.k = true → v.v07 = false ∧ v.v09 = false ∧ v.v10 = false ∧ v.v03 = false
  s : f.s = true → v.v07 = false ∧ v.v08 = false ∧ v.v10 = false ∧ (f.cross = false → v.v02 = false)
  ew : f.ew = true → v.v12 = false
  one : f.fill = false → v.single = true
  some : last = true → f.fill = false ∧ v.outlet = true
  np : np = true → last = true
  neutro : c.noNeutro = true → v.v12 = false
  heads : f.head = false → v.wmg = false ∧ v.kmg = false ∧ v.smg = false

@[simp] theorem setRet_v (l : Line) (e : Env) (b : Bool) : (l.setRet e b).v = l.v := by unfold Line.setRet; split <;> rfl
@[simp] theorem setRet_np (l : Line) (e : Env) (b : Bool) : (l.setRet e b).np = l.np := by unfold Line.setRet; split <;> rfl
@[simp] theorem setRet_npLast (l : Line) (e : Env) (b : Bool) : (l.setRet e b).npLast = l.npLast := by
  unfold Line.setRet; split <;> rfl
@[simp] theorem setRet_step (l : Line) (e : Env) (b : Bool) : (l.setRet e b).step = l.step := by
  unfold Line.setRet; split <;> rfl
@[simp] theorem setRet_state (l : Line) (e : Env) (b : Bool) : (l.setRet e b).state = l.state := by
  unfold Line.setRet; split <;> rfl
@[simp] theorem pump_v (l : Line) (b : Bool) : (l.pump b).v = l.v := rfl
@[simp] theorem pump_np (l : Line) (b : Bool) : (l.pump b).np = b := rfl
@[simp] theorem pump_npLast (l : Line) (b : Bool) : (l.pump b).npLast = b := rfl
@[simp] theorem pump_step (l : Line) (b : Bool) : (l.pump b).step = l.step := rfl
@[simp] theorem pump_state (l : Line) (b : Bool) : (l.pump b).state = l.state := rfl

/-- The invariant for the current step. -/
def Line.Good (c : Cfg) (l : Line) : Prop := CipFlow.Good c (flags l.step) l.v l.np l.npLast

/-- What `_StopDev` leaves of the valves. -/
def V.kept (v : V) (keep : Bool) : V :=
  { v07 := keep && v.v07, v08 := keep && v.v08, v09 := keep && v.v09
    v10 := keep && v.v10, v11 := keep && v.v11, v12 := keep && v.v12 }

theorem stopDev_eq (l : Line) : ∃ b, l.stopDev = { l with
    over := false, np := false, npLast := false, ret := false, v := l.v.kept b } := ⟨_, rfl⟩

theorem good_kept {c : Cfg} {f : Flags} {v : V} {np last : Bool} (b : Bool) (h : Good c f v np last) :
    Good c f (v.kept b) false false := by
  obtain ⟨h1, h2, h3, h4, h5, h6, h7, h8, h9, h10, h11, h12, h13, h14, h15⟩ := h
  constructor <;> simp only [V.kept, V.single, V.outlet] at * <;> cases b <;> simp_all

theorem stopDev_all {l : Line} (h : 0 ≤ l.state) : l.stopDev = { l with
    over := false, np := false, npLast := false, ret := false, v := {} } := by
  have : decide (l.state = -20 ∨ l.state = -19) = false := by simp; omega
  simp [Line.stopDev, this]

theorem good_initPumping {c : Cfg} {f f' : Flags} {l : Line} {a : Option Src} {d : ScDest}
    (h : Good c f l.v l.np l.npLast) (ho : okOp f' l.step (.pumping a d) = true) :
    Good c f' (({ l.v with v05 := false }.scTake a).scGive c d) a.isSome a.isSome := by
  have hn := h.neutro
  clear h
  rcases a with _ | a
  · cases d <;> simp [okOp, Flags.scDest, ScDest.isHead] at ho <;> constructor <;>
      simp [V.scTake, V.scGive, V.single, V.outlet] <;> grind
  · cases a <;> cases d <;> simp [okOp, Flags.scDest, ScDest.isHead] at ho <;> constructor <;>
      simp [V.scTake, V.scGive, V.single, V.outlet] <;> grind

theorem good_initOp {c : Cfg} {f f' : Flags} {l : Line} {o : Op} (e : Env) (again : Bool) (hs : 0 ≤ l.state)
    (h : Good c f l.v l.np l.npLast) (hr : partialOp o = true → rel f f' = true)
    (hh : keepsHeads o = true → (f'.head || !f.head) = true) (ho : okOp f' l.step o = true) :
    Good c f' (l.initOp c e again o).v (l.initOp c e again o).np (l.initOp c e again o).npLast := by
  simp only [keepsHeads, Bool.or_eq_true, Bool.not_eq_true'] at hh
  cases o with
  | first | last =>
    simp [okOp, Flags.plain] at ho
    constructor <;> simp [Line.initOp, stopDev_all hs, V.single, V.outlet]
  | toObject s d | fromObject s d =>
    have hx := h.heads
    cases s <;> cases d <;> simp [okOp, Flags.plain, Flags.src, Flags.dest] at ho <;>
     constructor <;> simp [Line.initOp, V.take, V.give, V.single, V.outlet] <;> grind
  | emptyObject d =>
    simp only [partialOp, rel, forall_const] at hr
    cases h
    by_cases hl : e.line = true
    · simp [okOp, Flags.plain] at ho
      constructor <;> simp [Line.initOp, hl] <;> grind
    · cases d <;> simp [okOp, Flags.plain, Flags.dest] at ho <;>
        constructor <;> simp [Line.initOp, hl, V.give, V.single, V.outlet] <;> grind
  | fillWater | fillReturn =>
    simp only [partialOp, rel, forall_const] at hr
    cases h
    simp [okOp, Flags.plain] at ho
    constructor <;> simp [Line.initOp, V.give, V.single, V.outlet] <;> grind
  | circ m =>
    cases h
    cases m <;> simp [okOp, Flags.plain] at ho <;> constructor <;> simp [Line.initOp, V.single, V.outlet] <;> grind
  | emptyCirc d =>
    cases h
    cases d <;> simp [okOp, Flags.plain, Flags.dest] at ho <;> constructor <;>
      simp [Line.initOp, V.give, V.single, V.outlet] <;> grind
  | dose =>
    cases h
    simp [okOp, Flags.plain] at ho
    constructor <;> simp [Line.initOp, stopDev_all hs, V.single, V.outlet] <;> grind
  | fillRR t | circRR t | checkConc t | addRR t | rinseRR t =>
    cases h
    cases t <;> simp [okOp, Flags.plain, Flags.tank] at ho <;> constructor <;>
      simp [Line.initOp, V.take, V.give, Tank.src, Tank.dest, V.single, V.outlet] <;> grind
  | pumping a d => exact good_initPumping h ho
  | custom =>
    simp only [partialOp, rel, forall_const] at hr
    cases h
    simp [okOp, Flags.plain] at ho
    constructor <;> simp [Line.initOp] <;> grind

/-! ## Cycles -/

/-- A cycle of a step changes only the valves, the return pump and its own memory. -/
structure Same (l l' : Line) : Prop where
  state : l'.state = l.state
  step : l'.step = l.step
  prg : l'.prg = l.prg
  prog : l'.prog = l.prog
  ncmd : l'.ncmd = l.ncmd
  blocked : l'.blocked = l.blocked
  np : l'.np = l.np
  npLast : l'.npLast = l.npLast

theorem Same.refl (l : Line) : Same l l := ⟨rfl, rfl, rfl, rfl, rfl, rfl, rfl, rfl⟩

theorem Same.trans {a b d : Line} (h : Same a b) (h' : Same b d) : Same a d :=
  ⟨h'.1.trans h.1, h'.2.trans h.2, h'.3.trans h.3, h'.4.trans h.4, h'.5.trans h.5, h'.6.trans h.6, h'.7.trans h.7,
    h'.8.trans h.8⟩

theorem same_setRet (l : Line) (e : Env) (b : Bool) : Same l (l.setRet e b) := by
  unfold Line.setRet; split <;> exact ⟨rfl, rfl, rfl, rfl, rfl, rfl, rfl, rfl⟩

theorem same_sortRR (l : Line) (c : Cfg) (e : Env) (t : Tank) (b : Bool) : Same l (l.sortRR c e t b) := by
  unfold Line.sortRR; split <;> exact ⟨rfl, rfl, rfl, rfl, rfl, rfl, rfl, rfl⟩

theorem same_fromWaterTank (l : Line) (e : Env) : Same l (l.fromWaterTank e) := by
  unfold Line.fromWaterTank
  cases e.waterEmpty <;> exact ⟨rfl, rfl, rfl, rfl, rfl, rfl, rfl, rfl⟩

theorem same_toWaterTank (l : Line) (e : Env) (b : Bool) : Same l (l.toWaterTank e b) :=
  ⟨rfl, rfl, rfl, rfl, rfl, rfl, rfl, rfl⟩

theorem same_v (l : Line) (v : V) : Same l { l with v := v } := ⟨rfl, rfl, rfl, rfl, rfl, rfl, rfl, rfl⟩

theorem same_dest (l : Line) (c : Cfg) (e : Env) (b : Bool) (d : Dest) : Same l (l.dest c e b d) := by
  cases d
  · exact .refl l
  · exact same_toWaterTank ..
  · exact same_sortRR ..
  · exact same_sortRR ..

theorem same_checkReturn (l : Line) (e : Env) (n : Option (Tank × Bool)) : Same l (l.checkReturn e n).1 := by
  unfold Line.checkReturn
  dsimp only
  split
  · split
    · exact ⟨rfl, rfl, rfl, rfl, rfl, rfl, rfl, rfl⟩
    · split <;> exact ⟨rfl, rfl, rfl, rfl, rfl, rfl, rfl, rfl⟩
  · exact .refl l

theorem checkReturn_v (l : Line) (e : Env) (n : Option (Tank × Bool)) : (l.checkReturn e n).1.v = l.v := by
  unfold Line.checkReturn
  dsimp only
  split
  · split
    · rfl
    · split <;> rfl
  · rfl

theorem same_source (l : Line) (e : Env) (s : Src) : Same l (l.source e s).1 := by
  cases s
  · exact same_v ..
  · exact same_fromWaterTank ..
  · exact .refl l
  · exact .refl l

theorem same_resort (l : Line) (c : Cfg) (e : Env) (s : Src) : Same l (l.resort c e s) := by
  cases s
  · exact .refl l
  · exact .refl l
  · exact same_sortRR ..
  · exact same_sortRR ..

theorem same_noStop (l : Line) (e : Env) (t : Tank) : Same l (l.noStop e t) := by
  unfold Line.noStop
  split
  · split <;> exact ⟨rfl, rfl, rfl, rfl, rfl, rfl, rfl, rfl⟩
  · exact ⟨rfl, rfl, rfl, rfl, rfl, rfl, rfl, rfl⟩

theorem same_circMedium (l : Line) (c : Cfg) (e : Env) (m : Medium) : Same l (l.circMedium c e m) := by
  cases m <;> unfold Line.circMedium <;> dsimp only
  · split <;> exact ⟨rfl, rfl, rfl, rfl, rfl, rfl, rfl, rfl⟩
  all_goals
    split
    · refine Same.trans ?_ (same_noStop _ e _)
      split <;> exact ⟨rfl, rfl, rfl, rfl, rfl, rfl, rfl, rfl⟩
    · split <;> exact ⟨rfl, rfl, rfl, rfl, rfl, rfl, rfl, rfl⟩

theorem same_fromObject (l : Line) (c : Cfg) (e : Env) (s : Src) (d : Dest) : Same l (l.fromObject c e s d).1 := by
  unfold Line.fromObject
  dsimp only
  have h0 : Same l (if e.retWish then l.setRet e true else l) := by
    split
    · exact same_setRet ..
    · exact .refl l
  have h1 := h0.trans (same_checkReturn _ e (need s d))
  split
  · next h => rw [h] at h1; exact h1
  · next l' h =>
    rw [h] at h1
    have h2 := h1.trans (same_source l' e s)
    split
    · next h => rw [h] at h2; exact h2
    · next h => rw [h] at h2; exact (h2.trans (same_resort ..)).trans (same_dest ..)

theorem same_toObject (l : Line) (c : Cfg) (e : Env) (s : Src) (d : Dest) : Same l (l.toObject c e s d).1 := by
  unfold Line.toObject
  dsimp only
  generalize (if l.step = 5 ∨ l.step = 22 ∨ l.step = 42 ∨ l.step = 62 ∨ l.step = 72 ∨ l.step = 83
    then e.retWish else true) = b
  have h1 := (same_setRet l e b).trans (same_source (l.setRet e b) e s)
  split
  · next h => rw [h] at h1; exact h1
  · next h => rw [h] at h1; exact h1.trans (same_dest ..)

theorem same_doOp (l : Line) (c : Cfg) (e : Env) (o : Op) : Same l (l.doOp c e o).1 := by
  cases o with
  | first | fillWater | circRR _ | checkConc _ | addRR _ | custom | last => exact .refl l
  | toObject s d => exact same_toObject ..
  | fromObject s d => exact same_fromObject ..
  | emptyObject d =>
    simp only [Line.doOp, Line.emptyObject]
    split
    · exact .refl l
    · refine (same_setRet l e true).trans ?_
      split
      · exact same_v ..
      · exact same_dest ..
  | fillReturn => exact same_setRet ..
  | circ m => exact ((same_v l _).trans (same_setRet _ e _)).trans (same_circMedium ..)
  | emptyCirc d =>
    simp only [Line.doOp]
    refine (same_setRet l e true).trans ?_
    split
    · exact same_v ..
    · exact .refl _
  | dose => exact same_setRet ..
  | fillRR t =>
    simp only [Line.doOp]
    split
    · exact .refl l
    · exact same_v ..
  | rinseRR t =>
    simp only [Line.doOp]
    split
    · exact same_sortRR ..
    · exact (same_sortRR l c e t true).trans (same_v ..)
  | pumping s d => exact same_v ..

/-! ### The invariant in a cycle -/

theorem good_sort {c : Cfg} {f : Flags} {v : V} {np last : Bool} (h : Good c f v np last) (t : Tank) (w : Way)
    (hf : f.plain = true) (ht : f.tank t = true) : Good c f (v.sort c t w) np last := by
  cases h
  simp [Flags.plain] at hf
  cases t <;> cases w <;> simp [Flags.tank] at ht <;> constructor <;> (try simp [V.sort, V.single, V.outlet]) <;> grind

/-- Valves that differ in none of those the invariant speaks of. -/
theorem good_congr {c : Cfg} {f : Flags} {v v' : V} {np last : Bool} (h : Good c f v np last)
    (e2 : v'.v02 = v.v02) (e3 : v'.v03 = v.v03) (e7 : v'.v07 = v.v07) (e8 : v'.v08 = v.v08) (e9 : v'.v09 = v.v09)
    (e10 : v'.v10 = v.v10) (e11 : v'.v11 = v.v11) (e12 : v'.v12 = v.v12) (ew : v'.wmg = v.wmg) (ek : v'.kmg = v.kmg)
    (es : v'.smg = v.smg) : Good c f v' np last := by
  obtain ⟨h1, h2, h3, h4, h5, h6, h7, h8, h9, h10, h11, h12, h13, h14, h15⟩ := h
  constructor <;> (try simp only [V.single, V.outlet, e2, e3, e7, e8, e9, e10, e11, e12, ew, ek, es]) <;> assumption

theorem good_refill {c : Cfg} {f : Flags} {v : V} {np last : Bool} (h : Good c f v np last) (e : Env) :
    Good c f (v.refill e) np last := good_congr h rfl rfl rfl rfl rfl rfl rfl rfl rfl rfl rfl

theorem good_giveW {c : Cfg} {f : Flags} {v : V} {np last : Bool} (h : Good c f v np last) (hf : f.plain = true)
    (d : Dest) (hd : d = .drain ∨ d = .tankW) : Good c f (v.give d) np last := by
  cases h
  simp [Flags.plain] at hf
  rcases hd with rfl | rfl <;> constructor <;> (try simp [V.give, V.single, V.outlet]) <;> grind

/-- The invariant of a line for given flags. -/
abbrev GoodL (c : Cfg) (f : Flags) (l : Line) : Prop := Good c f l.v l.np l.npLast

theorem good_setRet {c : Cfg} {f : Flags} {l : Line} (h : GoodL c f l) (e : Env) (b : Bool) :
    GoodL c f (l.setRet e b) := by simpa [GoodL] using h

theorem good_sortRR {c : Cfg} {f : Flags} {l : Line} (h : GoodL c f l) (e : Env) (t : Tank) (b : Bool)
    (hf : f.plain = true) (ht : f.tank t = true) : GoodL c f (l.sortRR c e t b) := by
  unfold Line.sortRR
  split
  · exact h
  · exact good_sort h t _ hf ht

theorem good_fromWaterTank {c : Cfg} {f : Flags} {l : Line} (h : GoodL c f l) (e : Env) :
    GoodL c f (l.fromWaterTank e) := by
  unfold Line.fromWaterTank
  cases e.waterEmpty <;> simp only [Bool.false_eq_true, if_false, if_true, GoodL]
  · split
    · exact good_congr h rfl rfl rfl rfl rfl rfl rfl rfl rfl rfl rfl
    · exact good_congr h rfl rfl rfl rfl rfl rfl rfl rfl rfl rfl rfl
  · exact good_congr h rfl rfl rfl rfl rfl rfl rfl rfl rfl rfl rfl

theorem good_toWaterTank {c : Cfg} {f : Flags} {l : Line} (h : GoodL c f l) (e : Env) (b : Bool)
    (hf : f.plain = true) : GoodL c f (l.toWaterTank e b) := by
  have hx (b : Bool) : Good c f (if b then l.v.give .drain else l.v.give .tankW) l.np l.npLast := by
    cases b
    · exact good_giveW h hf _ (.inr rfl)
    · exact good_giveW h hf _ (.inl rfl)
  exact hx _

theorem good_source {c : Cfg} {f : Flags} {l : Line} (h : GoodL c f l) (e : Env) (s : Src) :
    GoodL c f (l.source e s).1 := by
  cases s
  · exact good_refill h e
  · exact good_fromWaterTank h e
  · exact h
  · exact h

theorem good_dest {c : Cfg} {f : Flags} {l : Line} (h : GoodL c f l) (e : Env) (b : Bool) (d : Dest)
    (hf : f.plain = true) (hd : f.dest d = true) : GoodL c f (l.dest c e b d) := by
  cases d
  · exact h
  · exact good_toWaterTank h e b hf
  · exact good_sortRR h e _ _ hf hd
  · exact good_sortRR h e _ _ hf hd

theorem good_resort {c : Cfg} {f : Flags} {l : Line} (h : GoodL c f l) (e : Env) (s : Src)
    (hf : f.plain = true) (hd : f.src s = true) : GoodL c f (l.resort c e s) := by
  cases s
  · exact h
  · exact h
  · exact good_sortRR h e _ _ hf hd
  · exact good_sortRR h e _ _ hf hd

theorem good_checkReturn {c : Cfg} {f : Flags} {l : Line} (h : GoodL c f l) (e : Env) (n : Option (Tank × Bool)) :
    GoodL c f (l.checkReturn e n).1 := by
  have hs := same_checkReturn l e n
  unfold GoodL
  rw [checkReturn_v, hs.np, hs.npLast]
  exact h

theorem good_toObject {c : Cfg} {f : Flags} {l : Line} (h : GoodL c f l) (e : Env) (s : Src) (d : Dest)
    (hf : f.plain = true) (hd : f.dest d = true) : GoodL c f (l.toObject c e s d).1 := by
  unfold Line.toObject
  dsimp only
  generalize (if l.step = 5 ∨ l.step = 22 ∨ l.step = 42 ∨ l.step = 62 ∨ l.step = 72 ∨ l.step = 83
    then e.retWish else true) = b
  have h1 := good_source (good_setRet h e b) e s
  split
  · next h => rw [h] at h1; exact h1
  · next h => rw [h] at h1; exact good_dest h1 e _ d hf hd

theorem good_fromObject {c : Cfg} {f : Flags} {l : Line} (h : GoodL c f l) (e : Env) (s : Src) (d : Dest)
    (hf : f.plain = true) (hs : f.src s = true) (hd : f.dest d = true) : GoodL c f (l.fromObject c e s d).1 := by
  unfold Line.fromObject
  dsimp only
  have h0 : GoodL c f (if e.retWish then l.setRet e true else l) := by
    split
    · exact good_setRet h e _
    · exact h
  have h1 := good_checkReturn h0 e (need s d)
  split
  · next h => rw [h] at h1; exact h1
  · next l' h =>
    rw [h] at h1
    have h2 := good_source h1 e s
    split
    · next h => rw [h] at h2; exact h2
    · next h => rw [h] at h2; exact good_dest (good_resort h2 e s hf hs) e _ d hf hd

theorem good_noStop {c : Cfg} {f : Flags} {l : Line} (h : GoodL c f l) (e : Env) (t : Tank)
    (hf : f.plain = true) (ht : f.tank t = true) : GoodL c f (l.noStop e t) := by
  simp [Flags.plain] at hf
  unfold Line.noStop
  split
  · split
    · cases h
      cases t <;> simp [Flags.tank] at ht <;> constructor <;>
        (try simp [V.give, Tank.dest, V.single, V.outlet]) <;> grind
    · exact h
  · dsimp only [GoodL]
    split
    · exact h
    · cases h
      cases t <;> simp [Flags.tank] at ht <;> constructor <;> (try simp [V.single, V.outlet]) <;> grind

theorem good_circMedium {c : Cfg} {f : Flags} {l : Line} (h : GoodL c f l) (e : Env) (m : Medium)
    (hf : f.plain = true)
    (hm : ∀ t, (m = .caustic → t = .caustic) → (m = .acid → t = .acid) → m ≠ .water → f.tank t = true) :
    GoodL c f (l.circMedium c e m) := by
  cases m with
  | water =>
    unfold Line.circMedium
    dsimp only
    split
    · exact good_congr h rfl rfl rfl rfl rfl rfl rfl rfl rfl rfl rfl
    · exact h
  | caustic =>
    have ht := hm .caustic (fun _ => rfl) (by simp) (by simp)
    have hx : GoodL c f (if c.feedS then { l with
        v := { l.v with v03 := (feed e l.v.v03 l.fed l.fedAt).1 }
        fed := (feed e l.v.v03 l.fed l.fedAt).2.1, fedAt := (feed e l.v.v03 l.fed l.fedAt).2.2 } else l) := by
      split
      · cases h
        simp [Flags.plain] at hf
        simp [Flags.tank] at ht
        constructor <;> (try simp only [V.single, V.outlet] at *) <;> grind
      · exact h
    simp only [Line.circMedium]
    split
    · exact good_noStop hx e _ hf ht
    · exact hx
  | acid =>
    have ht := hm .acid (by simp) (fun _ => rfl) (by simp)
    have hx : GoodL c f (if c.feedK then { l with
        v := { l.v with v02 := (feed e l.v.v02 l.fed l.fedAt).1 }
        fed := (feed e l.v.v02 l.fed l.fedAt).2.1, fedAt := (feed e l.v.v02 l.fed l.fedAt).2.2 } else l) := by
      split
      · cases h
        simp [Flags.plain] at hf
        simp [Flags.tank] at ht
        constructor <;> (try simp only [V.single, V.outlet] at *) <;> grind
      · exact h
    simp only [Line.circMedium]
    split
    · exact good_noStop hx e _ hf ht
    · exact hx

theorem good_scCycle {c : Cfg} {f : Flags} {v : V} {np last : Bool} (h : Good c f v np last) (e : Env)
    (s : Option Src) (d : ScDest) {x : Int} (ho : okOp f x (.pumping s d) = true) : Good c f (v.scCycle c e s d) np last := by
  obtain ⟨h1, h2, h3, h4, h5, h6, h7, h8, h9, h10, h11, h12, h13, h14, h15⟩ := h
  simp only [okOp, Bool.and_eq_true] at ho
  cases d <;> simp [Flags.scDest, ScDest.isHead] at ho <;> unfold V.scCycle <;> dsimp only
  all_goals try exact ⟨h1, h2, h3, h4, h5, h6, h7, h8, h9, h10, h11, h12, h13, h14, h15⟩
  all_goals
    split
    all_goals constructor <;> (try simp [V.overflow, V.single, V.outlet]) <;> grind [V.single]

end Ptusa.CipFlow
