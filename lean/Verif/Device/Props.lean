import Verif.Device.Lemmas
import Mathlib.Tactic.Linarith
import Mathlib.Algebra.Order.Field.Basic
import Mathlib.Data.Rat.Floor

/-!
# C38: manual mode
-/
namespace Ptusa.Device
variable {σ : Type}

/-- **C38** (part: classes that only override the `direct_*` functions) A device ends up where the history without the
program commands given in manual mode leads it; commands of the operator and its inputs always count, and program
commands outside manual mode count, also after manual mode was left. -/
theorem C38_isolated_partial (c : Cls σ) (d : Dev σ) (es : List (Ev σ)) :
    (d.run c es).map Dev.body = drive c d.body (effective d.manual es) := by
  rw [run_drive]
  cases drive c d.body (effective d.manual es) <;> rfl

/-- **C38** (part as above) As long as nobody leaves the manual mode, nothing the program does changes the device. -/
theorem C38_manual_partial (c : Cls σ) (d : Dev σ) (hm : d.manual = true) (es : List (Ev σ))
    (h : ∀ v, .oper (.M v) ∈ es → v ≠ .num 0) :
    d.run c es = d.run c (es.filter fun e => !e.isProg) := by
  have hf : effective true (es.filter fun e => !e.isProg) = es.filter fun e => !e.isProg := by
    rw [effective_manual _ fun v hv => h v ((List.mem_filter.mp hv).1), List.filter_filter]
    simp
  have hma : ∀ (m : Bool) (es : List (Ev σ)), manualAfter m (es.filter fun e => !e.isProg) = manualAfter m es := by
    intro m es
    induction es generalizing m with
    | nil => rfl
    | cons e es ih =>
      cases e with
      | prog p => simpa [Ev.isProg, manualAfter] using ih m
      | io f => simpa [Ev.isProg, manualAfter] using ih m
      | oper o => cases o <;> simpa [Ev.isProg, manualAfter] using ih _
  rw [run_drive, run_drive, hm, effective_manual es h, hf, hma]

/-- **C38** (part as above) Leaving manual mode gives the program control again: its next command acts as on a device
that never was in manual mode. -/
theorem C38_leaving_partial (c : Cls σ) (d : Dev σ) (p : Prog) :
    d.run c [.oper (.M (.num 0)), .prog p] = some ⟨c.obey p d.body, false⟩ := by
  simp [Dev.run, Dev.step, Dev.oper, Dev.prog]

/-- **C38** What the commands of the program do outside manual mode: each its own, `instant_off` the same as `off`. -/
theorem C38_commands (c : Cls σ) (s : σ) (n : Int) (v : Fl) :
    (⟨s, false⟩ : Dev σ).prog c .on = ⟨c.directOn s, false⟩ ∧ (⟨s, false⟩ : Dev σ).prog c .off = ⟨c.directOff s, false⟩ ∧
    (⟨s, false⟩ : Dev σ).prog c .instantOff = ⟨c.directOff s, false⟩ ∧
    (⟨s, false⟩ : Dev σ).prog c (.setState n) = ⟨c.directSetState n s, false⟩ ∧
    (⟨s, false⟩ : Dev σ).prog c (.setValue v) = ⟨c.directSetValue v s, false⟩ := ⟨rfl, rfl, rfl, rfl, rfl⟩

/-- **C38** The operator's command `S` with a number takes the whole part of it, in both modes: the state set is not
further from 0 than the number and less than 1 away from it. -/
theorem C38_whole_part (c : Cls σ) (d d' : Dev σ) (q : Rat) (h : d.oper c (.S (.num q)) = some d') :
    ∃ n : Int, d' = { d with body := c.directSetState n d.body } ∧
      (0 ≤ q → (n : Rat) ≤ q ∧ q < n + 1) ∧ (q ≤ 0 → q ≤ n ∧ (n : Rat) - 1 < q) := by
  simp only [Dev.oper, Option.map_eq_some_iff] at h
  obtain ⟨n, hn, rfl⟩ := h
  refine ⟨n, rfl, ?_⟩
  simp only [toInt32] at hn
  by_cases hr : -2 ^ 31 ≤ Int.tdiv q.num q.den ∧ Int.tdiv q.num q.den < 2 ^ 31
  · rw [if_pos hr, Option.some.injEq] at hn
    have hd : (0 : Rat) < q.den := by exact_mod_cast q.den_pos
    have hq : (q.num : Rat) = q * q.den := (Rat.mul_den_eq_num q).symm
    have hdi : (0 : Int) < q.den := by exact_mod_cast q.den_pos
    constructor
    · intro h0
      have hnum : 0 ≤ q.num := Rat.num_nonneg.mpr h0
      rw [Int.tdiv_eq_ediv_of_nonneg hnum] at hn
      have h1 : n * q.den ≤ q.num := by rw [← hn]; exact Int.ediv_mul_le _ (by omega)
      have h2 : q.num < (n + 1) * q.den := by rw [← hn]; exact Int.lt_ediv_add_one_mul_self _ hdi
      have h1' : (n : Rat) * q.den ≤ q * q.den := by rw [← hq]; exact_mod_cast h1
      have h2' : q * q.den < ((n : Rat) + 1) * q.den := by rw [← hq]; exact_mod_cast h2
      exact ⟨le_of_mul_le_mul_right h1' hd, lt_of_mul_lt_mul_right h2' hd.le⟩
    · intro h0
      have hnum : 0 ≤ -q.num := by
        have := Rat.num_nonpos.mpr h0
        omega
      have hn' : -n = (-q.num) / q.den := by
        rw [← Int.tdiv_eq_ediv_of_nonneg hnum, Int.neg_tdiv, hn]
      have h1 : -n * q.den ≤ -q.num := by rw [hn']; exact Int.ediv_mul_le _ (by omega)
      have h2 : -q.num < (-n + 1) * q.den := by rw [hn']; exact Int.lt_ediv_add_one_mul_self _ hdi
      have h1' : -(n : Rat) * q.den ≤ -q * q.den := by
        have : ((-n * q.den : Int) : Rat) ≤ ((-q.num : Int) : Rat) := by exact_mod_cast h1
        push_cast at this
        rw [hq] at this
        linarith
      have h2' : -q * q.den < (-(n : Rat) + 1) * q.den := by
        have : ((-q.num : Int) : Rat) < (((-n + 1) * q.den : Int) : Rat) := by exact_mod_cast h2
        push_cast at this
        rw [hq] at this
        linarith
      have a1 := le_of_mul_le_mul_right h1' hd
      have a2 := lt_of_mul_lt_mul_right h2' hd.le
      constructor <;> linarith
  · rw [if_neg hr] at hn; cases hn

example : (⟨{}, true⟩ : Dev Plain).oper plain (.S (.num (-5 / 2))) = some ⟨⟨-2, 0⟩, true⟩ := by decide +kernel

/-- The operator takes over, switches to state 7; the program's commands are lost until the mode is left. -/
example : ((⟨{}, false⟩ : Dev Plain).run plain [.prog .on, .oper (.M 1), .prog .off, .oper (.S (.num 7)),
    .prog (.setState 3), .io id, .oper (.M 0), .prog (.setValue 5)]) = some ⟨⟨7, 5⟩, false⟩ := by decide +kernel

/-- **C38 is false of the code** for power units and circuit breakers: in manual mode the operator's command to switch
them on or off is ignored too, so nobody can. -/
theorem C38_power_unit_violated (c : Cls σ) (d : Dev σ) (hm : d.manual = true) (v : Fl) (n : Int)
    (hv : toInt32 v = some n) : d.operST c v = some d := by
  simp [Dev.operST, hv, Dev.prog, hm]

example : toInt32 (.num 1) = some 1 := by decide +kernel

/-- **C38 is false of the code** for valves with seats: a program that opens a seat moves the valve in manual mode. -/
theorem C38_open_seat_violated :
    (⟨{ state := 0 }, true⟩ : Dev Plain).openSeat plain 2 = ⟨{ state := 2 }, true⟩ := rfl

/-- **C38 is false of the code** for values that are not an `int`: the command `S` is undefined. -/
theorem C38_state_undefined_violated (c : Cls σ) (d : Dev σ) : d.oper c (.S (.num (2 ^ 31))) = none := by
  have : toInt32 (.num (2 ^ 31)) = none := by decide +kernel
  simp [Dev.oper, this]

end Ptusa.Device
