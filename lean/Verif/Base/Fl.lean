import Mathlib.Algebra.Order.Field.Rat
import Mathlib.Tactic.Linarith

/-!
# Numbers of the model

`float`/`double` values of the controller are modelled by exact rationals plus "not a number".
Simplifications: no rounding, no infinities (a division by zero gives `nan`).  As in IEEE
arithmetic every operation on `nan` gives `nan`, and every comparison with `nan` is false.
-/
namespace Ptusa

/-- A floating point number: a rational or not a number. -/
inductive Fl where
  | nan
  | num (q : Rat)
  deriving DecidableEq, Repr

namespace Fl

def lift2 (f : Rat → Rat → Rat) : Fl → Fl → Fl
  | num a, num b => num (f a b)
  | _, _ => nan

instance : Add Fl := ⟨lift2 (· + ·)⟩
instance : Sub Fl := ⟨lift2 (· - ·)⟩
instance : Mul Fl := ⟨lift2 (· * ·)⟩
instance : Neg Fl := ⟨fun | num a => num (-a) | nan => nan⟩
instance : Div Fl := ⟨fun
  | num a, num b => if b = 0 then nan else num (a / b)
  | _, _ => nan⟩
instance (n : Nat) : OfNat Fl n := ⟨num n⟩

/-- `a < b` of C++. -/
def lt : Fl → Fl → Bool
  | num a, num b => decide (a < b)
  | _, _ => false

/-- `a <= b` of C++. -/
def le : Fl → Fl → Bool
  | num a, num b => decide (a ≤ b)
  | _, _ => false

/-- `a == b` of C++. -/
def eq : Fl → Fl → Bool
  | num a, num b => decide (a = b)
  | _, _ => false

/-- The number is not `nan`. -/
def IsNum (a : Fl) : Prop := ∃ q, a = num q

/-- `a` lies between `lo` and `hi` (and is a number). -/
def Between (lo hi a : Fl) : Prop := lo.le a = true ∧ a.le hi = true

@[simp] theorem lt_num (a b : Rat) : lt (num a) (num b) = decide (a < b) := rfl
@[simp] theorem le_num (a b : Rat) : le (num a) (num b) = decide (a ≤ b) := rfl
@[simp] theorem eq_num (a b : Rat) : eq (num a) (num b) = decide (a = b) := rfl
@[simp] theorem add_num (a b : Rat) : num a + num b = num (a + b) := rfl
@[simp] theorem sub_num (a b : Rat) : num a - num b = num (a - b) := rfl
@[simp] theorem mul_num (a b : Rat) : num a * num b = num (a * b) := rfl
@[simp] theorem neg_num (a : Rat) : -num a = num (-a) := rfl
@[simp] theorem lt_nan_left (b : Fl) : lt nan b = false := by cases b <;> rfl
@[simp] theorem lt_nan_right (b : Fl) : lt b nan = false := by cases b <;> rfl
@[simp] theorem le_nan_left (b : Fl) : le nan b = false := by cases b <;> rfl
@[simp] theorem le_nan_right (b : Fl) : le b nan = false := by cases b <;> rfl
@[simp] theorem eq_nan_left (b : Fl) : eq nan b = false := by cases b <;> rfl
@[simp] theorem eq_nan_right (b : Fl) : eq b nan = false := by cases b <;> rfl
@[simp] theorem add_nan_left (b : Fl) : nan + b = nan := by cases b <;> rfl
@[simp] theorem add_nan_right (b : Fl) : b + nan = nan := by cases b <;> rfl
@[simp] theorem sub_nan_left (b : Fl) : nan - b = nan := by cases b <;> rfl
@[simp] theorem sub_nan_right (b : Fl) : b - nan = nan := by cases b <;> rfl
@[simp] theorem mul_nan_left (b : Fl) : nan * b = nan := by cases b <;> rfl
@[simp] theorem mul_nan_right (b : Fl) : b * nan = nan := by cases b <;> rfl
@[simp] theorem div_nan_left (b : Fl) : nan / b = nan := by cases b <;> rfl
@[simp] theorem div_nan_right (b : Fl) : b / nan = nan := by cases b <;> rfl

theorem div_num (a b : Rat) (h : b ≠ 0) : num a / num b = num (a / b) := by
  show (if b = 0 then nan else num (a / b)) = _
  rw [if_neg h]

theorem IsNum.add {a b : Fl} : a.IsNum → b.IsNum → (a + b).IsNum
  | ⟨x, hx⟩, ⟨y, hy⟩ => ⟨x + y, by rw [hx, hy, add_num]⟩
theorem IsNum.sub {a b : Fl} : a.IsNum → b.IsNum → (a - b).IsNum
  | ⟨x, hx⟩, ⟨y, hy⟩ => ⟨x - y, by rw [hx, hy, sub_num]⟩
theorem IsNum.mul {a b : Fl} : a.IsNum → b.IsNum → (a * b).IsNum
  | ⟨x, hx⟩, ⟨y, hy⟩ => ⟨x * y, by rw [hx, hy, mul_num]⟩
theorem IsNum.neg {a : Fl} : a.IsNum → (-a).IsNum
  | ⟨x, hx⟩ => ⟨-x, by rw [hx, neg_num]⟩
theorem isNum_num (q : Rat) : (num q).IsNum := ⟨q, rfl⟩
theorem isNum_ofNat (n : Nat) : (OfNat.ofNat n : Fl).IsNum := ⟨n, rfl⟩
theorem zero_eq : (0 : Fl) = num 0 := rfl
theorem IsNum.div {a b : Fl} (ha : a.IsNum) (hb : b.IsNum) (h : b ≠ num 0) : (a / b).IsNum := by
  obtain ⟨x, rfl⟩ := ha
  obtain ⟨y, rfl⟩ := hb
  exact ⟨x / y, div_num x y fun e => h (by rw [e])⟩
theorem IsNum.ite {c : Prop} [Decidable c] {a b : Fl} (ha : a.IsNum) (hb : b.IsNum) :
    (if c then a else b).IsNum := by
  split
  · exact ha
  · exact hb

end Fl
end Ptusa
