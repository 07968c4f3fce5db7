import Verif.Model.Basic
import Mathlib.Analysis.SpecialFunctions.Log.Basic
import Mathlib.Analysis.SpecialFunctions.Trigonometric.Deriv
import Mathlib.Analysis.SpecialFunctions.Sqrt
/-
Exact arithmetic: the float operations on real numbers.  `exp8` (the AVX2 polynomial exponential) is
idealised to the exponential here; its deviation is bounded separately (`Verif/Properties/Exp256`).
-/
namespace NN

/-- `roundf`: half away from zero. -/
noncomputable def roundAway (x : ℝ) : ℝ := if 0 ≤ x then (⌊x + 1 / 2⌋ : ℝ) else -(⌊-x + 1 / 2⌋ : ℝ)

open Classical in
/-- Exact arithmetic on `ℝ`. -/
noncomputable instance : FloatOps ℝ where
  zero := 0
  one := 1
  lit p q := (p : ℝ) / (q : ℝ)
  ofNat n := (n : ℝ)
  add := (· + ·)
  sub := (· - ·)
  mul := (· * ·)
  div := (· / ·)
  fma a b c := a * b + c
  neg x := -x
  abs x := |x|
  sqrt := Real.sqrt
  exp := Real.exp
  log := Real.log
  tanh := Real.tanh
  round := roundAway
  fmax := max
  fmin := min
  maxps := max
  exp8 := Real.exp
  eq a b := decide (a = b)
  lt a b := decide (a < b)
  le a b := decide (a ≤ b)

namespace RealOps
open FloatOps
@[simp] theorem zero_def : (zero : ℝ) = 0 := rfl
@[simp] theorem one_def : (one : ℝ) = 1 := rfl
@[simp] theorem lit_def (p : Int) (q : Nat) : (lit p q : ℝ) = (p : ℝ) / (q : ℝ) := rfl
@[simp] theorem ofNat_def (n : Nat) : (FloatOps.ofNat n : ℝ) = (n : ℝ) := rfl
@[simp] theorem add_def (a b : ℝ) : add a b = a + b := rfl
@[simp] theorem sub_def (a b : ℝ) : sub a b = a - b := rfl
@[simp] theorem mul_def (a b : ℝ) : mul a b = a * b := rfl
@[simp] theorem div_def (a b : ℝ) : div a b = a / b := rfl
@[simp] theorem fma_def (a b c : ℝ) : fma a b c = a * b + c := rfl
@[simp] theorem neg_def (a : ℝ) : neg a = -a := rfl
@[simp] theorem abs_def (a : ℝ) : FloatOps.abs a = |a| := rfl
@[simp] theorem sqrt_def (a : ℝ) : FloatOps.sqrt a = Real.sqrt a := rfl
@[simp] theorem exp_def (a : ℝ) : FloatOps.exp a = Real.exp a := rfl
@[simp] theorem log_def (a : ℝ) : FloatOps.log a = Real.log a := rfl
@[simp] theorem tanh_def (a : ℝ) : FloatOps.tanh a = Real.tanh a := rfl
@[simp] theorem round_def (a : ℝ) : FloatOps.round a = roundAway a := rfl
@[simp] theorem fmax_def (a b : ℝ) : fmax a b = max a b := rfl
@[simp] theorem fmin_def (a b : ℝ) : fmin a b = min a b := rfl
@[simp] theorem maxps_def (a b : ℝ) : maxps a b = max a b := rfl
@[simp] theorem exp8_def (a : ℝ) : exp8 a = Real.exp a := rfl
@[simp] theorem eq_iff (a b : ℝ) : FloatOps.eq a b = true ↔ a = b := by
  simp [FloatOps.eq]
@[simp] theorem eq_false_iff (a b : ℝ) : FloatOps.eq a b = false ↔ a ≠ b := by
  simp [FloatOps.eq]
@[simp] theorem lt_iff (a b : ℝ) : FloatOps.lt a b = true ↔ a < b := by
  simp [FloatOps.lt]
@[simp] theorem le_iff (a b : ℝ) : FloatOps.le a b = true ↔ a ≤ b := by
  simp [FloatOps.le]
end RealOps

end NN
