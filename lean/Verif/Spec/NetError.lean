import Verif.Spec.Rounding
import Mathlib.Analysis.SpecialFunctions.Exp
/-
Specification of the forward error analysis of a feed forward network in `float`s: `x` are exact values, `e` bounds on the
errors of their float versions.  Nothing here depends on the order of the float operations.
-/
namespace Spec
open Finset

/-- Upper bound for the sum of the absolute values of the terms of entry `k` of `x^T W + b`, inputs perturbed by up to `e`. -/
noncomputable def absAffineErr (n m : ℕ) (W b x e : List ℝ) (k : ℕ) : ℝ :=
  |at_ b k| + ∑ i ∈ range n, (|at_ x i| + at_ e i) * |at_ W (i * m + k)|

/-- Error of `x^T W + b`: inherited errors and rounding. -/
noncomputable def affineError (n m : ℕ) (W b x e : List ℝ) : List ℝ :=
  (List.range m).map fun k => ∑ i ∈ range n, at_ e i * |at_ W (i * m + k)| + slack (n + 1) n (absAffineErr n m W b x e k)

/-- Function values computed to 6e-7, relative above 1. -/
noncomputable def tol (y : ℝ) : ℝ := 6 / 10 ^ 7 * max 1 y

/-- Error of `f`, with `|f x - f y| ≤ |x - y|`, applied to `y` known up to `d`. -/
noncomputable def lipError (f : ℝ → ℝ) (y d : ℝ) : ℝ := d + tol (|f y| + d)

/-- The same for `exp`. -/
noncomputable def expError (y d : ℝ) : ℝ := (Real.exp d - 1) * Real.exp y + tol (Real.exp (y + d))

/-- Relative error of softmax with `n` outputs. -/
noncomputable def softmaxEps (n : ℕ) : ℝ := 13 / 10 ^ 6 + 12 / 10 * ((n + 4 : ℕ) * 2 ^ (-24 : ℤ))

/-- Error of an output `p` of softmax with `n` inputs known up to `D`. -/
noncomputable def softmaxError (n : ℕ) (p D : ℝ) : ℝ := (Real.exp (2 * D) * (1 + softmaxEps n) - 1) * p + 2 ^ (-122 : ℤ)

/-- Largest entry. -/
noncomputable def maxEntry (l : List ℝ) : ℝ := l.foldr max 0

end Spec
