import Verif.Spec.Linear
import Mathlib.Data.Real.Basic
/-
Specification of rounding error bounds for sums of products in `float`s.
-/
namespace Spec
open Finset

/-- Unit roundoff of `float`. -/
noncomputable def u32 : ℝ := 2 ^ (-24 : ℤ)
/-- Half of the smallest positive `float`. -/
noncomputable def η32 : ℝ := 2 ^ (-150 : ℤ)
/-- `FLT_MAX`. -/
noncomputable def max32 : ℝ := (2 ^ 24 - 1) * 2 ^ 104

/-- Error bound for a sum of terms with absolute values adding up to `S`, where every term is rounded at most `N` times and
`c` products are formed. -/
noncomputable def slack (N c : ℕ) (S : ℝ) : ℝ := ((1 + u32) ^ N - 1) * S + c * η32 * (1 + u32) ^ N

/-- Bound on the numbers occurring in the computation. -/
noncomputable def peak (N c : ℕ) (S : ℝ) : ℝ := (1 + u32) ^ N * (S + c * η32)

/-- Sum of the absolute values of the terms of entry `k` of `x^T W + b`. -/
noncomputable def absAffine (n m : ℕ) (W b x : List ℝ) (k : ℕ) : ℝ :=
  |at_ b k| + ∑ i ∈ range n, |at_ x i * at_ W (i * m + k)|

/-- Sum of the absolute values of the terms of entry `i` of `W v`. -/
noncomputable def absMatVec (m : ℕ) (W v : List ℝ) (i : ℕ) : ℝ := ∑ j ∈ range m, |at_ W (i * m + j) * at_ v j|

end Spec
