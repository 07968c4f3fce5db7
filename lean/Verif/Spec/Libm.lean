import Verif.Model.B32
import Mathlib.Analysis.SpecialFunctions.Log.Basic
import Mathlib.Analysis.SpecialFunctions.Trigonometric.DerivHyp
/-
What is assumed of the C library: `expf`, `logf` and `tanhf` are off by at most 2 units in the last place.
-/
namespace NN.B32

/-- `expf`, `logf` and `tanhf` return finite results with a relative error of at most `2^-22` (2 units in the last place; below
the normal range an absolute error), as long as the exact result is in range; `expf` may return +∞ from `2^127` on
and gives 0 at -∞. -/
structure Libm.Accurate (L : Libm) : Prop where
  exp : ∀ a : B32, a.isFinite = true →
    ((L.exp a).isFinite = true ∧ 0 ≤ (L.exp a).value ∧
      |(L.exp a).value - Real.exp a.value| ≤ 2 ^ (-22 : ℤ) * Real.exp a.value + 2 ^ (-149 : ℤ)) ∨
    (L.exp a = inf false ∧ 2 ^ (127 : ℤ) ≤ Real.exp a.value)
  exp_neg_inf : L.exp (inf true) = zeroS false
  log : ∀ a : B32, a.isFinite = true → 0 < a.value →
    (L.log a).isFinite = true ∧ |(L.log a).value - Real.log a.value| ≤ 2 ^ (-22 : ℤ) * |Real.log a.value| + 2 ^ (-149 : ℤ)
  tanh : ∀ a : B32, a.isFinite = true →
    (L.tanh a).isFinite = true ∧ |(L.tanh a).value| ≤ 1 ∧
      |(L.tanh a).value - Real.tanh a.value| ≤ 2 ^ (-22 : ℤ) * |Real.tanh a.value| + 2 ^ (-149 : ℤ)

end NN.B32
