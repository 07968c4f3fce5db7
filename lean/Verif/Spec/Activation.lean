import Mathlib.Analysis.SpecialFunctions.Log.Basic
import Mathlib.Analysis.SpecialFunctions.Trigonometric.Deriv
/-
Textbook definitions of the activation functions on reals.
-/
namespace Spec

noncomputable def relu (x : ℝ) : ℝ := max 0 x
noncomputable def sigmoid (x : ℝ) : ℝ := 1 / (1 + Real.exp (-x))
noncomputable def softplus (x : ℝ) : ℝ := Real.log (1 + Real.exp x)
noncomputable def softsign (x : ℝ) : ℝ := x / (1 + |x|)
/-- Piecewise linear: 0 below -2.5, 1 above 2.5. -/
noncomputable def hardSigmoid (x : ℝ) : ℝ := max 0 (min 1 (x / 5 + 1 / 2))

/-- `softmax(x)_i = exp x_i / Σ_j exp x_j`. -/
noncomputable def softmax (l : List ℝ) : List ℝ :=
  l.map fun x => Real.exp x / (l.map Real.exp).sum

end Spec
