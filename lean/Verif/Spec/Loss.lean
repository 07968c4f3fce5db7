import Verif.Spec.Linear
import Mathlib.Analysis.SpecialFunctions.Log.Basic
/-
Textbook loss functions for one sample with `n` outputs: prediction `p`, target `y`.
-/
namespace Spec
open Finset

noncomputable def mse (n : ℕ) (p y : List ℝ) : ℝ := (∑ k ∈ range n, (at_ p k - at_ y k) ^ 2) / n

noncomputable def mae (n : ℕ) (p y : List ℝ) : ℝ := (∑ k ∈ range n, |at_ p k - at_ y k|) / n

/-- In percent; targets below `eps` are replaced by `eps` in the denominator. -/
noncomputable def mape (eps : ℝ) (n : ℕ) (p y : List ℝ) : ℝ :=
  (∑ k ∈ range n, 100 * |at_ p k - at_ y k| / max (at_ y k) eps) / n

noncomputable def binaryCrossentropy (n : ℕ) (p y : List ℝ) : ℝ :=
  -(∑ k ∈ range n, (at_ y k * Real.log (at_ p k) + (1 - at_ y k) * Real.log (1 - at_ p k))) / n

/-- The sum over the classes (not the mean). -/
noncomputable def categoricalCrossentropy (n : ℕ) (p y : List ℝ) : ℝ :=
  -∑ k ∈ range n, at_ y k * Real.log (at_ p k)

end Spec
