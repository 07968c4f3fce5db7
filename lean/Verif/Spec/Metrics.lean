import Verif.Spec.Loss
/-
Textbook metrics for one sample with `n` outputs (in addition to `Verif/Spec/Loss.lean`).
-/
namespace Spec
open Finset

/-- `p` moved into `[eps, 1 - eps]`. -/
noncomputable def clip (eps p : ℝ) : ℝ := min (max p eps) (1 - eps)

/-- Nearest integer, halves away from zero. -/
def IsRound (x : ℝ) (k : ℤ) : Prop :=
  if 0 ≤ x then (k : ℝ) - 1 / 2 ≤ x ∧ x < k + 1 / 2 else (k : ℝ) - 1 / 2 < x ∧ x ≤ k + 1 / 2

/-- `i` is the first position of the maximum of the first `n` entries. -/
def FirstMax (n : ℕ) (l : List ℝ) (i : ℕ) : Prop :=
  i < n ∧ (∀ j < n, at_ l j ≤ at_ l i) ∧ ∀ j < i, at_ l j < at_ l i

end Spec
