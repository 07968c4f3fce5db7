import Mathlib.Data.Real.Basic
import Mathlib.Algebra.BigOperators.Group.Finset.Basic
/-
Specification of the linear algebra used by the network, on lists of reals.  A matrix with `n` rows
and `m` columns is a flat row-major list.
-/
namespace Spec
open Finset

/-- Entry `i` of a vector (0 outside, never used in statements with matching lengths). -/
noncomputable def at_ (l : List ℝ) (i : ℕ) : ℝ := l.getD i 0

/-- Inner product of two vectors of length `n`. -/
noncomputable def dot (n : ℕ) (a b : List ℝ) : ℝ := ∑ i ∈ range n, at_ a i * at_ b i

/-- `x^T W + b` for an `n × m` matrix `W`. -/
noncomputable def affine (n m : ℕ) (W b x : List ℝ) : List ℝ :=
  (List.range m).map fun k => at_ b k + ∑ i ∈ range n, at_ x i * at_ W (i * m + k)

/-- `W v` for an `n × m` matrix `W`. -/
noncomputable def matVec (n m : ℕ) (W v : List ℝ) : List ℝ :=
  (List.range n).map fun i => ∑ j ∈ range m, at_ W (i * m + j) * at_ v j

/-- The outer product `x y^T` as flat `n × m` matrix. -/
noncomputable def outer (n m : ℕ) (x y : List ℝ) : List ℝ :=
  (List.range (n * m)).map fun k => at_ x (k / m) * at_ y (k % m)

end Spec
