import Verif.Model.RealOps
import Verif.Spec.Linear
/-
The `USE_CBLAS` branches of src/matrix_operations.c.  A BLAS library may sum in any order, so the
routines are given by their mathematical definition, in exact arithmetic only.
-/
namespace NN.Blas
open Spec Finset

/-- `cblas_sgemv(CblasRowMajor, CblasNoTrans, n, m, alpha, A, m, x, 1, beta, y, 1)`. -/
noncomputable def sgemvN (n m : ℕ) (alpha : ℝ) (A x : List ℝ) (beta : ℝ) (y : List ℝ) : List ℝ :=
  (List.range n).map (fun i => alpha * ∑ j ∈ range m, at_ A (i * m + j) * at_ x j + beta * at_ y i)
    ++ y.drop n

/-- `cblas_sgemv(CblasRowMajor, CblasTrans, n, m, alpha, A, m, x, 1, beta, y, 1)`. -/
noncomputable def sgemvT (n m : ℕ) (alpha : ℝ) (A x : List ℝ) (beta : ℝ) (y : List ℝ) : List ℝ :=
  (List.range m).map (fun k => alpha * ∑ i ∈ range n, at_ A (i * m + k) * at_ x i + beta * at_ y k)
    ++ y.drop m

/-- `cblas_sger(CblasRowMajor, n, m, alpha, x, 1, y, 1, A, m)`. -/
noncomputable def sger (n m : ℕ) (alpha : ℝ) (x y A : List ℝ) : List ℝ :=
  (List.range (n * m)).map (fun k => at_ A k + alpha * at_ x (k / m) * at_ y (k % m)) ++ A.drop (n * m)

/-- `cblas_saxpy(n, alpha, x, 1, y, 1)`. -/
noncomputable def saxpy (n : ℕ) (alpha : ℝ) (x y : List ℝ) : List ℝ :=
  (List.range n).map (fun k => alpha * at_ x k + at_ y k) ++ y.drop n

/-- `cblas_saxpby(n, alpha, x, 1, beta, y, 1)`. -/
noncomputable def saxpby (n : ℕ) (alpha : ℝ) (x : List ℝ) (beta : ℝ) (y : List ℝ) : List ℝ :=
  (List.range n).map (fun k => alpha * at_ x k + beta * at_ y k) ++ y.drop n

/-- `matrix_vector_multiply` with `USE_CBLAS`, src/matrix_operations.c:39-41. -/
noncomputable def matrixVectorMultiply (nRows nCols : ℕ) (matrix v y : List ℝ) : List ℝ :=
  sgemvN nRows nCols 1 matrix v 0 y

/-- `vector_vector_outer` with `USE_CBLAS`, src/matrix_operations.c:80-81. -/
noncomputable def vectorVectorOuter (nRows nCols : ℕ) (x y matrix : List ℝ) : List ℝ :=
  sger nRows nCols 1 x y matrix

/-- `vector_matrix_multiply` with `USE_CBLAS`, src/matrix_operations.c:115-118. -/
noncomputable def vectorMatrixMultiply (n m : ℕ) (weight bias input y : List ℝ) : List ℝ :=
  sgemvT n m 1 weight input 1 (bias.take m ++ y.drop m)

/-- `vector_accumulate` and `vector_accumulate_unaligned` with `USE_CBLAS`,
src/matrix_operations.c:199-200, 228-229. -/
noncomputable def vectorAccumulate (n : ℕ) (a b : List ℝ) : List ℝ := saxpy n 1 b a

/-- `vector_saxpy` with `USE_CBLAS`, src/matrix_operations.c:310-311. -/
noncomputable def vectorSaxpy (n : ℕ) (a : List ℝ) (alpha : ℝ) (b : List ℝ) : List ℝ := saxpy n alpha b a

/-- `vector_saxpby` with `USE_CBLAS`, src/matrix_operations.c:350-351. -/
noncomputable def vectorSaxpby (n : ℕ) (a : List ℝ) (alpha : ℝ) (b : List ℝ) (beta : ℝ) : List ℝ :=
  saxpby n alpha b beta a

end NN.Blas
