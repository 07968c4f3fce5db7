import Verif.Model.Basic
/-
Model of src/matrix_operations.c (the build without USE_CBLAS; the BLAS build is in `MatrixOpsBlas`).
Pointer increments `a_ptr += 16` running in step with the loop counter are modelled by indexing with
the counter.
-/
namespace NN
open FloatOps
variable {F : Type} [FloatOps F]

/-- `horizontalsum_avx`, src/matrix_operations.c:19-26.  `hadd`, add of the swapped halves, `hadd`:
`((x0+x1)+(x4+x5)) + ((x2+x3)+(x6+x7))`. Registers always have 8 lanes; the last case is never used. -/
def horizontalsumAvx : List F → F
  | [x0, x1, x2, x3, x4, x5, x6, x7] =>
      add (add (add x0 x1) (add x4 x5)) (add (add x2 x3) (add x6 x7))
  | _ => zero

/-- `_mm512_reduce_add_ps` (used at src/matrix_operations.c:57): pairwise tree sum of the 16 lanes
(the order chosen by GCC; the Intel manual leaves it open). -/
def reduceAdd512 : List F → F
  | [x0, x1, x2, x3, x4, x5, x6, x7, x8, x9, x10, x11, x12, x13, x14, x15] =>
      add (add (add (add x0 x8) (add x4 x12)) (add (add x2 x10) (add x6 x14)))
        (add (add (add x1 x9) (add x5 x13)) (add (add x3 x11) (add x7 x15)))
  | _ => zero

/-- One vector step `sum = fmadd(loadu(v), load(m), sum)` (or mul and add without `__FMA__`) of
`matrix_vector_multiply`, src/matrix_operations.c:51-55 and 62-66. `mo` is the offset of the row. -/
def mvmStep (c : Cfg) (w : Nat) (matrix v : View F) (mo : Nat) (j : Nat) (sums : List F) :
    M (List F) := do
  let vv ← v.loadu w j
  let mv ← matrix.loada w (mo + j)
  pure (if c.fma then vfma vv mv sums else vop2 add sums (vop2 mul vv mv))

/-- One row of `matrix_vector_multiply`, src/matrix_operations.c:45-71.  `m_ptr` has advanced by
exactly `n_cols` per row, so at the start of row `i` it is `matrix + i*n_cols`. -/
def mvmRow (c : Cfg) (nCols : Nat) (matrix v : View F) (i : Nat) (y : View F) : M (View F) := do
  let mo := i * nCols
  let (j, y) ←
    if c.avx512 then do
      let (j, sums) ← stripLe 16 nCols (mvmStep c 16 matrix v mo) 0 (set1 16 zero)
      let y ← y.store i (reduceAdd512 sums)
      pure (j, y)
    else pure (0, y)
  let (j, y) ←
    if c.avx then do
      let (j, sum) ← stripLe 8 nCols (mvmStep c 8 matrix v mo) j (set1 8 zero)
      let y0 ← y.load i
      let y ← y.store i (add y0 (horizontalsumAvx sum))
      pure (j, y)
    else pure (j, y)
  let (_, y) ← stripLe 1 nCols (fun j y => do
      let y0 ← y.load i
      let a ← v.load j
      let b ← matrix.load (mo + j)
      y.store i (add y0 (mul a b))) j y
  pure y

/-- `matrix_vector_multiply`, src/matrix_operations.c:32-74. -/
def matrixVectorMultiply (c : Cfg) (nRows nCols : Nat) (matrix v y : View F) : M (View F) :=
  forN nRows (mvmRow c nCols matrix v) y

/-- `vector_vector_outer`, src/matrix_operations.c:76-108.  Rows with `x[i] == 0` are skipped. -/
def vectorVectorOuter (c : Cfg) (nRows nCols : Nat) (x y matrix : View F) : M (View F) :=
  forN nRows (fun i mat => do
    let a ← x.load i
    if FloatOps.eq a zero then pure mat
    else
      ladder c nCols (fun w j mat => do
        let yv ← y.loadu w j
        mat.storeu (i * nCols + j) (vop2 mul (set1 w a) yv)) (fun j mat => do
        let b ← y.load j
        mat.store (i * nCols + j) (mul a b)) mat) matrix

/-- Copy of the bias, src/matrix_operations.c:129-141. -/
def vmmBias (c : Cfg) (m : Nat) (bias y : View F) : M (View F) :=
  ladder c m (fun w j y => do
    let bv ← bias.loada w j
    y.storea w j bv) (fun j y => do
    let b ← bias.load j
    y.store j b) y

/-- The path for `inp == 1.0f`, src/matrix_operations.c:148-159. -/
def vmmRowOne (c : Cfg) (m : Nat) (weight : View F) (wo : Nat) (y : View F) : M (View F) :=
  ladder c m (fun w j y => do
    let yv ← y.loada w j
    let wv ← weight.loadu w (wo + j)
    y.storea w j (vop2 add yv wv)) (fun j y => do
    let y0 ← y.load j
    let w0 ← weight.load (wo + j)
    y.store j (add y0 w0)) y

/-- The general path, src/matrix_operations.c:160-183 (note the strict loop bounds). -/
def vmmRowMul (c : Cfg) (m : Nat) (weight : View F) (wo : Nat) (inp : F) (y : View F) : M (View F) :=
  ladderLt c m (fun w j y => do
    let wv ← weight.loadu w (wo + j)
    let yv ← y.loada w j
    y.storea w j (if c.fma then vfma wv (set1 w inp) yv else vop2 add yv (vop2 mul wv (set1 w inp)))) (fun j y => do
    let y0 ← y.load j
    let w0 ← weight.load (wo + j)
    y.store j (add y0 (mul inp w0))) y

/-- `vector_matrix_multiply`, src/matrix_operations.c:113-187. -/
def vectorMatrixMultiply (c : Cfg) (n m : Nat) (weight bias input y : View F) : M (View F) := do
  let y ← vmmBias c m bias y
  forN n (fun i y => do
    let inp ← input.load i
    if FloatOps.eq inp zero then pure y
    else if FloatOps.eq inp one then vmmRowOne c m weight (i * m) y
    else vmmRowMul c m weight (i * m) inp y) y

/-- `vector_accumulate`, src/matrix_operations.c:197-216. -/
def vectorAccumulate (c : Cfg) (n : Nat) (a b : View F) : M (View F) :=
  ladder c n (fun w j a => do
    let av ← a.loada w j
    let bv ← b.loada w j
    a.storea w j (vop2 add av bv)) (fun j a => do
    let a0 ← a.load j
    let b0 ← b.load j
    a.store j (add a0 b0)) a

/-- `vector_accumulate_unaligned`, src/matrix_operations.c:226-246. -/
def vectorAccumulateUnaligned (c : Cfg) (n : Nat) (y b : View F) : M (View F) :=
  ladder c n (fun w j y => do
    let yv ← y.loadu w j
    let bv ← b.loadu w j
    y.storeu j (vop2 add yv bv)) (fun j y => do
    let y0 ← y.load j
    let b0 ← b.load j
    y.store j (add y0 b0)) y

/-- `vector_scale`, src/matrix_operations.c:255-269. -/
def vectorScale (c : Cfg) (n : Nat) (v : View F) (scalar : F) : M (View F) :=
  ladder c n (fun w j v => do
    let vv ← v.loada w j
    v.storea w j (vop2 mul vv (set1 w scalar))) (fun j v => do
    let v0 ← v.load j
    v.store j (mul v0 scalar)) v

/-- `vector_divide_by_scalar`, src/matrix_operations.c:278-292. -/
def vectorDivideByScalar (c : Cfg) (n : Nat) (v : View F) (scalar : F) : M (View F) :=
  ladder c n (fun w j v => do
    let vv ← v.loada w j
    v.storea w j (vop2 div vv (set1 w scalar))) (fun j v => do
    let v0 ← v.load j
    v.store j (div v0 scalar)) v

/-- `vector_saxpy`, src/matrix_operations.c:308-327. -/
def vectorSaxpy (c : Cfg) (n : Nat) (a : View F) (alpha : F) (b : View F) : M (View F) :=
  ladder c n (fun w j a => do
    let av ← a.loada w j
    let bv ← b.loada w j
    a.storea w j (vop2 add av (vop2 mul (set1 w alpha) bv))) (fun j a => do
    let a0 ← a.load j
    let b0 ← b.load j
    a.store j (add a0 (mul alpha b0))) a

/-- `vector_saxpby`, src/matrix_operations.c:347-382. The vector code computes `a*beta + alpha*b`,
the scalar tail `beta*a + alpha*b`. -/
def vectorSaxpby (c : Cfg) (n : Nat) (a : View F) (alpha : F) (b : View F) (beta : F) :
    M (View F) :=
  ladder c n (fun w j a => do
    let av ← a.loada w j
    let bv ← b.loada w j
    a.storea w j (vop2 add (vop2 mul av (set1 w beta)) (vop2 mul (set1 w alpha) bv))) (fun j a => do
    let a0 ← a.load j
    let b0 ← b.load j
    a.store j (add (mul beta a0) (mul alpha b0))) a

/-- `vector_square_elements`, src/matrix_operations.c:391-416. -/
def vectorSquareElements (c : Cfg) (n : Nat) (y x : View F) : M (View F) :=
  ladder c n (fun w j y => do
    let xv ← x.loada w j
    y.storea w j (vop2 mul xv xv)) (fun j y => do
    let x0 ← x.load j
    y.store j (mul x0 x0)) y

end NN
