import Verif.Proofs.KernelsReal
import Verif.Model.MatrixOpsBlas
import Mathlib.Tactic.IntervalCases
/-
C56, C57: the matrix and vector kernels of src/matrix_operations.c.

Every theorem of the first section says: the call succeeds (so no access outside the arrays and no
misaligned vector access), the result depends on the first `n` elements of the arguments only, and
nothing behind the first `n` elements of the output changes.  They hold for every `FloatOps` instance,
so bit for bit for IEEE floats, and the right hand sides do not mention the build.
-/
set_option linter.unusedSimpArgs false

namespace NN
open FloatOps Spec Finset
section Lawless
variable {F : Type} [FloatOps F]

/-- **C57/C56** `vector_accumulate`. -/
theorem C57_vectorAccumulate (c : Cfg) (n : ℕ) (a b : View F) (hal : AlignedFor c n a.addr)
    (hbl : AlignedFor c n b.addr) (ha : n ≤ a.data.length) (hb : n ≤ b.data.length) :
    vectorAccumulate c n a b =
      .ok ⟨a.addr, List.zipWith add (a.data.take n) (b.data.take n) ++ a.data.drop n⟩ := by
  rw [vectorAccumulate_eq c n a b hal hbl ha hb, applyTo_zip _ _ _ _ hb ha]

/-- **C57/C56** `vector_accumulate_unaligned`: no alignment needed. -/
theorem C57_vectorAccumulateUnaligned (c : Cfg) (n : ℕ) (y b : View F)
    (ha : n ≤ y.data.length) (hb : n ≤ b.data.length) :
    vectorAccumulateUnaligned c n y b =
      .ok ⟨y.addr, List.zipWith add (y.data.take n) (b.data.take n) ++ y.data.drop n⟩ := by
  rw [vectorAccumulateUnaligned_eq c n y b ha hb, applyTo_zip _ _ _ _ hb ha]

/-- **C57/C56** `vector_scale`. -/
theorem C57_vectorScale (c : Cfg) (n : ℕ) (v : View F) (s : F) (hal : AlignedFor c n v.addr)
    (ha : n ≤ v.data.length) :
    vectorScale c n v s = .ok ⟨v.addr, (v.data.take n).map (fun x => mul x s) ++ v.data.drop n⟩ := by
  rw [vectorScale_eq c n v s hal ha, applyTo_map _ _ _ ha]

/-- **C57/C56** `vector_divide_by_scalar`. -/
theorem C57_vectorDivideByScalar (c : Cfg) (n : ℕ) (v : View F) (s : F) (hal : AlignedFor c n v.addr)
    (ha : n ≤ v.data.length) :
    vectorDivideByScalar c n v s =
      .ok ⟨v.addr, (v.data.take n).map (fun x => div x s) ++ v.data.drop n⟩ := by
  rw [vectorDivideByScalar_eq c n v s hal ha, applyTo_map _ _ _ ha]

/-- **C57/C56** `vector_saxpy`. -/
theorem C57_vectorSaxpy (c : Cfg) (n : ℕ) (a : View F) (alpha : F) (b : View F)
    (hal : AlignedFor c n a.addr) (hbl : AlignedFor c n b.addr) (ha : n ≤ a.data.length)
    (hb : n ≤ b.data.length) :
    vectorSaxpy c n a alpha b =
      .ok ⟨a.addr, List.zipWith (fun x y => add x (mul alpha y)) (a.data.take n) (b.data.take n)
        ++ a.data.drop n⟩ := by
  rw [vectorSaxpy_eq c n a alpha b hal hbl ha hb, applyTo_zip _ _ _ _ hb ha]

/-- **C57/C56** `vector_square_elements`. -/
theorem C57_vectorSquareElements (c : Cfg) (n : ℕ) (y x : View F)
    (hal : AlignedFor c n y.addr) (hbl : AlignedFor c n x.addr)
    (ha : n ≤ y.data.length) (hb : n ≤ x.data.length) :
    vectorSquareElements c n y x =
      .ok ⟨y.addr, (x.data.take n).map (fun b => mul b b) ++ y.data.drop n⟩ := by
  rw [vectorSquareElements_eq c n y x hal hbl ha hb, applyTo_zip _ _ _ _ hb ha]
  congr 3
  apply List.ext_getElem?; intro i
  simp only [List.getElem?_zipWith, List.getElem?_map, List.getElem?_take]
  by_cases hi : i < n
  · simp [hi, show i < y.data.length by omega, show i < x.data.length by omega]
  · simp [hi]

/-- **C57** `vector_saxpby`: the vector part and the scalar tail multiply in different order; with a
commutative product (IEEE multiplication is) the result is the same in every build. -/
theorem C57_vectorSaxpby (c : Cfg) (n : ℕ) (a : View F) (alpha : F) (b : View F) (beta : F)
    (hmul : ∀ x y : F, mul x y = mul y x)
    (hal : AlignedFor c n a.addr) (hbl : AlignedFor c n b.addr)
    (ha : n ≤ a.data.length) (hb : n ≤ b.data.length) :
    vectorSaxpby c n a alpha b beta =
      .ok ⟨a.addr, List.zipWith (fun x y => add (mul beta x) (mul alpha y)) (a.data.take n)
        (b.data.take n) ++ a.data.drop n⟩ := by
  rw [vectorSaxpby_eq c n a alpha b beta hal hbl ha hb, ← applyTo_zip _ _ _ _ hb ha]
  congr 2
  apply applyTo_congr
  intro k hk x _
  simp only [saxpbyOp, zipOp]
  have : k < b.data.length := by omega
  simp only [this, List.getElem?_eq_getElem]
  split
  · rw [hmul x beta]
  · rfl

/-- **C57/C56** `vector_vector_outer`: no alignment needed; entry `(i,j)` becomes `x_i*y_j`, except
that rows with `x_i == 0` keep their previous content. -/
theorem C57_vectorVectorOuter (c : Cfg) (n m : ℕ) (x y mat : View F)
    (hx : n ≤ x.data.length) (hy : m ≤ y.data.length) (hm : n * m ≤ mat.data.length) :
    ∃ l, vectorVectorOuter c n m x y mat = .ok ⟨mat.addr, l ++ mat.data.drop (n * m)⟩ ∧
      l.length = n * m ∧
      ∀ (i j : ℕ) (hi : i < n) (hj : j < m), l[i * m + j]? =
        if FloatOps.eq x.data[i] zero then mat.data[i * m + j]? else
          some (mul x.data[i] y.data[j]) := by
  refine ⟨(applyTo (outerOp m x.data y.data) (n * m) mat.data).take (n * m), ?_, by simp; omega, ?_⟩
  · rw [vectorVectorOuter_eq c n m x y mat hx hy hm]
    congr 2
    apply List.ext_getElem?; intro i
    by_cases hi : i < n * m
    · rw [List.getElem?_append_left (by simp; omega), List.getElem?_take_of_lt hi]
    · rw [List.getElem?_append_right (by simp; omega), applyTo_getElem?]
      simp [hi, Nat.min_eq_left hm]
      congr 1; omega
  · intro i j hi hj
    have hlt : i * m + j < n * m := by
      calc i * m + j < i * m + m := by omega
        _ = (i + 1) * m := by ring
        _ ≤ n * m := Nat.mul_le_mul_right m hi
    have hmp : 0 < m := by omega
    have e1 : (i * m + j) / m = i := by
      rw [Nat.mul_comm, Nat.mul_add_div hmp, Nat.div_eq_of_lt hj]; omega
    have e2 : (i * m + j) % m = j := by
      rw [Nat.mul_comm, Nat.mul_add_mod, Nat.mod_eq_of_lt hj]
    have l0 : i * m + j < mat.data.length := by omega
    have l1 : i < x.data.length := by omega
    have l2 : j < y.data.length := by omega
    rw [List.getElem?_take_of_lt hlt, applyTo_getElem?]
    simp only [hlt, if_true, outerOp, e1, e2, List.getElem?_eq_getElem l1, List.getElem?_eq_getElem l2,
      List.getElem?_eq_getElem l0, Option.map_some]
    split <;> rfl

/-- **C57** `vector_matrix_multiply` stays in bounds and writes only `y[0..m)`. -/
theorem C57_vectorMatrixMultiply (c : Cfg) (n m : ℕ) (weight bias input y : View F)
    (hal : AlignedFor c m y.addr) (hbl : AlignedFor c m bias.addr)
    (hy : m ≤ y.data.length) (hb : m ≤ bias.data.length) (hx : n ≤ input.data.length)
    (hw : n * m ≤ weight.data.length) :
    ∃ l, vectorMatrixMultiply c n m weight bias input y = .ok ⟨y.addr, l ++ y.data.drop m⟩ ∧
      l.length = m :=
  ⟨_, vectorMatrixMultiply_eq c n m weight bias input y hal hbl hy hb hx hw, by simp [vmmF]; omega⟩

/-- **C57 (partial)** `matrix_vector_multiply` stays in bounds and writes only `y[0..n_rows)`.
Missing for the full claim: it needs every *row* of the matrix aligned, not just the base pointer,
see `C57_matrixVectorMultiply_misaligned`. -/
theorem C57_matrixVectorMultiply_partial (c : Cfg) (nRows nCols : ℕ) (matrix v y : View F)
    (hy : nRows ≤ y.data.length) (hv : nCols ≤ v.data.length)
    (hm : nRows * nCols ≤ matrix.data.length) (hr : RowsAligned c nRows nCols matrix.addr) :
    ∃ l, matrixVectorMultiply c nRows nCols matrix v y = .ok ⟨y.addr, l ++ y.data.drop nRows⟩ ∧
      l.length = nRows := by
  refine ⟨(applyTo (fun i y0 => dotF c nCols (matrix.data.drop (i * nCols)) v.data y0)
        nRows y.data).take nRows, ?_, by simp; omega⟩
  rw [matrixVectorMultiply_eq c nRows nCols matrix v y hy hv hm hr]
  congr 2
  apply List.ext_getElem?; intro i
  by_cases hi : i < nRows
  · rw [List.getElem?_append_left (by simp; omega), List.getElem?_take_of_lt hi]
  · rw [List.getElem?_append_right (by simp; omega), applyTo_getElem?]
    simp [hi, Nat.min_eq_left hy]
    congr 1; omega

/-- The rows are aligned when the base is and the number of columns is a multiple of the lanes or
too small for a vector. -/
theorem RowsAligned.of_lanes {c : Cfg} {nRows nCols addr : ℕ} (ha : addr % c.alignSize = 0)
    (h : nCols % c.lanes = 0 ∨ nCols < 8) : RowsAligned c nRows nCols addr := by
  intro i _
  unfold AlignedFor
  have hmul : ∀ q, nCols % q = 0 → (i * nCols) % q = 0 := by
    intro q hq; rw [Nat.mul_mod, hq]; simp
  rcases c with ⟨s, f, a2⟩
  cases s <;> simp_all [Cfg.avx, Cfg.avx512, Cfg.alignSize, Cfg.lanes]
  · intro h8
    have := hmul 8
    omega
  · have := hmul 16
    exact ⟨fun h8 => by omega, fun h16 => by omega⟩

/-- **C57 (negation)** In every AVX build `matrix_vector_multiply` on an aligned matrix with at least
two rows and a number of columns that is at least 8 but not a multiple of 8 executes an aligned load
on a misaligned address: undefined behaviour for every matrix and vector. -/
theorem C57_matrixVectorMultiply_misaligned (c : Cfg) (nRows nCols : ℕ) (matrix v y : View F)
    (havx : c.avx = true) (hbase : matrix.addr % c.alignSize = 0)
    (hrows : 2 ≤ nRows) (hcols : 8 ≤ nCols) (hodd : nCols % 8 ≠ 0)
    (hy : nRows ≤ y.data.length) (hv : nCols ≤ v.data.length)
    (hm : nRows * nCols ≤ matrix.data.length) :
    matrixVectorMultiply c nRows nCols matrix v y = .error .misaligned := by
  have h32 : matrix.addr % 32 = 0 := by
    rcases c with ⟨s, f, a2⟩
    cases s <;> simp_all [Cfg.avx, Cfg.alignSize]; omega
  have hm2 : 2 * nCols ≤ matrix.data.length := le_trans (Nat.mul_le_mul_right _ hrows) hm
  have row0 : ∃ y1 : View F, mvmRow c nCols matrix v 0 y = .ok y1 ∧ y1.data.length = y.data.length := by
    refine ⟨_, mvmRow_eq c nCols matrix v 0 y (by omega) hv (by omega) ?_ ?_, by simp⟩
    · intro _ _; omega
    · intro h5 _
      rcases c with ⟨s, f, a2⟩
      cases s <;> simp_all [Cfg.avx512, Cfg.alignSize]
  obtain ⟨y1, hy1, hlen⟩ := row0
  have row1 : mvmRow c nCols matrix v 1 y1 = .error .misaligned := by
    unfold mvmRow
    have bad : ∀ w, w = 8 ∨ w = 16 → w ≤ nCols → stripLe w nCols (mvmStep c w matrix v (1 * nCols)) 0
        (set1 w zero) = .error .misaligned := by
      intro w hw hwn
      rw [stripLe, if_pos ⟨by omega, by omega⟩]
      have : mvmStep c w matrix v (1 * nCols) 0 (set1 w zero) = .error .misaligned := by
        unfold mvmStep
        rw [loadu_ok (by omega)]
        have hmis : ¬ (matrix.addr + 4 * (1 * nCols + 0)) % (4 * w) = 0 := by
          rcases hw with rfl | rfl <;> omega
        simp only [bind, Except.bind, View.loada, if_neg hmis]
      rw [this]
    by_cases h5 : c.avx512 = true
    · by_cases h16 : 16 ≤ nCols
      · simp only [h5, if_true, bad 16 (Or.inr rfl) h16, bind, Except.bind]
      · have h1 : stripLe 16 nCols (mvmStep c 16 matrix v (1 * nCols)) 0 (set1 16 zero) =
            .ok (0, set1 16 zero) := by
          rw [stripLe, if_neg (by omega)]
        have hs : y1.store 1 (reduceAdd512 (set1 16 (zero : F))) =
            .ok { y1 with data := y1.data.set 1 (reduceAdd512 (set1 16 (zero : F))) } := by
          simp [View.store]; omega
        simp only [h5, if_true, h1, hs, havx, bind, Except.bind, pure, Except.pure,
          bad 8 (Or.inl rfl) hcols]
    · simp only [h5, Bool.false_eq_true, if_false, havx, if_true, bad 8 (Or.inl rfl) hcols, bind, Except.bind, pure, Except.pure]
  unfold matrixVectorMultiply forN
  rw [stripLe, if_pos ⟨by omega, by omega⟩, hy1]
  simp only
  rw [stripLe, if_pos ⟨by omega, by omega⟩]
  simp only [Nat.zero_add, row1, bind, Except.bind]

end Lawless

/-! ### Exact arithmetic: all builds, including BLAS, compute the same -/

/-- **C56** `vector_matrix_multiply` computes `x^T W + b` in every SIMD build. -/
theorem C56_vectorMatrixMultiply (c : Cfg) (n m : ℕ) (weight bias input y : View ℝ)
    (hal : AlignedFor c m y.addr) (hbl : AlignedFor c m bias.addr)
    (hy : m ≤ y.data.length) (hb : m ≤ bias.data.length) (hx : n ≤ input.data.length)
    (hw : n * m ≤ weight.data.length) :
    vectorMatrixMultiply c n m weight bias input y =
      .ok ⟨y.addr, affine n m weight.data bias.data input.data ++ y.data.drop m⟩ := by
  rw [vectorMatrixMultiply_eq c n m weight bias input y hal hbl hy hb hx hw,
    vmmF_real c n m _ _ _ hb hx hw]

/-- **C56** ... and in the BLAS build. -/
theorem C56_vectorMatrixMultiply_blas (n m : ℕ) (weight bias input y : List ℝ)
    (hb : m ≤ bias.length) :
    Blas.vectorMatrixMultiply n m weight bias input y =
      affine n m weight bias input ++ y.drop m := by
  unfold Blas.vectorMatrixMultiply Blas.sgemvT affine
  congr 1
  · apply List.map_congr_left
    intro k hk
    have hk : k < m := by simpa using hk
    have : at_ (bias.take m ++ y.drop m) k = at_ bias k := by
      simp [at_, List.getElem?_append_left (show k < (bias.take m).length by simp; omega), hk]
    rw [this, one_mul, one_mul, add_comm]
    congr 1
    exact sum_congr rfl (fun i _ => mul_comm _ _)
  · rw [List.drop_append]
    simp [Nat.min_eq_left hb]

/-- **C56** `matrix_vector_multiply` on a zeroed output computes `W v` in every SIMD build. -/
theorem C56_matrixVectorMultiply (c : Cfg) (nRows nCols : ℕ) (matrix v y : View ℝ)
    (hy : nRows ≤ y.data.length) (hv : nCols ≤ v.data.length)
    (hm : nRows * nCols ≤ matrix.data.length) (hr : RowsAligned c nRows nCols matrix.addr)
    (hz : ∀ i, i < nRows → at_ y.data i = 0) :
    matrixVectorMultiply c nRows nCols matrix v y =
      .ok ⟨y.addr, matVec nRows nCols matrix.data v.data ++ y.data.drop nRows⟩ := by
  rw [matrixVectorMultiply_eq c nRows nCols matrix v y hy hv hm hr]
  congr 2
  apply List.ext_getElem?; intro i
  rw [applyTo_getElem?]
  by_cases hi : i < nRows
  · have hil : i < y.data.length := by omega
    have hrow : i * nCols + nCols ≤ nRows * nCols := by
      calc i * nCols + nCols = (i + 1) * nCols := by ring
        _ ≤ nRows * nCols := Nat.mul_le_mul_right _ hi
    have z := hz i hi
    rw [at_eq hil] at z
    rw [List.getElem?_append_left (by simp [matVec]; omega)]
    simp only [List.getElem?_eq_getElem hil, Option.map_some, hi, if_true, z]
    rw [dotF_real c nCols _ _ _ hv (by simp; omega)]
    simp only [ite_self, zero_add, matVec, List.getElem?_map, List.getElem?_range hi, Option.map_some]
    congr 1
    apply sum_congr rfl
    intro j _
    rw [at_drop, mul_comm]
  · rw [List.getElem?_append_right (by simp [matVec]; omega)]
    simp [hi, matVec]
    congr 1; omega

/-- **C56** ... and in the BLAS build (where the previous content never matters). -/
theorem C56_matrixVectorMultiply_blas (nRows nCols : ℕ) (matrix v y : List ℝ) :
    Blas.matrixVectorMultiply nRows nCols matrix v y =
      matVec nRows nCols matrix v ++ y.drop nRows := by
  simp [Blas.matrixVectorMultiply, Blas.sgemvN, matVec]

/-- Why the zeroed output is needed: without it the SSE/AVX builds accumulate, the AVX512 and BLAS
builds overwrite. -/
theorem C56_matrixVectorMultiply_accumulates (c : Cfg) (nRows nCols : ℕ) (matrix v y : View ℝ)
    (hy : nRows ≤ y.data.length) (hv : nCols ≤ v.data.length)
    (hm : nRows * nCols ≤ matrix.data.length) (hr : RowsAligned c nRows nCols matrix.addr) :
    ∃ l, matrixVectorMultiply c nRows nCols matrix v y = .ok ⟨y.addr, l⟩ ∧
      ∀ i, i < nRows → at_ l i = (if c.avx512 then 0 else at_ y.data i) +
        ∑ j ∈ range nCols, at_ matrix.data (i * nCols + j) * at_ v.data j := by
  refine ⟨_, matrixVectorMultiply_eq c nRows nCols matrix v y hy hv hm hr, ?_⟩
  intro i hi
  have hil : i < y.data.length := by omega
  have hrow : i * nCols + nCols ≤ nRows * nCols := by
    calc i * nCols + nCols = (i + 1) * nCols := by ring
      _ ≤ nRows * nCols := Nat.mul_le_mul_right _ hi
  unfold at_
  rw [List.getD_eq_getElem?_getD, applyTo_getElem?]
  simp only [List.getElem?_eq_getElem hil, Option.map_some, hi, if_true, Option.getD_some]
  rw [dotF_real c nCols _ _ _ hv (by simp; omega)]
  congr 1
  · simp [hil]
  · apply sum_congr rfl
    intro j _
    rw [at_drop, mul_comm]; rfl

/-- **C56** `vector_vector_outer` on a zeroed matrix computes the outer product in every SIMD build. -/
theorem C56_vectorVectorOuter (c : Cfg) (n m : ℕ) (x y mat : View ℝ)
    (hx : n ≤ x.data.length) (hy : m ≤ y.data.length) (hm : n * m ≤ mat.data.length)
    (hz : ∀ k, k < n * m → at_ mat.data k = 0) :
    vectorVectorOuter c n m x y mat =
      .ok ⟨mat.addr, outer n m x.data y.data ++ mat.data.drop (n * m)⟩ := by
  rw [vectorVectorOuter_eq c n m x y mat hx hy hm]
  congr 2
  apply List.ext_getElem?; intro k
  rw [applyTo_getElem?]
  by_cases hk : k < n * m
  · have hkl : k < mat.data.length := by omega
    have z := hz k hk
    rw [at_eq hkl] at z
    have hmp : 0 < m := by
      rcases Nat.eq_zero_or_pos m with h | h
      · simp [h] at hk
      · exact h
    have l1 : k / m < x.data.length := lt_of_lt_of_le ((Nat.div_lt_iff_lt_mul hmp).2 hk) hx
    have l2 : k % m < y.data.length := lt_of_lt_of_le (Nat.mod_lt _ hmp) hy
    rw [List.getElem?_append_left (by simp [outer]; omega)]
    simp only [List.getElem?_eq_getElem hkl, Option.map_some, hk, if_true, z, outerOp,
      List.getElem?_eq_getElem l1, List.getElem?_eq_getElem l2, outer, List.getElem?_map,
      List.getElem?_range hk, RealOps.eq_iff, RealOps.zero_def, RealOps.mul_def]
    rw [at_eq l1, at_eq l2]
    split
    · rename_i h; simp [h]
    · rfl
  · rw [List.getElem?_append_right (by simp [outer]; omega)]
    simp [hk, outer]
    congr 1; omega

/-- **C56** ... and in the BLAS build. -/
theorem C56_vectorVectorOuter_blas (n m : ℕ) (x y mat : List ℝ)
    (hz : ∀ k, k < n * m → at_ mat k = 0) :
    Blas.vectorVectorOuter n m x y mat = outer n m x y ++ mat.drop (n * m) := by
  unfold Blas.vectorVectorOuter Blas.sger outer
  congr 1
  apply List.map_congr_left
  intro k hk
  rw [hz k (by simpa using hk)]
  ring

theorem range_map_zip (f : ℝ → ℝ → ℝ) (n : ℕ) (a b : List ℝ) (ha : n ≤ a.length) (hb : n ≤ b.length) :
    (List.range n).map (fun k => f (at_ a k) (at_ b k)) =
      List.zipWith f (a.take n) (b.take n) := by
  apply List.ext_getElem?; intro i
  simp only [List.getElem?_map, List.getElem?_zipWith, List.getElem?_take]
  by_cases hi : i < n
  · have h1 : i < a.length := by omega
    have h2 : i < b.length := by omega
    simp [hi, h1, h2, at_eq h1, at_eq h2]
  · simp [hi]

/-- **C56** `vector_accumulate`, BLAS build: same value as the SIMD builds (`C57_vectorAccumulate`). -/
theorem C56_vectorAccumulate_blas (n : ℕ) (a b : List ℝ) (ha : n ≤ a.length) (hb : n ≤ b.length) :
    Blas.vectorAccumulate n a b = List.zipWith (· + ·) (a.take n) (b.take n) ++ a.drop n := by
  unfold Blas.vectorAccumulate Blas.saxpy
  rw [← range_map_zip _ n a b ha hb]
  congr 1
  apply List.map_congr_left; intro k _; ring

/-- **C56** `vector_saxpy`, BLAS build. -/
theorem C56_vectorSaxpy_blas (n : ℕ) (a : List ℝ) (alpha : ℝ) (b : List ℝ) (ha : n ≤ a.length)
    (hb : n ≤ b.length) :
    Blas.vectorSaxpy n a alpha b =
      List.zipWith (fun x y => x + alpha * y) (a.take n) (b.take n) ++ a.drop n := by
  unfold Blas.vectorSaxpy Blas.saxpy
  rw [← range_map_zip _ n a b ha hb]
  congr 1
  apply List.map_congr_left; intro k _; ring

/-- **C56** `vector_saxpby`, BLAS build. -/
theorem C56_vectorSaxpby_blas (n : ℕ) (a : List ℝ) (alpha : ℝ) (b : List ℝ) (beta : ℝ)
    (ha : n ≤ a.length) (hb : n ≤ b.length) :
    Blas.vectorSaxpby n a alpha b beta =
      List.zipWith (fun x y => beta * x + alpha * y) (a.take n) (b.take n) ++ a.drop n := by
  unfold Blas.vectorSaxpby Blas.saxpby
  rw [← range_map_zip _ n a b ha hb]
  congr 1
  apply List.map_congr_left; intro k _; ring

/-! ### Concrete cases -/

/-- An AVX2+FMA build. -/
def cfgAvx : Cfg := ⟨.avx, true, true⟩
/-- An AVX512 build. -/
def cfg512 : Cfg := ⟨.avx512, true, true⟩
/-- A build without AVX. -/
def cfgSse : Cfg := ⟨.sse, false, false⟩

/-- Nine elements (one vector, one scalar), a tenth untouched. -/
example : vectorAccumulate cfgAvx 9 ⟨64, List.replicate 10 (1 : ℝ)⟩ ⟨128, List.replicate 9 2⟩ =
    .ok ⟨64, List.replicate 9 3 ++ [1]⟩ := by
  rw [C57_vectorAccumulate _ _ _ _ (.of_aligned (by decide)) (.of_aligned (by decide)) (by simp) (by simp)]
  simp; norm_num

example : vectorAccumulateUnaligned cfg512 17 ⟨4, List.replicate 18 (1 : ℝ)⟩ ⟨8, List.replicate 17 2⟩ =
    .ok ⟨4, List.replicate 17 3 ++ [1]⟩ := by
  rw [C57_vectorAccumulateUnaligned _ _ _ _ (by simp) (by simp)]
  simp; norm_num

/-- Inputs 0, 1 and 5 take the three different paths. -/
example : vectorMatrixMultiply cfgAvx 3 2 ⟨32, [1, 2, 3, 4, 5, 6]⟩ ⟨64, [10, 20]⟩ ⟨96, [0, 1, 5]⟩
    ⟨128, [7, 7, 7]⟩ = .ok ⟨128, [38, 54, (7 : ℝ)]⟩ := by
  rw [C56_vectorMatrixMultiply _ _ _ _ _ _ _ (.of_aligned (by decide)) (.of_aligned (by decide))
    (by simp) (by simp) (by simp) (by simp)]
  simp [affine, List.range_succ, at_, sum_range_succ]; norm_num

example : matrixVectorMultiply cfgAvx 2 3 ⟨32, [1, 2, 3, 4, 5, 6]⟩ ⟨64, [1, 0, 2]⟩ ⟨96, [0, 0, 9]⟩ =
    .ok ⟨96, [7, 16, (9 : ℝ)]⟩ := by
  rw [C56_matrixVectorMultiply _ _ _ _ _ _ (by simp) (by simp) (by simp)
    (RowsAligned.of_lanes (by decide) (Or.inr (by decide))) (by
      intro i hi; interval_cases i <;> simp [at_])]
  simp [matVec, List.range_succ, at_, sum_range_succ]; norm_num

/-- A 2×9 matrix at an aligned address faults. -/
example : matrixVectorMultiply cfgAvx 2 9 ⟨64, List.replicate 18 (1 : ℝ)⟩ ⟨192, List.replicate 9 1⟩
    ⟨256, [0, 0]⟩ = .error .misaligned :=
  C57_matrixVectorMultiply_misaligned _ _ _ _ _ _ rfl (by decide) (by decide) (by decide) (by decide)
    (by simp) (by simp) (by simp)

/-- A 2×16 matrix is fine in all builds. -/
example (c : Cfg) : RowsAligned c 2 16 64 :=
  RowsAligned.of_lanes (by rcases c with ⟨s, _, _⟩; cases s <;> simp [Cfg.alignSize, Cfg.lanes])
    (Or.inl (by rcases c with ⟨s, _, _⟩; cases s <;> simp [Cfg.alignSize, Cfg.lanes]))

example : vectorVectorOuter cfgSse 2 3 ⟨16, [2, 0]⟩ ⟨32, [1, 2, 3]⟩ ⟨64, List.replicate 7 0⟩ =
    .ok ⟨64, [2, 4, 6, 0, 0, 0, (0 : ℝ)]⟩ := by
  rw [C56_vectorVectorOuter _ _ _ _ _ _ (by simp) (by simp) (by simp) (by
    intro k hk; interval_cases k <;> simp [at_])]
  simp [outer, List.range_succ, at_]; norm_num

end NN
