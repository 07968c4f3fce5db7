import Verif.Proofs.RoundDot
import Verif.Proofs.B32Mono
import Verif.Spec.Rounding
import Verif.Properties.Kernels
/-
C61: the matrix kernels in `float` arithmetic (IEEE binary32).
-/
namespace NN
open Spec Finset

/-- The first floats of `l` are finite and have the values `r`. -/
def Floats (l : List B32) (r : List ℝ) : Prop := List.Forall₂ B32.Is (l.take r.length) r

theorem near_slack (L : B32.Libm) {k c : ℕ} {S y : ℝ} {a : B32} (h : @FloatModel.Near B32 (B32.ops L) (B32.model L) k c S y a) :
    a.isFinite = true ∧ |a.value - y| ≤ slack k c S := by
  obtain ⟨z, h1, _, h3⟩ := h
  have h1' : a.isFinite = true ∧ a.value = z := h1
  exact ⟨h1'.1, by rw [h1'.2]; exact h3⟩

theorem at_affine {n m k : ℕ} {W b x : List ℝ} (hk : k < m) :
    at_ (affine n m W b x) k = at_ b k + ∑ i ∈ range n, at_ x i * at_ W (i * m + k) := by
  simp [affine, at_, hk]

theorem at_matVec {n m i : ℕ} {W v : List ℝ} (hi : i < n) :
    at_ (matVec n m W v) i = ∑ j ∈ range m, at_ W (i * m + j) * at_ v j := by
  simp [matVec, at_, hi]

/-- **C61** `vector_matrix_multiply` in `float` arithmetic, in every build: if weights, bias and input are finite and the sums
of absolute values stay below `FLT_MAX`, the output is finite and differs from the exact `x^T W + b` by at most the
classical bound for `n+1` roundings. -/
theorem C61_vectorMatrixMultiply (L : B32.Libm) (c : Cfg) (n m : ℕ) (weight bias input y : View B32) (W b x : List ℝ)
    (hal : AlignedFor c m y.addr) (hbl : AlignedFor c m bias.addr) (hy : m ≤ y.data.length)
    (hW : Floats weight.data W) (hb : Floats bias.data b) (hx : Floats input.data x)
    (lW : W.length = n * m) (lb : b.length = m) (lx : x.length = n)
    (hmax : ∀ k, k < m → peak (n + 1) n (absAffine n m W b x k) ≤ max32) :
    ∃ out, @vectorMatrixMultiply B32 (B32.ops L) c n m weight bias input y = .ok ⟨y.addr, out ++ y.data.drop m⟩ ∧ out.length = m ∧
      ∀ k, k < m → ∃ a, out[k]? = some a ∧ a.isFinite = true ∧
        |a.value - at_ (affine n m W b x) k| ≤ slack (n + 1) n (absAffine n m W b x k) := by
  let _ := B32.ops L
  have iW : (B32.model L).IsL weight.data W := hW
  have ib : (B32.model L).IsL bias.data b := hb
  have ix : (B32.model L).IsL input.data x := hx
  have l1 := iW.length
  have l2 := ib.length
  have l3 := ix.length
  refine ⟨vmmF c n m weight.data bias.data input.data,
    vectorMatrixMultiply_eq c n m weight bias input y hal hbl hy (by omega) (by omega) (by omega), by simp [vmmF]; omega, ?_⟩
  intro k hk
  obtain ⟨a, ha1, ha2⟩ := ib.get (i := k) (by omega)
  refine ⟨vmmElem c m weight.data input.data n k a, ?_, ?_⟩
  · simp [vmmF, hk, ha1]
  · rw [at_affine hk]
    exact near_slack L (FloatModel.near_vmmElem (P := B32.model L) c m iW ix ha2 hk (by omega) (by omega) (hmax k hk) le_rfl)

/-- **C61** `matrix_vector_multiply` in `float` arithmetic.  The number of roundings depends on the build (`rowDepth`); the
build without AVX512 adds to the previous contents of `y`, here zeros as in its only caller. -/
theorem C61_matrixVectorMultiply (L : B32.Libm) (c : Cfg) (nRows nCols : ℕ) (matrix v y : View B32) (W x : List ℝ)
    (hy : nRows ≤ y.data.length) (hr : RowsAligned c nRows nCols matrix.addr)
    (hz : c.avx512 = false → ∀ i, i < nRows → y.data[i]? = some (B32.zeroS false))
    (hW : Floats matrix.data W) (hx : Floats v.data x) (lW : W.length = nRows * nCols) (lx : x.length = nCols)
    (hmax : ∀ i, i < nRows → peak (rowDepth c nCols) nCols (absMatVec nCols W x i) ≤ max32) :
    ∃ out, @matrixVectorMultiply B32 (B32.ops L) c nRows nCols matrix v y = .ok ⟨y.addr, out ++ y.data.drop nRows⟩ ∧
      out.length = nRows ∧ ∀ i, i < nRows → ∃ a, out[i]? = some a ∧ a.isFinite = true ∧
        |a.value - at_ (matVec nRows nCols W x) i| ≤ slack (rowDepth c nCols) nCols (absMatVec nCols W x i) := by
  let _ := B32.ops L
  have iW : (B32.model L).IsL matrix.data W := hW
  have ix : (B32.model L).IsL v.data x := hx
  have l1 := iW.length
  have l3 := ix.length
  let g : ℕ → B32 → B32 := fun i y0 => dotF c nCols (matrix.data.drop (i * nCols)) v.data y0
  refine ⟨(applyTo g nRows y.data).take nRows, ?_, by simp; omega, ?_⟩
  · rw [matrixVectorMultiply_eq c nRows nCols matrix v y hy (by omega) (by omega) hr]
    congr 2
    apply List.ext_getElem?
    intro k
    by_cases hk : k < nRows
    · rw [List.getElem?_append_left (by simp; omega)]
      simp [hk, g]
    · rw [List.getElem?_append_right (by simp; omega)]
      simp only [applyTo_getElem?, hk, List.length_take, applyTo_length, List.getElem?_drop]
      rw [show nRows + (k - min nRows y.data.length) = k by omega]
      simp
  · intro i hi
    have hrow : i * nCols + nCols ≤ W.length := by
      have : (i + 1) * nCols ≤ nRows * nCols := Nat.mul_le_mul_right _ hi
      rw [Nat.add_mul] at this; omega
    have hyi : i < y.data.length := by omega
    refine ⟨g i y.data[i], ?_, ?_⟩
    · rw [List.getElem?_take_of_lt hi, applyTo_getElem?, List.getElem?_eq_getElem hyi]
      simp [hi]
    · have e : ∀ j, at_ x j * at_ (W.drop (i * nCols)) j = at_ W (i * nCols + j) * at_ x j := fun j => by rw [at_drop]; ring
      have h0 : c.avx512 = false → (B32.model L).Is y.data[i] 0 := by
        intro h
        have := hz h i hi
        rw [List.getElem?_eq_getElem hyi] at this
        rw [Option.some.inj this]
        exact B32.is_zeroS false
      have hm := hmax i hi
      have := FloatModel.near_dotF (P := B32.model L) c (iW.drop (i * nCols)) ix (n := nCols) (by omega) (by simp; omega) h0
        (by simp only [e, abs_zero, ite_self, zero_add]; exact hm)
      simp only [e, abs_zero, ite_self, zero_add] at this
      rw [at_matVec hi]
      exact near_slack L this

/-- The bound in plain numbers, for up to a million roundings. -/
theorem slack_le {N c : ℕ} {S : ℝ} (hN : N ≤ 2 ^ 20) (hS : 0 ≤ S) :
    slack N c S ≤ 17 / 16 * N * 2 ^ (-24 : ℤ) * S + 9 / 8 * c * 2 ^ (-150 : ℤ) := by
  have hN' : (N : ℝ) ≤ 2 ^ 20 := by exact_mod_cast hN
  have hu : (0 : ℝ) < u32 := by unfold u32; positivity
  have hx : (N : ℝ) * u32 ≤ 1 / 16 := by
    have : (N : ℝ) * u32 ≤ 2 ^ 20 * u32 := by gcongr
    refine this.trans ?_
    unfold u32; norm_num
  have hx0 : 0 ≤ (N : ℝ) * u32 := by positivity
  have hexp : (1 + u32) ^ N ≤ Real.exp (N * u32) := by
    rw [Real.exp_nat_mul]
    have := Real.add_one_le_exp u32
    gcongr; linarith
  have hb := Real.abs_exp_sub_one_sub_id_le (x := (N : ℝ) * u32) (by rw [abs_of_nonneg hx0]; linarith)
  have hb' := (abs_le.1 hb).2
  have hp : (1 + u32) ^ N - 1 ≤ 17 / 16 * N * u32 := by nlinarith
  have hp1 : (1 + u32) ^ N ≤ 9 / 8 := by nlinarith
  have h1 : ((1 + u32) ^ N - 1) * S ≤ 17 / 16 * N * u32 * S := mul_le_mul_of_nonneg_right hp hS
  have hη : (0 : ℝ) ≤ c * η32 := by unfold η32; positivity
  have h2 : c * η32 * (1 + u32) ^ N ≤ c * η32 * (9 / 8) := mul_le_mul_of_nonneg_left hp1 hη
  have e1 : (2 : ℝ) ^ (-24 : ℤ) = u32 := rfl
  have e2 : (2 : ℝ) ^ (-150 : ℤ) = η32 := rfl
  rw [e1, e2]
  unfold slack
  linarith

theorem absAffine_nonneg (n m : ℕ) (W b x : List ℝ) (k : ℕ) : 0 ≤ absAffine n m W b x k :=
  add_nonneg (abs_nonneg _) (sum_nonneg fun _ _ => abs_nonneg _)

/-- **C61** Any two builds agree up to twice the bound, which is about `n+1` units of `2^-23` times the sum of absolute
values.  Nothing better than that is true of `float`s: the sums are formed in different orders. -/
theorem C61_builds (L : B32.Libm) (c c' : Cfg) (n m : ℕ) (hn : n < 2 ^ 20) (weight bias input y : View B32) (W b x : List ℝ)
    (hal : AlignedFor c m y.addr) (hbl : AlignedFor c m bias.addr) (hal' : AlignedFor c' m y.addr) (hbl' : AlignedFor c' m bias.addr)
    (hy : m ≤ y.data.length) (hW : Floats weight.data W) (hb : Floats bias.data b) (hx : Floats input.data x)
    (lW : W.length = n * m) (lb : b.length = m) (lx : x.length = n)
    (hmax : ∀ k, k < m → peak (n + 1) n (absAffine n m W b x k) ≤ max32) :
    ∃ out out', @vectorMatrixMultiply B32 (B32.ops L) c n m weight bias input y = .ok ⟨y.addr, out ++ y.data.drop m⟩ ∧
      @vectorMatrixMultiply B32 (B32.ops L) c' n m weight bias input y = .ok ⟨y.addr, out' ++ y.data.drop m⟩ ∧
      out.length = m ∧ out'.length = m ∧
      ∀ k, k < m → ∃ a a', out[k]? = some a ∧ out'[k]? = some a' ∧ a.isFinite = true ∧ a'.isFinite = true ∧
        |a.value - a'.value| ≤ 17 / 8 * (n + 1) * 2 ^ (-24 : ℤ) * absAffine n m W b x k + 9 / 4 * n * 2 ^ (-150 : ℤ) := by
  obtain ⟨out, h1, h2, h3⟩ := C61_vectorMatrixMultiply L c n m weight bias input y W b x hal hbl hy hW hb hx lW lb lx hmax
  obtain ⟨out', h1', h2', h3'⟩ := C61_vectorMatrixMultiply L c' n m weight bias input y W b x hal' hbl' hy hW hb hx lW lb lx hmax
  refine ⟨out, out', h1, h1', h2, h2', ?_⟩
  intro k hk
  obtain ⟨a, ha, hf, he⟩ := h3 k hk
  obtain ⟨a', ha', hf', he'⟩ := h3' k hk
  refine ⟨a, a', ha, ha', hf, hf', ?_⟩
  have hs := slack_le (N := n + 1) (c := n) (by omega) (absAffine_nonneg n m W b x k)
  push_cast at hs
  have ht : |a.value - a'.value| ≤ |a.value - at_ (affine n m W b x) k| + |a'.value - at_ (affine n m W b x) k| := by
    have := abs_add_le (a.value - at_ (affine n m W b x) k) (-(a'.value - at_ (affine n m W b x) k))
    rwa [abs_neg, show ∀ p q r : ℝ, p - q + -(r - q) = p - r from fun p q r => by ring] at this
  linarith

/-- **C61** `vector_vector_outer`: every entry is rounded once.  Rows with `x[i] = 0` are left as they are, so the matrix has
to be zero before (as it is in the only caller). -/
theorem C61_vectorVectorOuter (L : B32.Libm) (c : Cfg) (n m : ℕ) (x y mat : View B32) (X Y : List ℝ) (hx : Floats x.data X)
    (hy : Floats y.data Y) (lX : X.length = n) (lY : Y.length = m) (hm : n * m ≤ mat.data.length)
    (hz : ∀ k, k < n * m → mat.data[k]? = some (B32.zeroS false))
    (hmax : ∀ i j, i < n → j < m → |at_ X i * at_ Y j| ≤ max32) :
    ∃ out, @vectorVectorOuter B32 (B32.ops L) c n m x y mat = .ok ⟨mat.addr, out ++ mat.data.drop (n * m)⟩ ∧ out.length = n * m ∧
      ∀ i j, i < n → j < m → ∃ a, out[i * m + j]? = some a ∧ a.isFinite = true ∧
        |a.value - at_ X i * at_ Y j| ≤ u32 * |at_ X i * at_ Y j| + η32 := by
  let _ := B32.ops L
  have ix : (B32.model L).IsL x.data X := hx
  have iy : (B32.model L).IsL y.data Y := hy
  have l1 := ix.length
  have l2 := iy.length
  refine ⟨(applyTo (outerOp m x.data y.data) (n * m) mat.data).take (n * m), ?_, by simp; omega, ?_⟩
  · rw [vectorVectorOuter_eq c n m x y mat (by omega) (by omega) hm]
    congr 2
    apply List.ext_getElem?
    intro k
    by_cases hk : k < n * m
    · rw [List.getElem?_append_left (by simp; omega)]
      simp [hk]
    · rw [List.getElem?_append_right (by simp; omega)]
      simp only [applyTo_getElem?, hk, List.length_take, applyTo_length, List.getElem?_drop]
      rw [show n * m + (k - min (n * m) mat.data.length) = k by omega]
      simp
  · intro i j hi hj
    have hk : i * m + j < n * m := by
      have : (i + 1) * m ≤ n * m := Nat.mul_le_mul_right _ hi
      rw [Nat.add_mul] at this; omega
    have hm0 : 0 < m := by omega
    have e1 : (i * m + j) / m = i := by rw [Nat.mul_comm, Nat.mul_add_div hm0, Nat.div_eq_of_lt hj, Nat.add_zero]
    have e2 : (i * m + j) % m = j := by rw [Nat.mul_comm, Nat.mul_add_mod, Nat.mod_eq_of_lt hj]
    obtain ⟨a, ha1, ha2⟩ := ix.get (i := i) (by omega)
    obtain ⟨b, hb1, hb2⟩ := iy.get (i := j) (by omega)
    rw [List.getElem?_take_of_lt hk, applyTo_getElem?, hz _ hk]
    simp only [Option.map_some, if_pos hk, outerOp, e1, e2, ha1, hb1]
    split_ifs with h0
    · refine ⟨_, rfl, ?_⟩
      have hx0 := ((B32.model L).eq ha2 (B32.model L).zero).1 h0
      have hzero := B32.is_zeroS false
      refine ⟨hzero.1, ?_⟩
      rw [hzero.2, hx0, zero_mul]
      simp [η32]
    · obtain ⟨z, hz1, hz2⟩ := (B32.model L).mul ha2 hb2 (hmax i j hi hj)
      have hz1' : B32.Is _ z := hz1
      exact ⟨_, rfl, hz1'.1, by rw [hz1'.2]; exact hz2⟩

theorem is_exact {s : Bool} {x : ℝ} (k j : ℤ) (hx : x = k * 2 ^ j) (hk : |k| < 2 ^ 24) (hj : -149 ≤ j) (h : |x| ≤ max32) :
    B32.Is (B32.ofReal s x) x := by
  have := B32.is_ofReal (s := s) (x := x) h
  rwa [B32.rnd_exact hx hk hj] at this

/-- A layer with two inputs and one output: `1/4 + 5·1/2 + 7·3`, at an unaligned address, in the AVX512 build. -/
example (L : B32.Libm) : ∃ out, @vectorMatrixMultiply B32 (B32.ops L) ⟨.avx512, true, true⟩ 2 1
      ⟨0, [B32.ofReal false (1 / 2), B32.ofReal false 3]⟩ ⟨4, [B32.ofReal false (1 / 4)]⟩ ⟨8, [B32.ofReal false 5, B32.ofReal false 7]⟩
      ⟨12, [B32.qnan]⟩ = .ok ⟨12, out ++ []⟩ ∧ out.length = 1 ∧ ∀ k, k < 1 → ∃ a, out[k]? = some a ∧ a.isFinite = true ∧
      |a.value - at_ (affine 2 1 [1 / 2, 3] [1 / 4] [5, 7]) k| ≤ slack 3 2 (absAffine 2 1 [1 / 2, 3] [1 / 4] [5, 7] k) := by
  have h1 : B32.Is (B32.ofReal false (1 / 2)) (1 / 2) := is_exact 1 (-1) (by norm_num) (by norm_num) (by norm_num) (by norm_num [max32])
  have h2 : B32.Is (B32.ofReal false 3) 3 := is_exact 3 0 (by norm_num) (by norm_num) (by norm_num) (by norm_num [max32])
  have h3 : B32.Is (B32.ofReal false (1 / 4)) (1 / 4) := is_exact 1 (-2) (by norm_num) (by norm_num) (by norm_num) (by norm_num [max32])
  have h4 : B32.Is (B32.ofReal false 5) 5 := is_exact 5 0 (by norm_num) (by norm_num) (by norm_num) (by norm_num [max32])
  have h5 : B32.Is (B32.ofReal false 7) 7 := is_exact 7 0 (by norm_num) (by norm_num) (by norm_num) (by norm_num [max32])
  have := C61_vectorMatrixMultiply L ⟨.avx512, true, true⟩ 2 1 ⟨0, [B32.ofReal false (1 / 2), B32.ofReal false 3]⟩
    ⟨4, [B32.ofReal false (1 / 4)]⟩ ⟨8, [B32.ofReal false 5, B32.ofReal false 7]⟩ ⟨12, [B32.qnan]⟩ [1 / 2, 3] [1 / 4] [5, 7]
    (AlignedFor.of_small (by norm_num)) (AlignedFor.of_small (by norm_num)) (by simp)
    (.cons h1 (.cons h2 .nil)) (.cons h3 .nil) (.cons h4 (.cons h5 .nil)) rfl rfl rfl
    (by
      intro k hk
      obtain rfl : k = 0 := by omega
      norm_num [peak, absAffine, sum_range_succ, at_, u32, η32, max32])
  simpa using this

/-- One row with the 8 lane build: `1·2 + 3·4`. -/
example (L : B32.Libm) : ∃ out, @matrixVectorMultiply B32 (B32.ops L) ⟨.avx, false, false⟩ 1 2
      ⟨0, [B32.ofReal false 1, B32.ofReal false 3]⟩ ⟨4, [B32.ofReal false 2, B32.ofReal false 4]⟩ ⟨8, [B32.zeroS false]⟩ =
        .ok ⟨8, out ++ []⟩ ∧ out.length = 1 ∧ ∀ i, i < 1 → ∃ a, out[i]? = some a ∧ a.isFinite = true ∧
      |a.value - at_ (matVec 1 2 [1, 3] [2, 4]) i| ≤ slack 7 2 (absMatVec 2 [1, 3] [2, 4] i) := by
  have h1 : B32.Is (B32.ofReal false 1) 1 := is_exact 1 0 (by norm_num) (by norm_num) (by norm_num) (by norm_num [max32])
  have h2 : B32.Is (B32.ofReal false 3) 3 := is_exact 3 0 (by norm_num) (by norm_num) (by norm_num) (by norm_num [max32])
  have h3 : B32.Is (B32.ofReal false 2) 2 := is_exact 2 0 (by norm_num) (by norm_num) (by norm_num) (by norm_num [max32])
  have h4 : B32.Is (B32.ofReal false 4) 4 := is_exact 4 0 (by norm_num) (by norm_num) (by norm_num) (by norm_num [max32])
  have hd : rowDepth ⟨.avx, false, false⟩ 2 = 7 := by decide
  have := C61_matrixVectorMultiply L ⟨.avx, false, false⟩ 1 2 ⟨0, [B32.ofReal false 1, B32.ofReal false 3]⟩
    ⟨4, [B32.ofReal false 2, B32.ofReal false 4]⟩ ⟨8, [B32.zeroS false]⟩ [1, 3] [2, 4] (by simp)
    (fun i _ => AlignedFor.of_small (by norm_num))
    (by intro _ i hi; obtain rfl : i = 0 := by omega
        rfl)
    (.cons h1 (.cons h2 .nil)) (.cons h3 (.cons h4 .nil)) rfl rfl
    (by
      intro k hk
      obtain rfl : k = 0 := by omega
      rw [hd]
      norm_num [peak, absMatVec, sum_range_succ, at_, u32, η32, max32])
  rw [hd] at this
  simpa using this

/-- The result of a float operation with exact result `x`: a finite number such that no finite number is closer to `x`. -/
def Nearest (r : B32) (x : ℝ) : Prop := r.isFinite = true ∧ ∀ d : B32, d.isFinite = true → |r.value - x| ≤ |d.value - x|

/-- **C61** The arithmetic in which these bounds are proved is IEEE arithmetic: on finite numbers each operation gives a number
nearest to the exact result, if that is below the overflow threshold, and infinity of the right sign otherwise. -/
theorem C61_ieee (a b e : B32) (ha : a.isFinite = true) (hb : b.isFinite = true) (he : e.isFinite = true) :
    (if |a.value + b.value| < B32.maxF32 + 2 ^ 103 then Nearest (B32.add a b) (a.value + b.value)
      else B32.add a b = B32.inf (decide (a.value + b.value < 0))) ∧
    (if |a.value - b.value| < B32.maxF32 + 2 ^ 103 then Nearest (B32.sub a b) (a.value - b.value)
      else B32.sub a b = B32.inf (decide (a.value - b.value < 0))) ∧
    (if |a.value * b.value| < B32.maxF32 + 2 ^ 103 then Nearest (B32.mul a b) (a.value * b.value)
      else B32.mul a b = B32.inf (decide (a.value * b.value < 0))) ∧
    (if |a.value * b.value + e.value| < B32.maxF32 + 2 ^ 103 then Nearest (B32.fma a b e) (a.value * b.value + e.value)
      else B32.fma a b e = B32.inf (decide (a.value * b.value + e.value < 0))) ∧
    (b.value ≠ 0 → if |a.value / b.value| < B32.maxF32 + 2 ^ 103 then Nearest (B32.div a b) (a.value / b.value)
      else B32.div a b = B32.inf (decide (a.value / b.value < 0))) ∧
    (0 ≤ a.value → Nearest (B32.sqrt a) (Real.sqrt a.value)) := by
  have key : ∀ (s : Bool) (x : ℝ), if |x| < B32.maxF32 + 2 ^ 103 then Nearest (B32.ofReal s x) x else B32.ofReal s x = B32.inf (decide (x < 0)) := by
    intro s x
    split
    · next h =>
      have := B32.is_ofReal' (s := s) h
      exact ⟨this.1, fun d hd => by rw [this.2]; exact B32.rnd_nearest x hd⟩
    · next h => exact B32.ofReal_inf (not_lt.1 h)
  have hfin : ∀ c : B32, c.isFinite = true → c.isNan = false ∧ c.isInf = false := by
    intro c hc
    simp only [B32.isFinite, bne_iff_ne, ne_eq] at hc
    simp [B32.isNan, B32.isInf, hc]
  obtain ⟨a1, a2⟩ := hfin a ha
  obtain ⟨b1, b2⟩ := hfin b hb
  obtain ⟨e1, e2⟩ := hfin e he
  have hn := B32.is_neg (⟨hb, rfl⟩ : B32.Is b b.value)
  obtain ⟨n1, n2⟩ := hfin _ hn.1
  refine ⟨?_, ?_, ?_, ?_, ?_, ?_⟩
  · have : B32.add a b = B32.ofReal (a.sign && b.sign) (a.value + b.value) := by simp [B32.add, a1, a2, b1, b2]
    rw [this]; exact key _ _
  · have : B32.sub a b = B32.ofReal (a.sign && (B32.neg b).sign) (a.value - b.value) := by
      simp [B32.sub, B32.add, a1, a2, n1, n2, hn.2, sub_eq_add_neg]
    rw [this]; exact key _ _
  · have : B32.mul a b = B32.ofReal (a.sign ^^ b.sign) (a.value * b.value) := by simp [B32.mul, a1, a2, b1, b2]
    rw [this]; exact key _ _
  · have : B32.fma a b e = B32.ofReal ((a.sign ^^ b.sign) && e.sign) (a.value * b.value + e.value) := by
      simp [B32.fma, a1, a2, b1, b2, e1, e2]
    rw [this]; exact key _ _
  · intro h0
    have : B32.div a b = B32.ofReal (a.sign ^^ b.sign) (a.value / b.value) := by simp [B32.div, a1, a2, b1, b2, h0]
    rw [this]; exact key _ _
  · intro h0
    by_cases hz : a.value = 0
    · have : B32.sqrt a = a := by simp [B32.sqrt, a1, ha, hz]
      rw [this, hz, Real.sqrt_zero]
      exact ⟨ha, fun d _ => by rw [hz]; simp⟩
    · have hp : 0 < a.value := lt_of_le_of_ne h0 (Ne.symm hz)
      have hs : a.sign = false := B32.sign_of_pos hp
      have : B32.sqrt a = B32.ofReal false (Real.sqrt a.value) := by simp [B32.sqrt, a1, a2, ha, hz, hs]
      rw [this]
      have hk := key false (Real.sqrt a.value)
      rwa [if_pos] at hk
      have hm := B32.value_abs_le ha
      rw [abs_of_pos hp] at hm
      rw [abs_of_nonneg (Real.sqrt_nonneg _)]
      calc Real.sqrt a.value ≤ Real.sqrt ((2 ^ 64) ^ 2) := by
            apply Real.sqrt_le_sqrt
            refine hm.trans ?_
            norm_num [B32.maxF32]
        _ = 2 ^ 64 := Real.sqrt_sq (by norm_num)
        _ < _ := by norm_num [B32.maxF32]

/-- The float 1/3 is not 1/3, but no float is closer. -/
example : Nearest (B32.div (B32.ofReal false 1) (B32.ofReal false 3)) (1 / 3) := by
  have h1 : B32.Is (B32.ofReal false 1) 1 := is_exact 1 0 (by norm_num) (by norm_num) (by norm_num) (by norm_num [max32])
  have h3 : B32.Is (B32.ofReal false 3) 3 := is_exact 3 0 (by norm_num) (by norm_num) (by norm_num) (by norm_num [max32])
  have := (C61_ieee _ _ _ h1.1 h3.1 h1.1).2.2.2.2.1 (by rw [h3.2]; norm_num)
  rw [h1.2, h3.2] at this
  rwa [if_pos (by norm_num [B32.maxF32, abs_of_pos])] at this

/-- `FLT_MAX + FLT_MAX = +∞`. -/
example : B32.add (B32.ofReal false B32.maxF32) (B32.ofReal false B32.maxF32) = B32.inf false := by
  have h1 : B32.Is (B32.ofReal false B32.maxF32) B32.maxF32 :=
    is_exact (2 ^ 24 - 1) 104 (by norm_num [B32.maxF32]) (by norm_num) (by norm_num) (by norm_num [B32.maxF32, max32, abs_of_pos])
  have := (C61_ieee _ _ _ h1.1 h1.1 h1.1).1
  rw [h1.2] at this
  rw [if_neg (by norm_num [B32.maxF32, abs_of_pos])] at this
  rw [this]
  norm_num [B32.maxF32]

end NN
