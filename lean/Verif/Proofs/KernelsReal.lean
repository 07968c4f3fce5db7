import Verif.Model.RealOps
import Verif.Proofs.Kernels
import Verif.Spec.Linear
import Mathlib.Algebra.BigOperators.Fin
import Mathlib.Algebra.Order.BigOperators.Group.Finset
import Mathlib.Tactic.Ring
import Mathlib.Tactic.Linarith
/-
The list functions computed by the kernels equal their specification in exact arithmetic.
-/
set_option linter.unusedSimpArgs false

namespace NN
open FloatOps Finset Spec

theorem at_eq {l : List ℝ} {i : ℕ} (h : i < l.length) : at_ l i = l[i] := by
  simp [at_, h]

theorem vmmStep_real (c : Cfg) (m k : ℕ) (x w y : ℝ) : vmmStep c m k x w y = y + x * w := by
  unfold vmmStep
  by_cases h0 : x = 0
  · simp [h0]
  · by_cases h1 : x = 1
    · simp [h0, h1]
    · simp only [RealOps.eq_iff, RealOps.zero_def, RealOps.one_def, h0, h1, if_false]
      split
      · split
        · simp; ring
        · simp; ring
      · simp

theorem vmmElem_real (c : Cfg) (m : ℕ) (w x : List ℝ) (n k : ℕ) (b : ℝ)
    (hx : n ≤ x.length) (hk : k < m) (hw : n * m ≤ w.length) :
    vmmElem c m w x n k b = b + ∑ i ∈ range n, at_ x i * at_ w (i * m + k) := by
  induction n with
  | zero => simp [vmmElem]
  | succ n ih =>
    have hw' : n * m + m ≤ w.length := by rw [Nat.succ_mul] at hw; exact hw
    have e := ih (by omega) (by omega)
    unfold vmmElem at e ⊢
    rw [List.range_succ, List.foldl_append, e]
    have h1 : n < x.length := by omega
    have h2 : n * m + k < w.length := by omega
    simp only [List.foldl_cons, List.foldl_nil, h1, h2, List.getElem?_eq_getElem, vmmStep_real]
    rw [sum_range_succ, at_eq h1, at_eq h2]; ring

theorem vmmF_real (c : Cfg) (n m : ℕ) (w b x : List ℝ) (hb : m ≤ b.length)
    (hx : n ≤ x.length) (hw : n * m ≤ w.length) :
    vmmF c n m w b x = affine n m w b x := by
  apply List.ext_getElem?; intro k
  unfold vmmF affine
  by_cases hk : k < m
  · have h1 : k < b.length := by omega
    simp [hk, h1, at_eq h1, vmmElem_real c m w x n k _ hx hk hw]
  · have h1 : ((List.take m b).mapIdx fun k bk => vmmElem c m w x n k bk)[k]? = none := by
      rw [List.getElem?_eq_none]; simp; omega
    simp [h1]; omega

theorem horizontalsum_real {l : List ℝ} (h : l.length = 8) : horizontalsumAvx l = l.sum := by
  rcases l with _ | ⟨a0, _ | ⟨a1, _ | ⟨a2, _ | ⟨a3, _ | ⟨a4, _ | ⟨a5, _ | ⟨a6, _ | ⟨a7, _ | ⟨a8, l⟩⟩⟩⟩⟩⟩⟩⟩⟩ <;>
    simp_all [horizontalsumAvx]
  ring

theorem reduceAdd512_real {l : List ℝ} (h : l.length = 16) : reduceAdd512 l = l.sum := by
  match l, h with
  | [x0, x1, x2, x3, x4, x5, x6, x7, x8, x9, x10, x11, x12, x13, x14, x15], _ =>
    simp [reduceAdd512]; ring

theorem zipWith_add_sum {a b : List ℝ} (h : a.length = b.length) :
    (List.zipWith (fun x y => x + y) a b).sum = a.sum + b.sum := by
  induction a generalizing b with
  | nil => cases b <;> simp_all
  | cons x a ih =>
    cases b with
    | nil => simp at h
    | cons y b =>
      simp at h
      simp [ih h]; ring

theorem vfma_real {a b s : List ℝ} : vfma a b s = List.zipWith (fun x y => x + y) (List.zipWith (fun x y => x * y) a b) s := by
  apply List.ext_getElem?; intro i
  rw [vfma_getElem?]
  simp only [List.getElem?_zipWith]
  rcases a[i]? with _ | x <;> rcases b[i]? with _ | y <;> rcases s[i]? with _ | z <;> simp

theorem sum_map_range (w : ℕ) (f : ℕ → ℝ) : ((List.range w).map f).sum = ∑ k ∈ range w, f k := by
  induction w with
  | zero => simp
  | succ w ih => rw [List.range_succ, List.map_append, List.sum_append, ih, sum_range_succ]; simp

theorem slice_mul_sum {v r : List ℝ} {o w : ℕ} (hv : o + w ≤ v.length) (hr : o + w ≤ r.length) :
    (List.zipWith (fun x y => x * y) (slice v o w) (slice r o w)).sum =
      ∑ k ∈ range w, at_ v (o + k) * at_ r (o + k) := by
  have : List.zipWith (fun x y => x * y) (slice v o w) (slice r o w) =
      (List.range w).map fun k => at_ v (o + k) * at_ r (o + k) := by
    apply List.ext_getElem?; intro i
    simp only [List.getElem?_zipWith, slice_getElem?, List.getElem?_map]
    by_cases hi : i < w
    · have h1 : o + i < v.length := by omega
      have h2 : o + i < r.length := by omega
      simp [hi, h1, h2, at_eq h1, at_eq h2]
    · simp [hi]
  rw [this, sum_map_range]

theorem lanesAcc_real (c : Cfg) (w j0 : ℕ) (row v : List ℝ) (t : ℕ)
    (hv : j0 + w * t ≤ v.length) (hr : j0 + w * t ≤ row.length) :
    (lanesAcc c w j0 row v t).length = w ∧
    (lanesAcc c w j0 row v t).sum = ∑ k ∈ range (w * t), at_ v (j0 + k) * at_ row (j0 + k) := by
  induction t with
  | zero => simp [lanesAcc, set1]
  | succ t ih =>
    have e : w * (t + 1) = w * t + w := by ring
    rw [e] at hv hr
    obtain ⟨hl, hs⟩ := ih (by omega) (by omega)
    have hmul := slice_mul_sum (v := v) (r := row) (o := j0 + w * t) (w := w) (by omega) (by omega)
    have hlen : (List.zipWith (fun x y => x * y) (slice v (j0 + w * t) w) (slice row (j0 + w * t) w)).length = w := by
      simp; omega
    rw [e, Finset.sum_range_add, ← hs]
    simp only [lanesAcc]
    simp only [← Nat.add_assoc]
    rw [← hmul]
    split
    · rw [vfma_real]
      constructor
      · rw [List.length_zipWith, hlen, hl]; simp
      · rw [zipWith_add_sum (by rw [hlen, hl])]; ring
    · have e2 : vop2 add (lanesAcc c w j0 row v t)
          (vop2 mul (slice v (j0 + w * t) w) (slice row (j0 + w * t) w)) =
          List.zipWith (fun x y => x + y) (lanesAcc c w j0 row v t)
            (List.zipWith (fun x y => x * y) (slice v (j0 + w * t) w) (slice row (j0 + w * t) w)) := rfl
      rw [e2]
      constructor
      · rw [List.length_zipWith, hlen, hl]; simp
      · rw [zipWith_add_sum (by rw [hlen, hl])]

theorem tailAcc_real (j0 : ℕ) (row v : List ℝ) (y : ℝ) (t : ℕ)
    (hv : j0 + t ≤ v.length) (hr : j0 + t ≤ row.length) :
    tailAcc j0 row v y t = y + ∑ k ∈ range t, at_ v (j0 + k) * at_ row (j0 + k) := by
  induction t with
  | zero => simp [tailAcc]
  | succ t ih =>
    have h1 : j0 + t < v.length := by omega
    have h2 : j0 + t < row.length := by omega
    rw [tailAcc, sum_range_succ, ih (by omega) (by omega)]
    simp [h1, h2, at_eq h1, at_eq h2]; ring

/-- One row of `matrix_vector_multiply`: the AVX512 build forgets the previous value of `y[i]`. -/
theorem dotF_real (c : Cfg) (n : ℕ) (row v : List ℝ) (y : ℝ) (hv : n ≤ v.length) (hr : n ≤ row.length) :
    dotF c n row v y = (if c.avx512 then 0 else y) + ∑ j ∈ range n, at_ v j * at_ row j := by
  have split : ∀ a b, a + b = n → ∑ j ∈ range n, at_ v j * at_ row j =
      ∑ j ∈ range a, at_ v j * at_ row j + ∑ k ∈ range b, at_ v (a + k) * at_ row (a + k) := by
    intro a b h; rw [← h, Finset.sum_range_add]
  have h512 := @Cfg.avx_of_avx512 c
  cases h5 : c.avx512 <;> cases hx : c.avx <;> simp only [h5, hx] at h512 <;>
    simp only [dotF, h5, hx, if_true, if_false, Bool.false_eq_true]
  · rw [tailAcc_real _ _ _ _ _ (by omega) (by omega)]; simp
  · rw [tailAcc_real _ _ _ _ _ (by omega) (by omega)]
    obtain ⟨hl, hs⟩ := lanesAcc_real c 8 0 row v ((n - 0) / 8) (by omega) (by omega)
    simp only [RealOps.add_def, horizontalsum_real hl, hs]
    rw [split (0 + 8 * ((n - 0) / 8)) (n - (0 + 8 * ((n - 0) / 8))) (by omega)]
    simp only [Nat.zero_add]; ring
  · simp at h512
  · rw [tailAcc_real _ _ _ _ _ (by omega) (by omega)]
    obtain ⟨hl, hs⟩ := lanesAcc_real c 16 0 row v (n / 16) (by omega) (by omega)
    obtain ⟨hl8, hs8⟩ := lanesAcc_real c 8 (16 * (n / 16)) row v ((n - 16 * (n / 16)) / 8) (by omega) (by omega)
    simp only [RealOps.add_def, horizontalsum_real hl8, hs8, reduceAdd512_real hl, hs]
    rw [split (16 * (n / 16) + 8 * ((n - 16 * (n / 16)) / 8))
      (n - (16 * (n / 16) + 8 * ((n - 16 * (n / 16)) / 8))) (by omega), Finset.sum_range_add]
    simp only [Nat.zero_add]; ring

theorem at_drop (l : List ℝ) (o j : ℕ) : at_ (l.drop o) j = at_ l (o + j) := by
  simp [at_, List.getD_eq_getElem?_getD]

end NN
