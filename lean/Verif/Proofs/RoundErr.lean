import Verif.Proofs.FloatModel
import Verif.Proofs.KernelsReal
import Mathlib.Algebra.Order.BigOperators.Group.Finset
/-
Rounding errors of the sums of products in src/matrix_operations.c, in the standard model.
-/
namespace NN
open FloatOps Finset
variable {F : Type} [FloatOps F]

namespace FloatModel
variable (P : FloatModel F)

/-- `a` is finite and differs from `y`, a sum of terms whose absolute values add up to at most `S`, by at most what `k`
roundings on the way of each term and `c` underflows can cause. -/
def Near (k : ℕ) (c S y : ℝ) (a : F) : Prop :=
  ∃ z, P.Is a z ∧ |y| ≤ S ∧ |z - y| ≤ ((1 + P.u) ^ k - 1) * S + c * P.η * (1 + P.u) ^ k

theorem one_le_pow (k : ℕ) : 1 ≤ (1 + P.u) ^ k := one_le_pow₀ (by have := P.u_nonneg; linarith)

theorem pow_mono {k l : ℕ} (h : k ≤ l) : (1 + P.u) ^ k ≤ (1 + P.u) ^ l :=
  pow_le_pow_right₀ (by have := P.u_nonneg; linarith) h

variable {P}

theorem Near.mono {k l : ℕ} {c d S T y : ℝ} {a : F} (h : P.Near k c S y a) (hc0 : 0 ≤ c) (hk : k ≤ l) (hc : c ≤ d) (hS : S ≤ T) :
    P.Near l d T y a := by
  obtain ⟨z, h1, h2, h3⟩ := h
  refine ⟨z, h1, h2.trans hS, h3.trans ?_⟩
  have hu := P.u_nonneg
  have hη := P.η_nonneg
  have p1 := P.one_le_pow k
  have p2 := P.pow_mono hk
  have hS0 : 0 ≤ S := (abs_nonneg _).trans h2
  apply add_le_add
  · apply mul_le_mul (by linarith) hS hS0 (by linarith)
  · apply mul_le_mul (mul_le_mul_of_nonneg_right hc hη) p2 (by linarith)
    exact mul_nonneg (hc0.trans hc) hη

theorem near_exact {a : F} {x : ℝ} (h : P.Is a x) : P.Near 0 0 |x| x a := ⟨x, h, le_rfl, by simp⟩

/-- Bound on the number itself. -/
theorem Near.bound {k : ℕ} {c S y : ℝ} {a : F} (h : P.Near k c S y a) :
    ∃ z, P.Is a z ∧ |y| ≤ S ∧ |z - y| ≤ ((1 + P.u) ^ k - 1) * S + c * P.η * (1 + P.u) ^ k ∧
      |z| ≤ (1 + P.u) ^ k * (S + c * P.η) := by
  obtain ⟨z, h1, h2, h3⟩ := h
  refine ⟨z, h1, h2, h3, ?_⟩
  have : |z| ≤ |z - y| + |y| := by
    have := abs_add_le (z - y) y; simpa using this
  nlinarith

theorem Near.add {k : ℕ} {c1 c2 S1 S2 y1 y2 : ℝ} {a b : F} (h1 : P.Near k c1 S1 y1 a) (h2 : P.Near k c2 S2 y2 b)
    (hΩ : (1 + P.u) ^ k * (S1 + S2 + (c1 + c2) * P.η) ≤ P.Ω) :
    P.Near (k + 1) (c1 + c2) (S1 + S2) (y1 + y2) (FloatOps.add a b) := by
  obtain ⟨z1, i1, s1, e1, b1⟩ := h1.bound
  obtain ⟨z2, i2, s2, e2, b2⟩ := h2.bound
  have hu := P.u_nonneg
  have hz : |z1 + z2| ≤ P.Ω := by
    refine (abs_add_le _ _).trans ?_
    nlinarith
  obtain ⟨z, i, e⟩ := P.add i1 i2 hz
  have hy : |y1 + y2| ≤ S1 + S2 := (abs_add_le _ _).trans (add_le_add s1 s2)
  refine ⟨z, i, hy, ?_⟩
  have hd : |z1 + z2 - (y1 + y2)| ≤ |z1 - y1| + |z2 - y2| := by
    rw [show z1 + z2 - (y1 + y2) = (z1 - y1) + (z2 - y2) by ring]; exact abs_add_le _ _
  have hn : |z1 + z2| ≤ |z1 + z2 - (y1 + y2)| + |y1 + y2| := by
    have := abs_add_le (z1 + z2 - (y1 + y2)) (y1 + y2); simpa using this
  have ht : |z - (y1 + y2)| ≤ |z - (z1 + z2)| + |z1 + z2 - (y1 + y2)| := by
    have := abs_add_le (z - (z1 + z2)) (z1 + z2 - (y1 + y2)); simpa using this
  set D := |z1 + z2 - (y1 + y2)|
  have hD : D ≤ ((1 + P.u) ^ k - 1) * (S1 + S2) + (c1 + c2) * P.η * (1 + P.u) ^ k := by linarith
  have hDu := mul_le_mul_of_nonneg_left hD (show 0 ≤ 1 + P.u by linarith)
  have hu2 : P.u * |z1 + z2| ≤ P.u * (D + (S1 + S2)) := mul_le_mul_of_nonneg_left (by linarith) hu
  calc |z - (y1 + y2)| ≤ (1 + P.u) * D + P.u * (S1 + S2) := by linarith
    _ ≤ _ := by rw [pow_succ]; linarith

theorem near_mul {a b : F} {x y : ℝ} (ha : P.Is a x) (hb : P.Is b y) (h : |x * y| ≤ P.Ω) :
    P.Near 1 1 |x * y| (x * y) (FloatOps.mul a b) := by
  obtain ⟨z, i, e⟩ := P.mul ha hb h
  refine ⟨z, i, le_rfl, e.trans ?_⟩
  have := mul_nonneg P.η_nonneg P.u_nonneg
  rw [pow_one]
  linarith

theorem Near.fma {k : ℕ} {c S y0 x y : ℝ} {a b d : F} (ha : P.Is a x) (hb : P.Is b y) (h : P.Near k c S y0 d)
    (hΩ : (1 + P.u) ^ k * (S + |x * y| + c * P.η) ≤ P.Ω) :
    P.Near (k + 1) (c + 1) (S + |x * y|) (y0 + x * y) (FloatOps.fma a b d) := by
  obtain ⟨w, i1, s1, e1, b1⟩ := h.bound
  have hu := P.u_nonneg
  have hη := P.η_nonneg
  have p1 := P.one_le_pow k
  have p2 := P.one_le_pow (k + 1)
  have ha0 := abs_nonneg (x * y)
  have hz : |x * y + w| ≤ P.Ω := by
    refine (abs_add_le _ _).trans ?_
    nlinarith
  obtain ⟨z, i, e⟩ := P.fma ha hb i1 hz
  have hy : |y0 + x * y| ≤ S + |x * y| := (abs_add_le _ _).trans (by linarith)
  refine ⟨z, i, hy, ?_⟩
  have hn : |x * y + w| ≤ |w - y0| + |y0 + x * y| := by
    have := abs_add_le (w - y0) (y0 + x * y)
    rwa [show w - y0 + (y0 + x * y) = x * y + w by ring] at this
  have ht : |z - (y0 + x * y)| ≤ |z - (x * y + w)| + |w - y0| := by
    have := abs_add_le (z - (x * y + w)) (w - y0)
    rwa [show z - (x * y + w) + (w - y0) = z - (y0 + x * y) by ring] at this
  set D := |w - y0|
  have hD : D ≤ ((1 + P.u) ^ k - 1) * (S + |x * y|) + c * P.η * (1 + P.u) ^ k := by nlinarith
  have hDu := mul_le_mul_of_nonneg_left hD (show 0 ≤ 1 + P.u by linarith)
  have hu2 : P.u * |x * y + w| ≤ P.u * (D + (S + |x * y|)) := mul_le_mul_of_nonneg_left (by linarith) hu
  have hη2 : P.η ≤ P.η * (1 + P.u) ^ (k + 1) := le_mul_of_one_le_right hη p2
  calc |z - (y0 + x * y)| ≤ (1 + P.u) * D + P.u * (S + |x * y|) + P.η := by linarith
    _ ≤ _ := by rw [pow_succ] at hη2 ⊢; linarith

/-- The overflow condition is monotone. -/
theorem omega_mono {k l : ℕ} {S T c d : ℝ} (h : (1 + P.u) ^ l * (T + d * P.η) ≤ P.Ω) (hk : k ≤ l) (hS : S ≤ T) (hS0 : 0 ≤ S)
    (hc : c ≤ d) (hc0 : 0 ≤ c) : (1 + P.u) ^ k * (S + c * P.η) ≤ P.Ω := by
  refine le_trans ?_ h
  have hη := P.η_nonneg
  have p1 := P.one_le_pow k
  have := mul_nonneg hc0 hη
  have := mul_le_mul_of_nonneg_right hc hη
  apply mul_le_mul (P.pow_mono hk) (by linarith) (by linarith) (by have := P.one_le_pow l; linarith)

/-- Without the powers. -/
theorem omega_zero {l : ℕ} {S T d : ℝ} (h : (1 + P.u) ^ l * (T + d * P.η) ≤ P.Ω) (hS : S ≤ T) (hS0 : 0 ≤ S) (hd : 0 ≤ d) : S ≤ P.Ω := by
  have := omega_mono (k := 0) (c := 0) h (Nat.zero_le _) hS hS0 hd le_rfl
  simpa using this

variable (P) in
/-- The list begins with finite numbers that have these values. -/
def IsL (l : List F) (r : List ℝ) : Prop := List.Forall₂ P.Is (l.take r.length) r

theorem IsL.length {l : List F} {r : List ℝ} (h : P.IsL l r) : r.length ≤ l.length := by
  have := h.length_eq
  simp at this; omega

theorem IsL.get {l : List F} {r : List ℝ} (h : P.IsL l r) {i : ℕ} (hi : i < r.length) :
    ∃ a, l[i]? = some a ∧ P.Is a (Spec.at_ r i) := by
  have hl : i < l.length := hi.trans_le h.length
  refine ⟨l[i], List.getElem?_eq_getElem hl, ?_⟩
  have := (List.forall₂_iff_get.1 h).2 i (by simp; omega) hi
  simpa [Spec.at_, hi] using this

theorem isL_of_get {l : List F} {r : List ℝ} (h : ∀ i, i < r.length → ∃ a, l[i]? = some a ∧ P.Is a (Spec.at_ r i)) : P.IsL l r := by
  have hlen : r.length ≤ l.length := by
    by_contra hc
    push Not at hc
    obtain ⟨a, h1, _⟩ := h l.length hc
    simp at h1
  rw [IsL, List.forall₂_iff_get]
  refine ⟨by simp [hlen], ?_⟩
  intro i h1 h2
  obtain ⟨a, ha1, ha2⟩ := h i h2
  have : l[i]'(by omega) = a := by
    rw [List.getElem?_eq_getElem (by omega)] at ha1; simpa using ha1
  simpa [this, Spec.at_, h2] using ha2

theorem IsL.drop {l : List F} {r : List ℝ} (h : P.IsL l r) (k : ℕ) : P.IsL (l.drop k) (r.drop k) := by
  apply isL_of_get
  intro i hi
  simp at hi
  obtain ⟨a, h1, h2⟩ := h.get (i := k + i) (by omega)
  exact ⟨a, by simpa using h1, by rwa [at_drop]⟩

/-- One output of `vector_matrix_multiply`. -/
theorem near_vmmElem (c : Cfg) (m : ℕ) {w x : List F} {wr xr : List ℝ} (hw : P.IsL w wr) (hx : P.IsL x xr) {N k : ℕ} {b : F} {br : ℝ}
    (hb : P.Is b br) (hk : k < m) (hN : N ≤ xr.length) (hNm : N * m ≤ wr.length)
    (hΩ : (1 + P.u) ^ (N + 1) * (|br| + ∑ i ∈ range N, |Spec.at_ xr i * Spec.at_ wr (i * m + k)| + N * P.η) ≤ P.Ω)
    {n : ℕ} (hn : n ≤ N) :
    P.Near (n + 1) n (|br| + ∑ i ∈ range n, |Spec.at_ xr i * Spec.at_ wr (i * m + k)|)
      (br + ∑ i ∈ range n, Spec.at_ xr i * Spec.at_ wr (i * m + k)) (vmmElem c m w x n k b) := by
  induction n with
  | zero => simpa [vmmElem] using (near_exact hb).mono le_rfl (Nat.zero_le 1) le_rfl le_rfl
  | succ n ih =>
    have ih := ih (by omega)
    obtain ⟨a, ha1, ha2⟩ := hx.get (i := n) (by omega)
    have hidx : n * m + k < wr.length := by
      have : (n + 1) * m ≤ N * m := Nat.mul_le_mul_right _ hn
      rw [Nat.add_mul] at this; omega
    obtain ⟨v, hv1, hv2⟩ := hw.get hidx
    have e : vmmElem c m w x (n + 1) k b = vmmStep c m k a v (vmmElem c m w x n k b) := by
      simp only [vmmElem, List.range_succ, List.foldl_append, List.foldl_cons, List.foldl_nil, ha1, hv1]
    rw [e, sum_range_succ, sum_range_succ, ← add_assoc, ← add_assoc]
    set X := Spec.at_ xr n
    set W := Spec.at_ wr (n * m + k)
    set S := |br| + ∑ i ∈ range n, |Spec.at_ xr i * Spec.at_ wr (i * m + k)| with hS
    set y := br + ∑ i ∈ range n, Spec.at_ xr i * Spec.at_ wr (i * m + k)
    have hS0 : 0 ≤ S := add_nonneg (abs_nonneg _) (sum_nonneg fun _ _ => abs_nonneg _)
    have hsum : S + |X * W| ≤ |br| + ∑ i ∈ range N, |Spec.at_ xr i * Spec.at_ wr (i * m + k)| := by
      have : ∑ i ∈ range (n + 1), |Spec.at_ xr i * Spec.at_ wr (i * m + k)| ≤
          ∑ i ∈ range N, |Spec.at_ xr i * Spec.at_ wr (i * m + k)| :=
        sum_le_sum_of_subset_of_nonneg (range_subset_range.2 hn) (fun _ _ _ => abs_nonneg _)
      rw [sum_range_succ] at this
      simp only [hS]; linarith
    have hn1 : ((n : ℝ) + 1) ≤ N := by exact_mod_cast hn
    have hab := abs_nonneg (X * W)
    have hn0 : (0 : ℝ) ≤ n := Nat.cast_nonneg _
    have hΩn : (1 + P.u) ^ (n + 1) * (S + |X * W| + ((n : ℝ) + 1) * P.η) ≤ P.Ω :=
      omega_mono hΩ (by omega) hsum (by linarith) hn1 (by linarith)
    push_cast
    unfold vmmStep
    have hmulΩ : |X * W| ≤ P.Ω := omega_zero hΩ (by linarith) hab (by linarith)
    have key : ∀ {p : F}, P.Near (n + 1) 1 |X * W| (X * W) p →
        P.Near (n + 1 + 1) (n + 1) (S + |X * W|) (y + X * W) (FloatOps.add (vmmElem c m w x n k b) p) := by
      intro p hp
      exact ih.add hp hΩn
    split_ifs with h0 h1 h2 h3
    · rw [P.eq ha2 P.zero] at h0
      rw [h0, zero_mul, abs_zero, add_zero, add_zero]
      exact ih.mono hn0 (by omega) (by linarith) le_rfl
    · rw [P.eq ha2 P.one] at h1
      apply key
      rw [h1, one_mul]
      exact (near_exact hv2).mono le_rfl (Nat.zero_le _) (by norm_num) le_rfl
    · have := Near.fma hv2 ha2 ih (by rw [mul_comm W X]; exact omega_mono hΩ (by omega) hsum (by linarith) (by linarith) hn0)
      rwa [mul_comm W X] at this
    · apply key
      have := near_mul hv2 ha2 (by rwa [mul_comm W X])
      rw [mul_comm W X] at this
      exact this.mono (by norm_num) (by omega) le_rfl le_rfl
    · apply key
      exact (near_mul ha2 hv2 hmulΩ).mono (by norm_num) (by omega) le_rfl le_rfl

theorem Near.nonneg {k : ℕ} {c S y : ℝ} {a : F} (h : P.Near k c S y a) : 0 ≤ S := by
  obtain ⟨_, _, h2, _⟩ := h
  exact (abs_nonneg _).trans h2

/-- `Near.add` within a budget. -/
theorem Near.addB {K : ℕ} {T d : ℝ} (hΩ : (1 + P.u) ^ K * (T + d * P.η) ≤ P.Ω) {k : ℕ} {c1 c2 S1 S2 y1 y2 : ℝ} {a b : F}
    (h1 : P.Near k c1 S1 y1 a) (h2 : P.Near k c2 S2 y2 b) (hk : k ≤ K) (hc1 : 0 ≤ c1) (hc2 : 0 ≤ c2) (hc : c1 + c2 ≤ d)
    (hS : S1 + S2 ≤ T) : P.Near (k + 1) (c1 + c2) (S1 + S2) (y1 + y2) (FloatOps.add a b) :=
  h1.add h2 (omega_mono hΩ hk hS (add_nonneg h1.nonneg h2.nonneg) hc (add_nonneg hc1 hc2))

/-- `horizontalsum_avx`. -/
theorem near_hsum8 {k : ℕ} {c : ℝ} (hc : 0 ≤ c) {S y : ℕ → ℝ} {l : List F} (hl : l.length = 8)
    (h : ∀ i, i < 8 → ∃ a, l[i]? = some a ∧ P.Near k c (S i) (y i) a)
    (hΩ : (1 + P.u) ^ (k + 2) * (∑ i ∈ range 8, S i + 8 * c * P.η) ≤ P.Ω) :
    P.Near (k + 3) (8 * c) (∑ i ∈ range 8, S i) (∑ i ∈ range 8, y i) (horizontalsumAvx l) := by
  match l, hl with
  | [a0, a1, a2, a3, a4, a5, a6, a7], _ =>
    have g : ∀ i, (hi : i < 8) → P.Near k c (S i) (y i) [a0, a1, a2, a3, a4, a5, a6, a7][i] := by
      intro i hi
      obtain ⟨a, h1, h2⟩ := h i hi
      rw [List.getElem?_eq_getElem (by simpa using hi)] at h1
      simp only [Option.some.injEq] at h1
      rwa [h1]
    have g0 := g 0 (by norm_num)
    have g1 := g 1 (by norm_num)
    have g2 := g 2 (by norm_num)
    have g3 := g 3 (by norm_num)
    have g4 := g 4 (by norm_num)
    have g5 := g 5 (by norm_num)
    have g6 := g 6 (by norm_num)
    have g7 := g 7 (by norm_num)
    simp only [List.getElem_cons_zero, List.getElem_cons_succ] at g0 g1 g2 g3 g4 g5 g6 g7
    clear g h
    have n0 := g0.nonneg
    have n1 := g1.nonneg
    have n2 := g2.nonneg
    have n3 := g3.nonneg
    have n4 := g4.nonneg
    have n5 := g5.nonneg
    have n6 := g6.nonneg
    have n7 := g7.nonneg
    simp only [sum_range_succ, sum_range_zero, zero_add] at hΩ ⊢
    have h01 := Near.addB hΩ g0 g1 (by omega) hc hc (by linarith) (by linarith)
    have h45 := Near.addB hΩ g4 g5 (by omega) hc hc (by linarith) (by linarith)
    have h23 := Near.addB hΩ g2 g3 (by omega) hc hc (by linarith) (by linarith)
    have h67 := Near.addB hΩ g6 g7 (by omega) hc hc (by linarith) (by linarith)
    have hA := Near.addB hΩ h01 h45 (by omega) (by linarith) (by linarith) (by linarith) (by linarith)
    have hB := Near.addB hΩ h23 h67 (by omega) (by linarith) (by linarith) (by linarith) (by linarith)
    have hC := Near.addB hΩ hA hB (by omega) (by linarith) (by linarith) (by linarith) (by linarith)
    convert hC using 1 <;> first | rfl | ring

/-- `_mm512_reduce_add_ps`. -/
theorem near_reduce16 {k : ℕ} {c : ℝ} (hc : 0 ≤ c) {S y : ℕ → ℝ} {l : List F} (hl : l.length = 16)
    (h : ∀ i, i < 16 → ∃ a, l[i]? = some a ∧ P.Near k c (S i) (y i) a)
    (hΩ : (1 + P.u) ^ (k + 3) * (∑ i ∈ range 16, S i + 16 * c * P.η) ≤ P.Ω) :
    P.Near (k + 4) (16 * c) (∑ i ∈ range 16, S i) (∑ i ∈ range 16, y i) (reduceAdd512 l) := by
  match l, hl with
  | [a0, a1, a2, a3, a4, a5, a6, a7, a8, a9, a10, a11, a12, a13, a14, a15], _ =>
    have g : ∀ i, (hi : i < 16) → P.Near k c (S i) (y i) [a0, a1, a2, a3, a4, a5, a6, a7, a8, a9, a10, a11, a12, a13, a14, a15][i] := by
      intro i hi
      obtain ⟨a, h1, h2⟩ := h i hi
      rw [List.getElem?_eq_getElem (by simpa using hi)] at h1
      simp only [Option.some.injEq] at h1
      rwa [h1]
    have g0 := g 0 (by norm_num)
    have g1 := g 1 (by norm_num)
    have g2 := g 2 (by norm_num)
    have g3 := g 3 (by norm_num)
    have g4 := g 4 (by norm_num)
    have g5 := g 5 (by norm_num)
    have g6 := g 6 (by norm_num)
    have g7 := g 7 (by norm_num)
    have g8 := g 8 (by norm_num)
    have g9 := g 9 (by norm_num)
    have g10 := g 10 (by norm_num)
    have g11 := g 11 (by norm_num)
    have g12 := g 12 (by norm_num)
    have g13 := g 13 (by norm_num)
    have g14 := g 14 (by norm_num)
    have g15 := g 15 (by norm_num)
    simp only [List.getElem_cons_zero, List.getElem_cons_succ] at g0 g1 g2 g3 g4 g5 g6 g7 g8 g9 g10 g11 g12 g13 g14 g15
    clear g h
    have n0 := g0.nonneg
    have n1 := g1.nonneg
    have n2 := g2.nonneg
    have n3 := g3.nonneg
    have n4 := g4.nonneg
    have n5 := g5.nonneg
    have n6 := g6.nonneg
    have n7 := g7.nonneg
    have n8 := g8.nonneg
    have n9 := g9.nonneg
    have n10 := g10.nonneg
    have n11 := g11.nonneg
    have n12 := g12.nonneg
    have n13 := g13.nonneg
    have n14 := g14.nonneg
    have n15 := g15.nonneg
    simp only [sum_range_succ, sum_range_zero, zero_add] at hΩ ⊢
    have p : ∀ {i j : ℕ} {a b : F}, P.Near k c (S i) (y i) a → P.Near k c (S j) (y j) b → S i + S j ≤ _ →
        P.Near (k + 1) (c + c) (S i + S j) (y i + y j) (FloatOps.add a b) := fun h1 h2 h3 =>
      Near.addB hΩ h1 h2 (by omega) hc hc (by linarith) h3
    have hA1 := Near.addB hΩ (p g0 g8 (by linarith)) (p g4 g12 (by linarith)) (by omega) (by linarith) (by linarith) (by linarith) (by linarith)
    have hA2 := Near.addB hΩ (p g2 g10 (by linarith)) (p g6 g14 (by linarith)) (by omega) (by linarith) (by linarith) (by linarith) (by linarith)
    have hB1 := Near.addB hΩ (p g1 g9 (by linarith)) (p g5 g13 (by linarith)) (by omega) (by linarith) (by linarith) (by linarith) (by linarith)
    have hB2 := Near.addB hΩ (p g3 g11 (by linarith)) (p g7 g15 (by linarith)) (by omega) (by linarith) (by linarith) (by linarith) (by linarith)
    have hA := Near.addB hΩ hA1 hA2 (by omega) (by linarith) (by linarith) (by linarith) (by linarith)
    have hB := Near.addB hΩ hB1 hB2 (by omega) (by linarith) (by linarith) (by linarith) (by linarith)
    have hC := Near.addB hΩ hA hB (by omega) (by linarith) (by linarith) (by linarith) (by linarith)
    convert hC using 1 <;> first | rfl | ring

end FloatModel
end NN
