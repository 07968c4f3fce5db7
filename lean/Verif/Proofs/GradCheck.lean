import Verif.Model.GradCheck
import Verif.Properties.Gradient
import Verif.Properties.Metrics
import Mathlib.Analysis.Calculus.MeanValue
/-
Lemmas for C82: a network with a tanh layer and a sigmoid layer along a straight line in the space of parameters.
-/
set_option linter.unusedSimpArgs false

namespace NN.GradCheck
open FloatOps Spec Finset

/-! ### Second derivatives -/

theorem tanh_deriv (x : ℝ) : HasDerivAt Real.tanh (1 - Real.tanh x ^ 2) x := by
  have h := C19_derivative .tanh Real.tanh rfl x trivial
  refine h.congr_deriv ?_
  simp [derivFactor, derivOf, tanhD]; ring

theorem tanh_deriv2 (x : ℝ) : HasDerivAt (fun x => 1 - Real.tanh x ^ 2) (-2 * Real.tanh x * (1 - Real.tanh x ^ 2)) x :=
  (((tanh_deriv x).pow 2).const_sub 1).congr_deriv (by push_cast; ring)

theorem sigmoid_deriv (x : ℝ) : HasDerivAt Spec.sigmoid (Spec.sigmoid x * (1 - Spec.sigmoid x)) x := by
  have h := C19_derivative .sigmoid Spec.sigmoid rfl x trivial
  refine h.congr_deriv ?_
  simp [derivFactor, derivOf, sigmoidD]

theorem sigmoid_deriv2 (x : ℝ) : HasDerivAt (fun x => Spec.sigmoid x * (1 - Spec.sigmoid x))
    (Spec.sigmoid x * (1 - Spec.sigmoid x) * (1 - 2 * Spec.sigmoid x)) x :=
  ((sigmoid_deriv x).mul ((sigmoid_deriv x).const_sub 1)).congr_deriv (by ring)

theorem sigmoid_bounds (x : ℝ) : 0 ≤ Spec.sigmoid x ∧ Spec.sigmoid x ≤ 1 := by
  have := Real.exp_pos (-x)
  constructor
  · unfold Spec.sigmoid; positivity
  · unfold Spec.sigmoid; rw [div_le_one (by positivity)]; linarith

theorem tanh_bounds (x : ℝ) : |Real.tanh x| ≤ 1 ∧ |1 - Real.tanh x ^ 2| ≤ 1 ∧ |-2 * Real.tanh x * (1 - Real.tanh x ^ 2)| ≤ 2 := by
  obtain ⟨h1, h2⟩ := tanh_range x
  generalize Real.tanh x = v at *
  have h3 : |v| ≤ 1 := abs_le.2 ⟨h1.le, h2.le⟩
  have h4 : |1 - v ^ 2| ≤ 1 := abs_le.2 ⟨by nlinarith, by nlinarith [sq_nonneg v]⟩
  refine ⟨h3, h4, ?_⟩
  rw [abs_mul, abs_mul]
  have : |(-2 : ℝ)| = 2 := by norm_num
  rw [this]
  nlinarith [abs_nonneg v, abs_nonneg (1 - v ^ 2), mul_le_mul h3 h4 (abs_nonneg _) zero_le_one]

theorem sigmoid_bounds' (x : ℝ) : |Spec.sigmoid x * (1 - Spec.sigmoid x)| ≤ 1 / 4 ∧
    |Spec.sigmoid x * (1 - Spec.sigmoid x) * (1 - 2 * Spec.sigmoid x)| ≤ 1 / 4 := by
  obtain ⟨h1, h2⟩ := sigmoid_bounds x
  generalize Spec.sigmoid x = v at *
  have h3 : |v * (1 - v)| ≤ 1 / 4 := abs_le.2 ⟨by nlinarith, by nlinarith [sq_nonneg (v - 1 / 2)]⟩
  have h4 : |1 - 2 * v| ≤ 1 := abs_le.2 ⟨by linarith, by linarith⟩
  refine ⟨h3, ?_⟩
  rw [abs_mul]
  nlinarith [abs_nonneg (v * (1 - v)), abs_nonneg (1 - 2 * v), mul_le_mul h3 h4 (abs_nonneg _) (by norm_num : (0 : ℝ) ≤ 1 / 4)]

/-- The numbers of a network with one hidden layer of `m` units and `n` outputs along a line: the pre-activations of the hidden layer are
`u j + t * α j`, weights and biases of the output layer `w j o + t * e j o` and `b o + t * f o`. -/
structure Line where
  m : ℕ
  n : ℕ
  u : ℕ → ℝ
  α : ℕ → ℝ
  w : ℕ → ℕ → ℝ
  e : ℕ → ℕ → ℝ
  b : ℕ → ℝ
  f : ℕ → ℝ
  y : ℕ → ℝ

namespace Line
variable (L : Line)

noncomputable def z (o : ℕ) (t : ℝ) : ℝ :=
  (L.b o + t * L.f o) + ∑ j ∈ range L.m, Real.tanh (L.u j + t * L.α j) * (L.w j o + t * L.e j o)

noncomputable def z1 (o : ℕ) (t : ℝ) : ℝ :=
  L.f o + ∑ j ∈ range L.m, ((1 - Real.tanh (L.u j + t * L.α j) ^ 2) * L.α j * (L.w j o + t * L.e j o) + Real.tanh (L.u j + t * L.α j) * L.e j o)

noncomputable def z2 (o : ℕ) (t : ℝ) : ℝ :=
  ∑ j ∈ range L.m, (-2 * Real.tanh (L.u j + t * L.α j) * (1 - Real.tanh (L.u j + t * L.α j) ^ 2) * L.α j * L.α j * (L.w j o + t * L.e j o) +
    2 * ((1 - Real.tanh (L.u j + t * L.α j) ^ 2) * L.α j * L.e j o))

/-- The mean squared error. -/
noncomputable def J (t : ℝ) : ℝ := (∑ o ∈ range L.n, (Spec.sigmoid (L.z o t) - L.y o) ^ 2) / L.n

noncomputable def J1 (t : ℝ) : ℝ :=
  (∑ o ∈ range L.n, 2 * ((Spec.sigmoid (L.z o t) - L.y o) * (Spec.sigmoid (L.z o t) * (1 - Spec.sigmoid (L.z o t)) * L.z1 o t))) / L.n

noncomputable def J2 (t : ℝ) : ℝ :=
  (∑ o ∈ range L.n, 2 * (Spec.sigmoid (L.z o t) * (1 - Spec.sigmoid (L.z o t)) * L.z1 o t *
      (Spec.sigmoid (L.z o t) * (1 - Spec.sigmoid (L.z o t)) * L.z1 o t) +
    (Spec.sigmoid (L.z o t) - L.y o) *
      (Spec.sigmoid (L.z o t) * (1 - Spec.sigmoid (L.z o t)) * (1 - 2 * Spec.sigmoid (L.z o t)) * L.z1 o t * L.z1 o t +
        Spec.sigmoid (L.z o t) * (1 - Spec.sigmoid (L.z o t)) * L.z2 o t))) / L.n

theorem lin_deriv (a b t : ℝ) : HasDerivAt (fun t : ℝ => a + t * b) b t :=
  (((hasDerivAt_id t).mul_const b).const_add a).congr_deriv (by simp)

theorem z_deriv (o : ℕ) (t : ℝ) : HasDerivAt (L.z o) (L.z1 o t) t := by
  unfold z z1
  refine HasDerivAt.add (lin_deriv _ _ _) (HasDerivAt.fun_sum fun j _ => ?_)
  exact ((((tanh_deriv _).comp t (lin_deriv (L.u j) (L.α j) t))).mul (lin_deriv (L.w j o) (L.e j o) t)).congr_deriv (by simp [Function.comp_def])

theorem z1_deriv (o : ℕ) (t : ℝ) : HasDerivAt (L.z1 o) (L.z2 o t) t := by
  unfold z1 z2
  refine (HasDerivAt.fun_sum fun j _ => ?_).const_add _
  have h1 := (tanh_deriv _).comp t (lin_deriv (L.u j) (L.α j) t)
  have h2 := (tanh_deriv2 _).comp t (lin_deriv (L.u j) (L.α j) t)
  exact (((h2.mul_const (L.α j)).mul (lin_deriv (L.w j o) (L.e j o) t)).add (h1.mul_const (L.e j o))).congr_deriv (by
    simp only [Function.comp_def]; ring)

theorem J_deriv (t : ℝ) : HasDerivAt L.J (L.J1 t) t := by
  unfold J J1
  refine (HasDerivAt.fun_sum fun o _ => ?_).div_const _
  have h := ((sigmoid_deriv _).comp t (L.z_deriv o t)).sub_const (L.y o)
  exact (h.pow 2).congr_deriv (by simp only [Function.comp_def]; push_cast; ring)

theorem J1_deriv (t : ℝ) : HasDerivAt L.J1 (L.J2 t) t := by
  unfold J1 J2
  refine (HasDerivAt.fun_sum fun o _ => ?_).div_const _
  have h := ((sigmoid_deriv _).comp t (L.z_deriv o t)).sub_const (L.y o)
  have h2 := ((sigmoid_deriv2 _).comp t (L.z_deriv o t)).mul (L.z1_deriv o t)
  exact ((h.mul h2).const_mul 2).congr_deriv (by simp only [Function.comp_def, Pi.mul_apply])

/-- The line does not leave a bounded region: moderate weights, targets between 0 and 1, and a direction of length at most 1. -/
structure Moderate : Prop where
  w : ∀ j < L.m, ∀ o < L.n, |L.w j o| ≤ 1
  y : ∀ o < L.n, 0 ≤ L.y o ∧ L.y o ≤ 1
  hidden : ∑ j ∈ range L.m, |L.α j| ≤ 1
  out : ∀ o < L.n, |L.f o| + ∑ j ∈ range L.m, |L.e j o| ≤ 1

variable {L}

theorem J2_bound (h : L.Moderate) (t : ℝ) (ht : |t| ≤ 1 / 10) : |L.J2 t| ≤ 5 := by
  have hα : ∀ j < L.m, |L.α j| ≤ 1 := fun j hj =>
    (single_le_sum (f := fun j => |L.α j|) (fun _ _ => abs_nonneg _) (mem_range.2 hj)).trans h.hidden
  have he : ∀ o < L.n, ∀ j < L.m, |L.e j o| ≤ 1 := fun o ho j hj => by
    have h1 := single_le_sum (f := fun j => |L.e j o|) (fun _ _ => abs_nonneg _) (mem_range.2 hj)
    have h2 := h.out o ho
    have h3 := abs_nonneg (L.f o)
    linarith
  have hw : ∀ o < L.n, ∀ j < L.m, |L.w j o + t * L.e j o| ≤ 11 / 10 := fun o ho j hj => by
    refine (abs_add_le _ _).trans ?_
    have h1 := h.w j hj o ho
    have h2 : |t * L.e j o| ≤ 1 / 10 := by
      rw [abs_mul]
      have := mul_le_mul ht (he o ho j hj) (abs_nonneg _) (by norm_num)
      linarith
    linarith
  have hz1 : ∀ o < L.n, |L.z1 o t| ≤ 21 / 10 := by
    intro o ho
    unfold z1
    refine (abs_add_le _ _).trans ?_
    have : |∑ j ∈ range L.m, ((1 - Real.tanh (L.u j + t * L.α j) ^ 2) * L.α j * (L.w j o + t * L.e j o) + Real.tanh (L.u j + t * L.α j) * L.e j o)| ≤
        ∑ j ∈ range L.m, (11 / 10 * |L.α j| + |L.e j o|) := by
      refine (abs_sum_le_sum_abs _ _).trans (sum_le_sum fun j hj => ?_)
      have hj := mem_range.1 hj
      obtain ⟨b1, b2, -⟩ := tanh_bounds (L.u j + t * L.α j)
      refine (abs_add_le _ _).trans (add_le_add ?_ ?_)
      · rw [abs_mul, abs_mul]
        have k1 := mul_le_mul_of_nonneg_right b2 (abs_nonneg (L.α j))
        have k2 := mul_le_mul k1 (hw o ho j hj) (abs_nonneg _) (by positivity)
        linarith
      · rw [abs_mul]
        have := mul_le_mul_of_nonneg_right b1 (abs_nonneg (L.e j o))
        linarith
    rw [show ∑ j ∈ range L.m, (11 / 10 * |L.α j| + |L.e j o|) = 11 / 10 * ∑ j ∈ range L.m, |L.α j| + ∑ j ∈ range L.m, |L.e j o| by
      rw [sum_add_distrib, ← mul_sum]] at this
    have h1 := h.out o ho
    have h2 := h.hidden
    linarith
  have hz2 : ∀ o < L.n, |L.z2 o t| ≤ 42 / 10 := by
    intro o ho
    unfold z2
    have : |∑ j ∈ range L.m, (-2 * Real.tanh (L.u j + t * L.α j) * (1 - Real.tanh (L.u j + t * L.α j) ^ 2) * L.α j * L.α j *
        (L.w j o + t * L.e j o) + 2 * ((1 - Real.tanh (L.u j + t * L.α j) ^ 2) * L.α j * L.e j o))| ≤ ∑ j ∈ range L.m, 42 / 10 * |L.α j| := by
      refine (abs_sum_le_sum_abs _ _).trans (sum_le_sum fun j hj => ?_)
      have hj := mem_range.1 hj
      obtain ⟨-, b2, b3⟩ := tanh_bounds (L.u j + t * L.α j)
      have ha := abs_nonneg (L.α j)
      have k0 : |L.α j| * |L.α j| ≤ |L.α j| := mul_le_of_le_one_right ha (hα j hj)
      have k1 : |-2 * Real.tanh (L.u j + t * L.α j) * (1 - Real.tanh (L.u j + t * L.α j) ^ 2) * L.α j * L.α j * (L.w j o + t * L.e j o)| ≤
          22 / 10 * |L.α j| := by
        rw [abs_mul, abs_mul _ (L.α j), abs_mul _ (L.α j), mul_assoc (|-2 * Real.tanh (L.u j + t * L.α j) * (1 - Real.tanh (L.u j + t * L.α j) ^ 2)|)]
        have := mul_le_mul (mul_le_mul b3 k0 (by positivity) (by norm_num)) (hw o ho j hj) (abs_nonneg _) (by positivity)
        linarith
      have k2 : |2 * ((1 - Real.tanh (L.u j + t * L.α j) ^ 2) * L.α j * L.e j o)| ≤ 2 * |L.α j| := by
        rw [abs_mul, abs_mul, abs_mul]
        have := mul_le_mul (mul_le_mul_of_nonneg_right b2 ha) (he o ho j hj) (abs_nonneg _) (by positivity)
        rw [show |(2 : ℝ)| = 2 by norm_num]
        linarith
      refine (abs_add_le _ _).trans ?_
      linarith
    rw [← mul_sum] at this
    have h2 := h.hidden
    linarith
  by_cases hn : L.n = 0
  · simp [J2, hn]
  have hn0 : (0 : ℝ) < L.n := by exact_mod_cast Nat.pos_of_ne_zero hn
  unfold J2
  rw [abs_div, abs_of_pos hn0, div_le_iff₀ hn0]
  refine (abs_sum_le_sum_abs _ _).trans ?_
  have : ∀ o ∈ range L.n, |2 * (Spec.sigmoid (L.z o t) * (1 - Spec.sigmoid (L.z o t)) * L.z1 o t *
      (Spec.sigmoid (L.z o t) * (1 - Spec.sigmoid (L.z o t)) * L.z1 o t) +
    (Spec.sigmoid (L.z o t) - L.y o) *
      (Spec.sigmoid (L.z o t) * (1 - Spec.sigmoid (L.z o t)) * (1 - 2 * Spec.sigmoid (L.z o t)) * L.z1 o t * L.z1 o t +
        Spec.sigmoid (L.z o t) * (1 - Spec.sigmoid (L.z o t)) * L.z2 o t))| ≤ 5 := by
    intro o ho
    have ho := mem_range.1 ho
    obtain ⟨b1, b2⟩ := sigmoid_bounds' (L.z o t)
    obtain ⟨c1, c2⟩ := sigmoid_bounds (L.z o t)
    obtain ⟨y1, y2⟩ := h.y o ho
    have b0 : |Spec.sigmoid (L.z o t) - L.y o| ≤ 1 := abs_le.2 ⟨by linarith, by linarith⟩
    have hz1 := hz1 o ho
    have hz2 := hz2 o ho
    generalize Spec.sigmoid (L.z o t) * (1 - Spec.sigmoid (L.z o t)) * (1 - 2 * Spec.sigmoid (L.z o t)) = s2 at *
    generalize Spec.sigmoid (L.z o t) * (1 - Spec.sigmoid (L.z o t)) = s1 at *
    generalize Spec.sigmoid (L.z o t) - L.y o = s0 at *
    generalize L.z1 o t = p at *
    generalize L.z2 o t = q at *
    have k1 : |s1 * p| ≤ 21 / 40 := by
      rw [abs_mul]; have := mul_le_mul b1 hz1 (abs_nonneg _) (by norm_num); linarith
    have k2 : |s1 * p * (s1 * p)| ≤ 441 / 1600 := by
      rw [abs_mul]; have := mul_le_mul k1 k1 (abs_nonneg _) (by norm_num); linarith
    have k3 : |s2 * p * p| ≤ 441 / 400 := by
      rw [abs_mul, abs_mul]
      have := mul_le_mul (mul_le_mul b2 hz1 (abs_nonneg _) (by norm_num)) hz1 (abs_nonneg _) (by norm_num); linarith
    have k4 : |s1 * q| ≤ 42 / 40 := by
      rw [abs_mul]; have := mul_le_mul b1 hz2 (abs_nonneg _) (by norm_num); linarith
    have k5 : |s0 * (s2 * p * p + s1 * q)| ≤ 441 / 400 + 42 / 40 := by
      rw [abs_mul]
      have := mul_le_mul b0 ((abs_add_le _ _).trans (add_le_add k3 k4)) (abs_nonneg _) (by norm_num); linarith
    rw [abs_mul, show |(2 : ℝ)| = 2 by norm_num]
    have := (abs_add_le (s1 * p * (s1 * p)) (s0 * (s2 * p * p + s1 * q))).trans (add_le_add k2 k5)
    linarith
  refine (sum_le_sum this).trans ?_
  simp [mul_comm]

/-- The mean of the derivatives at both ends and the difference quotient. -/
theorem trapezoid (h : L.Moderate) (δ : ℝ) (h0 : 0 < δ) (h1 : δ ≤ 1 / 10) :
    |1 / 2 * (L.J1 0 + L.J1 δ) - (L.J δ - L.J 0) / δ| ≤ 5 * δ := by
  obtain ⟨x, hx, e⟩ := exists_hasDerivAt_eq_slope L.J L.J1 h0 (fun t _ => (L.J_deriv t).continuousAt.continuousWithinAt)
    (fun t _ => L.J_deriv t)
  rw [sub_zero] at e
  rw [← e]
  have lip : ∀ a ∈ Set.Icc (0 : ℝ) δ, ∀ b ∈ Set.Icc (0 : ℝ) δ, |L.J1 b - L.J1 a| ≤ 5 * |b - a| := by
    intro a ha b hb
    have := (convex_Icc (0 : ℝ) δ).norm_image_sub_le_of_norm_hasDerivWithin_le (f := L.J1) (f' := L.J2) (C := 5)
      (fun t _ => (L.J1_deriv t).hasDerivWithinAt) (fun t ht => by
        rw [Real.norm_eq_abs]
        exact J2_bound h t (abs_le.2 ⟨by linarith [ht.1], by linarith [ht.2]⟩)) ha hb
    simpa [Real.norm_eq_abs] using this
  have hx' : x ∈ Set.Icc (0 : ℝ) δ := ⟨hx.1.le, hx.2.le⟩
  have l0 := lip x hx' 0 ⟨le_rfl, h0.le⟩
  have l1 := lip x hx' δ ⟨h0.le, le_rfl⟩
  rw [abs_of_nonpos (by linarith [hx.1] : 0 - x ≤ 0)] at l0
  rw [abs_of_nonneg (by linarith [hx.2] : 0 ≤ δ - x)] at l1
  have : 1 / 2 * (L.J1 0 + L.J1 δ) - L.J1 x = 1 / 2 * (L.J1 0 - L.J1 x) + 1 / 2 * (L.J1 δ - L.J1 x) := by ring
  rw [this]
  refine (abs_add_le _ _).trans ?_
  rw [abs_mul, abs_mul, show |(1 / 2 : ℝ)| = 1 / 2 by norm_num]
  linarith [hx.1, hx.2]

end Line

/-! ### The line of a network -/

theorem at_zip (a b : List ℝ) (t : ℝ) (k : ℕ) (h : a.length = b.length) :
    at_ (List.zipWith (fun x y => x + t * y) a b) k = at_ a k + t * at_ b k := by
  simp only [at_, List.getD_eq_getElem?_getD, List.getElem?_zipWith]
  rcases lt_or_ge k a.length with hk | hk
  · rw [List.getElem?_eq_getElem hk, List.getElem?_eq_getElem (by omega : k < b.length)]; rfl
  · rw [List.getElem?_eq_none hk, List.getElem?_eq_none (by omega : b.length ≤ k)]; simp

theorem at_slice (d : List ℝ) (p q k : ℕ) (h : k < q) : at_ ((d.drop p).take q) k = at_ d (p + k) := by
  simp only [at_, List.getD_eq_getElem?_getD, List.getElem?_take, List.getElem?_drop, if_pos h]

theorem at_take (d : List ℝ) (q k : ℕ) (h : k < q) : at_ (d.take q) k = at_ d k := by
  simp only [at_, List.getD_eq_getElem?_getD, List.getElem?_take, if_pos h]

theorem at_map (f : ℝ → ℝ) (l : List ℝ) (k : ℕ) (h : k < l.length) : at_ (l.map f) k = f (at_ l k) := by
  simp only [at_, List.getD_eq_getElem?_getD, List.getElem?_map, List.getElem?_eq_getElem h]; rfl

theorem affine_at (n m : ℕ) (W b x : List ℝ) (k : ℕ) (h : k < m) :
    at_ (affine n m W b x) k = at_ b k + ∑ i ∈ range n, at_ x i * at_ W (i * m + k) := by
  simp only [at_, affine, List.getD_eq_getElem?_getD, List.getElem?_map, List.getElem?_range h]; rfl

/-- The line through the parameters of a network with two layers in direction `d`, for the sample `x`, `y`. -/
noncomputable def lineOf (l1 l2 : Layer ℝ) (x y d : List ℝ) : Line where
  m := l1.nOut
  n := l2.nOut
  u j := at_ l1.bias.data j + ∑ i ∈ range l1.nIn, at_ x i * at_ l1.weight.data (i * l1.nOut + j)
  α j := at_ d j + ∑ i ∈ range l1.nIn, at_ x i * at_ d (l1.nOut + (i * l1.nOut + j))
  w j o := at_ l2.weight.data (j * l2.nOut + o)
  e j o := at_ d (l1.nOut + l1.nIn * l1.nOut + (l2.nOut + (j * l2.nOut + o)))
  b o := at_ l2.bias.data o
  f o := at_ d (l1.nOut + l1.nIn * l1.nOut + o)
  y o := at_ y o

theorem idx_lt {i n m k : ℕ} (hi : i < n) (hk : k < m) : i * m + k < n * m := by
  calc i * m + k < i * m + m := by omega
    _ = (i + 1) * m := by ring
    _ ≤ n * m := Nat.mul_le_mul_right _ hi

theorem network_line (env : CustomEnv ℝ) (c : Cfg) (l1 l2 : Layer ℝ) (h1 : l1.WF c) (h2 : l2.WF c) (a1 : l1.act = .tanh) (a2 : l2.act = .sigmoid)
    (hch : l1.nOut = l2.nIn) (x y d : List ℝ) (hd : d.length = nParams [l1, l2]) (t : ℝ) :
    Spec.mse l2.nOut (Spec.network ((shift [l1, l2] d t).map (Layer.toSpec env)) x) y = (lineOf l1 l2 x y d).J t := by
  have hp : nParams [l1, l2] = l1.nOut + l1.nIn * l1.nOut + (l2.nOut + l2.nIn * l2.nOut) := by simp [nParams]; ring
  rw [hp] at hd
  have b1 := h1.bias_len
  have w1 := h1.weight_len
  have b2 := h2.bias_len
  have w2 := h2.weight_len
  unfold Spec.mse Line.J
  congr 1
  refine sum_congr rfl fun o ho => ?_
  have ho : o < l2.nOut := mem_range.1 ho
  congr 2
  simp only [shift, List.map_cons, List.map_nil, Spec.network, List.foldl_cons, List.foldl_nil, Spec.Layer.apply, Layer.toSpec, a1, a2, actSpec]
  rw [at_map _ _ _ (by simpa [affine] using ho), affine_at _ _ _ _ _ _ ho]
  congr 1
  unfold Line.z
  rw [at_zip _ _ _ _ (by simp [b2]; omega), at_take _ _ _ ho]
  have hdrop : ∀ k, at_ (d.drop (l1.nOut + l1.nIn * l1.nOut)) k = at_ d (l1.nOut + l1.nIn * l1.nOut + k) := by
    intro k; simp only [at_, List.getD_eq_getElem?_getD, List.getElem?_drop]
  rw [hdrop]
  congr 1
  simp only [lineOf, ← hch]
  refine sum_congr rfl fun j hj => ?_
  have hj : j < l1.nOut := mem_range.1 hj
  have hjo := idx_lt (hch ▸ hj) ho
  congr 1
  · rw [at_map _ _ _ (by simpa [affine] using hj), affine_at _ _ _ _ _ _ hj]
    congr 1
    rw [at_zip _ _ _ _ (by simp [b1]; omega), at_take _ _ _ hj, mul_add, mul_sum, add_add_add_comm, ← sum_add_distrib]
    congr 1
    refine sum_congr rfl fun i hi => ?_
    have hi : i < l1.nIn := mem_range.1 hi
    rw [at_zip _ _ _ _ (by simp [w1]; omega), at_slice _ _ _ _ (idx_lt hi hj)]
    ring
  · rw [at_zip _ _ _ _ (by rw [List.length_take, List.length_drop, List.length_drop, hd, w2, hch]; omega), at_slice _ _ _ _ (by rw [hch]; exact hjo), hdrop]

theorem zip_zip (δ t : ℝ) : ∀ a b : List ℝ, List.zipWith (fun x y => x + t * y) (List.zipWith (fun x y => x + δ * y) a b) b =
    List.zipWith (fun x y => x + (δ + t) * y) a b
  | [], _ => by simp
  | _ :: _, [] => by simp
  | x :: a, y :: b => by simp [zip_zip δ t a b]; ring

theorem shift_shift (δ t : ℝ) : ∀ (ls : List (Layer ℝ)) (d : List ℝ), shift (shift ls d δ) d t = shift ls d (δ + t)
  | [], _ => rfl
  | l :: ls, d => by simp only [shift, zip_zip, shift_shift δ t ls]

theorem zip_zero : ∀ a b : List ℝ, a.length = b.length → List.zipWith (fun x y => x + (0 : ℝ) * y) a b = a
  | [], _, _ => by simp
  | _ :: _, [], h => by simp at h
  | x :: a, y :: b, h => by rw [List.zipWith_cons_cons, zip_zero a b (by simpa using h)]; simp

theorem shift_zero (c : Cfg) : ∀ (ls : List (Layer ℝ)) (d : List ℝ), (∀ l ∈ ls, l.WF c) → d.length = nParams ls → shift ls d 0 = ls
  | [], _, _, _ => rfl
  | l :: ls, d, hw, hd => by
    have hl := hw l (by simp)
    rw [nParams_cons] at hd
    simp only [shift]
    rw [shift_zero c ls _ (fun m hm => hw m (by simp [hm])) (by simp; omega), zip_zero l.bias.data _ (by simp [hl.bias_len]; omega),
      zip_zero l.weight.data _ (by simp [hl.weight_len]; omega)]

end NN.GradCheck
