import Verif.Proofs.ActFloat
import Verif.Properties.Initialize
/-
The random numbers of `neuralnet_initialize` in IEEE arithmetic.
-/
namespace NN.B32
open FloatOps

theorem small_le_max {x : ℝ} (h : |x| ≤ 2 ^ 100) : |x| ≤ maxF32 := h.trans (by rw [maxF32]; norm_num)

theorem sqrt_is {a : B32} {x : ℝ} (ha : Is a x) (hx : 0 < x) (h : √x ≤ maxF32) : Is (sqrt a) (rnd √x) := by
  have hs : a.sign = false := sign_of_pos (by rw [ha.2]; exact hx)
  simp only [sqrt, not_nan ha.1, ha.1, ha.2, hs, not_inf ha.1, hx.ne', decide_false, Bool.and_false, Bool.false_eq_true, if_false]
  exact is_ofReal (by rw [abs_of_nonneg (Real.sqrt_nonneg _)]; exact h)

theorem rnd_nat_rel (n : ℕ) : |rnd n - n| ≤ 1 / 16777216 * n := by
  have h := rnd_rel (x := (n : ℝ)) (by
    rcases Nat.eq_zero_or_pos n with rfl | h
    · left; simp
    · right
      have : (1 : ℝ) ≤ n := by exact_mod_cast h
      rw [abs_of_nonneg (by positivity)]
      refine le_trans ?_ this
      norm_num)
  have h3 : (2 : ℝ) ^ (-24 : ℤ) = 1 / 16777216 := by norm_num
  have h4 : |(n : ℝ)| = n := abs_of_nonneg (Nat.cast_nonneg n)
  rw [h3, h4] at h
  exact h

theorem rnd_abs' (x : ℝ) : |rnd x - x| ≤ 1 / 16777216 * |x| + 1 / 10 ^ 30 := by
  have h := rnd_abs x
  have h2 : (2 : ℝ) ^ (-150 : ℤ) ≤ 1 / 10 ^ 30 := by norm_num
  have h3 : (2 : ℝ) ^ (-24 : ℤ) = 1 / 16777216 := by norm_num
  rw [h3] at h
  linarith

/-- `(float) n` for an `int`. -/
theorem ofNat_is {n : ℕ} (h : n < 2 ^ 32) : Is (ofReal false (n : ℝ)) (rnd n) := by
  refine is_ofReal (small_le_max ?_)
  rw [abs_of_nonneg (Nat.cast_nonneg n)]
  have : (n : ℝ) < 2 ^ 32 := by exact_mod_cast h
  exact this.le.trans (by norm_num)

/-- `random_uniform`: the quotient, doubled, and the result. -/
theorem uniform_is (L : Libm) {rm n : ℕ} (h1 : 1 ≤ rm) (h2 : rm < 2 ^ 32) (hn : n ≤ rm) :
    ∃ q, rnd q = q ∧ 0 ≤ q ∧ q ≤ 1 ∧ |q - n / rm| ≤ 25 / 10 ^ 8 ∧
      Is (@uniformOf B32 (ops L) rm n) (rnd (rnd (2 * q) - 1)) := by
  have ha := ofNat_is (n := n) (by omega)
  have hb := ofNat_is (n := rm) h2
  have ea := rnd_nat_rel n
  have eb := rnd_nat_rel rm
  have hab : rnd (n : ℝ) ≤ rnd (rm : ℝ) := rnd_mono (by exact_mod_cast hn)
  have hrm : (1 : ℝ) ≤ rm := by exact_mod_cast h1
  have hnr : (n : ℝ) ≤ rm := by exact_mod_cast hn
  have hn0 : (0 : ℝ) ≤ n := Nat.cast_nonneg n
  have ha0 : 0 ≤ rnd (n : ℝ) := rnd_nonneg hn0
  have hb1 : 1 ≤ rnd (rm : ℝ) := le_rnd hrm rnd_one
  generalize rnd (n : ℝ) = a at *
  generalize rnd (rm : ℝ) = b at *
  have hb0 : 0 < b := by linarith
  have hq1 : a / b ≤ 1 := (div_le_one hb0).2 hab
  have hq0 : 0 ≤ a / b := div_nonneg ha0 hb0.le
  have hq := div_is ha hb hb0.ne' (small_le_max (by rw [abs_of_nonneg hq0]; exact hq1.trans (by norm_num)))
  have er := rnd_abs' (a / b)
  have hr0 : 0 ≤ rnd (a / b) := rnd_nonneg hq0
  have hr1 : rnd (a / b) ≤ 1 := rnd_le hq1 rnd_one
  have hrr := rnd_is hq
  have et : |a / b - n / rm| ≤ 1 / 16777216 * 2 * (1 + 1 / 10 ^ 6) := by
    have hrm0 : (0 : ℝ) < rm := by linarith
    rw [div_sub_div _ _ hb0.ne' hrm0.ne', abs_div, abs_of_pos (mul_pos hb0 hrm0), div_le_iff₀ (mul_pos hb0 hrm0)]
    rw [abs_le] at ea eb
    have hbl : rm * (1 - 1 / 16777216) ≤ b := by linarith [eb.1]
    have e1 : |a * rm - b * n| ≤ 1 / 16777216 * 2 * n * rm := by
      rw [abs_le]
      constructor <;> nlinarith
    refine e1.trans ?_
    have : (n : ℝ) ≤ (1 + 1 / 10 ^ 6) * b := by nlinarith
    nlinarith
  refine ⟨rnd (a / b), hrr, hr0, hr1, ?_, ?_⟩
  · rw [abs_of_nonneg hq0] at er
    have := abs_sub_le (rnd (a / b)) (a / b) (n / rm : ℝ)
    norm_num at *
    linarith
  · generalize rnd (a / b) = q at *
    have h2q : Is (B32.mul (ofReal false (((2 : ℤ) : ℝ) / ((1 : ℕ) : ℝ))) (B32.div (ofReal false (n : ℝ)) (ofReal false (rm : ℝ)))) (rnd (2 * q)) :=
      mul_is is_two hq (small_le_max (by rw [abs_of_nonneg (by linarith)]; norm_num; linarith))
    have t0 : 0 ≤ rnd (2 * q) := rnd_nonneg (by linarith)
    have t1 : rnd (2 * q) ≤ 2 := rnd_le (by linarith) rnd_two
    exact sub_is h2q is_one (small_le_max (by rw [abs_le]; constructor <;> norm_num <;> linarith))

/-- Doubling is exact. -/
theorem rnd_double {q : ℝ} (h : rnd q = q) (h0 : 0 ≤ q) (h1 : q ≤ 1) : rnd (2 * q) = 2 * q := by
  have hf := is_ofReal (s := false) (x := q) (small_le_max (by rw [abs_of_nonneg h0]; exact h1.trans (by norm_num)))
  rw [h] at hf
  obtain ⟨k, j, e, hk, hj, -⟩ := value_rep hf.1
  rw [hf.2] at e
  refine rnd_exact (k := k) (j := j + 1) ?_ hk (by omega)
  rw [e, zpow_add₀ (by norm_num)]; ring

/-- Near 0 the subtraction is exact: the result of `random_uniform` is 0 or at least `2^-24` in absolute value. -/
theorem uniform_grid {q : ℝ} (h : rnd q = q) (h0 : 0 ≤ q) (h1 : q ≤ 1) :
    rnd (2 * q - 1) = 0 ∧ q = 1 / 2 ∨ 1 / 16777216 ≤ |rnd (2 * q - 1)| := by
  have hf := is_ofReal (s := false) (x := q) (small_le_max (by rw [abs_of_nonneg h0]; exact h1.trans (by norm_num)))
  rw [h] at hf
  obtain ⟨k, j, e, hk, hj, -⟩ := value_rep hf.1
  rw [hf.2] at e
  rcases lt_or_ge (2 * q) (1 / 2) with hs | hs
  · right
    have hh : rnd (-(1 / 2) : ℝ) = -(1 / 2) := rnd_exact (k := -1) (j := -1) (by norm_num) (by norm_num) (by norm_num)
    have : rnd (2 * q - 1) ≤ -(1 / 2) := rnd_le (by linarith) hh
    rw [abs_of_nonpos (by linarith)]
    norm_num at *; linarith
  · -- a multiple of `2^-24`
    have hj' : -25 ≤ j := by
      by_contra hlt
      have hk' : ((k : ℤ) : ℝ) < 2 ^ 24 := by
        have := (abs_lt.1 hk).2
        exact_mod_cast this
      have hp : (2 : ℝ) ^ j ≤ 2 ^ (-26 : ℤ) := zpow_le_zpow_right₀ (by norm_num) (by omega)
      have hp0 : (0 : ℝ) < 2 ^ j := by positivity
      have hk0 : (0 : ℝ) ≤ k := by
        by_contra hneg
        have : (k : ℝ) * 2 ^ j < 0 := mul_neg_of_neg_of_pos (not_le.1 hneg) hp0
        linarith
      have : q < 1 / 4 := by
        rw [e]
        have e26 : (2 : ℝ) ^ (-26 : ℤ) = 1 / 67108864 := by norm_num
        rw [e26] at hp
        nlinarith
      linarith
    obtain ⟨i, hi⟩ : ∃ i : ℕ, j = -25 + i := ⟨(j + 25).toNat, by omega⟩
    have e2 : 2 * q - 1 = ((k * 2 ^ i - 2 ^ 24 : ℤ) : ℝ) * 2 ^ (-24 : ℤ) := by
      rw [e, hi, zpow_add₀ (by norm_num), zpow_natCast]
      push_cast
      norm_num
      ring
    generalize hK : (k * 2 ^ i - 2 ^ 24 : ℤ) = K at e2
    have e24 : (2 : ℝ) ^ (-24 : ℤ) = 1 / 16777216 := by norm_num
    have hKb : |K| ≤ 2 ^ 24 := by
      have h3 : |(K : ℝ)| * (1 / 16777216) ≤ 1 := by
        have : |2 * q - 1| ≤ 1 := by rw [abs_le]; constructor <;> linarith
        rw [e2, e24, abs_mul] at this
        rwa [abs_of_pos (show (0 : ℝ) < 1 / 16777216 by norm_num)] at this
      have h4 : |(K : ℝ)| ≤ 2 ^ 24 := by norm_num at h3 ⊢; linarith
      exact_mod_cast h4
    have hex : rnd (2 * q - 1) = 2 * q - 1 := by
      rcases lt_or_eq_of_le hKb with hlt | heq
      · exact rnd_exact (k := K) (j := -24) e2 hlt (by norm_num)
      · rcases (abs_eq (by norm_num)).1 heq with rfl | rfl
        · rw [e2]; norm_num; exact rnd_one
        · rw [e2]; norm_num; rw [rnd_neg, rnd_one]
    rw [hex, e2]
    rcases eq_or_ne K 0 with rfl | hK0
    · left
      refine ⟨by simp, ?_⟩
      simp at e2; linarith
    · right
      have : (1 : ℝ) ≤ |(K : ℝ)| := by exact_mod_cast Int.one_le_abs hK0
      rw [abs_mul, e24, abs_of_pos (show (0 : ℝ) < 1 / 16777216 by norm_num)]
      linarith

/-- A float of at least 1/2 is a multiple of `2^-24`. -/
theorem half_grid {x : ℝ} (h : rnd x = x) (h0 : 1 / 2 ≤ x) (h1 : x ≤ 2) : ∃ K : ℤ, x = K * (1 / 16777216) := by
  have hf := is_ofReal (s := false) (x := x) (small_le_max (by rw [abs_of_nonneg (by linarith)]; exact h1.trans (by norm_num)))
  rw [h] at hf
  obtain ⟨k, j, e, hk, hj, -⟩ := value_rep hf.1
  rw [hf.2] at e
  have hj' : -24 ≤ j := by
    by_contra hlt
    have hk' : ((k : ℤ) : ℝ) < 2 ^ 24 := by
      have := (abs_lt.1 hk).2
      exact_mod_cast this
    have hp : (2 : ℝ) ^ j ≤ 2 ^ (-25 : ℤ) := zpow_le_zpow_right₀ (by norm_num) (by omega)
    have hp0 : (0 : ℝ) < 2 ^ j := by positivity
    have hk0 : (0 : ℝ) ≤ k := by
      by_contra hneg
      have : (k : ℝ) * 2 ^ j < 0 := mul_neg_of_neg_of_pos (not_le.1 hneg) hp0
      linarith
    have e25 : (2 : ℝ) ^ (-25 : ℤ) = 1 / 33554432 := by norm_num
    rw [e25] at hp
    have : x < 1 / 2 := by
      rw [e]
      nlinarith
    linarith
  obtain ⟨i, hi⟩ : ∃ i : ℕ, j = -24 + i := ⟨(j + 24).toNat, by omega⟩
  refine ⟨k * 2 ^ i, ?_⟩
  rw [e, hi, zpow_add₀ (by norm_num), zpow_natCast]
  push_cast
  norm_num
  ring

/-- The largest float below 1. -/
theorem below_one {x : ℝ} (h : rnd x = x) (h1 : x < 1) : x ≤ 1 - 1 / 16777216 := by
  rcases lt_or_ge x (1 / 2) with hs | hs
  · linarith
  · obtain ⟨K, hK⟩ := half_grid h hs (by linarith)
    have : K < 16777216 := by
      have : (K : ℝ) < 16777216 := by linarith
      exact_mod_cast this
    have : (K : ℝ) ≤ 16777215 := by exact_mod_cast Int.le_of_lt_add_one this
    linarith

/-- The relative error of a rounding far from the smallest float. -/
theorem rnd_rel' {x : ℝ} (h : 1 / 2 ^ 100 ≤ x) : |rnd x - x| ≤ 1 / 16777216 * x := by
  have h0 : 0 < x := lt_of_lt_of_le (by positivity) h
  have := rnd_rel (x := x) (.inr (by rw [abs_of_pos h0]; exact le_trans (by norm_num) h))
  rw [abs_of_pos h0] at this
  have h3 : (2 : ℝ) ^ (-24 : ℤ) = 1 / 16777216 := by norm_num
  rwa [h3] at this

theorem rnd_bounds {x : ℝ} (h : 1 / 2 ^ 100 ≤ x) : (1 - 6 / 10 ^ 8) * x ≤ rnd x ∧ rnd x ≤ (1 + 6 / 10 ^ 8) * x := by
  have h0 : 0 < x := lt_of_lt_of_le (by positivity) h
  have := abs_le.1 (rnd_rel' h)
  constructor <;> linarith [this.1, this.2]

/-- The squares of the polar method. -/
theorem square_bounds {U : ℝ} (h : U = 0 ∨ 1 / 16777216 ≤ |U|) :
    (1 - 6 / 10 ^ 8) * U ^ 2 ≤ rnd (U * U) ∧ (U ≠ 0 → 1 / 2 ^ 48 ≤ rnd (U * U)) ∧ 0 ≤ rnd (U * U) := by
  rcases h with rfl | h
  · have : rnd (0 * 0 : ℝ) = 0 := by rw [zero_mul]; simp [rnd, mant_zero]
    rw [this]; simp
  · have hq : (1 / 2 ^ 48 : ℝ) ≤ U * U := by
      rw [← abs_mul_abs_self]
      nlinarith
    have hr : rnd (1 / 2 ^ 48 : ℝ) = 1 / 2 ^ 48 := rnd_exact (k := 1) (j := -48) (by norm_num) (by norm_num) (by norm_num)
    have hl := le_rnd hq hr
    refine ⟨?_, fun _ => hl, le_trans (by positivity) hl⟩
    rw [sq]
    exact (rnd_bounds (le_trans (by norm_num) hq)).1

theorem log_le_48 {s : ℝ} (h : 1 / 2 ^ 48 ≤ s) : -(3328 / 100) ≤ Real.log s := by
  have h1 := Real.log_le_log (by positivity) h
  have h2 : Real.log (1 / 2 ^ 48 : ℝ) = -(48 * Real.log 2) := by
    rw [one_div, Real.log_inv, Real.log_pow]; norm_num
  have h3 := Real.log_two_lt_d9
  rw [h2] at h1
  norm_num at h3 ⊢
  linarith

theorem polar_real {s d m ms r f : ℝ} (s0 : 0 < s) (f0 : 0 ≤ f) (d0 : 0 ≤ d) (m5 : m ≤ 66561 / 1000) (f2 : f ≤ (1 + 6 / 10 ^ 8) * r)
    (r2 : r ^ 2 = d) (d3 : d ≤ (1 + 6 / 10 ^ 8) * ms) (d6 : s * ms = m) (W : ℝ) (hW : (1 - 13 / 10 ^ 8) * W ^ 2 ≤ s) :
    |W * f| ≤ 816 / 100 := by
  have h1 : f ^ 2 ≤ (1 + 13 / 10 ^ 8) * d := by
    have : f ^ 2 ≤ ((1 + 6 / 10 ^ 8) * r) ^ 2 := pow_le_pow_left₀ f0 f2 2
    refine this.trans ?_
    rw [mul_pow, r2]
    exact mul_le_mul_of_nonneg_right (by norm_num) d0
  have h2 : d * s ≤ (1 + 6 / 10 ^ 8) * m := by
    have := mul_le_mul_of_nonneg_right d3 s0.le
    rw [← d6]; linarith
  have h3 : f ^ 2 * s ≤ (1 + 13 / 10 ^ 8) * (d * s) := by
    have := mul_le_mul_of_nonneg_right h1 s0.le
    linarith
  have fs : f ^ 2 * s ≤ 66562 / 1000 := by
    generalize f ^ 2 * s = x at *
    generalize d * s = y at *
    norm_num at h2 h3 m5 ⊢
    linarith
  have h4 : (1 - 13 / 10 ^ 8) * (W * f) ^ 2 ≤ 66562 / 1000 := by
    have : (1 - 13 / 10 ^ 8) * W ^ 2 * f ^ 2 ≤ s * f ^ 2 := mul_le_mul_of_nonneg_right hW (sq_nonneg f)
    rw [mul_pow]; linarith
  refine abs_le_of_sq_le_sq ?_ (by norm_num)
  generalize (W * f) ^ 2 = x at *
  norm_num at h4 ⊢
  linarith

theorem square_le {U a b s : ℝ} (ha : (1 - 6 / 10 ^ 8) * U ^ 2 ≤ a) (hb : 0 ≤ b) (hs : (1 - 6 / 10 ^ 8) * (a + b) ≤ s) :
    (1 - 13 / 10 ^ 8) * U ^ 2 ≤ s := by
  have := sq_nonneg U
  linarith

/-- One step of the polar method in IEEE arithmetic. -/
theorem polar_float {L : Libm} (hL : L.Accurate) {u v : B32} {U V : ℝ} (hu : Is u U) (hv : Is v V) (hU1 : |U| ≤ 1) (hV1 : |V| ≤ 1)
    (hU : U = 0 ∨ 1 / 16777216 ≤ |U|) (hV : V = 0 ∨ 1 / 16777216 ≤ |V|) (h0 : ¬ (U = 0 ∧ V = 0))
    (hacc : B32.le (ofReal false 1) (B32.add (B32.mul u u) (B32.mul v v)) = false) :
    ∃ f z y : ℝ, 0 ≤ f ∧
      Is (B32.sqrt (B32.div (B32.mul (B32.neg (ofReal false (((2 : ℤ) : ℝ) / ((1 : ℕ) : ℝ))))
        (L.log (B32.add (B32.mul u u) (B32.mul v v)))) (B32.add (B32.mul u u) (B32.mul v v)))) f ∧
      |U * f| ≤ 816 / 100 ∧ |V * f| ≤ 816 / 100 ∧ z = rnd (U * f) ∧ y = rnd (V * f) := by
  have sqle : ∀ x : ℝ, |x| ≤ 1 → x * x ≤ 1 := fun x h => by rw [← abs_mul_abs_self]; nlinarith [abs_nonneg x]
  have hu2 := mul_is hu hu (small_le_max (by rw [abs_of_nonneg (mul_self_nonneg U)]; exact (sqle U hU1).trans (by norm_num)))
  have hv2 := mul_is hv hv (small_le_max (by rw [abs_of_nonneg (mul_self_nonneg V)]; exact (sqle V hV1).trans (by norm_num)))
  obtain ⟨a1, a2, a3⟩ := square_bounds hU
  obtain ⟨b1, b2, b3⟩ := square_bounds hV
  have a4 : rnd (U * U) ≤ 1 := rnd_le (sqle U hU1) rnd_one
  have b4 : rnd (V * V) ≤ 1 := rnd_le (sqle V hV1) rnd_one
  have hab : 1 / 2 ^ 48 ≤ rnd (U * U) + rnd (V * V) := by
    by_cases h : U = 0
    · have := b2 (fun h' => h0 ⟨h, h'⟩); linarith
    · have := a2 h; linarith
  have hS := add_is hu2 hv2 (small_le_max (by rw [abs_of_nonneg (by linarith)]; norm_num; linarith))
  obtain ⟨s1, -⟩ := rnd_bounds (le_trans (by norm_num) hab)
  have hUs := square_le a1 b3 s1
  have hVs := square_le b1 a3 (s := rnd (rnd (U * U) + rnd (V * V))) (by rw [add_comm (rnd (V * V))]; exact s1)
  have hr : rnd (1 / 2 ^ 48 : ℝ) = 1 / 2 ^ 48 := rnd_exact (k := 1) (j := -48) (by norm_num) (by norm_num) (by norm_num)
  have s2 := le_rnd hab hr
  have s3 := rnd_is hS
  generalize B32.add (B32.mul u u) (B32.mul v v) = S at *
  generalize hs : rnd (rnd (U * U) + rnd (V * V)) = s at *
  have s4 : s < 1 := by
    by_contra hge
    have := (le_iff is_one hS).2 (not_lt.1 hge)
    rw [hacc] at this; cases this
  have s5 := below_one s3 s4
  have s0 : 0 < s := lt_of_lt_of_le (by positivity) s2
  -- the logarithm
  obtain ⟨l1, l2⟩ := hL.log S hS.1 (by rw [hS.2]; exact s0)
  have hl : Is (L.log S) (L.log S).value := ⟨l1, rfl⟩
  rw [hS.2] at l2
  have lg1 : Real.log s ≤ -(1 / 16777216) := by
    have := Real.log_le_sub_one_of_pos s0; linarith
  have lg2 := log_le_48 s2
  generalize (L.log S).value = l at *
  rw [abs_of_neg (show Real.log s < 0 by linarith [show (0 : ℝ) < 1 / 16777216 by norm_num])] at l2
  have e149 : (2 : ℝ) ^ (-149 : ℤ) ≤ 1 / 10 ^ 30 := by norm_num
  have e22 : (2 : ℝ) ^ (-22 : ℤ) = 1 / 4194304 := by norm_num
  rw [e22] at l2
  generalize (2 : ℝ) ^ (-149 : ℤ) = t149 at *
  generalize hlg : -Real.log s = g at *
  have hlg' : Real.log s = -g := by linarith
  rw [hlg'] at l2 lg1 lg2
  obtain ⟨l3, l4⟩ := abs_le.1 l2
  have hg0 : 1 / 16777216 ≤ g := by linarith
  have hg1 : g ≤ 3328 / 100 := by linarith
  -- `-2.0f * logf(S)`
  have hm2 : Is (B32.neg (ofReal false (((2 : ℤ) : ℝ) / ((1 : ℕ) : ℝ)))) (-2) := is_neg is_two
  have m0 : 1 / 10 ^ 8 ≤ -2 * l := by linarith
  have m1 : -2 * l ≤ 2 * (1 + 3 / 10 ^ 7) * g := by linarith
  have hm := mul_is hm2 hl (small_le_max (by rw [abs_of_nonneg (le_trans (by positivity) m0)]; linarith))
  obtain ⟨m2, m3⟩ := rnd_bounds (le_trans (by norm_num) m0)
  generalize rnd (-2 * l) = m at *
  have m4 : 1 / 10 ^ 9 ≤ m := by linarith
  have m5 : m ≤ 66561 / 1000 := by linarith
  -- the quotient
  have d0 : 1 / 10 ^ 9 ≤ m / s := by rw [le_div_iff₀ s0]; nlinarith
  have d1 : m / s ≤ 66561 / 1000 * 2 ^ 48 := by rw [div_le_iff₀ s0]; nlinarith
  have hd := div_is hm hS s0.ne' (small_le_max (by rw [abs_of_nonneg (le_trans (by positivity) d0)]; exact d1.trans (by norm_num)))
  obtain ⟨d2, d3⟩ := rnd_bounds (le_trans (by norm_num) d0)
  have d6 : s * (m / s) = m := by field_simp
  generalize rnd (m / s) = d at *
  generalize m / s = ms at *
  have d4 : 1 / 10 ^ 10 ≤ d := by linarith
  have d5 : d ≤ 2 ^ 60 := by linarith
  have d0' : 0 < d := lt_of_lt_of_le (by positivity) d4
  have r0 : 1 / 10 ^ 5 ≤ √d := Real.le_sqrt_of_sq_le (by linarith)
  have r1 : √d ≤ 2 ^ 30 := Real.sqrt_le_iff.2 ⟨by positivity, by linarith⟩
  have hf := sqrt_is hd d0' (r1.trans (by rw [maxF32]; norm_num))
  obtain ⟨f1, f2⟩ := rnd_bounds (le_trans (by norm_num) r0)
  have r2 := Real.sq_sqrt d0'.le
  generalize √d = r at *
  generalize rnd r = f at *
  have f0 : 0 ≤ f := by linarith
  have fin := polar_real s0 f0 d0'.le m5 f2 r2 d3 d6
  exact ⟨f, _, _, f0, hf, fin U hUs, fin V hVs, rfl, rfl⟩

end NN.B32
