import Verif.Proofs.ExpFloat
import Verif.Spec.Libm
import Verif.Spec.Activation
import Verif.Model.Activation
/-
The activation functions on one number, in `float` arithmetic.
-/
namespace NN
open B32

/-! ### A library that satisfies the assumption -/

/-- Correctly rounded functions. -/
noncomputable def exactLibm : Libm where
  exp a := if a.isFinite then ofReal false (Real.exp a.value) else if a.isInf && a.sign then zeroS false else a
  log a := if a.isFinite then ofReal false (Real.log a.value) else a
  tanh a := if a.isFinite then ofReal false (Real.tanh a.value) else a

theorem rnd_loose (x : ℝ) : |rnd x - x| ≤ 2 ^ (-22 : ℤ) * |x| + 2 ^ (-149 : ℤ) := by
  refine (rnd_abs x).trans (add_le_add ?_ ?_)
  · apply mul_le_mul_of_nonneg_right _ (abs_nonneg x); norm_num
  · norm_num

theorem tanh_abs_le (x : ℝ) : |Real.tanh x| ≤ 1 := (Real.abs_tanh_lt_one x).le

theorem log_small {a : B32} (h : a.isFinite = true) : |Real.log a.value| ≤ maxF32 := by
  have hm : (1 : ℝ) ≤ maxF32 := by unfold maxF32; norm_num
  by_cases h0 : a.value = 0
  · rw [h0, Real.log_zero, abs_zero]; linarith
  · obtain ⟨k, hk⟩ := value_grid h
    have hb := value_abs_le h
    have hpos : 0 < |a.value| := abs_pos.2 h0
    have h1 : Real.log |a.value| ≤ maxF32 := (Real.log_le_sub_one_of_pos hpos).trans (by linarith)
    have hk1 : (2 : ℝ) ^ (-149 : ℤ) ≤ |a.value| := by
      have hk0 : k ≠ 0 := by rintro rfl; apply h0; rw [hk]; simp
      have : (1 : ℝ) ≤ |(k : ℝ)| := by
        rw [← Int.cast_abs]; exact_mod_cast Int.one_le_abs hk0
      rw [hk, abs_mul, abs_of_pos (by positivity : (0 : ℝ) < 2 ^ (-149 : ℤ))]
      have h2 : (0 : ℝ) < 2 ^ (-149 : ℤ) := by positivity
      nlinarith
    have h3 : -Real.log |a.value| ≤ maxF32 := by
      rw [← Real.log_inv]
      have hi : |a.value|⁻¹ ≤ 2 ^ (149 : ℤ) := by
        have := inv_anti₀ (by positivity) hk1
        rwa [← zpow_neg] at this
      have := Real.log_le_log (inv_pos.2 hpos) hi
      rw [Real.log_zpow] at this
      have := Real.log_two_lt_d9
      have : (149 : ℝ) ≤ maxF32 := by unfold maxF32; norm_num
      push_cast at *
      linarith
    rw [← Real.log_abs, abs_le]
    constructor <;> linarith

theorem is_inf (s : Bool) : (inf s).isFinite = false ∧ (inf s).isInf = true ∧ (inf s).isNan = false ∧ (inf s).sign = s := by
  have hE : (inf s).expField = 255 := by rw [inf, expField_withSign (by norm_num)]; norm_num
  have hM : (inf s).mantField = 0 := by rw [inf, mantField_withSign (by norm_num)]; norm_num
  have hS : (inf s).sign = s := by
    rw [sign, inf, bits_withSign (by norm_num)]
    cases s <;> simp
  refine ⟨by simp [isFinite, hE], by simp [isInf, hE, hM], by simp [isNan, hM], hS⟩

theorem exactLibm_accurate : exactLibm.Accurate where
  exp a h := by
    have e : exactLibm.exp a = ofReal false (Real.exp a.value) := by simp [exactLibm, h]
    have hp := Real.exp_pos a.value
    rw [e]
    by_cases hb : |Real.exp a.value| < maxF32 + 2 ^ 103
    · left
      have hi := is_ofReal' (s := false) hb
      rw [hi.2]
      refine ⟨hi.1, rnd_nonneg hp.le, ?_⟩
      have := rnd_loose (Real.exp a.value)
      rwa [abs_of_pos hp] at this
    · right
      rw [not_lt] at hb
      refine ⟨?_, ?_⟩
      · rw [ofReal_inf hb]
        rw [decide_eq_false (not_lt.2 hp.le)]
      · rw [abs_of_pos hp] at hb
        refine le_trans ?_ hb
        unfold maxF32; norm_num
  exp_neg_inf := by
    obtain ⟨h1, h2, -, h3⟩ := is_inf true
    simp [exactLibm, h1, h2, h3]
  log a h _ := by
    have e : exactLibm.log a = ofReal false (Real.log a.value) := by simp [exactLibm, h]
    have hi := is_ofReal (s := false) (log_small h)
    rw [e, hi.2]
    exact ⟨hi.1, rnd_loose _⟩
  tanh a h := by
    have e : exactLibm.tanh a = ofReal false (Real.tanh a.value) := by simp [exactLibm, h]
    have ht := tanh_abs_le a.value
    have hi := is_ofReal (s := false) (ht.trans (by unfold maxF32; norm_num))
    rw [e, hi.2]
    refine ⟨hi.1, ?_, rnd_loose _⟩
    obtain ⟨h1, h2⟩ := abs_le.1 ht
    rw [abs_le]
    refine ⟨le_rnd h1 ?_, rnd_le h2 rnd_one⟩
    rw [rnd_neg, rnd_one]

/-! ### The logistic function -/

theorem exp_small' {x : ℝ} (h : x ≤ -(876 / 10)) : Real.exp x ≤ (2 : ℝ) ^ (-126 : ℤ) := by
  have e2 : (2 : ℝ) ^ (-126 : ℤ) = Real.exp (-126 * Real.log 2) := by
    rw [mul_comm, Real.exp_mul, Real.exp_log (by norm_num)]
    rw [← Real.rpow_intCast]; norm_num
  rw [e2, Real.exp_le_exp]
  have := Real.log_two_lt_d9
  linarith

theorem exp_large' {x : ℝ} (h : 88 ≤ x) : (2 : ℝ) ^ (126 : ℕ) ≤ Real.exp x := by
  have e2 : (2 : ℝ) ^ (126 : ℕ) = Real.exp (126 * Real.log 2) := by
    rw [mul_comm, Real.exp_mul, Real.exp_log (by norm_num)]
    rw [← Real.rpow_natCast]; norm_num
  rw [e2, Real.exp_le_exp]
  have := Real.log_two_lt_d9
  linarith

theorem exp_lt_127 {x : ℝ} (h : x ≤ 88) : Real.exp x < (2 : ℝ) ^ (127 : ℤ) := by
  have e2 : (2 : ℝ) ^ (127 : ℤ) = Real.exp (127 * Real.log 2) := by
    rw [mul_comm, Real.exp_mul, Real.exp_log (by norm_num)]
    rw [← Real.rpow_intCast]; norm_num
  rw [e2, Real.exp_lt_exp]
  have := Real.log_two_gt_d9
  linarith

/-- An approximation of the exponential that is good enough for the logistic function. -/
def ExpApprox (v Y : ℝ) : Prop :=
  |v - Real.exp Y| ≤ 5 / 10 ^ 7 * Real.exp Y + 2 ^ (-126 : ℤ) ∨ 2 ^ 100 ≤ v ∧ 2 ^ 100 ≤ Real.exp Y

theorem logistic_real {v Y : ℝ} (hv : 0 ≤ v) (h : ExpApprox v Y) : |1 / (1 + v) - 1 / (1 + Real.exp Y)| ≤ 13 / 10 ^ 8 := by
  have hp := Real.exp_pos Y
  rcases h with h | ⟨h1, h2⟩
  · have hη : (2 : ℝ) ^ (-126 : ℤ) ≤ 1 / 10 ^ 9 := by norm_num
    generalize Real.exp Y = e at hp h ⊢
    have hd : 1 / (1 + v) - 1 / (1 + e) = (e - v) / ((1 + v) * (1 + e)) := by
      field_simp; ring
    have hpos : 0 < (1 + v) * (1 + e) := by positivity
    rw [hd, abs_div, abs_of_pos hpos, div_le_iff₀ hpos, abs_sub_comm]
    have hv1 : (1 - 1 / 10 ^ 6) * (1 + e) ≤ 1 + v := by
      have := (abs_le.1 h).1
      linarith
    have h3 := mul_le_mul_of_nonneg_right hv1 (by linarith : 0 ≤ 1 + e)
    have h4 := sq_nonneg (1 - e)
    nlinarith
  · have b1 : 1 / (1 + v) ≤ 1 / 10 ^ 8 :=
      one_div_le_one_div_of_le (by norm_num) (by norm_num at h1; linarith)
    have b2 : 1 / (1 + Real.exp Y) ≤ 1 / 10 ^ 8 :=
      one_div_le_one_div_of_le (by norm_num) (by norm_num at h2; linarith)
    have c1 : 0 ≤ 1 / (1 + v) := by positivity
    have c2 : 0 ≤ 1 / (1 + Real.exp Y) := by positivity
    rw [abs_le]
    constructor <;> linarith

theorem add_is' {a b : B32} {x y : ℝ} (ha : Is a x) (hb : Is b y) (h : |x + y| < maxF32 + 2 ^ 103) : Is (B32.add a b) (rnd (x + y)) := by
  simp only [B32.add, not_nan ha.1, not_nan hb.1, not_inf ha.1, not_inf hb.1, ha.2, hb.2, Bool.or_self, Bool.false_eq_true, if_false]
  exact is_ofReal' h

/-- `1 + v`. -/
theorem one_add_float {E : B32} {v : ℝ} (hE : Is E v) (h0 : 0 ≤ v) :
    ∃ q, Is (B32.add (ofReal false 1) E) q ∧ 1 ≤ q ∧ |q - (1 + v)| ≤ 1 / 16777216 * (1 + v) := by
  have hv : v ≤ maxF32 := by rw [← hE.2]; exact (le_abs_self _).trans (value_abs_le hE.1)
  refine ⟨rnd (1 + v), add_is' is_one hE ?_, le_rnd (by linarith) rnd_one, ?_⟩
  · rw [abs_of_nonneg (by linarith)]
    have : (1 : ℝ) < 2 ^ 103 := by norm_num
    linarith
  · have h1 : (2 : ℝ) ^ (-126 : ℤ) ≤ |1 + v| := by
      rw [abs_of_nonneg (by linarith)]
      have : (2 : ℝ) ^ (-126 : ℤ) ≤ 1 := by norm_num
      linarith
    have := rnd_rel (Or.inr h1)
    rw [abs_of_nonneg (by linarith : 0 ≤ 1 + v)] at this
    norm_num at this ⊢
    linarith

/-- `c/q` for `c = 1` or `2`. -/
theorem div_float {C Q : B32} {c q v : ℝ} (hC : Is C c) (hQ : Is Q q) (hc1 : 1 ≤ c) (hc2 : c ≤ 2) (hcr : rnd c = c) (hq : 1 ≤ q) (h0 : 0 ≤ v)
    (he : |q - (1 + v)| ≤ 1 / 16777216 * (1 + v)) :
    ∃ s, Is (B32.div C Q) s ∧ 0 ≤ s ∧ s ≤ c ∧ |s - c / (1 + v)| ≤ c * (12 / 10 ^ 8) := by
  have hc0 : 0 < c := by linarith
  have hcq : c / q ≤ c := div_le_self hc0.le hq
  have hcq0 : 0 < c / q := by positivity
  refine ⟨rnd (c / q), div_is hC hQ (by linarith) ?_, rnd_nonneg hcq0.le, rnd_le hcq hcr, ?_⟩
  · rw [abs_of_pos hcq0]
    refine hcq.trans (hc2.trans ?_)
    unfold maxF32; norm_num
  · have h1 := rnd_abs (c / q)
    rw [abs_of_pos hcq0] at h1
    have h2 : |c / q - c / (1 + v)| ≤ c * (1 / 16777216) := by
      have hd : c / q - c / (1 + v) = c * ((1 + v - q) / (q * (1 + v))) := by
        field_simp
      rw [hd, abs_mul, abs_of_pos hc0]
      apply mul_le_mul_of_nonneg_left _ hc0.le
      have hpos : 0 < q * (1 + v) := by positivity
      rw [abs_div, abs_of_pos hpos, div_le_iff₀ hpos, abs_sub_comm]
      have : 1 * (1 + v) ≤ q * (1 + v) := mul_le_mul_of_nonneg_right hq (by linarith)
      linarith
    have h3 := abs_add_le (rnd (c / q) - c / q) (c / q - c / (1 + v))
    rw [sub_add_sub_cancel] at h3
    have h4 : (2 : ℝ) ^ (-24 : ℤ) * (c / q) ≤ 1 / 16777216 * c := by
      have : (2 : ℝ) ^ (-24 : ℤ) = 1 / 16777216 := by norm_num
      rw [this]; linarith
    have h5 : (2 : ℝ) ^ (-150 : ℤ) ≤ 1 / 10 ^ 10 := by norm_num
    linarith

/-! ### Vector exponential -/

theorem exp8_float (L : Libm) {x : B32} {Y : ℝ} (hx : Is x Y) : ∃ v, Is (@exp256 B32 (baseOps L) expOps x) v ∧ 0 ≤ v ∧ ExpApprox v Y := by
  obtain ⟨v, hv, h1, h2, h3, h4, h5, h6⟩ := exp256_float L x
  have ha : expArg x = max (min Y (11583653 / 131072)) (-(11583653 / 131072)) := by rw [expArg, if_pos hx.1, hx.2]
  refine ⟨v, hv, h5, ?_⟩
  have hp := Real.exp_pos Y
  have hη : (0 : ℝ) < 2 ^ (-126 : ℤ) := by positivity
  rcases lt_or_ge (11583653 / 131072) Y with hY | hY
  · right
    rw [min_eq_right hY.le, max_eq_left (by norm_num)] at ha
    rw [ha] at h2
    have h7 := h2 (by norm_num)
    have h8 := exp_large' (x := 11583653 / 131072) (by norm_num)
    have h9 := exp_large' (x := Y) (by linarith)
    have := (abs_le.1 h7).1
    norm_num at h8 h9 ⊢
    constructor <;> linarith
  · left
    rw [min_eq_left hY] at ha
    rcases le_or_gt (-(87683 / 1000)) Y with hl | hl
    · rw [max_eq_left (by linarith)] at ha
      rw [ha] at h2
      have := h2 hl
      linarith
    · have hs := exp_small' (x := Y) (by linarith)
      have hz : v = 0 → |v - Real.exp Y| ≤ 5 / 10 ^ 7 * Real.exp Y + 2 ^ (-126 : ℤ) := by
        rintro rfl
        rw [zero_sub, abs_neg, abs_of_pos hp]
        exact hs.trans (le_add_of_nonneg_left (by positivity))
      rcases le_or_gt (-(11583653 / 131072)) Y with hL | hL
      · rw [max_eq_left hL] at ha
        rw [ha] at h1
        rcases h1 with h1 | h1
        · exact hz h1
        · linarith
      · rw [max_eq_right hL.le] at ha
        exact hz (h3 (by rw [ha]; norm_num))

/-- Infinities of the vector exponential: the argument is clamped. -/
theorem exp8_inf (L : Libm) (s : Bool) : ∃ v, Is (@exp256 B32 (baseOps L) expOps (inf s)) v ∧ 0 ≤ v ∧
    (s = true → v = 0) ∧ (s = false → 2 ^ 100 ≤ v) := by
  obtain ⟨v, hv, h1, h2, h3, h4, h5, h6⟩ := exp256_float L (inf s)
  have hE : (inf s).expField = 255 := by rw [inf, expField_withSign (by norm_num)]; norm_num
  have hM : (inf s).mantField = 0 := by rw [inf, mantField_withSign (by norm_num)]; norm_num
  have hS : (inf s).sign = s := by
    rw [sign, inf, bits_withSign (by norm_num)]
    cases s <;> simp
  have hf : (inf s).isFinite = false := by simp [isFinite, hE]
  have hi : (inf s).isInf = true := by simp [isInf, hE, hM]
  refine ⟨v, hv, h5, ?_, ?_⟩
  · rintro rfl
    have ha : expArg (inf true) = -(11583653 / 131072) := by simp [expArg, hf, hi, hS]
    exact h3 (by rw [ha]; norm_num)
  · rintro rfl
    have ha : expArg (inf false) = 11583653 / 131072 := by simp [expArg, hf, hi, hS]
    rw [ha] at h2
    have h7 := h2 (by norm_num)
    have h8 := exp_large' (x := 11583653 / 131072) (by norm_num)
    have := (abs_le.1 h7).1
    norm_num at h8 ⊢
    linarith

/-- The logistic function of a nonnegative float that approximates the exponential. -/
theorem logistic_float {E : B32} {v Y : ℝ} (hE : Is E v) (h0 : 0 ≤ v) (h : ExpApprox v Y) :
    ∃ s, Is (B32.div (ofReal false 1) (B32.add (ofReal false 1) E)) s ∧ 0 ≤ s ∧ s ≤ 1 ∧ |s - 1 / (1 + Real.exp Y)| ≤ 3 / 10 ^ 7 := by
  obtain ⟨q, hq, hq1, hqe⟩ := one_add_float hE h0
  obtain ⟨s, hs, hs0, hs1, hse⟩ := div_float is_one hq le_rfl (by norm_num) rnd_one hq1 h0 hqe
  refine ⟨s, hs, hs0, hs1, ?_⟩
  have h1 := logistic_real h0 h
  have := abs_add_le (s - 1 / (1 + v)) (1 / (1 + v) - 1 / (1 + Real.exp Y))
  rw [sub_add_sub_cancel] at this
  linarith

theorem is_two : Is (ofReal false (((2 : ℤ) : ℝ) / ((1 : ℕ) : ℝ))) 2 := by
  have := is_lit (p := 2) (q := 1) 0 (by norm_num) (by norm_num) (by norm_num)
  simpa using this

theorem is_neg_one : Is (ofReal false (((-1 : ℤ) : ℝ) / ((1 : ℕ) : ℝ))) (-1) := by
  have := is_lit (p := -1) (q := 1) 0 (by norm_num) (by norm_num) (by norm_num)
  simpa using this

theorem is_neg_two : Is (ofReal false (((-2 : ℤ) : ℝ) / ((1 : ℕ) : ℝ))) (-2) := by
  have := is_lit (p := -2) (q := 1) 0 (by norm_num) (by norm_num) (by norm_num)
  simpa using this

theorem tanh_logistic (x : ℝ) : Real.tanh x = -1 + 2 * (1 / (1 + Real.exp (-2 * x))) := by
  rw [Real.tanh_eq_sinh_div_cosh, Real.sinh_eq, Real.cosh_eq]
  have h1 : Real.exp (-2 * x) = Real.exp (-x) * Real.exp (-x) := by rw [← Real.exp_add]; ring_nf
  have h2 : Real.exp x * Real.exp (-x) = 1 := by rw [← Real.exp_add]; simp
  have p1 := Real.exp_pos x
  have p2 := Real.exp_pos (-x)
  rw [h1]
  generalize Real.exp x = a at *
  generalize Real.exp (-x) = b at *
  have : a + b ≠ 0 := by positivity
  have : 1 + b * b ≠ 0 := by positivity
  field_simp
  nlinarith

/-- `-1 + 2/(1+v)`. -/
theorem tanh_float {E : B32} {v Y : ℝ} (hE : Is E v) (h0 : 0 ≤ v) (h : ExpApprox v Y) :
    ∃ s, Is (B32.add (ofReal false (((-1 : ℤ) : ℝ) / ((1 : ℕ) : ℝ)))
        (B32.div (ofReal false (((2 : ℤ) : ℝ) / ((1 : ℕ) : ℝ))) (B32.add (ofReal false 1) E))) s ∧
      -1 ≤ s ∧ s ≤ 1 ∧ |s - (-1 + 2 * (1 / (1 + Real.exp Y)))| ≤ 6 / 10 ^ 7 := by
  obtain ⟨q, hq, hq1, hqe⟩ := one_add_float hE h0
  obtain ⟨t, ht, ht0, ht1, hte⟩ := div_float is_two hq (by norm_num) le_rfl rnd_two hq1 h0 hqe
  have hb : |-1 + t| ≤ 1 := by rw [abs_le]; constructor <;> linarith
  refine ⟨rnd (-1 + t), add_is is_neg_one ht (hb.trans (by unfold maxF32; norm_num)), ?_, ?_, ?_⟩
  · exact le_rnd (by linarith) (by rw [rnd_neg, rnd_one])
  · exact rnd_le (by linarith) rnd_one
  · have h1 := logistic_real h0 h
    have h2 := rnd_abs (-1 + t)
    have h3 : (2 : ℝ) ^ (-24 : ℤ) * |-1 + t| ≤ 6 / 10 ^ 8 := by
      calc (2 : ℝ) ^ (-24 : ℤ) * |-1 + t| ≤ 2 ^ (-24 : ℤ) * 1 := by gcongr
        _ ≤ _ := by norm_num
    have h4 : (2 : ℝ) ^ (-150 : ℤ) ≤ 1 / 10 ^ 9 := by norm_num
    have h5 : 2 / (1 + v) = 2 * (1 / (1 + v)) := by ring
    rw [h5] at hte
    obtain ⟨a1, a2⟩ := abs_le.1 h1
    obtain ⟨c1, c2⟩ := abs_le.1 hte
    obtain ⟨d1, d2⟩ := abs_le.1 (h2.trans ((add_le_add h3 h4).trans (by norm_num : _ ≤ (61 / 10 ^ 9 : ℝ))))
    rw [abs_le]
    constructor <;> linarith


/-! ### One number through each activation function -/

theorem zero_sub_is {x : B32} {X : ℝ} (h : Is x X) : Is (B32.sub (zeroS false) x) (-X) := by
  have := sub_is (is_zeroS false) h (by rw [zero_sub, abs_neg, ← h.2]; exact value_abs_le h.1)
  rwa [zero_sub, rnd_neg, rnd_is h] at this

theorem sigmoidV_float (L : Libm) {x : B32} {X : ℝ} (h : Is x X) :
    ∃ s, Is (@sigmoidV B32 (ops L) x) s ∧ 0 ≤ s ∧ s ≤ 1 ∧ |s - Spec.sigmoid X| ≤ 3 / 10 ^ 7 := by
  obtain ⟨v, hv, hv0, hvA⟩ := exp8_float L (zero_sub_is h)
  exact logistic_float hv hv0 hvA

theorem two_pow_bound : (2 : ℝ) ^ (-22 : ℤ) ≤ 24 / 10 ^ 8 := by norm_num

theorem libm_approx {v Y : ℝ} (h : |v - Real.exp Y| ≤ 2 ^ (-22 : ℤ) * Real.exp Y + 2 ^ (-149 : ℤ)) : ExpApprox v Y := by
  left
  have hp := Real.exp_pos Y
  have h1 : (2 : ℝ) ^ (-149 : ℤ) ≤ 2 ^ (-126 : ℤ) := zpow_le_zpow_right₀ (by norm_num) (by norm_num)
  have h2 : (2 : ℝ) ^ (-22 : ℤ) * Real.exp Y ≤ 5 / 10 ^ 7 * Real.exp Y :=
    mul_le_mul_of_nonneg_right (two_pow_bound.trans (by norm_num)) hp.le
  exact h.trans (add_le_add h2 h1)

theorem sigmoidS_float {L : Libm} (hL : L.Accurate) {x : B32} {X : ℝ} (h : Is x X) :
    ∃ s, Is (@sigmoidS B32 (ops L) x) s ∧ 0 ≤ s ∧ s ≤ 1 ∧ |s - Spec.sigmoid X| ≤ 3 / 10 ^ 7 := by
  have hn := is_neg h
  have hE := hL.exp _ hn.1
  rw [hn.2] at hE
  rcases hE with ⟨h1, h2, h3⟩ | ⟨h1, h2⟩
  · exact logistic_float ⟨h1, rfl⟩ h2 (libm_approx h3)
  · refine ⟨0, ?_, le_rfl, by norm_num, ?_⟩
    · have e : @sigmoidS B32 (ops L) x = B32.div (ofReal false 1) (B32.add (ofReal false 1) (L.exp (B32.neg x))) := rfl
      obtain ⟨i1, i2, i3, i4⟩ := is_inf false
      have o1 := not_nan is_one.1
      have o2 := not_inf is_one.1
      have e1 : B32.add (ofReal false 1) (inf false) = inf false := by
        simp [B32.add, o1, o2, i2, i3]
      have e2 : B32.div (ofReal false 1) (inf false) = zeroS ((ofReal false 1).sign ^^ (inf false).sign) := by
        simp [B32.div, o1, o2, i2, i3]
      rw [e, h1, e1, e2]
      exact is_zeroS _
    · rw [zero_sub, abs_neg, Spec.sigmoid, abs_of_pos (by positivity), div_le_iff₀ (by positivity)]
      have : (2 : ℝ) ^ (100 : ℕ) ≤ 2 ^ (127 : ℤ) := by norm_num
      norm_num at this h2 ⊢
      linarith

theorem tanhV_float (L : Libm) {x : B32} {X : ℝ} (h : Is x X) :
    ∃ s, Is (@tanhV B32 (ops L) x) s ∧ -1 ≤ s ∧ s ≤ 1 ∧ |s - Real.tanh X| ≤ 6 / 10 ^ 7 := by
  rw [tanh_logistic]
  by_cases hb : |-2 * X| < maxF32 + 2 ^ 103
  · have hm : Is (B32.mul (ofReal false (((-2 : ℤ) : ℝ) / ((1 : ℕ) : ℝ))) x) (-2 * X) := by
      have : Is (B32.mul (ofReal false (((-2 : ℤ) : ℝ) / ((1 : ℕ) : ℝ))) x) (rnd (-2 * X)) := by
        have i2 := is_neg_two
        simp only [B32.mul, not_nan i2.1, not_nan h.1, not_inf i2.1, not_inf h.1, i2.2, h.2, Bool.or_self, Bool.false_eq_true, if_false]
        exact is_ofReal' hb
      obtain ⟨k, j, h1, h2, h3, _⟩ := value_rep h.1
      rw [h.2] at h1
      rwa [rnd_exact (k := -k) (j := j + 1) (by rw [h1, zpow_add₀ (by norm_num)]; push_cast; ring) (by rwa [abs_neg]) (by omega)] at this
    obtain ⟨v, hv, hv0, hvA⟩ := exp8_float L hm
    exact tanh_float hv hv0 hvA
  · rw [not_lt] at hb
    have hm : B32.mul (ofReal false (((-2 : ℤ) : ℝ) / ((1 : ℕ) : ℝ))) x = inf (decide (-2 * X < 0)) := by
      have i2 := is_neg_two
      simp only [B32.mul, not_nan i2.1, not_nan h.1, not_inf i2.1, not_inf h.1, i2.2, h.2, Bool.or_self, Bool.false_eq_true, if_false]
      exact ofReal_inf hb
    obtain ⟨v, hv, hv0, hz, hl⟩ := exp8_inf L (decide (-2 * X < 0))
    have hA : ExpApprox v (-2 * X) := by
      have hbig : (100 : ℝ) ≤ |-2 * X| := by
        refine le_trans ?_ hb
        unfold maxF32; norm_num
      by_cases hs : -2 * X < 0
      · left
        rw [hz (decide_eq_true hs), zero_sub, abs_neg, abs_of_pos (Real.exp_pos _)]
        rw [abs_of_neg hs] at hbig
        have := exp_small' (x := -2 * X) (by linarith)
        exact this.trans (le_add_of_nonneg_left (by positivity))
      · right
        rw [abs_of_nonneg (not_lt.1 hs)] at hbig
        refine ⟨hl (decide_eq_false hs), ?_⟩
        have := exp_large' (x := -2 * X) (by linarith)
        refine le_trans ?_ this
        norm_num
    have e : @tanhV B32 (ops L) x = B32.add (ofReal false (((-1 : ℤ) : ℝ) / ((1 : ℕ) : ℝ)))
        (B32.div (ofReal false (((2 : ℤ) : ℝ) / ((1 : ℕ) : ℝ))) (B32.add (ofReal false 1)
          (@exp256 B32 (baseOps L) expOps (B32.mul (ofReal false (((-2 : ℤ) : ℝ) / ((1 : ℕ) : ℝ))) x)))) := rfl
    rw [e, hm]
    exact tanh_float hv hv0 hA

theorem tanhS_float {L : Libm} (hL : L.Accurate) {x : B32} {X : ℝ} (h : Is x X) :
    ∃ s, Is (L.tanh x) s ∧ -1 ≤ s ∧ s ≤ 1 ∧ |s - Real.tanh X| ≤ 6 / 10 ^ 7 := by
  obtain ⟨h1, h2, h3⟩ := hL.tanh x h.1
  rw [h.2] at h3
  obtain ⟨b1, b2⟩ := abs_le.1 h2
  refine ⟨_, ⟨h1, rfl⟩, b1, b2, ?_⟩
  have h4 : (2 : ℝ) ^ (-22 : ℤ) * |Real.tanh X| ≤ 24 / 10 ^ 8 * 1 :=
    mul_le_mul two_pow_bound (tanh_abs_le X) (abs_nonneg _) (by norm_num)
  exact (h3.trans (add_le_add_left h4 _)).trans (by norm_num)

theorem abs_is {a : B32} {x : ℝ} (h : Is a x) : Is (B32.abs a) |x| := by
  obtain ⟨h1, h2⟩ := h
  have hlt := a.bits.isLt
  have hn : (B32.abs a).bits.toNat = a.bits.toNat % 2 ^ 31 := by
    simp only [B32.abs, BitVec.toNat_ofNat]; omega
  have he : (B32.abs a).bits.toNat / 2 ^ 23 % 2 ^ 8 = a.bits.toNat / 2 ^ 23 % 2 ^ 8 := by rw [hn]; omega
  have hm : (B32.abs a).bits.toNat % 2 ^ 23 = a.bits.toNat % 2 ^ 23 := by rw [hn]; omega
  refine ⟨?_, ?_⟩
  · simpa only [isFinite, expField, he] using h1
  · rw [← h2]
    simp only [value, f32Value, he, hm]
    rw [if_pos (show (B32.abs a).bits.toNat < 2 ^ 31 by omega)]
    have hnn : (0 : ℝ) ≤ if a.bits.toNat / 2 ^ 23 % 2 ^ 8 = 255 then 0
        else if a.bits.toNat / 2 ^ 23 % 2 ^ 8 = 0 then ((a.bits.toNat % 2 ^ 23 : ℕ) : ℝ) * 2 ^ (-149 : ℤ)
        else (2 ^ 23 + ((a.bits.toNat % 2 ^ 23 : ℕ) : ℝ)) * 2 ^ (((a.bits.toNat / 2 ^ 23 % 2 ^ 8 : ℕ) : ℤ) - 150) := by
      split_ifs <;> positivity
    by_cases hs : a.bits.toNat < 2 ^ 31
    · rw [if_pos hs, abs_of_nonneg hnn]
    · rw [if_neg hs, abs_neg, abs_of_nonneg hnn]

theorem softsign_float (L : Libm) {x : B32} {X : ℝ} (h : Is x X) :
    ∃ s, Is (@softsignS B32 (ops L) x) s ∧ -1 ≤ s ∧ s ≤ 1 ∧ |s - Spec.softsign X| ≤ 3 / 10 ^ 7 := by
  have ha := abs_is h
  have hX : |X| ≤ maxF32 := by rw [← h.2]; exact value_abs_le h.1
  have hX0 := abs_nonneg X
  have hq : Is (B32.add (B32.abs x) (ofReal false 1)) (rnd (|X| + 1)) := add_is' ha is_one (by
    rw [abs_of_nonneg (by linarith)]
    have : (1 : ℝ) < 2 ^ 103 := by norm_num
    linarith)
  have hq1 : 1 ≤ rnd (|X| + 1) := le_rnd (by linarith) rnd_one
  have hqX : |X| ≤ rnd (|X| + 1) := le_rnd (by linarith) (rnd_is ha)
  have hqe : |rnd (|X| + 1) - (|X| + 1)| ≤ 2 ^ (-24 : ℤ) * (|X| + 1) := by
    have := rnd_rel (x := |X| + 1) (.inr (by
      rw [abs_of_nonneg (by linarith)]
      have : (2 : ℝ) ^ (-126 : ℤ) ≤ 1 := by norm_num
      linarith))
    rwa [abs_of_nonneg (by linarith : 0 ≤ |X| + 1)] at this
  generalize rnd (|X| + 1) = q at *
  have hd : |X / q| ≤ 1 := by
    rw [abs_div, abs_of_pos (by linarith : 0 < q)]
    exact div_le_one_of_le₀ hqX (by linarith)
  have hs := div_is h hq (by linarith) (hd.trans (by unfold maxF32; norm_num))
  obtain ⟨d1, d2⟩ := abs_le.1 hd
  refine ⟨_, hs, le_rnd d1 (by rw [rnd_neg, rnd_one]), rnd_le d2 rnd_one, ?_⟩
  have e1 : |rnd (X / q) - X / q| ≤ 7 / 10 ^ 8 := by
    refine (rnd_abs _).trans ?_
    have h4 : (2 : ℝ) ^ (-24 : ℤ) * |X / q| ≤ 2 ^ (-24 : ℤ) * 1 := by gcongr
    exact (add_le_add_left h4 _).trans (by norm_num)
  have e2 : |X / q - Spec.softsign X| ≤ 2 ^ (-24 : ℤ) := by
    have hd : X / q - Spec.softsign X = X * (|X| + 1 - q) / (q * (|X| + 1)) := by
      rw [Spec.softsign, add_comm 1]
      field_simp
    have hpos : 0 < q * (|X| + 1) := mul_pos (by linarith) (by linarith)
    rw [hd, abs_div, abs_of_pos hpos, div_le_iff₀ hpos, abs_mul, abs_sub_comm]
    calc |X| * |q - (|X| + 1)| ≤ q * (2 ^ (-24 : ℤ) * (|X| + 1)) := mul_le_mul hqX hqe (abs_nonneg _) (by linarith)
      _ = _ := by ring
  have := abs_add_le (rnd (X / q) - X / q) (X / q - Spec.softsign X)
  rw [sub_add_sub_cancel] at this
  refine this.trans ((add_le_add e1 e2).trans (by norm_num))

theorem relu_float {x : B32} {X : ℝ} (h : Is x X) :
    Is (B32.fmax (zeroS false) x) (Spec.relu X) ∧ Is (B32.maxps (zeroS false) x) (Spec.relu X) := by
  have hz := is_zeroS false
  constructor
  · simp only [B32.fmax, not_nan hz.1, not_nan h.1, Bool.false_eq_true, if_false, Spec.relu]
    split_ifs with h1
    · rw [B32.lt_iff hz h] at h1; rwa [max_eq_right h1.le]
    · rw [B32.lt_iff hz h, not_lt] at h1; rwa [max_eq_left h1]
  · simp only [B32.maxps, Spec.relu]
    split_ifs with h1
    · rw [B32.lt_iff h hz] at h1; rwa [max_eq_left h1.le]
    · rw [B32.lt_iff h hz, not_lt] at h1; rwa [max_eq_right h1]

theorem fifth_is : ∃ c, Is (ofReal false (((1 : ℤ) : ℝ) / ((5 : ℕ) : ℝ))) c ∧ |c - 1 / 5| ≤ 75 / 10 ^ 10 := by
  refine ⟨_, is_ofReal (by norm_num [maxF32, abs_of_pos]), ?_⟩
  have := rnd_size (x := ((1 : ℤ) : ℝ) / ((5 : ℕ) : ℝ)) (-2) (by norm_num [abs_of_pos]) (by norm_num)
  push_cast at this ⊢
  exact this.trans (by norm_num)

/-- Numbers slightly above a half are rounded to a half. -/
theorem rnd_half {y : ℝ} (h : y ≤ 1 / 2 + 2 / 10 ^ 8) : rnd y ≤ 1 / 2 := by
  have hr : rnd (1 / 2) = 1 / 2 := rnd_exact (k := 1) (j := -1) (by norm_num) (by norm_num) (by norm_num)
  rcases le_or_gt y (1 / 2) with h1 | h1
  · exact rnd_le h1 hr
  · have hu : -24 ≤ ulpExp y := by
      have h2 : -1 ≤ Int.log 2 |y| := by
        rw [← Int.zpow_le_iff_le_log (by norm_num) (abs_pos.2 (by linarith)), abs_of_pos (by linarith)]
        norm_num; linarith
      simp only [ulpExp]; omega
    have hb : (ofReal false (1 / 2)).isFinite = true := ofReal_finite (by norm_num [maxF32, abs_of_pos])
    have hv : (ofReal false (1 / 2)).value = 1 / 2 := by
      rw [ofReal_value (by norm_num [maxF32, abs_of_pos]), hr]
    have hn := rnd_nearest y hb
    rw [hv, abs_of_nonpos (by linarith : 1 / 2 - y ≤ 0)] at hn
    have hub : rnd y ≤ 1 / 2 + 4 / 10 ^ 8 := by
      have := (abs_le.1 hn).2
      linarith
    have hlo : 1 / 2 ≤ rnd y := le_rnd h1.le hr
    rw [rnd, if_neg (by linarith)] at hub hlo ⊢
    have e : (mant y : ℝ) * 2 ^ ulpExp y = ((mant y * 2 ^ (ulpExp y + 24).toNat : ℕ) : ℝ) * 2 ^ (-24 : ℤ) := by
      push_cast
      rw [mul_assoc, ← zpow_natCast, ← zpow_add₀ (by norm_num), Int.toNat_of_nonneg (by omega)]
      congr 2; ring
    rw [e] at hub ⊢
    have h3 : ((mant y * 2 ^ (ulpExp y + 24).toNat : ℕ) : ℝ) < 8388609 := by
      norm_num at hub ⊢; linarith
    have h4 : mant y * 2 ^ (ulpExp y + 24).toNat < 8388609 := by exact_mod_cast h3
    have h5 : ((mant y * 2 ^ (ulpExp y + 24).toNat : ℕ) : ℝ) ≤ 8388608 := by
      have : mant y * 2 ^ (ulpExp y + 24).toNat ≤ 8388608 := by omega
      exact_mod_cast this
    norm_num at h5 ⊢; linarith

theorem hardSigmoid_float (L : Libm) {x : B32} {X : ℝ} (h : Is x X) :
    ∃ s, Is (@hardSigmoidS B32 (ops L) x) s ∧ 0 ≤ s ∧ s ≤ 1 ∧ |s - Spec.hardSigmoid X| ≤ 3 / 10 ^ 7 := by
  have hlo : Is (ofReal false (((-5 : ℤ) : ℝ) / ((2 : ℕ) : ℝ))) (-5 / 2) := by
    have := is_lit (p := -5) (q := 2) 1 (by norm_num) (by norm_num) (by norm_num)
    simpa using this
  have hhi : Is (ofReal false (((5 : ℤ) : ℝ) / ((2 : ℕ) : ℝ))) (5 / 2) := by
    have := is_lit (p := 5) (q := 2) 1 (by norm_num) (by norm_num) (by norm_num)
    simpa using this
  have hhalf : Is (ofReal false (((1 : ℤ) : ℝ) / ((2 : ℕ) : ℝ))) (1 / 2) := by
    have := is_lit (p := 1) (q := 2) 1 (by norm_num) (by norm_num) (by norm_num)
    simpa using this
  obtain ⟨c, hc, hce⟩ := fifth_is
  have e : @hardSigmoidS B32 (ops L) x = if B32.lt x (ofReal false (((-5 : ℤ) : ℝ) / ((2 : ℕ) : ℝ))) = true then zeroS false
      else if B32.lt (ofReal false (((5 : ℤ) : ℝ) / ((2 : ℕ) : ℝ))) x = true then ofReal false 1
      else B32.add (B32.mul (ofReal false (((1 : ℤ) : ℝ) / ((5 : ℕ) : ℝ))) x) (ofReal false (((1 : ℤ) : ℝ) / ((2 : ℕ) : ℝ))) := rfl
  rw [e]
  split_ifs with h1 h2
  · rw [B32.lt_iff h hlo] at h1
    refine ⟨0, is_zeroS false, le_rfl, by norm_num, ?_⟩
    rw [Spec.hardSigmoid, min_eq_right (by linarith), max_eq_left (by linarith)]; norm_num
  · rw [B32.lt_iff hhi h] at h2
    refine ⟨1, is_one, by norm_num, le_rfl, ?_⟩
    rw [Spec.hardSigmoid, min_eq_left (by linarith), max_eq_right (by norm_num)]; norm_num
  · rw [B32.lt_iff h hlo, not_lt] at h1
    rw [B32.lt_iff hhi h, not_lt] at h2
    obtain ⟨c1, c2⟩ := abs_le.1 hce
    have hcX : |c * X - X / 5| ≤ 19 / 10 ^ 9 := by
      rw [show c * X - X / 5 = (c - 1 / 5) * X by ring, abs_mul]
      have : |X| ≤ 5 / 2 := abs_le.2 ⟨by linarith, h2⟩
      calc |c - 1 / 5| * |X| ≤ (75 / 10 ^ 10) * (5 / 2) := mul_le_mul hce this (abs_nonneg _) (by norm_num)
        _ ≤ _ := by norm_num
    obtain ⟨x1, x2⟩ := abs_le.1 hcX
    have hb : |c * X| < 2 ^ (0 : ℤ) := by rw [abs_lt]; norm_num; constructor <;> linarith
    have e1 := rnd_size 0 hb (by norm_num)
    have hm := mul_is hc h (le_max_of_lt _ hb (by norm_num))
    obtain ⟨y1, y2⟩ := abs_le.1 (e1.trans (by norm_num : _ ≤ (3 / 10 ^ 8 : ℝ)))
    have u1 : rnd (c * X) ≤ 1 / 2 := rnd_half (by linarith)
    have u2 : -(1 / 2) ≤ rnd (c * X) := by
      have := rnd_half (y := -(c * X)) (by linarith)
      rw [rnd_neg] at this; linarith
    generalize rnd (c * X) = m at *
    have hb2 : |m + 1 / 2| ≤ 1 := by rw [abs_le]; constructor <;> linarith
    have e2 := rnd_size (x := m + 1 / 2) 1 (hb2.trans_lt (by norm_num)) (by norm_num)
    obtain ⟨z1, z2⟩ := abs_le.1 (e2.trans (by norm_num : _ ≤ (6 / 10 ^ 8 : ℝ)))
    refine ⟨_, add_is hm hhalf (hb2.trans (by unfold maxF32; norm_num)), rnd_nonneg (by linarith), rnd_le (by linarith) rnd_one, ?_⟩
    rw [Spec.hardSigmoid, min_eq_right (by linarith), max_eq_right (by linarith), abs_le]
    constructor <;> linarith

theorem exponential_float {L : Libm} (hL : L.Accurate) {x : B32} {X : ℝ} (h : Is x X) (hX : X ≤ 88) :
    ∃ s, Is (L.exp x) s ∧ 0 ≤ s ∧ |s - Real.exp X| ≤ 24 / 10 ^ 8 * Real.exp X + 1 / 10 ^ 9 := by
  have hE := hL.exp _ h.1
  rw [h.2] at hE
  rcases hE with ⟨h1, h2, h3⟩ | ⟨_, h2⟩
  · refine ⟨_, ⟨h1, rfl⟩, h2, h3.trans (add_le_add ?_ (by norm_num))⟩
    exact mul_le_mul_of_nonneg_right two_pow_bound (Real.exp_pos X).le
  · exact absurd h2 (not_le.2 (exp_lt_127 hX))

theorem softplus_float {L : Libm} (hL : L.Accurate) {x : B32} {X : ℝ} (h : Is x X) (hX : X ≤ 88) :
    ∃ s, Is (@softplusS B32 (ops L) x) s ∧ |s - Spec.softplus X| ≤ 25 / 10 ^ 8 * Spec.softplus X + 32 / 10 ^ 8 := by
  obtain ⟨v, hv, hv0, hve⟩ := exponential_float hL h hX
  have hvm : v ≤ maxF32 := by rw [← hv.2]; exact (le_abs_self _).trans (value_abs_le hv.1)
  have hq : Is (B32.add (L.exp x) (ofReal false 1)) (rnd (v + 1)) := add_is' hv is_one (by
    rw [abs_of_nonneg (by linarith)]
    have : (1 : ℝ) < 2 ^ 103 := by norm_num
    linarith)
  have hq1 : 1 ≤ rnd (v + 1) := le_rnd (by linarith) rnd_one
  have hqe : |rnd (v + 1) - (v + 1)| ≤ 6 / 10 ^ 8 * (v + 1) := by
    have := rnd_rel (x := v + 1) (.inr (by
      rw [abs_of_nonneg (by linarith)]
      have : (2 : ℝ) ^ (-126 : ℤ) ≤ 1 := by norm_num
      linarith))
    rw [abs_of_nonneg (by linarith : 0 ≤ v + 1)] at this
    refine this.trans ?_
    apply mul_le_mul_of_nonneg_right (by norm_num) (by linarith)
  generalize rnd (v + 1) = q at *
  have hp := Real.exp_pos X
  have hE : Spec.softplus X = Real.log (1 + Real.exp X) := rfl
  have hE0 : 0 ≤ Spec.softplus X := by rw [hE]; exact Real.log_nonneg (by linarith)
  -- the argument of the logarithm
  have hr : |q - (1 + Real.exp X)| ≤ 31 / 10 ^ 8 * (1 + Real.exp X) := by
    obtain ⟨a1, a2⟩ := abs_le.1 hve
    obtain ⟨b1, b2⟩ := abs_le.1 hqe
    rw [abs_le]; constructor <;> linarith
  have hlog : |Real.log q - Spec.softplus X| ≤ 311 / 10 ^ 9 := by
    rw [hE]
    obtain ⟨a1, a2⟩ := abs_le.1 hr
    have hpos : 0 < 1 + Real.exp X := by linarith
    have hq0 : 0 < q := by linarith
    rw [← Real.log_div hq0.ne' hpos.ne', abs_le]
    constructor
    · have := Real.one_sub_inv_le_log_of_pos (div_pos hq0 hpos)
      rw [inv_div] at this
      have h3 : (1 + Real.exp X) / q ≤ 1 + 311 / 10 ^ 9 := by
        rw [div_le_iff₀ hq0]; linarith
      linarith
    · have := Real.log_le_sub_one_of_pos (div_pos hq0 hpos)
      have h3 : q / (1 + Real.exp X) ≤ 1 + 31 / 10 ^ 8 := by
        rw [div_le_iff₀ hpos]; linarith
      linarith
  obtain ⟨l1, l2⟩ := hL.log _ hq.1 (by rw [hq.2]; linarith)
  rw [hq.2] at l2
  refine ⟨_, ⟨l1, rfl⟩, ?_⟩
  have hl0 : 0 ≤ Real.log q := Real.log_nonneg hq1
  rw [abs_of_nonneg hl0] at l2
  have h4 : (2 : ℝ) ^ (-22 : ℤ) * Real.log q ≤ 24 / 10 ^ 8 * Real.log q := mul_le_mul_of_nonneg_right two_pow_bound hl0
  have h5 := l2.trans (add_le_add h4 (by norm_num : (2 : ℝ) ^ (-149 : ℤ) ≤ 1 / 10 ^ 9))
  have h5' : |B32.value (@softplusS B32 (ops L) x) - Real.log q| ≤ 24 / 10 ^ 8 * Real.log q + 1 / 10 ^ 9 := h5
  have := abs_add_le (B32.value (@softplusS B32 (ops L) x) - Real.log q) (Real.log q - Spec.softplus X)
  rw [sub_add_sub_cancel] at this
  have := (abs_le.1 hlog).2
  have hfin : |B32.value (@softplusS B32 (ops L) x) - Spec.softplus X| ≤ 25 / 10 ^ 8 * Spec.softplus X + 32 / 10 ^ 8 := by linarith
  exact hfin
end NN
