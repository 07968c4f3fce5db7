import Verif.Proofs.FloatModel
/-
Rounding is monotone and goes to the nearest number.
-/
namespace NN.B32

theorem roundNat_mono {s t : ℝ} (h : s ≤ t) : roundNat s ≤ roundNat t := by
  have hf : ⌊s⌋₊ ≤ ⌊t⌋₊ := Nat.floor_le_floor h
  rcases Nat.lt_or_ge ⌊s⌋₊ ⌊t⌋₊ with hlt | hge
  · have h1 : roundNat s ≤ ⌊s⌋₊ + 1 := by unfold roundNat; split_ifs <;> omega
    have h2 : ⌊t⌋₊ ≤ roundNat t := by unfold roundNat; split_ifs <;> omega
    omega
  · have he : ⌊t⌋₊ = ⌊s⌋₊ := le_antisymm hge hf
    unfold roundNat
    rw [he]
    split_ifs with c1 c2 c2
    · exact le_rfl
    · omega
    · exfalso
      apply c1
      rcases c2 with c2 | ⟨c2, c3⟩
      · left; linarith
      · rcases lt_or_eq_of_le (show s - ⌊s⌋₊ ≤ 1 / 2 by linarith) with h4 | h4
        · exact .inl h4
        · exact .inr ⟨h4, c3⟩
    · exact le_rfl

theorem rnd_zero : rnd 0 = 0 := by simp [rnd, mant_zero]

theorem rnd_nonneg {x : ℝ} (h : 0 ≤ x) : 0 ≤ rnd x := by
  rw [rnd, if_neg (not_lt.2 h)]; positivity

theorem ulpExp_neg (x : ℝ) : ulpExp (-x) = ulpExp x := by simp [ulpExp]
theorem mant_neg (x : ℝ) : mant (-x) = mant x := by simp [mant, ulpExp_neg]

theorem rnd_neg (x : ℝ) : rnd (-x) = -rnd x := by
  by_cases h0 : x = 0
  · subst h0; simp [rnd_zero]
  · rcases lt_or_gt_of_ne h0 with h | h
    · rw [rnd, rnd, if_neg (by linarith), if_pos h, mant_neg, ulpExp_neg, neg_neg]
    · rw [rnd, rnd, if_pos (by linarith), if_neg (by linarith), mant_neg, ulpExp_neg]

theorem ulpExp_mono {x y : ℝ} (h0 : 0 < x) (h : x ≤ y) : ulpExp x ≤ ulpExp y := by
  have : Int.log 2 |x| ≤ Int.log 2 |y| := by
    rw [abs_of_pos h0, abs_of_pos (by linarith)]
    exact Int.log_mono_right h0 h
  simp only [ulpExp]; omega

theorem rnd_mono_pos {x y : ℝ} (h0 : 0 < x) (h : x ≤ y) : rnd x ≤ rnd y := by
  have hy : 0 < y := by linarith
  rw [rnd, rnd, if_neg (by linarith), if_neg (by linarith)]
  have hu := ulpExp_mono h0 h
  have p1 : (0 : ℝ) < 2 ^ ulpExp x := by positivity
  rcases lt_or_eq_of_le hu with hlt | heq
  · have h1 : (mant x : ℝ) ≤ 2 ^ 24 := by exact_mod_cast mant_le h0.ne'
    have h2 : (2 ^ 23 : ℝ) ≤ mant y := by
      have := le_mant hy.ne' (by have := ulpExp_ge x; omega)
      exact_mod_cast this
    have h3 : (2 : ℝ) ^ (ulpExp x + 1) ≤ 2 ^ ulpExp y := zpow_le_zpow_right₀ (by norm_num) hlt
    rw [zpow_add₀ (by norm_num), zpow_one] at h3
    calc (mant x : ℝ) * 2 ^ ulpExp x ≤ 2 ^ 24 * 2 ^ ulpExp x := by gcongr
      _ = 2 ^ 23 * (2 ^ ulpExp x * 2) := by ring
      _ ≤ (mant y : ℝ) * 2 ^ ulpExp y := by gcongr
  · rw [← heq]
    have : mant x ≤ mant y := by
      unfold mant
      rw [← heq, abs_of_pos h0, abs_of_pos hy]
      exact roundNat_mono (by gcongr)
    have : (mant x : ℝ) ≤ mant y := by exact_mod_cast this
    gcongr

/-- Rounding is monotone. -/
theorem rnd_mono {x y : ℝ} (h : x ≤ y) : rnd x ≤ rnd y := by
  rcases lt_trichotomy x 0 with hx | hx | hx
  · rcases lt_or_ge y 0 with hy | hy
    · have := rnd_mono_pos (x := -y) (y := -x) (by linarith) (by linarith)
      rw [rnd_neg, rnd_neg] at this; linarith
    · have h1 := rnd_nonneg hy
      have h2 := rnd_nonneg (x := -x) (by linarith)
      rw [rnd_neg] at h2; linarith
  · subst hx
    rw [rnd_zero]; exact rnd_nonneg h
  · exact rnd_mono_pos hx h

theorem rnd_value {a : B32} (h : a.isFinite = true) : rnd a.value = a.value := by
  obtain ⟨k, j, h1, h2, h3, _⟩ := value_rep h
  exact rnd_exact h1 h2 h3

theorem rnd_is {a : B32} {x : ℝ} (h : Is a x) : rnd x = x := by rw [← h.2]; exact rnd_value h.1

theorem rnd_le {x b : ℝ} (h : x ≤ b) (hb : rnd b = b) : rnd x ≤ b := by rw [← hb]; exact rnd_mono h
theorem le_rnd {x b : ℝ} (h : b ≤ x) (hb : rnd b = b) : b ≤ rnd x := by rw [← hb]; exact rnd_mono h

theorem rnd_one : rnd 1 = 1 := by
  have := rnd_exact (x := 1) (k := 1) (j := 0) (by norm_num) (by norm_num) (by norm_num)
  exact this
theorem rnd_two : rnd 2 = 2 := by
  have := rnd_exact (x := 2) (k := 2) (j := 0) (by norm_num) (by norm_num) (by norm_num)
  exact this

theorem sign_of_neg {a : B32} (h : a.value < 0) : a.sign = true := by
  by_contra hs
  have hs : a.bits.toNat < 2 ^ 31 := by simpa [sign] using hs
  have : 0 ≤ a.value := by
    unfold value f32Value
    simp only [if_pos hs]
    split
    · exact le_rfl
    · positivity
  linarith

theorem sign_of_pos {a : B32} (h : 0 < a.value) : a.sign = false := by
  by_contra hs
  have hs : ¬ a.bits.toNat < 2 ^ 31 := by simpa [sign] using hs
  have : a.value ≤ 0 := by
    unfold value f32Value
    simp only [if_neg hs]
    rw [neg_nonpos]
    split
    · exact le_rfl
    · split <;> positivity
  linarith

/-- No finite number is closer to `x` than the rounded one. -/
theorem rnd_nearest (x : ℝ) {b : B32} (hb : b.isFinite = true) : |rnd x - x| ≤ |b.value - x| := by
  wlog hx : 0 < x generalizing x b
  · rcases lt_or_eq_of_le (not_lt.1 hx) with h | h
    · have hn := is_neg (⟨hb, rfl⟩ : Is b b.value)
      have := this (-x) hn.1 (by linarith)
      rw [rnd_neg, hn.2] at this
      rw [show -rnd x - -x = -(rnd x - x) by ring, show -b.value - -x = -(b.value - x) by ring, abs_neg, abs_neg] at this
      exact this
    · rw [h, rnd_zero, sub_self, abs_zero]; exact abs_nonneg _
  -- multiples of the last place are not closer
  have hgrid : ∀ m : ℤ, |rnd x - x| ≤ |(m : ℝ) * 2 ^ ulpExp x - x| := by
    intro m
    have he := rnd_error x
    have p1 : (0 : ℝ) < 2 ^ ulpExp x := by positivity
    by_contra hlt
    push Not at hlt
    have hr : rnd x = (mant x : ℤ) * 2 ^ ulpExp x := by rw [rnd, if_neg (by linarith)]; push_cast; rfl
    have h1 : |(m : ℝ) * 2 ^ ulpExp x - rnd x| < 2 ^ ulpExp x := by
      have := abs_sub_le ((m : ℝ) * 2 ^ ulpExp x) x (rnd x)
      rw [abs_sub_comm x] at this
      linarith
    rw [hr, ← sub_mul, abs_mul, abs_of_pos p1] at h1
    have h2 : |(m : ℝ) - (mant x : ℤ)| < 1 := by
      by_contra h3
      have := mul_le_mul_of_nonneg_right (not_lt.1 h3) p1.le
      linarith
    have h3 : |m - (mant x : ℤ)| < 1 := by exact_mod_cast h2
    have h4 : m = mant x := by rw [abs_lt] at h3; omega
    rw [hr, h4] at hlt
    exact lt_irrefl _ hlt
  obtain ⟨k, j, h1, h2, h3, _⟩ := value_rep hb
  rcases le_or_gt (ulpExp x) j with hj | hj
  · have := hgrid (k * 2 ^ (j - ulpExp x).toNat)
    rw [h1]
    have e : ((k * 2 ^ (j - ulpExp x).toNat : ℤ) : ℝ) * 2 ^ ulpExp x = k * 2 ^ j := by
      push_cast
      rw [mul_assoc, ← zpow_natCast, ← zpow_add₀ (by norm_num), Int.toNat_of_nonneg (by omega)]
      congr 2; ring
    rwa [e] at this
  · -- `b` lies below the binade of `x`
    have hb' : |b.value| ≤ 2 ^ (ulpExp x + (23 : ℕ)) := by
      rw [h1, abs_mul, abs_of_pos (by positivity : (0 : ℝ) < 2 ^ j)]
      have hk : |(k : ℝ)| ≤ 2 ^ 24 := by
        rw [← Int.cast_abs]; exact_mod_cast h2.le
      calc |(k : ℝ)| * 2 ^ j ≤ 2 ^ 24 * 2 ^ j := by gcongr
        _ = 2 ^ (j + (24 : ℕ)) := by rw [zpow_split]; ring
        _ ≤ _ := zpow_le_zpow_right₀ (by norm_num) (by push_cast; omega)
    have hl : (2 : ℝ) ^ (ulpExp x + (23 : ℕ)) ≤ x := by
      have := le_scaled hx.ne' (by omega)
      rw [abs_of_pos hx, le_div_iff₀ (by positivity)] at this
      rw [zpow_split, mul_comm]; exact this
    have h5 := hgrid (2 ^ 23)
    have e : ((2 ^ 23 : ℤ) : ℝ) * 2 ^ ulpExp x = 2 ^ (ulpExp x + (23 : ℕ)) := by rw [zpow_split]; push_cast; ring
    rw [e] at h5
    refine h5.trans ?_
    have h6 := (abs_le.1 hb').2
    rw [abs_of_nonpos (by linarith), abs_of_nonpos (by linarith)]
    linarith

/-! ### Overflow -/

theorem roundBits_lt' {x : ℝ} (hx : x ≠ 0) (h : |x| < maxF32 + 2 ^ 103) :
    (ulpExp x + 149).toNat * 2 ^ 23 + mant x < 255 * 2 ^ 23 := by
  have hp : 0 < |x| := abs_pos.2 hx
  have h2 := ulpExp_ge x
  have h3 := mant_le hx
  have hl : Int.log 2 |x| < 128 := by
    rw [← Int.lt_zpow_iff_log_lt (by norm_num) hp]
    refine h.trans_le ?_
    unfold maxF32; norm_num
  have h1 : ulpExp x ≤ 104 := by simp only [ulpExp]; omega
  rcases lt_or_eq_of_le h1 with h4 | h4
  · have : (ulpExp x + 149).toNat ≤ 252 := by omega
    omega
  · have ht : |x| / 2 ^ ulpExp x < 2 ^ 24 - 1 / 2 := by
      rw [h4, div_lt_iff₀ (by positivity)]
      refine h.trans_le (le_of_eq ?_)
      unfold maxF32; norm_num
    have he := (abs_le.1 (roundNat_error (t := |x| / 2 ^ ulpExp x) (by positivity))).2
    have : (mant x : ℝ) < 2 ^ 24 := by unfold mant; linarith
    have : mant x < 2 ^ 24 := by exact_mod_cast this
    rw [h4]; norm_num; omega

/-- Below half a unit above the largest number the result is finite. -/
theorem is_ofReal' {s : Bool} {x : ℝ} (h : |x| < maxF32 + 2 ^ 103) : Is (ofReal s x) (rnd x) := by
  by_cases h0 : x = 0
  · subst h0
    exact is_ofReal (by rw [abs_zero]; unfold maxF32; norm_num)
  · have hlt := roundBits_lt' h0 h
    have hb : roundBits x = (ulpExp x + 149).toNat * 2 ^ 23 + mant x := by
      simp only [roundBits, mant] at hlt ⊢; omega
    have e : ofReal s x = withSign (decide (x < 0)) (roundBits x) := by rw [ofReal, if_neg h0]
    rw [e, hb]
    refine ⟨finite_withSign hlt, ?_⟩
    rw [value_withSign hlt, natVal_split _ (mant_le h0), rnd]
    · have : (((ulpExp x + 149).toNat : ℕ) : ℤ) - 149 = ulpExp x := by
        have := ulpExp_ge x; omega
      rw [this]
      simp
    · by_cases he : ulpExp x = -149
      · left; omega
      · right; exact le_mant h0 he

/-- From there on it is an infinity. -/
theorem ofReal_inf {s : Bool} {x : ℝ} (h : maxF32 + 2 ^ 103 ≤ |x|) : ofReal s x = inf (decide (x < 0)) := by
  have hm : 0 < maxF32 := by unfold maxF32; norm_num
  have hp : 0 < |x| := by linarith
  have h0 : x ≠ 0 := abs_pos.1 hp
  have hl : 127 ≤ Int.log 2 |x| := by
    rw [← Int.zpow_le_iff_le_log (by norm_num) hp]
    refine le_trans ?_ h
    unfold maxF32; norm_num
  have he : 104 ≤ ulpExp x := by simp only [ulpExp]; omega
  have hbig : 255 * 2 ^ 23 ≤ (ulpExp x + 149).toNat * 2 ^ 23 + roundNat (|x| / 2 ^ ulpExp x) := by
    have h23 : 2 ^ 23 ≤ roundNat (|x| / 2 ^ ulpExp x) := le_mant h0 (by omega)
    rcases lt_or_eq_of_le he with h4 | h4
    · have : 254 ≤ (ulpExp x + 149).toNat := by omega
      omega
    · have ht : 2 ^ 24 - 1 / 2 ≤ |x| / 2 ^ ulpExp x := by
        rw [← h4, le_div_iff₀ (by positivity)]
        refine le_trans (le_of_eq ?_) h
        unfold maxF32; norm_num
      have h5 : roundNat (2 ^ 24 - 1 / 2) ≤ roundNat (|x| / 2 ^ ulpExp x) := roundNat_mono ht
      have h6 : roundNat (2 ^ 24 - 1 / 2) = 2 ^ 24 := by
        have hf : ⌊(2 ^ 24 - 1 / 2 : ℝ)⌋₊ = 16777215 := by
          rw [Nat.floor_eq_iff (by norm_num)]; norm_num
        rw [roundNat, hf, if_neg (by norm_num)]
        norm_num
      have : (ulpExp x + 149).toNat = 253 := by omega
      omega
  rw [ofReal, if_neg h0, roundBits, min_eq_right hbig]
  rfl

end NN.B32
