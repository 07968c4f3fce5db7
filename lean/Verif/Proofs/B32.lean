import Verif.Model.B32
/-
Correct rounding: the value of a rounded real, its error, exactness on representable numbers.
-/
namespace NN.B32

theorem roundNat_error {t : ℝ} (h : 0 ≤ t) : |(roundNat t : ℝ) - t| ≤ 1 / 2 := by
  have h1 := Nat.floor_le h
  have h2 := Nat.lt_floor_add_one t
  unfold roundNat
  split_ifs with hc
  · rw [abs_le]; constructor <;> rcases hc with hc | hc <;> linarith [hc]
  · push Not at hc
    have := hc.1
    push_cast
    rw [abs_le]; constructor <;> linarith

theorem roundNat_le {t : ℝ} {n : ℕ} (h : 0 ≤ t) (hn : t ≤ n) : roundNat t ≤ n := by
  unfold roundNat
  have hf : ⌊t⌋₊ ≤ n := by
    have := Nat.floor_le_floor hn
    simpa using this
  split_ifs with hc
  · exact hf
  · rcases Nat.lt_or_ge ⌊t⌋₊ n with h1 | h1
    · omega
    · have h1' : (n : ℝ) ≤ ⌊t⌋₊ := by exact_mod_cast h1
      have := Nat.floor_le h
      exfalso; apply hc; left; linarith

theorem le_roundNat {t : ℝ} {n : ℕ} (hn : (n : ℝ) ≤ t) : n ≤ roundNat t := by
  unfold roundNat
  have hf : n ≤ ⌊t⌋₊ := Nat.le_floor hn
  split_ifs <;> omega

theorem roundNat_natCast (n : ℕ) : roundNat (n : ℝ) = n :=
  le_antisymm (roundNat_le (Nat.cast_nonneg _) le_rfl) (le_roundNat le_rfl)

theorem zpow_split (e : ℤ) (k : ℕ) : (2 : ℝ) ^ (e + k) = 2 ^ e * 2 ^ k := by
  rw [zpow_add₀ (by norm_num), zpow_natCast]

/-- The scaled significand lies below `2^24`, and above `2^23` unless the exponent is the smallest. -/
theorem scaled_lt {x : ℝ} (hx : x ≠ 0) : |x| / 2 ^ ulpExp x < 2 ^ 24 := by
  have hp : 0 < |x| := abs_pos.2 hx
  have h2 : (0 : ℝ) < 2 ^ ulpExp x := by positivity
  rw [div_lt_iff₀ h2]
  have := Int.lt_zpow_succ_log_self (b := 2) (by norm_num) |x|
  push_cast at this
  refine this.trans_le ?_
  have : Int.log 2 |x| + 1 ≤ ulpExp x + (24 : ℕ) := by simp only [ulpExp]; push_cast; omega
  calc (2 : ℝ) ^ (Int.log 2 |x| + 1) ≤ 2 ^ (ulpExp x + (24 : ℕ)) := zpow_le_zpow_right₀ (by norm_num) this
    _ = 2 ^ 24 * 2 ^ ulpExp x := by rw [zpow_split, mul_comm]

theorem le_scaled {x : ℝ} (hx : x ≠ 0) (he : ulpExp x ≠ -149) : 2 ^ 23 ≤ |x| / 2 ^ ulpExp x := by
  have hp : 0 < |x| := abs_pos.2 hx
  have h2 : (0 : ℝ) < 2 ^ ulpExp x := by positivity
  rw [le_div_iff₀ h2]
  have := Int.zpow_log_le_self (b := 2) (by norm_num) hp
  push_cast at this
  have e : Int.log 2 |x| = ulpExp x + (23 : ℕ) := by simp only [ulpExp] at he ⊢; push_cast; omega
  calc (2 : ℝ) ^ 23 * 2 ^ ulpExp x = 2 ^ Int.log 2 |x| := by rw [e, zpow_split, mul_comm]
    _ ≤ |x| := this

theorem ulpExp_ge (x : ℝ) : -149 ≤ ulpExp x := le_max_right _ _

/-- The largest finite number. -/
noncomputable def maxF32 : ℝ := (2 ^ 24 - 1) * 2 ^ 104

theorem ulpExp_le {x : ℝ} (hx : x ≠ 0) (h : |x| ≤ maxF32) : ulpExp x ≤ 104 := by
  have hp : 0 < |x| := abs_pos.2 hx
  have h1 := Int.zpow_log_le_self (b := 2) (by norm_num) hp
  push_cast at h1
  have h2 : |x| < 2 ^ (128 : ℤ) := by
    refine h.trans_lt ?_
    unfold maxF32; norm_num
  have h3 := (zpow_lt_zpow_iff_right₀ (by norm_num : (1 : ℝ) < 2)).1 (h1.trans_lt h2)
  simp only [ulpExp]; omega

/-- The rounded significand. -/
noncomputable def mant (x : ℝ) : ℕ := roundNat (|x| / 2 ^ ulpExp x)

theorem mant_le {x : ℝ} (hx : x ≠ 0) : mant x ≤ 2 ^ 24 := by
  apply roundNat_le (by positivity)
  push_cast
  have := (scaled_lt hx).le
  norm_num at this ⊢; exact this

theorem le_mant {x : ℝ} (hx : x ≠ 0) (he : ulpExp x ≠ -149) : 2 ^ 23 ≤ mant x := by
  apply le_roundNat
  push_cast
  have := le_scaled hx he
  norm_num at this ⊢; exact this

/-- No overflow up to the largest number. -/
theorem roundBits_lt {x : ℝ} (hx : x ≠ 0) (h : |x| ≤ maxF32) :
    (ulpExp x + 149).toNat * 2 ^ 23 + mant x < 255 * 2 ^ 23 := by
  have h1 := ulpExp_le hx h
  have h2 := ulpExp_ge x
  have h3 := mant_le hx
  rcases lt_or_eq_of_le h1 with h4 | h4
  · have : (ulpExp x + 149).toNat ≤ 252 := by omega
    omega
  · have : mant x ≤ 2 ^ 24 - 1 := by
      apply roundNat_le (by positivity)
      rw [h4, div_le_iff₀ (by positivity)]
      refine h.trans (le_of_eq ?_)
      unfold maxF32; norm_num
    rw [h4]; norm_num; omega

/-- Value of a bit pattern without sign. -/
noncomputable def natVal (n : ℕ) : ℝ :=
  if n / 2 ^ 23 = 0 then (n : ℝ) * 2 ^ (-149 : ℤ) else (2 ^ 23 + ((n % 2 ^ 23 : ℕ) : ℝ)) * 2 ^ (((n / 2 ^ 23 : ℕ) : ℤ) - 150)

theorem natVal_split {k m : ℕ} (h : k = 0 ∨ 2 ^ 23 ≤ m) (hm : m ≤ 2 ^ 24) :
    natVal (k * 2 ^ 23 + m) = (m : ℝ) * 2 ^ ((k : ℤ) - 149) := by
  unfold natVal
  have hsub : ∀ j : ℤ, (2 : ℝ) ^ (j + 1) = 2 * 2 ^ j := fun j => by
    rw [zpow_add₀ (by norm_num), zpow_one, mul_comm]
  rcases Nat.lt_or_ge m (2 ^ 23) with h1 | h1
  · have hk : k = 0 := by omega
    subst hk
    rw [if_pos (by omega)]; norm_num
  · rcases Nat.lt_or_ge m (2 ^ 24) with h2 | h2
    · have e1 : (k * 2 ^ 23 + m) / 2 ^ 23 = k + 1 := by omega
      have e2 : (k * 2 ^ 23 + m) % 2 ^ 23 = m - 2 ^ 23 := by omega
      rw [e1, e2, if_neg (by omega), Nat.cast_sub h1]
      push_cast
      rw [show ((k : ℤ) + 1 - 150) = (k : ℤ) - 149 by ring]
      ring
    · have e0 : m = 2 ^ 24 := by omega
      have e1 : (k * 2 ^ 23 + m) / 2 ^ 23 = k + 2 := by omega
      have e2 : (k * 2 ^ 23 + m) % 2 ^ 23 = 0 := by omega
      rw [e1, e2, if_neg (by omega), e0]
      push_cast
      rw [show ((k : ℤ) + 2 - 150) = (k : ℤ) - 149 + 1 by ring, hsub]
      ring

theorem bits_withSign {neg : Bool} {n : ℕ} (h : n < 2 ^ 31) :
    (withSign neg n).bits.toNat = n + if neg then 2 ^ 31 else 0 := by
  simp only [withSign, BitVec.toNat_ofNat]
  apply Nat.mod_eq_of_lt
  split_ifs <;> omega

theorem expField_withSign {neg : Bool} {n : ℕ} (h : n < 2 ^ 31) : (withSign neg n).expField = n / 2 ^ 23 := by
  rw [expField, bits_withSign h]
  cases neg <;> simp <;> omega

theorem mantField_withSign {neg : Bool} {n : ℕ} (h : n < 2 ^ 31) : (withSign neg n).mantField = n % 2 ^ 23 := by
  rw [mantField, bits_withSign h]
  cases neg <;> simp <;> omega

theorem finite_withSign {neg : Bool} {n : ℕ} (h : n < 255 * 2 ^ 23) : (withSign neg n).isFinite = true := by
  rw [isFinite, expField_withSign (by omega)]
  simp; omega

theorem value_withSign {neg : Bool} {n : ℕ} (h : n < 255 * 2 ^ 23) :
    (withSign neg n).value = if neg then -natVal n else natVal n := by
  have hb := bits_withSign (neg := neg) (show n < 2 ^ 31 by omega)
  have he := expField_withSign (neg := neg) (show n < 2 ^ 31 by omega)
  have hm := mantField_withSign (neg := neg) (show n < 2 ^ 31 by omega)
  rw [expField] at he
  rw [mantField] at hm
  simp only [value, f32Value, he, hm]
  rw [if_neg (show n / 2 ^ 23 ≠ 255 by omega)]
  have hv : (if n / 2 ^ 23 = 0 then (((n % 2 ^ 23 : ℕ) : ℝ)) * 2 ^ (-149 : ℤ)
      else (2 ^ 23 + ((n % 2 ^ 23 : ℕ) : ℝ)) * 2 ^ (((n / 2 ^ 23 : ℕ) : ℤ) - 150)) = natVal n := by
    unfold natVal
    split_ifs with h0
    · rw [Nat.mod_eq_of_lt (by omega)]
    · rfl
  rw [hv, hb]
  cases neg
  · simp only [Bool.false_eq_true, if_false, add_zero]; rw [if_pos (by omega)]
  · simp only [if_true]; rw [if_neg (by omega)]

/-- The real number a real is rounded to. -/
noncomputable def rnd (x : ℝ) : ℝ := if x < 0 then -((mant x : ℝ) * 2 ^ ulpExp x) else (mant x : ℝ) * 2 ^ ulpExp x

theorem ofReal_finite {s : Bool} {x : ℝ} (h : |x| ≤ maxF32) : (ofReal s x).isFinite = true := by
  unfold ofReal
  split_ifs with h0
  · exact finite_withSign (by norm_num)
  · apply finite_withSign
    have := roundBits_lt h0 h
    simp only [roundBits, mant] at this ⊢; omega

theorem mant_zero : mant 0 = 0 := by
  have : |(0 : ℝ)| / 2 ^ ulpExp 0 = ((0 : ℕ) : ℝ) := by simp
  rw [mant, this, roundNat_natCast]

theorem ofReal_value {s : Bool} {x : ℝ} (h : |x| ≤ maxF32) : (ofReal s x).value = rnd x := by
  unfold ofReal
  split_ifs with h0
  · subst h0
    rw [zeroS, value_withSign (by norm_num)]
    simp [natVal, rnd, mant_zero]
  · have hlt := roundBits_lt h0 h
    have hb : roundBits x = (ulpExp x + 149).toNat * 2 ^ 23 + mant x := by
      simp only [roundBits, mant] at hlt ⊢; omega
    rw [hb, value_withSign hlt, natVal_split _ (mant_le h0), rnd]
    · have : (((ulpExp x + 149).toNat : ℕ) : ℤ) - 149 = ulpExp x := by
        have := ulpExp_ge x; omega
      rw [this]
      simp
    · by_cases he : ulpExp x = -149
      · left; omega
      · right; exact le_mant h0 he

/-- Half a unit in the last place. -/
theorem rnd_error (x : ℝ) : |rnd x - x| ≤ 2 ^ ulpExp x / 2 := by
  have h2 : (0 : ℝ) < 2 ^ ulpExp x := by positivity
  have h := roundNat_error (t := |x| / 2 ^ ulpExp x) (by positivity)
  have e : |(mant x : ℝ) * 2 ^ ulpExp x - (|x|)| ≤ 2 ^ ulpExp x / 2 := by
    have : (mant x : ℝ) * 2 ^ ulpExp x - |x| = (mant x - |x| / 2 ^ ulpExp x) * 2 ^ ulpExp x := by
      field_simp
    rw [this, abs_mul, abs_of_pos h2, mant]
    calc _ ≤ 1 / 2 * (2 : ℝ) ^ ulpExp x := by gcongr
      _ = _ := by ring
  unfold rnd
  split_ifs with hs
  · rw [abs_of_neg hs] at e
    rw [← abs_neg]
    convert e using 2; ring
  · rwa [abs_of_nonneg (not_lt.1 hs)] at e

/-- Relative error in the normal range. -/
theorem rnd_rel {x : ℝ} (h : x = 0 ∨ 2 ^ (-126 : ℤ) ≤ |x|) : |rnd x - x| ≤ 2 ^ (-24 : ℤ) * |x| := by
  rcases h with h | h
  · subst h; simp [rnd, mant_zero]
  · have hp : 0 < |x| := lt_of_lt_of_le (by positivity) h
    have hl : -126 ≤ Int.log 2 |x| := by
      rw [← Int.zpow_le_iff_le_log (by norm_num) hp]
      push_cast; exact h
    have he : ulpExp x = Int.log 2 |x| - 23 := by simp only [ulpExp]; omega
    refine (rnd_error x).trans ?_
    have h1 := Int.zpow_log_le_self (b := 2) (by norm_num) hp
    push_cast at h1
    rw [he, show Int.log 2 |x| - 23 = Int.log 2 |x| + (-24 : ℤ) + 1 by ring, zpow_add₀ (by norm_num), zpow_add₀ (by norm_num),
      zpow_one, mul_div_assoc, div_self (by norm_num), mul_one, mul_comm]
    gcongr

/-- Relative error plus half the smallest number. -/
theorem rnd_abs (x : ℝ) : |rnd x - x| ≤ 2 ^ (-24 : ℤ) * |x| + 2 ^ (-150 : ℤ) := by
  by_cases h : x = 0 ∨ 2 ^ (-126 : ℤ) ≤ |x|
  · have := rnd_rel h
    have h2 : (0 : ℝ) < 2 ^ (-150 : ℤ) := by positivity
    linarith
  · push Not at h
    obtain ⟨h0, h⟩ := h
    have hp : 0 < |x| := abs_pos.2 h0
    have hl : Int.log 2 |x| < -126 := by
      rw [← Int.lt_zpow_iff_log_lt (by norm_num) hp]
      push_cast; exact h
    have he : ulpExp x = -149 := by simp only [ulpExp]; omega
    refine (rnd_error x).trans ?_
    rw [he, show (-149 : ℤ) = -150 + 1 by norm_num, zpow_add₀ (by norm_num), zpow_one, mul_div_assoc, div_self (by norm_num), mul_one]
    have : 0 ≤ (2 : ℝ) ^ (-24 : ℤ) * |x| := by positivity
    linarith

/-- A representable number is not changed. -/
theorem rnd_exact {x : ℝ} {k j : ℤ} (hx : x = k * 2 ^ j) (hk : |k| < 2 ^ 24) (hj : -149 ≤ j) : rnd x = x := by
  by_cases h0 : x = 0
  · rw [h0]; simp [rnd, mant_zero]
  · have h2 : (0 : ℝ) < 2 ^ j := by positivity
    have hp : 0 < |x| := abs_pos.2 h0
    have habs : |x| = (k.natAbs : ℝ) * 2 ^ j := by
      rw [hx, abs_mul, abs_of_pos h2, Nat.cast_natAbs, Int.cast_abs]
    have hl : Int.log 2 |x| < j + (24 : ℕ) := by
      rw [← Int.lt_zpow_iff_log_lt (by norm_num) hp, habs]
      push_cast
      rw [show (j + 24 : ℤ) = j + (24 : ℕ) by norm_num, zpow_split, mul_comm]
      have : (k.natAbs : ℝ) < 2 ^ 24 := by
        have : k.natAbs < 2 ^ 24 := by rw [Int.abs_eq_natAbs] at hk; omega
        exact_mod_cast this
      gcongr
    have he : ulpExp x ≤ j := by simp only [ulpExp]; push_cast at hl; omega
    have hs : |x| / 2 ^ ulpExp x = ((k.natAbs * 2 ^ (j - ulpExp x).toNat : ℕ) : ℝ) := by
      rw [div_eq_iff (by positivity), habs]
      push_cast
      rw [mul_assoc, ← zpow_natCast, ← zpow_add₀ (by norm_num), Int.toNat_of_nonneg (by omega)]
      congr 2; ring
    have hm : (mant x : ℝ) * 2 ^ ulpExp x = |x| := by
      rw [mant, hs, roundNat_natCast, ← hs]
      field_simp
    unfold rnd
    rw [hm]
    split_ifs with hneg
    · rw [abs_of_neg hneg]; ring
    · exact abs_of_nonneg (not_lt.1 hneg)

/-- The finite numbers are integer multiples of powers of two. -/
theorem value_rep {a : B32} (h : a.isFinite = true) : ∃ k j : ℤ, a.value = k * 2 ^ j ∧ |k| < 2 ^ 24 ∧ -149 ≤ j ∧ j ≤ 104 := by
  simp only [isFinite, expField, bne_iff_ne, ne_eq] at h
  have h255 : a.bits.toNat / 2 ^ 23 % 2 ^ 8 < 2 ^ 8 := Nat.mod_lt _ (by norm_num)
  have hm : a.bits.toNat % 2 ^ 23 < 2 ^ 23 := Nat.mod_lt _ (by norm_num)
  simp only [value, f32Value, if_neg h]
  set e := a.bits.toNat / 2 ^ 23 % 2 ^ 8
  set m := a.bits.toNat % 2 ^ 23
  by_cases h0 : e = 0
  · simp only [if_pos h0]
    split_ifs
    · exact ⟨m, -149, by push_cast; ring, by rw [abs_of_nonneg (by omega)]; omega, by omega, by omega⟩
    · exact ⟨-m, -149, by push_cast; ring, by rw [abs_neg, abs_of_nonneg (by omega)]; omega, by omega, by omega⟩
  · simp only [if_neg h0]
    split_ifs
    · exact ⟨2 ^ 23 + m, e - 150, by push_cast; ring, by rw [abs_of_nonneg (by omega)]; omega, by omega, by omega⟩
    · exact ⟨-(2 ^ 23 + m), e - 150, by push_cast; ring, by rw [abs_neg, abs_of_nonneg (by omega)]; omega, by omega, by omega⟩

/-- The finite numbers are multiples of the smallest positive one. -/
theorem value_grid {a : B32} (h : a.isFinite = true) : ∃ k : ℤ, a.value = k * 2 ^ (-149 : ℤ) := by
  obtain ⟨k, j, h1, _, h2, _⟩ := value_rep h
  refine ⟨k * 2 ^ (j + 149).toNat, ?_⟩
  rw [h1]; push_cast
  rw [mul_assoc, ← zpow_natCast, ← zpow_add₀ (by norm_num), Int.toNat_of_nonneg (by omega)]
  congr 2; ring

theorem value_abs_le {a : B32} (h : a.isFinite = true) : |a.value| ≤ maxF32 := by
  obtain ⟨k, j, h1, h2, h3, h4⟩ := value_rep h
  rw [h1, abs_mul, abs_of_pos (by positivity : (0 : ℝ) < 2 ^ j), maxF32]
  have hk : |(k : ℝ)| ≤ 2 ^ 24 - 1 := by
    rw [← Int.cast_abs]
    have : |k| ≤ 2 ^ 24 - 1 := by omega
    exact_mod_cast this
  have hj : (2 : ℝ) ^ j ≤ 2 ^ (104 : ℤ) := zpow_le_zpow_right₀ (by norm_num) h4
  calc |(k : ℝ)| * 2 ^ j ≤ (2 ^ 24 - 1) * 2 ^ (104 : ℤ) := by gcongr
    _ = _ := by norm_num

/-- Rounding an integer multiple of the smallest positive number has a purely relative error. -/
theorem rnd_grid {x : ℝ} {k : ℤ} (hx : x = k * 2 ^ (-149 : ℤ)) : |rnd x - x| ≤ 2 ^ (-24 : ℤ) * |x| := by
  by_cases h : 2 ^ (-126 : ℤ) ≤ |x|
  · exact rnd_rel (Or.inr h)
  · push Not at h
    have hk : |k| < 2 ^ 24 := by
      rw [hx, abs_mul, abs_of_pos (by positivity : (0 : ℝ) < 2 ^ (-149 : ℤ)),
        show (-126 : ℤ) = -149 + (23 : ℕ) by norm_num, zpow_split, mul_comm] at h
      have h3 := lt_of_mul_lt_mul_left h (by positivity)
      rw [← Int.cast_abs] at h3
      have : |k| < 2 ^ 23 := by exact_mod_cast h3
      omega
    rw [rnd_exact hx hk le_rfl, sub_self, abs_zero]
    positivity

end NN.B32
