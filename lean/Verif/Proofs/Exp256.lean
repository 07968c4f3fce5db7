import Verif.Model.Exp256
import Mathlib.Analysis.Complex.ExponentialBounds
/-
The error of `exp256_ps` in exact arithmetic.
-/
namespace NN

/-- The polynomial on the reals. -/
theorem expPoly_real (r : ℝ) : expPoly r = 1 + r + r ^ 2 * (1 / 2) + r ^ 3 * (5592405 / 33554432) + r ^ 4 * (11184577 / 268435456) +
    r ^ 5 * (1118497 / 134217728) + r ^ 6 * (6005223 / 4294967296) + r ^ 7 * (13658471 / 68719476736) := by
  simp only [expPoly, cExpP0, cExpP1, cExpP2, cExpP3, cExpP4, cExpP5, RealOps.add_def, RealOps.mul_def, RealOps.lit_def,
    RealOps.one_def]
  push_cast
  ring

theorem pow_bound {r a : ℝ} (h : |r| ≤ a) (k : ℕ) : -a ^ k ≤ r ^ k ∧ r ^ k ≤ a ^ k := by
  have : |r ^ k| ≤ a ^ k := by
    rw [abs_pow]; exact pow_le_pow_left₀ (abs_nonneg _) h k
  exact abs_le.1 this

/-- The polynomial approximates the exponential on the reduced range. -/
theorem poly_error {r : ℝ} (h : |r| ≤ 3467 / 10000) : |expPoly r - Real.exp r| ≤ 42 / 10 ^ 9 := by
  have ht := Real.exp_bound (x := r) (by linarith) (n := 9) (by norm_num)
  have h9 : |r| ^ 9 ≤ (3467 / 10000) ^ 9 := pow_le_pow_left₀ (abs_nonneg _) h 9
  have h1 : |Real.exp r - ∑ m ∈ Finset.range 9, r ^ m / (m.factorial : ℝ)| ≤ 3 / 10 ^ 10 := by
    refine ht.trans ?_
    have : ((9 : ℕ).succ : ℝ) / ((Nat.factorial 9 : ℝ) * (9 : ℕ)) = 10 / 3265920 := by
      rw [show Nat.factorial 9 = 362880 from rfl]; norm_num
    rw [this]
    calc |r| ^ 9 * (10 / 3265920) ≤ (3467 / 10000) ^ 9 * (10 / 3265920) := by gcongr
      _ ≤ 3 / 10 ^ 10 := by norm_num
  have hs : ∑ m ∈ Finset.range 9, r ^ m / (m.factorial : ℝ) = 1 + r + r ^ 2 / 2 + r ^ 3 / 6 + r ^ 4 / 24 + r ^ 5 / 120 + r ^ 6 / 720 +
      r ^ 7 / 5040 + r ^ 8 / 40320 := by
    simp only [Finset.sum_range_succ, Finset.sum_range_zero, Nat.factorial]
    norm_num
  rw [hs] at h1
  rw [expPoly_real]
  have b3 := pow_bound h 3
  have b4 := pow_bound h 4
  have b5 := pow_bound h 5
  have b6 := pow_bound h 6
  have b7 := pow_bound h 7
  have b8 := pow_bound h 8
  norm_num at b3 b4 b5 b6 b7 b8
  obtain ⟨h1a, h1b⟩ := abs_le.1 h1
  rw [abs_le]
  constructor <;> linarith [b3.1, b3.2, b4.1, b4.2, b5.1, b5.2, b6.1, b6.2, b7.1, b7.2, b8.1, b8.2]

/-- The power of two. -/
theorem expN_real (x : ℝ) : expN realExpOps x = (⌊x * (12102203 / 8388608) + 1 / 2⌋ : ℝ) := by
  have hle : ¬ (x * (12102203 / 8388608) + 1 / 2 < (⌊x * (12102203 / 8388608) + 1 / 2⌋ : ℝ)) := not_lt.2 (Int.floor_le _)
  have e : FloatOps.add (FloatOps.mul x cLog2e) (FloatOps.lit 1 2) = x * (12102203 / 8388608) + 1 / 2 := by
    simp [cLog2e]
  simp only [expN, e, realExpOps, RealOps.lt_iff, if_neg hle, RealOps.sub_def, RealOps.zero_def, sub_zero]

theorem floor_range {x : ℝ} (h1 : -(11583653 / 131072) ≤ x) (h2 : x ≤ 11583653 / 131072) :
    -127 ≤ ⌊x * (12102203 / 8388608) + 1 / 2⌋ ∧ ⌊x * (12102203 / 8388608) + 1 / 2⌋ ≤ 127 := by
  constructor
  · rw [Int.le_floor]; push_cast; linarith
  · rw [← Int.lt_add_one_iff, Int.floor_lt]; push_cast; linarith

theorem trunc_int {n : ℤ} (h1 : -127 ≤ n) (h2 : n ≤ 127) : truncI32 (n : ℝ) = BitVec.ofInt 32 n := by
  have : (if (0 : ℝ) ≤ (n : ℝ) then ⌊(n : ℝ)⌋ else ⌈(n : ℝ)⌉) = n := by split_ifs <;> simp
  simp only [truncI32, this]
  rw [if_pos (by constructor <;> omega)]

theorem pow_bits {n : ℤ} (h1 : -127 ≤ n) (h2 : n ≤ 127) :
    ((BitVec.ofInt 32 n + 0x7f#32) <<< 23).toNat = (n + 127).toNat * 2 ^ 23 := by
  have e : BitVec.ofInt 32 n + 0x7f#32 = BitVec.ofNat 32 (n + 127).toNat := by
    rw [show (0x7f#32 : BitVec 32) = BitVec.ofInt 32 127 from rfl, ← BitVec.ofInt_add]
    apply BitVec.eq_of_toInt_eq
    rw [BitVec.toInt_ofInt, ← BitVec.ofInt_natCast, BitVec.toInt_ofInt, Int.toNat_of_nonneg (by omega)]
  rw [e, BitVec.toNat_shiftLeft, BitVec.toNat_ofNat, Nat.shiftLeft_eq]
  have : (n + 127).toNat ≤ 254 := by omega
  rw [Nat.mod_eq_of_lt (show (n + 127).toNat < 2 ^ 32 by omega), Nat.mod_eq_of_lt (by omega)]

/-- `pow2n` is the power of two, except the smallest one, which is 0. -/
theorem pow_cases {n : ℤ} (h1 : -127 ≤ n) (h2 : n ≤ 127) :
    expPow realExpOps (n : ℝ) = if n = -127 then 0 else (2 : ℝ) ^ n := by
  have hb := pow_bits h1 h2
  simp only [expPow, realExpOps, trunc_int h1 h2, f32Value, hb]
  have e1 : (n + 127).toNat * 2 ^ 23 / 2 ^ 23 % 2 ^ 8 = (n + 127).toNat := by
    rw [Nat.mul_div_cancel _ (by norm_num)]; omega
  have e2 : (n + 127).toNat * 2 ^ 23 % 2 ^ 23 = 0 := Nat.mul_mod_left _ _
  rw [e1, e2, if_pos (by omega), if_neg (by omega)]
  by_cases hn : n = -127
  · rw [if_pos hn, if_pos (by omega)]; simp
  · rw [if_neg hn, if_neg (by omega)]
    have : (((n + 127).toNat : ℤ)) - 150 = n - 23 := by omega
    rw [this, zpow_sub₀ (by norm_num : (2 : ℝ) ≠ 0)]
    norm_num
    field_simp

/-- The reduced argument. -/
noncomputable def expRed (x : ℝ) (n : ℤ) : ℝ := x - n * (355 / 512) - n * (-14581891 / 68719476736)

theorem exp256_inner {x : ℝ} (h1 : -(11583653 / 131072) ≤ x) (h2 : x ≤ 11583653 / 131072) :
    exp256 realExpOps x = expPoly (expRed x ⌊x * (12102203 / 8388608) + 1 / 2⌋) *
      (if ⌊x * (12102203 / 8388608) + 1 / 2⌋ = -127 then 0 else (2 : ℝ) ^ ⌊x * (12102203 / 8388608) + 1 / 2⌋) := by
  obtain ⟨n1, n2⟩ := floor_range h1 h2
  have e : FloatOps.maxps (realExpOps.minps x expHi) expLo = x := by
    simp only [realExpOps, expHi, expLo, RealOps.lit_def, RealOps.maxps_def]
    push_cast
    rw [min_eq_left h2, max_eq_left (by linarith)]
  simp only [exp256, e, expN_real, pow_cases n1 n2, cExpC1, cExpC2, RealOps.mul_def, RealOps.sub_def, RealOps.lit_def, expRed]
  push_cast
  rfl

theorem red_bound {x : ℝ} (h1 : -(11583653 / 131072) ≤ x) (h2 : x ≤ 11583653 / 131072) :
    |expRed x ⌊x * (12102203 / 8388608) + 1 / 2⌋| ≤ 3467 / 10000 := by
  obtain ⟨n1, n2⟩ := floor_range h1 h2
  have a := Int.floor_le (x * (12102203 / 8388608) + 1 / 2)
  have b := Int.lt_floor_add_one (x * (12102203 / 8388608) + 1 / 2)
  set n := ⌊x * (12102203 / 8388608) + 1 / 2⌋
  have n1' : (-127 : ℝ) ≤ n := by exact_mod_cast n1
  have n2' : (n : ℝ) ≤ 127 := by exact_mod_cast n2
  rw [expRed, abs_le]
  constructor <;> linarith

/-- The relative error of polynomial and range reduction, without the exponent. -/
theorem reduced_error {x : ℝ} (h1 : -(11583653 / 131072) ≤ x) (h2 : x ≤ 11583653 / 131072) :
    |expPoly (expRed x ⌊x * (12102203 / 8388608) + 1 / 2⌋) * (2 : ℝ) ^ ⌊x * (12102203 / 8388608) + 1 / 2⌋ - Real.exp x| ≤
      1 / 10 ^ 7 * Real.exp x := by
  obtain ⟨n1, n2⟩ := floor_range h1 h2
  have hr := red_bound h1 h2
  set n := ⌊x * (12102203 / 8388608) + 1 / 2⌋ with hn
  set r := expRed x n with hrdef
  have n1' : (-127 : ℝ) ≤ n := by exact_mod_cast n1
  have n2' : (n : ℝ) ≤ 127 := by exact_mod_cast n2
  have hp := poly_error hr
  set d : ℝ := n * (355 / 512 + -14581891 / 68719476736 - Real.log 2) with hd
  have hlog := abs_le.1 Real.log_two_near_10
  have hc : |(355 / 512 + -14581891 / 68719476736 - Real.log 2 : ℝ)| ≤ 11 / 10 ^ 11 := by
    rw [abs_le]
    constructor
    · have := hlog.2; norm_num at this ⊢; linarith
    · have := hlog.1; norm_num at this ⊢; linarith
  have hdb : |d| ≤ 14 / 10 ^ 9 := by
    rw [hd, abs_mul]
    have : |(n : ℝ)| ≤ 127 := abs_le.2 ⟨n1', n2'⟩
    calc |(n : ℝ)| * _ ≤ 127 * (11 / 10 ^ 11) := by gcongr
      _ ≤ 14 / 10 ^ 9 := by norm_num
  have hx : Real.exp x = Real.exp r * Real.exp d * (2 : ℝ) ^ n := by
    have e2 : (2 : ℝ) ^ n = Real.exp (n * Real.log 2) := by
      rw [mul_comm, Real.exp_mul, Real.exp_log (by norm_num), Real.rpow_intCast]
    rw [e2, ← Real.exp_add, ← Real.exp_add, hrdef, hd, expRed]
    congr 1
    ring
  have hed : |Real.exp d - 1| ≤ 2 * |d| := Real.abs_exp_sub_one_le (by linarith)
  have hrpos : 6533 / 10000 ≤ Real.exp r := by
    have := Real.add_one_le_exp r
    have := (abs_le.1 hr).1
    linarith
  have h2n : (0 : ℝ) < 2 ^ n := by positivity
  have key : |expPoly r - Real.exp r * Real.exp d| ≤ 1 / 10 ^ 7 * (Real.exp r * Real.exp d) := by
    obtain ⟨p1, p2⟩ := abs_le.1 hp
    have hed' : |Real.exp d - 1| ≤ 28 / 10 ^ 9 := by linarith
    obtain ⟨e1, e2⟩ := abs_le.1 hed'
    have q1 : Real.exp r * (Real.exp d - 1) ≤ Real.exp r * (28 / 10 ^ 9) := by
      apply mul_le_mul_of_nonneg_left e2; linarith
    have q2 : Real.exp r * -(28 / 10 ^ 9) ≤ Real.exp r * (Real.exp d - 1) := by
      apply mul_le_mul_of_nonneg_left e1; linarith
    rw [abs_le]
    norm_num at *
    constructor <;> nlinarith
  rw [hx, ← sub_mul, abs_mul, abs_of_pos h2n, ← mul_assoc]
  exact mul_le_mul_of_nonneg_right key h2n.le

end NN
