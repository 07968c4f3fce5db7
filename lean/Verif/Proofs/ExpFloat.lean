import Verif.Proofs.B32Mono
import Verif.Proofs.Exp256
/-
The error of `exp256_ps` in `float` arithmetic.
-/
namespace NN
namespace B32

/-- Absolute error in terms of the size of the number. -/
theorem rnd_size {x : ℝ} (p : ℤ) (h : |x| < 2 ^ p) (hp : -125 ≤ p) : |rnd x - x| ≤ 2 ^ (p - 25) := by
  by_cases h0 : x = 0
  · subst h0
    rw [show rnd 0 = 0 by simp [rnd, mant_zero], sub_zero, abs_zero]; positivity
  · have hp0 : 0 < |x| := abs_pos.2 h0
    have hl : Int.log 2 |x| < p := by
      rw [← Int.lt_zpow_iff_log_lt (by norm_num) hp0]
      push_cast; exact h
    have he : ulpExp x ≤ p - 24 := by simp only [ulpExp]; omega
    refine (rnd_error x).trans ?_
    calc (2 : ℝ) ^ ulpExp x / 2 ≤ 2 ^ (p - 24) / 2 := by
          gcongr
          norm_num
      _ = 2 ^ (p - 25) := by
          rw [show p - 24 = p - 25 + 1 by ring, zpow_add₀ (by norm_num), zpow_one]; ring

theorem is_lit {p : ℤ} {q : ℕ} (j : ℕ) (hq : q = 2 ^ j) (hp : |p| < 2 ^ 24) (hj : j ≤ 149) :
    Is (ofReal false ((p : ℝ) / (q : ℝ))) ((p : ℝ) / (q : ℝ)) := by
  have hx : (p : ℝ) / (q : ℝ) = p * 2 ^ (-(j : ℤ)) := by
    rw [hq]; push_cast; rw [zpow_neg, zpow_natCast, div_eq_mul_inv]
  have hb : |(p : ℝ) / (q : ℝ)| ≤ maxF32 := by
    rw [hx, abs_mul, abs_of_pos (by positivity : (0 : ℝ) < 2 ^ (-(j : ℤ))), ← Int.cast_abs]
    have h1 : ((|p| : ℤ) : ℝ) ≤ 2 ^ 24 - 1 := by
      have : |p| ≤ 2 ^ 24 - 1 := by omega
      exact_mod_cast this
    have h2 : (2 : ℝ) ^ (-(j : ℤ)) ≤ 1 := by
      rw [zpow_neg]; apply inv_le_one_of_one_le₀
      rw [zpow_natCast]; exact one_le_pow₀ (by norm_num)
    calc _ ≤ (2 ^ 24 - 1 : ℝ) * 1 := by
          apply mul_le_mul h1 h2 (by positivity) (by norm_num)
      _ ≤ _ := by unfold maxF32; norm_num
  have := is_ofReal (s := false) hb
  rwa [rnd_exact hx hp (by omega)] at this

end B32

open B32

/-- One step of the polynomial: a rounded product and a rounded sum. -/
theorem horner_step {y Y R C e B : ℝ} (p q : ℤ) (hy : |y - Y| ≤ e) (hY : |Y| ≤ B) (hR : |R| ≤ 3467 / 10000)
    (hp : (B + e) * (3467 / 10000) < 2 ^ p) (hp' : -125 ≤ p) (hq : (B + e) * (3467 / 10000) + 2 ^ (p - 25) + |C| < 2 ^ q) (hq' : -125 ≤ q) :
    |rnd (rnd (y * R) + C) - (Y * R + C)| ≤ e * (3467 / 10000) + 2 ^ (p - 25) + 2 ^ (q - 25) ∧
      |y * R| < 2 ^ p ∧ |rnd (y * R) + C| < 2 ^ q := by
  have hyB : |y| ≤ B + e := by
    have := abs_add_le (y - Y) Y
    rw [sub_add_cancel] at this; linarith
  have he : 0 ≤ e := (abs_nonneg _).trans hy
  have hB : 0 ≤ B := (abs_nonneg _).trans hY
  have h1 : |y * R| ≤ (B + e) * (3467 / 10000) := by
    rw [abs_mul]; exact mul_le_mul hyB hR (abs_nonneg _) (by linarith)
  have r1 := rnd_size p (h1.trans_lt hp) hp'
  have h2 : |rnd (y * R) + C| < 2 ^ q := by
    refine lt_of_le_of_lt ?_ hq
    have := abs_add_le (rnd (y * R) - y * R) (y * R)
    rw [sub_add_cancel] at this
    have := abs_add_le (rnd (y * R)) C
    linarith
  have r2 := rnd_size q h2 hq'
  refine ⟨?_, h1.trans_lt hp, h2⟩
  have h3 : |(y - Y) * R| ≤ e * (3467 / 10000) := by
    rw [abs_mul]; exact mul_le_mul hy hR (abs_nonneg _) he
  have := abs_add_le (rnd (rnd (y * R) + C) - (rnd (y * R) + C)) ((rnd (y * R) - y * R) + (y - Y) * R)
  have := abs_add_le (rnd (y * R) - y * R) ((y - Y) * R)
  rw [show rnd (rnd (y * R) + C) - (Y * R + C) =
    rnd (rnd (y * R) + C) - (rnd (y * R) + C) + ((rnd (y * R) - y * R) + (y - Y) * R) by ring]
  linarith

theorem le_max_of_lt {x : ℝ} (p : ℤ) (h : |x| < 2 ^ p) (hp : p ≤ 127) : |x| ≤ maxF32 := by
  have : (2 : ℝ) ^ p ≤ 2 ^ (127 : ℤ) := zpow_le_zpow_right₀ (by norm_num) hp
  refine (h.le.trans this).trans ?_
  unfold maxF32; norm_num

theorem horner_bound {Y R C B : ℝ} (hY : |Y| ≤ B) (hR : |R| ≤ 3467 / 10000) (hC : 0 ≤ C) : |Y * R + C| ≤ B * (3467 / 10000) + C := by
  have h1 : |Y * R| ≤ B * (3467 / 10000) := by
    rw [abs_mul]; exact mul_le_mul hY hR (abs_nonneg _) ((abs_nonneg _).trans hY)
  have := abs_add_le (Y * R) C
  rw [abs_of_nonneg hC] at this
  linarith

/-- The polynomial in `float` arithmetic. -/
theorem expPoly_float (L : Libm) {r : B32} {R : ℝ} (h : Is r R) (hR : |R| ≤ 3467 / 10000) :
    ∃ p, Is (@expPoly B32 (baseOps L) r) p ∧ |p - expPoly R| ≤ 1 / 10 ^ 7 := by
  have c0 : Is (@cExpP0 B32 (baseOps L)) (13658471 / 68719476736) := by
    have := is_lit (p := 13658471) (q := 68719476736) 36 (by norm_num) (by norm_num) (by norm_num)
    norm_num at this; exact this
  have c1 : Is (@cExpP1 B32 (baseOps L)) (6005223 / 4294967296) := by
    have := is_lit (p := 6005223) (q := 4294967296) 32 (by norm_num) (by norm_num) (by norm_num)
    norm_num at this; exact this
  have c2 : Is (@cExpP2 B32 (baseOps L)) (1118497 / 134217728) := by
    have := is_lit (p := 1118497) (q := 134217728) 27 (by norm_num) (by norm_num) (by norm_num)
    norm_num at this; exact this
  have c3 : Is (@cExpP3 B32 (baseOps L)) (11184577 / 268435456) := by
    have := is_lit (p := 11184577) (q := 268435456) 28 (by norm_num) (by norm_num) (by norm_num)
    norm_num at this; exact this
  have c4 : Is (@cExpP4 B32 (baseOps L)) (5592405 / 33554432) := by
    have := is_lit (p := 5592405) (q := 33554432) 25 (by norm_num) (by norm_num) (by norm_num)
    norm_num at this; exact this
  have c5 : Is (@cExpP5 B32 (baseOps L)) (1 / 2) := by
    have := is_lit (p := 1) (q := 2) 1 (by norm_num) (by norm_num) (by norm_num)
    norm_num at this
    simpa [cExpP5, FloatOps.lit] using this
  -- the exact values
  set Y1 : ℝ := 13658471 / 68719476736 * R + 6005223 / 4294967296 with hY1
  set Y2 : ℝ := Y1 * R + 1118497 / 134217728 with hY2
  set Y3 : ℝ := Y2 * R + 11184577 / 268435456 with hY3
  set Y4 : ℝ := Y3 * R + 5592405 / 33554432 with hY4
  set Y5 : ℝ := Y4 * R + 1 / 2 with hY5
  have b0 : |(13658471 / 68719476736 : ℝ)| ≤ 1988 / 10 ^ 7 := by rw [abs_of_nonneg (by norm_num)]; norm_num
  have b1 : |Y1| ≤ 147 / 10 ^ 5 := (horner_bound b0 hR (by norm_num)).trans (by norm_num)
  have b2 : |Y2| ≤ 885 / 10 ^ 5 := (horner_bound b1 hR (by norm_num)).trans (by norm_num)
  have b3 : |Y3| ≤ 4475 / 10 ^ 5 := (horner_bound b2 hR (by norm_num)).trans (by norm_num)
  have b4 : |Y4| ≤ 1822 / 10 ^ 4 := (horner_bound b3 hR (by norm_num)).trans (by norm_num)
  have b5 : |Y5| ≤ 5632 / 10 ^ 4 := (horner_bound b4 hR (by norm_num)).trans (by norm_num)
  -- the rounded values
  set y1 : ℝ := rnd (rnd (13658471 / 68719476736 * R) + 6005223 / 4294967296) with hy1
  set y2 : ℝ := rnd (rnd (y1 * R) + 1118497 / 134217728) with hy2
  set y3 : ℝ := rnd (rnd (y2 * R) + 11184577 / 268435456) with hy3
  set y4 : ℝ := rnd (rnd (y3 * R) + 5592405 / 33554432) with hy4
  set y5 : ℝ := rnd (rnd (y4 * R) + 1 / 2) with hy5
  obtain ⟨e1, m1, s1⟩ := horner_step (y := 13658471 / 68719476736) (C := 6005223 / 4294967296) (e := 0) (-13) (-9) (by simp) b0 hR
    (by norm_num) (by norm_num) (by rw [abs_of_nonneg (by norm_num)]; norm_num) (by norm_num)
  have e1' : |y1 - Y1| ≤ 63 / 10 ^ 12 := e1.trans (by norm_num)
  obtain ⟨e2, m2, s2⟩ := horner_step (C := 1118497 / 134217728) (-10) (-6) e1' b1 hR
    (by norm_num) (by norm_num) (by rw [abs_of_nonneg (by norm_num)]; norm_num) (by norm_num)
  have e2' : |y2 - Y2| ≤ 53 / 10 ^ 11 := e2.trans (by norm_num)
  obtain ⟨e3, m3, s3⟩ := horner_step (C := 11184577 / 268435456) (-8) (-4) e2' b2 hR
    (by norm_num) (by norm_num) (by rw [abs_of_nonneg (by norm_num)]; norm_num) (by norm_num)
  have e3' : |y3 - Y3| ≤ 22 / 10 ^ 10 := e3.trans (by norm_num)
  obtain ⟨e4, m4, s4⟩ := horner_step (C := 5592405 / 33554432) (-6) (-2) e3' b3 hR
    (by norm_num) (by norm_num) (by rw [abs_of_nonneg (by norm_num)]; norm_num) (by norm_num)
  have e4' : |y4 - Y4| ≤ 88 / 10 ^ 10 := e4.trans (by norm_num)
  obtain ⟨e5, m5, s5⟩ := horner_step (C := 1 / 2) (-3) 0 e4' b4 hR
    (by norm_num) (by norm_num) (by rw [abs_of_nonneg (by norm_num)]; norm_num) (by norm_num)
  have e5' : |y5 - Y5| ≤ 37 / 10 ^ 9 := e5.trans (by norm_num)
  clear e1 e2 e3 e4 e5
  -- the rest
  have hRR : |R * R| ≤ 12021 / 10 ^ 5 := by
    rw [abs_mul]
    calc |R| * |R| ≤ (3467 / 10000) * (3467 / 10000) := mul_le_mul hR hR (abs_nonneg _) (by norm_num)
      _ ≤ _ := by norm_num
  have sz : |R * R| < 2 ^ (-3 : ℤ) := hRR.trans_lt (by norm_num)
  have ez := rnd_size (-3) sz (by norm_num)
  set z : ℝ := rnd (R * R) with hz
  have bz : |z| ≤ 12022 / 10 ^ 5 := by
    have := abs_add_le (z - R * R) (R * R)
    rw [sub_add_cancel] at this
    norm_num at ez ⊢; linarith
  have eyz : |y5 * z - Y5 * (R * R)| ≤ 37 / 10 ^ 9 * (12022 / 10 ^ 5) + 5632 / 10 ^ 4 * 2 ^ (-28 : ℤ) := by
    have h1 : |(y5 - Y5) * z| ≤ 37 / 10 ^ 9 * (12022 / 10 ^ 5) := by
      rw [abs_mul]; exact mul_le_mul e5' bz (abs_nonneg _) (by norm_num)
    have h2 : |Y5 * (z - R * R)| ≤ 5632 / 10 ^ 4 * 2 ^ (-28 : ℤ) := by
      rw [abs_mul]; exact mul_le_mul b5 (ez.trans (by norm_num)) (abs_nonneg _) (by norm_num)
    have := abs_add_le ((y5 - Y5) * z) (Y5 * (z - R * R))
    rw [show (y5 - Y5) * z + Y5 * (z - R * R) = y5 * z - Y5 * (R * R) by ring] at this
    linarith
  have by5z : |Y5 * (R * R)| ≤ 678 / 10 ^ 4 := by
    rw [abs_mul]
    calc |Y5| * |R * R| ≤ (5632 / 10 ^ 4) * (12021 / 10 ^ 5) := mul_le_mul b5 hRR (abs_nonneg _) (by norm_num)
      _ ≤ _ := by norm_num
  have s6 : |y5 * z| < 2 ^ (-3 : ℤ) := by
    have := abs_add_le (y5 * z - Y5 * (R * R)) (Y5 * (R * R))
    rw [sub_add_cancel] at this
    have h8 : (37 / 10 ^ 9 * (12022 / 10 ^ 5) + 5632 / 10 ^ 4 * 2 ^ (-28 : ℤ) : ℝ) + 678 / 10 ^ 4 < 2 ^ (-3 : ℤ) := by norm_num
    exact (this.trans (add_le_add eyz by5z)).trans_lt h8
  have e6 := rnd_size (-3) s6 (by norm_num)
  set w : ℝ := rnd (y5 * z) with hw
  have ew : |w - Y5 * (R * R)| ≤ 11 / 10 ^ 9 := by
    have := abs_add_le (w - y5 * z) (y5 * z - Y5 * (R * R))
    rw [sub_add_sub_cancel] at this
    norm_num at e6 eyz ⊢; linarith
  have s7 : |w + R| < 2 ^ (-1 : ℤ) := by
    have h1 := abs_add_le (w - Y5 * (R * R)) (Y5 * (R * R))
    rw [sub_add_cancel] at h1
    have h2 := abs_add_le w R
    have h8 : (11 / 10 ^ 9 + 678 / 10 ^ 4 + 3467 / 10000 : ℝ) < 2 ^ (-1 : ℤ) := by norm_num
    exact (h2.trans (add_le_add (h1.trans (add_le_add ew by5z)) hR)).trans_lt h8
  have e7 := rnd_size (-1) s7 (by norm_num)
  set v : ℝ := rnd (w + R) with hv
  have ev : |v - (Y5 * (R * R) + R)| ≤ 26 / 10 ^ 9 := by
    have := abs_add_le (v - (w + R)) (w - Y5 * (R * R))
    rw [show v - (w + R) + (w - Y5 * (R * R)) = v - (Y5 * (R * R) + R) by ring] at this
    norm_num at e7 ew ⊢; linarith
  have s8 : |v + 1| < 2 ^ (1 : ℤ) := by
    have h1 := abs_add_le (v - (w + R)) (w + R)
    rw [sub_add_cancel] at h1
    have h2 := abs_add_le v 1
    rw [abs_one] at h2
    norm_num at e7 s7 ⊢; linarith
  have e8 := rnd_size 1 s8 (by norm_num)
  refine ⟨rnd (v + 1), ?_, ?_⟩
  · have i1 : Is _ y1 := add_is (mul_is c0 h (le_max_of_lt _ m1 (by norm_num))) c1 (le_max_of_lt _ s1 (by norm_num))
    have i2 : Is _ y2 := add_is (mul_is i1 h (le_max_of_lt _ m2 (by norm_num))) c2 (le_max_of_lt _ s2 (by norm_num))
    have i3 : Is _ y3 := add_is (mul_is i2 h (le_max_of_lt _ m3 (by norm_num))) c3 (le_max_of_lt _ s3 (by norm_num))
    have i4 : Is _ y4 := add_is (mul_is i3 h (le_max_of_lt _ m4 (by norm_num))) c4 (le_max_of_lt _ s4 (by norm_num))
    have i5 : Is _ y5 := add_is (mul_is i4 h (le_max_of_lt _ m5 (by norm_num))) c5 (le_max_of_lt _ s5 (by norm_num))
    have iz : Is _ z := mul_is h h (le_max_of_lt _ sz (by norm_num))
    have iw : Is _ w := mul_is i5 iz (le_max_of_lt _ s6 (by norm_num))
    have iv : Is _ v := add_is iw h (le_max_of_lt _ s7 (by norm_num))
    exact add_is iv is_one (le_max_of_lt _ s8 (by norm_num))
  · have e : expPoly R = Y5 * (R * R) + R + 1 := by
      rw [expPoly_real, hY5, hY4, hY3, hY2, hY1]; ring
    rw [e]
    have := abs_add_le (rnd (v + 1) - (v + 1)) (v - (Y5 * (R * R) + R))
    rw [show rnd (v + 1) - (v + 1) + (v - (Y5 * (R * R) + R)) = rnd (v + 1) - (Y5 * (R * R) + R + 1) by ring] at this
    norm_num at e8 ev ⊢; linarith

namespace B32

theorem rnd_int {n : ℤ} (h : |n| < 2 ^ 24) : rnd (n : ℝ) = n := rnd_exact (k := n) (j := 0) (by simp) h (by norm_num)

theorem floor_is {a : B32} {x : ℝ} (h : Is a x) (hx : |⌊x⌋| < 2 ^ 24) : Is (floor a) (⌊x⌋ : ℝ) := by
  rw [floor, if_pos h.1, h.2]
  have hb : |((⌊x⌋ : ℤ) : ℝ)| ≤ maxF32 := by
    rw [← Int.cast_abs]
    have : (((|⌊x⌋| : ℤ)) : ℝ) ≤ 2 ^ 24 := by exact_mod_cast hx.le
    exact this.trans (by unfold maxF32; norm_num)
  have := is_ofReal (s := a.sign) hb
  rwa [rnd_int hx] at this

end B32

/-- The power of two, in `float` arithmetic. -/
theorem expN_float (L : Libm) {x : B32} {X : ℝ} (h : Is x X) (h1 : -(11583653 / 131072) ≤ X) (h2 : X ≤ 11583653 / 131072) :
    ∃ n : ℤ, Is (@expN B32 (baseOps L) expOps x) n ∧ -127 ≤ n ∧ n ≤ 127 ∧
      n ≤ X * (12102203 / 8388608) + 1 / 2 + 2 ^ (-17 : ℤ) ∧ X * (12102203 / 8388608) + 1 / 2 - 2 ^ (-17 : ℤ) < n + 1 := by
  let _ := baseOps L
  have e17 : (2 : ℝ) ^ (-17 : ℤ) = 1 / 131072 := by norm_num
  have e18 : (2 : ℝ) ^ ((7 : ℤ) - 25) = 1 / 262144 := by norm_num
  have cL : Is (@cLog2e B32 (baseOps L)) (12102203 / 8388608) := by
    have := is_lit (p := 12102203) (q := 8388608) 23 (by norm_num) (by norm_num) (by norm_num)
    simpa [cLog2e, FloatOps.lit] using this
  have cH : Is (@FloatOps.lit B32 (baseOps L) 1 2) (1 / 2) := by
    have := is_lit (p := 1) (q := 2) 1 (by norm_num) (by norm_num) (by norm_num)
    simpa [FloatOps.lit] using this
  have s1 : |X * (12102203 / 8388608)| < 2 ^ (7 : ℤ) := by
    rw [abs_lt]; norm_num; constructor <;> linarith
  have e1 := rnd_size 7 s1 (by norm_num)
  set z1 := rnd (X * (12102203 / 8388608)) with hz1
  rw [e18] at e1
  obtain ⟨e1a, e1b⟩ := abs_le.1 e1
  have s2 : |z1 + 1 / 2| < 2 ^ (7 : ℤ) := by
    rw [abs_lt]; norm_num; constructor <;> linarith
  have e2 := rnd_size 7 s2 (by norm_num)
  set z2 := rnd (z1 + 1 / 2) with hz2
  rw [e18] at e2
  obtain ⟨e2a, e2b⟩ := abs_le.1 e2
  have i1 : Is _ z1 := mul_is h cL (le_max_of_lt _ s1 (by norm_num))
  have i2 : Is _ z2 := add_is i1 cH (le_max_of_lt _ s2 (by norm_num))
  have f1 := Int.floor_le z2
  have f2 := Int.lt_floor_add_one z2
  have n1 : -127 ≤ ⌊z2⌋ := by rw [Int.le_floor]; push_cast; linarith
  have n2 : ⌊z2⌋ ≤ 127 := by rw [← Int.lt_add_one_iff, Int.floor_lt]; push_cast; linarith
  have hn : |⌊z2⌋| < 2 ^ 24 := by rw [abs_lt]; constructor <;> omega
  have i3 := floor_is i2 hn
  refine ⟨⌊z2⌋, ?_, n1, n2, by rw [e17]; linarith, by rw [e17]; linarith⟩
  have hlt : ¬ B32.lt (B32.add (B32.mul x cLog2e) (FloatOps.lit 1 2)) (B32.floor (B32.add (B32.mul x cLog2e) (FloatOps.lit 1 2))) = true := by
    rw [B32.lt_iff i2 i3, not_lt]; exact f1
  have i4 := sub_is i3 (is_zeroS false) (by
    rw [sub_zero, ← Int.cast_abs]
    have : (((|⌊z2⌋| : ℤ)) : ℝ) ≤ 2 ^ 24 := by exact_mod_cast hn.le
    exact this.trans (by unfold maxF32; norm_num))
  rw [sub_zero, rnd_int hn] at i4
  have e : @expN B32 (baseOps L) expOps x = B32.sub (B32.floor (B32.add (B32.mul x cLog2e) (FloatOps.lit 1 2))) (zeroS false) := by
    show B32.sub (B32.floor (B32.add (B32.mul x cLog2e) (FloatOps.lit 1 2))) (if B32.lt (B32.add (B32.mul x cLog2e) (FloatOps.lit 1 2)) (B32.floor (B32.add (B32.mul x cLog2e) (FloatOps.lit 1 2))) = true then _ else _) = _
    rw [if_neg hlt]
    rfl
  rw [e]; exact i4

/-- `pow2n`. -/
theorem expPow_float {fx : B32} {n : ℤ} (h : Is fx n) (h1 : -127 ≤ n) (h2 : n ≤ 127) :
    Is (@expPow B32 expOps fx) (if n = -127 then 0 else (2 : ℝ) ^ n) := by
  have hb := pow_bits h1 h2
  have hc : B32.cvtt fx = BitVec.ofInt 32 n := by rw [B32.cvtt, if_pos h.1, h.2, trunc_int h1 h2]
  have e : @expPow B32 expOps fx = ⟨(BitVec.ofInt 32 n + 0x7f#32) <<< 23⟩ := by
    simp only [expPow, expOps, hc]
  rw [e]
  refine ⟨?_, ?_⟩
  · simp only [isFinite, expField, hb, bne_iff_ne, ne_eq]
    rw [Nat.mul_div_cancel _ (by norm_num)]; omega
  · rw [← pow_cases h1 h2]
    simp only [expPow, realExpOps, trunc_int h1 h2, B32.value]

/-- The reduced argument. -/
theorem expRed_float {x : B32} {X : ℝ} (L : Libm) (h : Is x X) {fx : B32} {n : ℤ} (hf : Is fx n) (n1 : -127 ≤ n) (n2 : n ≤ 127)
    (b1 : n ≤ X * (12102203 / 8388608) + 1 / 2 + 2 ^ (-17 : ℤ)) (b2 : X * (12102203 / 8388608) + 1 / 2 - 2 ^ (-17 : ℤ) < n + 1) :
    ∃ R, Is (B32.sub (B32.sub x (B32.mul fx (@cExpC1 B32 (baseOps L)))) (B32.mul fx (@cExpC2 B32 (baseOps L)))) R ∧
      |R| ≤ 3467 / 10000 ∧ |R - expRed X n| ≤ 31 / 10 ^ 9 := by
  let _ := baseOps L
  have n1' : (-127 : ℝ) ≤ n := by exact_mod_cast n1
  have n2' : (n : ℝ) ≤ 127 := by exact_mod_cast n2
  have e17 : (2 : ℝ) ^ (-17 : ℤ) = 1 / 131072 := by norm_num
  rw [e17] at b1 b2
  have c1 : Is (@cExpC1 B32 (baseOps L)) (355 / 512) := by
    have := is_lit (p := 355) (q := 512) 9 (by norm_num) (by norm_num) (by norm_num)
    simpa [cExpC1, FloatOps.lit] using this
  have c2 : Is (@cExpC2 B32 (baseOps L)) (-14581891 / 68719476736) := by
    have := is_lit (p := -14581891) (q := 68719476736) 36 (by norm_num) (by norm_num) (by norm_num)
    simpa [cExpC2, FloatOps.lit] using this
  have t1 : Is (B32.mul fx cExpC1) (n * (355 / 512) : ℝ) := by
    have := mul_is hf c1 (le_max_of_lt 7 (by rw [abs_lt]; norm_num; constructor <;> linarith) (by norm_num))
    rwa [rnd_exact (k := n * 355) (j := -9) (by push_cast; norm_num; ring) (by rw [abs_lt]; constructor <;> omega) (by norm_num)] at this
  have s2 : |(n : ℝ) * (-14581891 / 68719476736)| < 2 ^ (-5 : ℤ) := by
    rw [abs_lt]; norm_num; constructor <;> linarith
  have t2 := mul_is hf c2 (le_max_of_lt _ s2 (by norm_num))
  have e2 := rnd_size _ s2 (by norm_num)
  set d2 := rnd ((n : ℝ) * (-14581891 / 68719476736))
  have s3 : |X - n * (355 / 512)| < 2 ^ (-1 : ℤ) := by
    rw [abs_lt]; norm_num; constructor <;> linarith
  have t3 := sub_is h t1 (le_max_of_lt _ s3 (by norm_num))
  have e3 := rnd_size _ s3 (by norm_num)
  set d3 := rnd (X - n * (355 / 512))
  rw [show (2 : ℝ) ^ ((-5 : ℤ) - 25) = 1 / 2 ^ 30 by norm_num] at e2
  rw [show (2 : ℝ) ^ ((-1 : ℤ) - 25) = 1 / 2 ^ 26 by norm_num] at e3
  obtain ⟨e2a, e2b⟩ := abs_le.1 e2
  obtain ⟨e3a, e3b⟩ := abs_le.1 e3
  have s4 : |d3 - d2| < 2 ^ (-1 : ℤ) := by
    rw [abs_lt]; norm_num at *; constructor <;> linarith
  have t4 := sub_is t3 t2 (le_max_of_lt _ s4 (by norm_num))
  have e4 := rnd_size _ s4 (by norm_num)
  rw [show (2 : ℝ) ^ ((-1 : ℤ) - 25) = 1 / 2 ^ 26 by norm_num] at e4
  obtain ⟨e4a, e4b⟩ := abs_le.1 e4
  refine ⟨_, t4, ?_, ?_⟩
  · rw [abs_le]; norm_num at *; constructor <;> linarith
  · rw [abs_le, expRed]; norm_num at *; constructor <;> linarith

/-- The clamp of src/activation.c:363-364. -/
noncomputable def expClamp (x : B32) : B32 := B32.maxps (B32.minps x (B32.ofReal false ((11583653 : ℤ) / (131072 : ℕ))))
  (B32.ofReal false ((-11583653 : ℤ) / (131072 : ℕ)))

/-- The errors of range reduction and polynomial together. -/
theorem exp_parts {X R p : ℝ} {n : ℤ} (n1 : -127 ≤ n) (n2 : n ≤ 127) (hR1 : |R| ≤ 3467 / 10000) (hR2 : |R - expRed X n| ≤ 31 / 10 ^ 9)
    (hpe : |p - expPoly R| ≤ 1 / 10 ^ 7) :
    0 < p ∧ p ≤ 16 / 10 ∧ |p * 2 ^ n - Real.exp X| ≤ 31 / 10 ^ 8 * Real.exp X ∧ 65 / 100 * (2 : ℝ) ^ n ≤ Real.exp X := by
  have n1' : (-127 : ℝ) ≤ n := by exact_mod_cast n1
  have n2' : (n : ℝ) ≤ 127 := by exact_mod_cast n2
  have hpr := poly_error hR1
  -- exp X = exp R · exp d · 2^n
  obtain ⟨d, hd⟩ : ∃ d : ℝ, d = expRed X n - R + n * (355 / 512 + -14581891 / 68719476736 - Real.log 2) := ⟨_, rfl⟩
  have hlog := abs_le.1 Real.log_two_near_10
  have hc : |(355 / 512 + -14581891 / 68719476736 - Real.log 2 : ℝ)| ≤ 11 / 10 ^ 11 := by
    rw [abs_le]
    constructor
    · have := hlog.2; norm_num at this ⊢; linarith
    · have := hlog.1; norm_num at this ⊢; linarith
  have hdb : |d| ≤ 45 / 10 ^ 9 := by
    have h3 : |(n : ℝ) * (355 / 512 + -14581891 / 68719476736 - Real.log 2)| ≤ 14 / 10 ^ 9 := by
      rw [abs_mul]
      have : |(n : ℝ)| ≤ 127 := abs_le.2 ⟨n1', n2'⟩
      calc |(n : ℝ)| * _ ≤ 127 * (11 / 10 ^ 11) := by gcongr
        _ ≤ 14 / 10 ^ 9 := by norm_num
    have := abs_add_le (expRed X n - R) (n * (355 / 512 + -14581891 / 68719476736 - Real.log 2))
    rw [abs_sub_comm] at hR2
    rw [hd]; linarith
  have hx : Real.exp X = Real.exp R * Real.exp d * (2 : ℝ) ^ n := by
    have e2 : (2 : ℝ) ^ n = Real.exp (n * Real.log 2) := by
      rw [mul_comm, Real.exp_mul, Real.exp_log (by norm_num), Real.rpow_intCast]
    rw [e2, ← Real.exp_add, ← Real.exp_add, hd, expRed]
    congr 1
    ring
  clear hd hc hlog
  have hed : |Real.exp d - 1| ≤ 90 / 10 ^ 9 := by
    have : |Real.exp d - 1| ≤ 2 * |d| := Real.abs_exp_sub_one_le (by linarith)
    linarith
  obtain ⟨ed1, ed2⟩ := abs_le.1 hed
  obtain ⟨r1, r2⟩ := abs_le.1 hR1
  have hrpos : 6533 / 10000 ≤ Real.exp R := by
    have := Real.add_one_le_exp R
    linarith
  have hrle : Real.exp R ≤ 1531 / 1000 := by
    have h3 := Real.add_one_le_exp (-R)
    have h4 : Real.exp (-R) * Real.exp R = 1 := by rw [← Real.exp_add]; simp
    have h5 : 6533 / 10000 * Real.exp R ≤ Real.exp (-R) * Real.exp R :=
      mul_le_mul_of_nonneg_right (by linarith) (Real.exp_pos R).le
    linarith
  have hpR : |p - Real.exp R| ≤ 142 / 10 ^ 9 := by
    have := abs_add_le (p - expPoly R) (expPoly R - Real.exp R)
    rw [sub_add_sub_cancel] at this
    linarith
  obtain ⟨p1, p2⟩ := abs_le.1 hpR
  have h2n : (0 : ℝ) < 2 ^ n := by positivity
  have hp0 : 0 < p := by linarith
  obtain ⟨E, hE⟩ : ∃ E, E = Real.exp R := ⟨_, rfl⟩
  obtain ⟨D, hD⟩ : ∃ D, D = Real.exp d := ⟨_, rfl⟩
  rw [← hE] at hx hrpos hrle p1 p2
  rw [← hD] at hx ed1 ed2
  have q1 : E * (D - 1) ≤ E * (90 / 10 ^ 9) := mul_le_mul_of_nonneg_left ed2 (by linarith)
  have q2 : E * -(90 / 10 ^ 9) ≤ E * (D - 1) := mul_le_mul_of_nonneg_left ed1 (by linarith)
  have hpE : |p - E * D| ≤ 31 / 10 ^ 8 * (E * D) := by
    rw [abs_le]; constructor <;> linarith
  refine ⟨hp0, by linarith, ?_, ?_⟩
  · rw [hx, ← sub_mul, abs_mul, abs_of_pos h2n]
    have := mul_le_mul_of_nonneg_right hpE h2n.le
    linarith
  · rw [hx]
    apply mul_le_mul_of_nonneg_right _ h2n.le
    linarith

/-- One lane of `exp256_ps` after the clamp. -/
theorem exp256_float_inner (L : Libm) {x : B32} {X : ℝ} (h : Is (expClamp x) X) (h1 : -(11583653 / 131072) ≤ X) (h2 : X ≤ 11583653 / 131072) :
    ∃ n : ℤ, ∃ v, Is (@exp256 B32 (baseOps L) expOps x) v ∧ -127 ≤ n ∧ n ≤ 127 ∧
      n ≤ X * (12102203 / 8388608) + 1 / 2 + 2 ^ (-17 : ℤ) ∧ X * (12102203 / 8388608) + 1 / 2 - 2 ^ (-17 : ℤ) < n + 1 ∧
      (n = -127 → v = 0) ∧ (n ≠ -127 → |v - Real.exp X| ≤ 5 / 10 ^ 7 * Real.exp X) ∧ 0 ≤ v ∧ v ≤ 16 / 10 * 2 ^ (127 : ℤ) + 2 ^ (110 : ℤ) := by
  obtain ⟨n, hn, n1, n2, b1, b2⟩ := expN_float L h h1 h2
  obtain ⟨R, hR, hR1, hR2⟩ := expRed_float L h hn n1 n2 b1 b2
  obtain ⟨p, hp, hpe⟩ := expPoly_float L hR hR1
  have hw := expPow_float hn n1 n2
  obtain ⟨hp0, hp16, hmul, hlow⟩ := exp_parts n1 n2 hR1 hR2 hpe
  have h2n : (0 : ℝ) < 2 ^ n := by positivity
  obtain ⟨w, hw'⟩ : ∃ w : ℝ, w = if n = -127 then 0 else (2 : ℝ) ^ n := ⟨_, rfl⟩
  rw [← hw'] at hw
  have hpw' : |p * w| ≤ 16 / 10 * 2 ^ (127 : ℤ) := by
    have h2127 : (2 : ℝ) ^ n ≤ 2 ^ (127 : ℤ) := zpow_le_zpow_right₀ (by norm_num) n2
    have : |w| ≤ 2 ^ (127 : ℤ) := by
      rw [hw']; split_ifs
      · rw [abs_zero]; positivity
      · rwa [abs_of_pos h2n]
    rw [abs_mul, abs_of_pos hp0]
    exact mul_le_mul hp16 this (abs_nonneg _) (by norm_num)
  have hpw : |p * w| ≤ maxF32 := hpw'.trans (by unfold maxF32; norm_num)
  have hw0 : 0 ≤ w := by
    rw [hw']; split_ifs
    · exact le_rfl
    · exact h2n.le
  have hpw0 : 0 ≤ p * w := mul_nonneg hp0.le hw0
  have hv : rnd (p * w) ≤ 16 / 10 * 2 ^ (127 : ℤ) + 2 ^ (110 : ℤ) := by
    have h3 := rnd_size (x := p * w) 128 (hpw'.trans_lt (by norm_num)) (by norm_num)
    rw [abs_of_nonneg hpw0] at hpw'
    have h4 := (abs_le.1 h3).2
    norm_num at h4 hpw' ⊢
    linarith
  refine ⟨n, rnd (p * w), mul_is hp hw hpw, n1, n2, b1, b2, ?_, ?_, rnd_nonneg hpw0, hv⟩
  · intro hn0
    rw [hw', if_pos hn0, mul_zero]; simp [rnd, mant_zero]
  · intro hn0
    rw [if_neg hn0] at hw'
    subst hw'
    have hr := rnd_abs (p * 2 ^ n)
    have hsm : (2 : ℝ) ^ (-150 : ℤ) ≤ 2 ^ (-24 : ℤ) * 2 ^ n := by
      rw [← zpow_add₀ (by norm_num)]
      exact zpow_le_zpow_right₀ (by norm_num) (by omega)
    rw [abs_of_pos (mul_pos hp0 h2n)] at hr
    have e24 : (2 : ℝ) ^ (-24 : ℤ) = 1 / 16777216 := by norm_num
    rw [e24] at hr hsm
    have hpX := (abs_le.1 hmul).2
    have hposX := Real.exp_pos X
    have := abs_add_le (rnd (p * 2 ^ n) - p * 2 ^ n) (p * 2 ^ n - Real.exp X)
    rw [sub_add_sub_cancel] at this
    linarith

theorem expHi_is : Is (B32.ofReal false ((11583653 : ℤ) / (131072 : ℕ))) (11583653 / 131072) := by
  have := is_lit (p := 11583653) (q := 131072) 17 (by norm_num) (by norm_num) (by norm_num)
  simpa using this

theorem expLo_is : Is (B32.ofReal false ((-11583653 : ℤ) / (131072 : ℕ))) (-(11583653 / 131072)) := by
  have := is_lit (p := -11583653) (q := 131072) 17 (by norm_num) (by norm_num) (by norm_num)
  rw [show -(11583653 / 131072 : ℝ) = ((-11583653 : ℤ) : ℝ) / ((131072 : ℕ) : ℝ) by norm_num]
  exact this

/-- The number that is exponentiated: the argument clamped; NaN is taken for +∞. -/
noncomputable def expArg (x : B32) : ℝ :=
  if x.isFinite then max (min x.value (11583653 / 131072)) (-(11583653 / 131072))
  else if x.isInf && x.sign then -(11583653 / 131072) else 11583653 / 131072

theorem expClamp_is (x : B32) : Is (expClamp x) (expArg x) := by
  unfold expArg expClamp
  by_cases hf : x.isFinite = true
  · have hx : Is x x.value := ⟨hf, rfl⟩
    rw [if_pos hf]
    have hm : Is (B32.minps x (B32.ofReal false ((11583653 : ℤ) / (131072 : ℕ)))) (min x.value (11583653 / 131072)) := by
      unfold B32.minps
      split_ifs with h
      · rw [B32.lt_iff hx expHi_is] at h; rw [min_eq_left h.le]; exact hx
      · rw [B32.lt_iff hx expHi_is, not_lt] at h; rw [min_eq_right h]; exact expHi_is
    unfold B32.maxps
    split_ifs with h
    · rw [B32.lt_iff expLo_is hm] at h; rw [max_eq_left h.le]; exact hm
    · rw [B32.lt_iff expLo_is hm, not_lt] at h; rw [max_eq_right h]; exact expLo_is
  · rw [if_neg hf]
    have hcl : B32.maxps (B32.ofReal false ((11583653 : ℤ) / (131072 : ℕ))) (B32.ofReal false ((-11583653 : ℤ) / (131072 : ℕ))) =
        B32.ofReal false ((11583653 : ℤ) / (131072 : ℕ)) := by
      rw [B32.maxps, if_pos]
      rw [B32.lt_iff expLo_is expHi_is]; norm_num
    by_cases hi : x.isInf = true
    · have hnan : x.isNan = false := by
        simp only [isInf, Bool.and_eq_true, beq_iff_eq] at hi
        simp [isNan, hi.1, hi.2]
      by_cases hs : x.sign = true
      · rw [if_pos (by simp [hi, hs])]
        have h1 : B32.lt x (B32.ofReal false ((11583653 : ℤ) / (131072 : ℕ))) = true := by
          simp only [B32.lt, hnan, B32.not_nan expHi_is.1, extVal, hi, hs, B32.not_inf expHi_is.1]
          simp
        have h2 : ¬ B32.lt (B32.ofReal false ((-11583653 : ℤ) / (131072 : ℕ))) x = true := by
          simp only [B32.lt, hnan, B32.not_nan expLo_is.1, extVal, hi, hs, B32.not_inf expLo_is.1]
          simp
        rw [B32.minps, if_pos h1, B32.maxps, if_neg h2]
        exact expLo_is
      · rw [if_neg (by simp [hs])]
        have h1 : ¬ B32.lt x (B32.ofReal false ((11583653 : ℤ) / (131072 : ℕ))) = true := by
          simp only [B32.lt, hnan, B32.not_nan expHi_is.1, extVal, hi, hs, B32.not_inf expHi_is.1]
          simp
        rw [B32.minps, if_neg h1, hcl]
        exact expHi_is
    · rw [if_neg (by simp [hi])]
      have hnan : x.isNan = true := by
        simp only [isFinite, bne_iff_ne, ne_eq, not_not] at hf
        simp only [isInf, hf, beq_self_eq_true, Bool.true_and, beq_iff_eq] at hi
        simp [isNan, hf, hi]
      have h1 : ¬ B32.lt x (B32.ofReal false ((11583653 : ℤ) / (131072 : ℕ))) = true := by
        simp [B32.lt, hnan]
      rw [B32.minps, if_neg h1, hcl]
      exact expHi_is

theorem expArg_range (x : B32) : -(11583653 / 131072) ≤ expArg x ∧ expArg x ≤ 11583653 / 131072 := by
  unfold expArg
  split_ifs
  · exact ⟨le_max_right _ _, max_le (min_le_right _ _) (by norm_num)⟩
  · norm_num
  · norm_num

/-- `exp256_ps` in `float` arithmetic, on every bit pattern: the result is finite; relative error 5e-7 from -87.683 on, 0 below
-87.6832, and one of the two in between. -/
theorem exp256_float (L : Libm) (x : B32) : ∃ v, Is (@exp256 B32 (baseOps L) expOps x) v ∧
    (v = 0 ∨ |v - Real.exp (expArg x)| ≤ 5 / 10 ^ 7 * Real.exp (expArg x)) ∧
    (-(87683 / 1000) ≤ expArg x → |v - Real.exp (expArg x)| ≤ 5 / 10 ^ 7 * Real.exp (expArg x)) ∧
    (expArg x < -(876832 / 10000) → v = 0) ∧ (v = 0 → expArg x < -(87683 / 1000)) ∧
    0 ≤ v ∧ v ≤ 16 / 10 * 2 ^ (127 : ℤ) + 2 ^ (110 : ℤ) := by
  obtain ⟨h1, h2⟩ := expArg_range x
  obtain ⟨n, v, hv, n1, n2, b1, b2, hz, he, hv0, hv1⟩ := exp256_float_inner L (expClamp_is x) h1 h2
  have e17 : (2 : ℝ) ^ (-17 : ℤ) = 1 / 131072 := by norm_num
  rw [e17] at b1 b2
  have hne : -(87683 / 1000) ≤ expArg x → n ≠ -127 := by
    intro h hn
    rw [hn] at b2; push_cast at b2; linarith
  have hA : -(87683 / 1000) ≤ expArg x → |v - Real.exp (expArg x)| ≤ 5 / 10 ^ 7 * Real.exp (expArg x) := fun h => he (hne h)
  refine ⟨v, hv, ?_, hA, ?_, ?_, hv0, hv1⟩
  · by_cases hn : n = -127
    · exact .inl (hz hn)
    · exact .inr (he hn)
  · intro h
    apply hz
    by_contra hn
    have h3 : -126 ≤ n := by omega
    have : (-126 : ℝ) ≤ n := by exact_mod_cast h3
    linarith
  · intro hv0
    by_contra hlt
    have h3 := hA (not_lt.1 hlt)
    have hp := Real.exp_pos (expArg x)
    rw [hv0, zero_sub, abs_neg, abs_of_pos hp] at h3
    linarith

end NN
