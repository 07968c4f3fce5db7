import Verif.Model.Progress
import Verif.Model.RealOps
import Verif.Proofs.CString
import Verif.Proofs.B32Mono
import Mathlib.Algebra.Order.Floor.Ring
import Mathlib.Algebra.Order.Floor.Semifield
import Mathlib.Algebra.Order.Archimedean.Real.Basic
import Mathlib.Tactic.Positivity
import Mathlib.Tactic.FieldSimp
/-
C55: the progress bar, in the single precision of the code.
-/
set_option linter.unusedSectionVars false

namespace NN
open FloatOps B32

/-! ### Specification -/

/-- The line printed: `c` filled cells out of `w`, the percentage and the end of the line. -/
def Spec.bar (label : Bytes) (w c percent : Nat) (last : Bool) : Bytes :=
  label ++ str "[" ++ List.replicate c 35 ++ List.replicate (w - c) 45 ++ str "] " ++ padLeft 3 32 (dec percent) ++ str "%" ++
    (if last then str "\n" else str "\r")

/-- Conversion of a `float` to `int`: towards zero; undefined for infinities, NaN and values out of range. -/
noncomputable def B32.toInt (a : B32) : M Int :=
  open Classical in
  if a.isFinite = true ∧ -2 ^ 31 - 1 < a.value ∧ a.value < 2 ^ 31 then pure (if 0 ≤ a.value then ⌊a.value⌋ else ⌈a.value⌉)
  else .error .overflow

/-! ### Proof -/

/-- Evaluation of the rounding. -/
theorem B32.rnd_eval {x : ℝ} {e : ℤ} {m : ℕ} (he : -126 ≤ e) (h1 : (2 : ℝ) ^ e ≤ x) (h2 : x < 2 ^ (e + 1))
    (hm : |x / 2 ^ (e - 23) - m| < 1 / 2) : rnd x = m * 2 ^ (e - 23) := by
  have hx : 0 < x := lt_of_lt_of_le (by positivity) h1
  have hl : Int.log 2 |x| = e := by
    rw [abs_of_pos hx]
    apply le_antisymm
    · have := (Int.lt_zpow_iff_log_lt (b := 2) (by norm_num) hx (x := e + 1)).1 (by exact_mod_cast h2)
      omega
    · exact (Int.zpow_le_iff_le_log (b := 2) (by norm_num) hx (x := e)).1 (by exact_mod_cast h1)
  have hu : ulpExp x = e - 23 := by rw [ulpExp, hl]; omega
  have hr : mant x = m := by
    rw [mant, hu, abs_of_pos hx]
    have ht : 0 ≤ x / 2 ^ (e - 23) := by positivity
    have h3 := roundNat_error ht
    have h4 : |((roundNat (x / 2 ^ (e - 23)) : ℤ) : ℝ) - ((m : ℤ) : ℝ)| < 1 := by
      push_cast
      have := abs_sub_le (roundNat (x / 2 ^ (e - 23)) : ℝ) (x / 2 ^ (e - 23)) m
      linarith
    have h5 : |(roundNat (x / 2 ^ (e - 23)) : ℤ) - (m : ℤ)| < 1 := by exact_mod_cast h4
    have h6 := Int.abs_lt_one_iff.1 h5
    omega
  rw [rnd, if_neg (by linarith), hr, hu]

theorem B32.rnd_natCast {k : ℕ} (h : k ≤ 2 ^ 24) : rnd (k : ℝ) = k := by
  rcases lt_or_eq_of_le h with h | h
  · exact rnd_exact (k := k) (j := 0) (by simp) (by rw [abs_of_nonneg (by positivity)]; exact_mod_cast h) (by norm_num)
  · subst h
    exact rnd_exact (k := 1) (j := 24) (by norm_num) (by norm_num) (by norm_num)

/-- Number of filled cells out of `w`. -/
noncomputable def cells (x n w : ℕ) : ℕ := ⌊rnd (rnd (rnd x / rnd n) * w)⌋₊

theorem rnd_one_le {n : ℕ} (hn : 0 < n) : 1 ≤ rnd n := le_rnd (by exact_mod_cast hn) rnd_one

theorem ratio_mem {x n : ℕ} (hn : 0 < n) (hx : x ≤ n) : 0 ≤ rnd (rnd x / rnd n) ∧ rnd (rnd x / rnd n) ≤ 1 := by
  have hpos := rnd_one_le hn
  have hx0 : 0 ≤ rnd x := rnd_nonneg (by positivity)
  have hxn : rnd x ≤ rnd n := rnd_mono (by exact_mod_cast hx)
  exact ⟨rnd_nonneg (by positivity), rnd_le (div_le_one_of_le₀ hxn (by linarith)) rnd_one⟩

theorem scaled_mem {x n : ℕ} (hn : 0 < n) (hx : x ≤ n) {w : ℕ} (hw : w ≤ 2 ^ 24) :
    0 ≤ rnd (rnd (rnd x / rnd n) * w) ∧ rnd (rnd (rnd x / rnd n) * w) ≤ w := by
  obtain ⟨r0, r1⟩ := ratio_mem hn hx
  have hw0 : (0 : ℝ) ≤ w := by positivity
  exact ⟨rnd_nonneg (by positivity), rnd_le (mul_le_of_le_one_left hw0 r1) (rnd_natCast hw)⟩

theorem cells_le {x n : ℕ} (hn : 0 < n) (hx : x ≤ n) {w : ℕ} (hw : w ≤ 2 ^ 24) : cells x n w ≤ w := by
  have := Nat.floor_le_floor (scaled_mem hn hx hw).2
  rwa [Nat.floor_natCast] at this

theorem maxF32_big {r : ℝ} (h : |r| ≤ 2 ^ 32) : |r| ≤ maxF32 := h.trans (by unfold maxF32; norm_num)

theorem is_ofInt (L : Libm) {k : ℕ} (hk : k ≤ 2 ^ 31) : Is (@ofInt B32 (ops L) (k : Int)) (rnd k) := by
  have : @ofInt B32 (ops L) (k : Int) = ofReal false (k : ℝ) := by
    simp only [ofInt, if_neg (by omega : ¬ (k : Int) < 0), Int.natAbs_natCast]
    rfl
  rw [this]
  apply is_ofReal
  apply maxF32_big
  have : (k : ℝ) ≤ 2 ^ 31 := by exact_mod_cast hk
  rw [abs_of_nonneg (by positivity)]
  linarith [show (2 : ℝ) ^ 31 ≤ 2 ^ 32 by norm_num]

theorem toInt_is {a : B32} {r : ℝ} (h : Is a r) (h0 : 0 ≤ r) (h1 : r ≤ 2 ^ 24) : a.toInt = .ok ((⌊r⌋₊ : ℕ) : Int) := by
  obtain ⟨hf, rfl⟩ := h
  rw [B32.toInt, if_pos ⟨hf, by linarith [show (0 : ℝ) < 2 ^ 31 by positivity], by
    linarith [show (2 : ℝ) ^ 24 < 2 ^ 31 by norm_num]⟩, if_pos h0, Int.natCast_floor_eq_floor h0]
  rfl

/-- What is printed, with the number of cells. -/
theorem progress_eq (L : Libm) (cols : Nat) (hc : cols < 2 ^ 16) (x n : ℕ) (hn : 0 < n) (hn31 : n < 2 ^ 31) (hx : x ≤ n)
    (label : Bytes) (w : ℕ) (hw : cols = w + 7 + label.length) (hw1 : 1 ≤ w) :
    @progressAscii B32 (ops L) B32.toInt cols x n label = .ok (Spec.bar label w (cells x n w) (cells x n 100) (x = n)) := by
  have hw24 : w ≤ 2 ^ 24 := by
    have : w ≤ cols := by omega
    norm_num at hc ⊢; omega
  have hcw := cells_le hn hx hw24
  obtain ⟨r0, r1⟩ := ratio_mem hn hx
  have hpos := rnd_one_le hn
  have hx0 : 0 ≤ rnd x := rnd_nonneg (by positivity)
  have hxn : rnd x ≤ rnd n := rnd_mono (by exact_mod_cast hx)
  have hd : Is (B32.div (@ofInt B32 (ops L) (x : Int)) (@ofInt B32 (ops L) (n : Int))) (rnd (rnd x / rnd n)) := by
    refine div_is (is_ofInt L (by omega)) (is_ofInt L (by omega)) (by linarith) (maxF32_big ?_)
    rw [abs_of_nonneg (by positivity)]
    exact (div_le_one_of_le₀ hxn (by linarith)).trans (by norm_num)
  have hm : ∀ k : ℕ, k ≤ 2 ^ 24 → (B32.mul (B32.div (@ofInt B32 (ops L) (x : Int)) (@ofInt B32 (ops L) (n : Int)))
      (@ofInt B32 (ops L) (k : Int))).toInt = .ok (cells x n k : Int) := by
    intro k hk
    have hkr : (k : ℝ) ≤ 2 ^ 24 := by exact_mod_cast hk
    have h1 := is_ofInt L (k := k) (by norm_num at hk ⊢; omega)
    rw [rnd_natCast hk] at h1
    have hp := mul_le_of_le_one_left (Nat.cast_nonneg (α := ℝ) k) r1
    obtain ⟨s0, s1⟩ := scaled_mem hn hx hk
    refine toInt_is (mul_is hd h1 (maxF32_big ?_)) s0 (s1.trans hkr)
    rw [abs_of_nonneg (by positivity)]
    linarith [show (2 : ℝ) ^ 24 ≤ 2 ^ 32 by norm_num]
  have hwi : (cols : Int) - 7 - label.length = (w : Int) := by omega
  have hdi : ∀ k : ℕ, decInt (k : Int) = dec k := fun k => by rw [decInt, if_neg (by omega)]; rfl
  have t1 := hm w hw24
  have t2 := hm 100 (by norm_num)
  rw [show ((100 : ℕ) : Int) = 100 from rfl] at t2
  have e1 : ∀ a b, (ops L).mul a b = B32.mul a b := fun _ _ => rfl
  have e2 : ∀ a b, (ops L).div a b = B32.div a b := fun _ _ => rfl
  simp only [progressAscii, hwi, if_neg (by omega : ¬ (w : Int) < 1), e1, e2, t1, t2, bind, Except.bind, pure, Except.pure,
    Spec.bar, hdi, Int.toNat_natCast, Except.ok.injEq]
  rw [show (w - (cells x n w : Int)).toNat = w - cells x n w by omega]
  by_cases hxn : x = n
  · simp [hxn]
  · simp [hxn]

theorem bar_length (label : Bytes) (w c p : ℕ) (hc : c ≤ w) (hp : p ≤ 100) (last : Bool) :
    (Spec.bar label w c p last).length = w + 7 + label.length + 1 := by
  have hdp := dec_length (k := 3) (by norm_num) (lt_of_le_of_lt hp (by norm_num) : p < 10 ^ 3)
  have hpad : (padLeft 3 32 (dec p)).length = 3 := by
    simp only [padLeft, List.length_append, List.length_replicate]; omega
  simp only [Spec.bar, List.length_append, List.length_replicate, hpad, show (str "[").length = 1 from rfl,
    show (str "] ").length = 2 from rfl, show (str "%").length = 1 from rfl]
  split_ifs <;> simp only [show (str "\n").length = 1 from rfl, show (str "\r").length = 1 from rfl] <;> omega

theorem cells_mono {x y n w : ℕ} (hn : 0 < n) (hxy : x ≤ y) : cells x n w ≤ cells y n w := by
  have hpos := rnd_one_le hn
  apply Nat.floor_le_floor
  apply rnd_mono
  apply mul_le_mul_of_nonneg_right _ (by positivity)
  apply rnd_mono
  exact div_le_div_of_nonneg_right (rnd_mono (by exact_mod_cast hxy)) (by linarith)

theorem cells_zero (n w : ℕ) : cells 0 n w = 0 := by simp [cells, rnd_zero]

theorem cells_same {x n w : ℕ} (hn : 0 < n) (h : rnd x = rnd n) (hw : w ≤ 2 ^ 24) : cells x n w = w := by
  have hpos := rnd_one_le hn
  rw [cells, h, div_self (by linarith), rnd_one, one_mul, rnd_natCast hw, Nat.floor_natCast]

/-- A number below `w` by a factor of `1 - 2^-24` is not rounded to `w`. -/
theorem rnd_lt_nat {y : ℝ} {w : ℕ} (hw1 : 1 ≤ w) (hw : w < 2 ^ 23) (hy : y ≤ w - w / 2 ^ 24) : rnd y < w := by
  have hwr : (1 : ℝ) ≤ w := by exact_mod_cast hw1
  obtain ⟨k, hk1, hk2⟩ : ∃ k, 2 ^ k ≤ w ∧ w < 2 ^ (k + 1) :=
    ⟨Nat.log 2 w, Nat.pow_log_le_self 2 (by omega), Nat.lt_pow_succ_log_self (by norm_num) w⟩
  have hk : k < 23 := (Nat.pow_lt_pow_iff_right (by norm_num : 1 < 2)).1 (hk1.trans_lt hw)
  have hk1r : (2 : ℝ) ^ k ≤ w := by exact_mod_cast hk1
  have hk2r : (w : ℝ) < 2 ^ (k + 1) := by exact_mod_cast hk2
  rw [pow_succ] at hk2r
  have hp : (0 : ℝ) < 2 ^ k := by positivity
  by_cases he : w = 2 ^ k
  · have her : (w : ℝ) = 2 ^ k := by exact_mod_cast he
    have hex : rnd ((w : ℝ) - w / 2 ^ 24) = w - w / 2 ^ 24 := by
      refine rnd_exact (k := 2 ^ 24 - 1) (j := k - 24) ?_ (by norm_num) (by omega)
      rw [her, zpow_sub₀ (by norm_num), zpow_natCast]
      push_cast
      norm_num
      ring
    have := rnd_le hy hex
    have : (0 : ℝ) < w / 2 ^ 24 := by positivity
    linarith
  · refine lt_of_le_of_lt (rnd_mono hy) ?_
    have hlt : (2 : ℝ) ^ k < w := lt_of_le_of_ne hk1r (fun h => he (by exact_mod_cast h.symm))
    obtain ⟨j, hj⟩ : ∃ j, j + k = 23 := ⟨23 - k, by omega⟩
    have hjk : (2 : ℝ) ^ j * 2 ^ k = 2 ^ 23 := by rw [← pow_add, hj]
    -- the number before `w`
    have hq : (2 : ℝ) ^ ((k : ℤ) - 23) = 2 ^ k / 2 ^ 23 := by
      rw [zpow_sub₀ (by norm_num), zpow_natCast]; norm_num
    have hb : rnd ((w : ℝ) - 2 ^ k / 2 ^ 23) = w - 2 ^ k / 2 ^ 23 := by
      refine rnd_exact (k := w * 2 ^ j - 1) (j := k - 23) ?_ ?_ (by omega)
      · rw [hq]
        push_cast
        rw [← hjk]
        field_simp
      · have h1 : 1 ≤ w * 2 ^ j := Nat.mul_pos hw1 (by positivity)
        have h2 : w * 2 ^ j < 2 ^ 24 := by
          calc w * 2 ^ j < 2 ^ (k + 1) * 2 ^ j := Nat.mul_lt_mul_of_pos_right hk2 (by positivity)
            _ = 2 ^ 24 := by rw [← pow_add]; congr 1; omega
        have h3 : ((w * 2 ^ j : ℕ) : ℤ) = (w : ℤ) * 2 ^ j := by push_cast; ring
        rw [abs_lt]
        constructor <;> norm_num at h2 ⊢ <;> omega
    have hbf := is_ofReal (s := false) (x := (w : ℝ) - 2 ^ k / 2 ^ 23) (maxF32_big (by
      have h23 : (w : ℝ) < 2 ^ 23 := by exact_mod_cast hw
      have a1 := div_nonneg hp.le (by positivity : (0 : ℝ) ≤ 2 ^ 23)
      have a2 := div_le_self hp.le (by norm_num : (1 : ℝ) ≤ 2 ^ 23)
      have a3 : (2 : ℝ) ^ 23 ≤ 2 ^ 32 := by norm_num
      have a4 : (0 : ℝ) ≤ 2 ^ 32 := by positivity
      rw [abs_le]; constructor <;> linarith))
    rw [hb] at hbf
    have hnear := rnd_nearest ((w : ℝ) - w / 2 ^ 24) hbf.1
    rw [hbf.2] at hnear
    have hle : rnd ((w : ℝ) - w / 2 ^ 24) ≤ w := rnd_le (by linarith [show (0 : ℝ) < w / 2 ^ 24 by positivity])
      (rnd_natCast (by omega))
    refine lt_of_le_of_ne hle fun heq => ?_
    rw [heq, show (w : ℝ) - (w - w / 2 ^ 24) = w / 2 ^ 24 by ring, abs_of_pos (by positivity),
      show (w : ℝ) - 2 ^ k / 2 ^ 23 - (w - w / 2 ^ 24) = -((2 ^ k * 2 - w) / 2 ^ 24) by ring, abs_neg, abs_of_nonneg (by
        apply div_nonneg <;> [linarith; positivity]), div_le_div_iff_of_pos_right (by positivity)] at hnear
    linarith

theorem cells_full_iff {x n w : ℕ} (hn : 0 < n) (hn24 : n ≤ 2 ^ 24) (hx : x ≤ n) (hw1 : 1 ≤ w) (hw : w < 2 ^ 23) :
    cells x n w = w ↔ x = n := by
  constructor
  · intro h
    by_contra hne
    have hx1 : x + 1 ≤ n := by omega
    have hnr : (0 : ℝ) < n := by exact_mod_cast hn
    have hn24r : (n : ℝ) ≤ 2 ^ 24 := by exact_mod_cast hn24
    have hxr : (x : ℝ) + 1 ≤ n := by exact_mod_cast hx1
    have h1 : (x : ℝ) / n ≤ 1 - 1 / 2 ^ 24 := by
      rw [div_le_iff₀ hnr]
      have : (n : ℝ) / 2 ^ 24 ≤ 1 := by rw [div_le_one (by positivity)]; exact hn24r
      linarith [show (1 - 1 / 2 ^ 24) * (n : ℝ) = n - n / 2 ^ 24 by ring]
    have h2 : rnd ((1 : ℝ) - 1 / 2 ^ 24) = 1 - 1 / 2 ^ 24 :=
      rnd_exact (k := 2 ^ 24 - 1) (j := -24) (by norm_num) (by norm_num) (by norm_num)
    have h3 := rnd_le h1 h2
    rw [cells, rnd_natCast hn24, rnd_natCast (hx.trans hn24)] at h
    have h4 := rnd_lt_nat (y := rnd ((x : ℝ) / n) * w) hw1 hw (by
      have := mul_le_mul_of_nonneg_right h3 (Nat.cast_nonneg (α := ℝ) w)
      linarith [show (1 - 1 / 2 ^ 24) * (w : ℝ) = w - w / 2 ^ 24 by ring])
    have h5 : 0 ≤ rnd (rnd ((x : ℝ) / n) * w) := rnd_nonneg (mul_nonneg (rnd_nonneg (by positivity)) (by positivity))
    have := (Nat.floor_lt h5).2 h4
    omega
  · rintro rfl
    exact cells_same hn rfl (by omega)

theorem cells_near {x n w : ℕ} (hn : 0 < n) (hn24 : n ≤ 2 ^ 24) (hx : x ≤ n) (hw : w < 2 ^ 16) :
    (x * w : ℝ) / n - 1 - 1 / 50 < cells x n w ∧ (cells x n w : ℝ) ≤ x * w / n + 1 / 50 := by
  have hnr : (0 : ℝ) < n := by exact_mod_cast hn
  have hwr : (w : ℝ) ≤ 2 ^ 16 := by exact_mod_cast hw.le
  have hxr : (x : ℝ) ≤ n := by exact_mod_cast hx
  have hw0 : (0 : ℝ) ≤ w := Nat.cast_nonneg _
  have hq0 : 0 ≤ (x : ℝ) / n := by positivity
  have hq1 : (x : ℝ) / n ≤ 1 := div_le_one_of_le₀ hxr hnr.le
  have e1 := rnd_abs ((x : ℝ) / n)
  have e2 := rnd_abs (rnd ((x : ℝ) / n) * w)
  have hr0 := rnd_nonneg hq0
  have hr1 := rnd_le hq1 rnd_one
  have hs0 : 0 ≤ rnd ((x : ℝ) / n) * w := by positivity
  have hs1 : rnd ((x : ℝ) / n) * w ≤ w := mul_le_of_le_one_left hw0 hr1
  have ht : (2 : ℝ) ^ (-24 : ℤ) = 1 / 16777216 := by norm_num
  have ht2 : (2 : ℝ) ^ (-150 : ℤ) ≤ 1 / 16777216 := by
    rw [← ht]; exact zpow_le_zpow_right₀ (by norm_num) (by norm_num)
  rw [ht, abs_of_nonneg hq0] at e1
  rw [ht, abs_of_nonneg hs0] at e2
  have f1 : |rnd ((x : ℝ) / n) * w - x / n * w| ≤ 1 / 100 := by
    rw [← sub_mul, abs_mul, abs_of_nonneg hw0]
    have : |rnd ((x : ℝ) / n) - x / n| ≤ 2 / 16777216 := by linarith
    calc |rnd ((x : ℝ) / n) - x / n| * w ≤ 2 / 16777216 * 2 ^ 16 := by gcongr
      _ ≤ 1 / 100 := by norm_num
  have f2 : |rnd (rnd ((x : ℝ) / n) * w) - rnd ((x : ℝ) / n) * w| ≤ 1 / 100 := by
    have : (w : ℝ) ≤ 65536 := hwr.trans (by norm_num)
    linarith
  have e : (x : ℝ) / n * w = x * w / n := by ring
  rw [e] at f1
  rw [abs_le] at f1 f2
  have hc0 : 0 ≤ rnd (rnd ((x : ℝ) / n) * w) := rnd_nonneg hs0
  rw [cells, rnd_natCast hn24, rnd_natCast (hx.trans hn24)]
  have h1 := Nat.floor_le hc0
  have h2 := Nat.lt_floor_add_one (rnd (rnd ((x : ℝ) / n) * w))
  constructor <;> linarith [f1.1, f1.2, f2.1, f2.2]

/-! ### The claims -/

/-- **C55** For `0 ≤ x ≤ n`, `n > 0` and a terminal wide enough: the bar has exactly `w` cells (`c ≤ w` of them filled), and
the line is exactly as wide as the terminal. -/
theorem C55_width (L : Libm) (cols : Nat) (hc : cols < 2 ^ 16) (x n : ℕ) (hn : 0 < n) (hn31 : n < 2 ^ 31) (hx : x ≤ n)
    (label : Bytes) (w : ℕ) (hw : cols = w + 7 + label.length) (hw1 : 1 ≤ w) :
    ∃ c percent, c ≤ w ∧ percent ≤ 100 ∧
      @progressAscii B32 (ops L) B32.toInt cols x n label = .ok (Spec.bar label w c percent (x = n)) ∧
      (Spec.bar label w c percent (x = n)).length = cols + 1 := by
  have h1 := cells_le hn hx (w := w) (by have : w ≤ cols := by omega
                                         norm_num at hc ⊢; omega)
  have h2 := cells_le hn hx (w := 100) (by norm_num)
  exact ⟨_, _, h1, h2, progress_eq L cols hc x n hn hn31 hx label w hw hw1, by rw [bar_length _ _ _ _ h1 h2, hw]⟩

/-- **C55** Nothing is printed if there is no room (or stdout is not a terminal). -/
theorem C55_narrow {F : Type} [FloatOps F] (toInt : F → M Int) (cols : Nat) (x n : Int) (label : Bytes)
    (h : cols < label.length + 8) : progressAscii toInt cols x n label = .ok [] := by
  simp only [progressAscii, if_pos (by omega : (cols : Int) - 7 - label.length < 1)]
  rfl

/-- **C55** Neither the bar nor the percentage shrinks while `x` grows; both are empty at 0, and full at `n`. -/
theorem C55_monotone (L : Libm) (cols : Nat) (hc : cols < 2 ^ 16) (n : ℕ) (hn : 0 < n) (hn31 : n < 2 ^ 31)
    (label : Bytes) (w : ℕ) (hw : cols = w + 7 + label.length) (hw1 : 1 ≤ w) :
    ∃ c percent : ℕ → ℕ, Monotone c ∧ Monotone percent ∧ c 0 = 0 ∧ percent 0 = 0 ∧ c n = w ∧ percent n = 100 ∧
      ∀ x : ℕ, x ≤ n →
        @progressAscii B32 (ops L) B32.toInt cols x n label = .ok (Spec.bar label w (c x) (percent x) (x = n)) := by
  refine ⟨fun x => cells x n w, fun x => cells x n 100, fun x y h => cells_mono hn h, fun x y h => cells_mono hn h,
    cells_zero n w, cells_zero n 100, cells_same hn rfl ?_, cells_same hn rfl (by norm_num), fun x hx =>
    progress_eq L cols hc x n hn hn31 hx label w hw hw1⟩
  have : w ≤ cols := by omega
  norm_num at hc ⊢; omega

/-- **C55** For `n ≤ 2^24` the bar is full exactly at `x = n`, and the number of filled cells is `x w / n`, cut off, up to
0.02.  (Missing: that it is exactly `⌊x w / n⌋`, and larger `n`; both are false.) -/
theorem C55_partial (L : Libm) (cols : Nat) (hc : cols < 2 ^ 16) (x n : ℕ) (hn : 0 < n) (hn24 : n ≤ 2 ^ 24) (hx : x ≤ n)
    (label : Bytes) (w : ℕ) (hw : cols = w + 7 + label.length) (hw1 : 1 ≤ w) :
    ∃ c percent : ℕ, @progressAscii B32 (ops L) B32.toInt cols x n label = .ok (Spec.bar label w c percent (x = n)) ∧
      (c = w ↔ x = n) ∧ (percent = 100 ↔ x = n) ∧
      (x * w : ℝ) / n - 1 - 1 / 50 < c ∧ (c : ℝ) ≤ x * w / n + 1 / 50 ∧
      (x * 100 : ℝ) / n - 1 - 1 / 50 < percent ∧ (percent : ℝ) ≤ x * 100 / n + 1 / 50 := by
  have hw16 : w < 2 ^ 16 := by omega
  have h1 := cells_near hn hn24 hx hw16
  have h2 := cells_near hn hn24 hx (w := 100) (by norm_num)
  refine ⟨_, _, progress_eq L cols hc x n hn (by norm_num at hn24 ⊢; omega) hx label w hw hw1,
    cells_full_iff hn hn24 hx hw1 (by norm_num at hw16 ⊢; omega), cells_full_iff hn hn24 hx (by norm_num) (by norm_num),
    h1.1, h1.2, ?_, ?_⟩
  · exact_mod_cast h2.1
  · exact_mod_cast h2.2

/-- 2^24+1 lies in the middle between two floats. -/
theorem B32.rnd_tie : rnd ((2 ^ 24 + 1 : ℕ) : ℝ) = 2 ^ 24 := by
  apply le_antisymm
  · -- ties to even
    have hu : ulpExp ((2 ^ 24 + 1 : ℕ) : ℝ) = 1 := by
      rw [ulpExp, abs_of_nonneg (Nat.cast_nonneg _), Int.log_natCast]
      have : Nat.log 2 (2 ^ 24 + 1) = 24 := (Nat.log_eq_iff (by norm_num)).2 ⟨by norm_num, by norm_num⟩
      rw [this]; norm_num
    rw [rnd, if_neg (not_lt.2 (Nat.cast_nonneg _)), mant, hu, abs_of_nonneg (Nat.cast_nonneg _)]
    have hf : ⌊(((2 ^ 24 + 1 : ℕ) : ℝ)) / 2 ^ (1 : ℤ)⌋₊ = 2 ^ 23 := by
      rw [Nat.floor_eq_iff (by positivity)]
      push_cast; constructor <;> norm_num
    rw [roundNat, hf, if_pos (Or.inr ⟨by push_cast; norm_num, by norm_num⟩)]
    push_cast; norm_num
  · exact le_rnd (by push_cast; linarith) (by exact_mod_cast rnd_natCast (k := 2 ^ 24) le_rfl)

/-- **C55 is false** for large `n`: 2^24+1 is rounded to 2^24, and the bar is full at `x = 2^24`, one before the end. -/
theorem C55_full_false (L : Libm) (cols : Nat) (hc : cols < 2 ^ 16) (label : Bytes) (w : ℕ) (hw : cols = w + 7 + label.length)
    (hw1 : 1 ≤ w) : @progressAscii B32 (ops L) B32.toInt cols (2 ^ 24 : ℕ) (2 ^ 24 + 1 : ℕ) label =
      .ok (Spec.bar label w w 100 false) := by
  have hr := B32.rnd_tie
  have h24 : rnd ((2 ^ 24 : ℕ) : ℝ) = rnd ((2 ^ 24 + 1 : ℕ) : ℝ) := by rw [hr, rnd_natCast le_rfl]; norm_num
  have h := progress_eq L cols hc (2 ^ 24) (2 ^ 24 + 1) (by norm_num) (by norm_num) (by norm_num) label w hw hw1
  rw [cells_same (by norm_num) h24 (by omega), cells_same (by norm_num) h24 (by norm_num)] at h
  simpa using h

/-- **C55 is false**: the number of cells is not always `⌊x w / n⌋`.  With 22 cells, at 13 of 22 only 12 are filled. -/
theorem C55_floor_false (L : Libm) (label : Bytes) (hl : label.length < 2 ^ 15) :
    ∃ percent, @progressAscii B32 (ops L) B32.toInt (29 + label.length) (13 : ℕ) (22 : ℕ) label =
      .ok (Spec.bar label 22 12 percent false) := by
  have h1 : rnd ((13 : ℕ) / (22 : ℕ) : ℝ) = (9913809 : ℕ) * 2 ^ (-1 - 23 : ℤ) :=
    rnd_eval (by norm_num) (by norm_num) (by norm_num) (by rw [abs_lt]; constructor <;> norm_num)
  have h2 : rnd ((9913809 : ℕ) * 2 ^ (-1 - 23 : ℤ) * (22 : ℕ)) = (13631487 : ℕ) * 2 ^ (3 - 23 : ℤ) :=
    rnd_eval (by norm_num) (by norm_num) (by norm_num) (by rw [abs_lt]; constructor <;> norm_num)
  have hcell : cells 13 22 22 = 12 := by
    rw [cells, rnd_natCast (by norm_num), rnd_natCast (by norm_num), h1, h2, Nat.floor_eq_iff (by positivity)]
    constructor <;> norm_num
  have h := progress_eq L (29 + label.length) (by omega) 13 22 (by norm_num) (by norm_num) (by norm_num) label 22 (by omega)
    (by norm_num)
  rw [hcell] at h
  exact ⟨_, h⟩

/-! ### Examples -/

/-- `x = 3` of `n = 10` on a terminal of 20 columns with the label "ab": 11 cells, 3 of them filled. -/
example (L : Libm) : ∃ percent,
    @progressAscii B32 (ops L) B32.toInt 20 (3 : ℕ) (10 : ℕ) (str "ab") = .ok (Spec.bar (str "ab") 11 3 percent false) := by
  obtain ⟨c, p, h, -, -, h1, h2, -⟩ := C55_partial L 20 (by norm_num) 3 10 (by norm_num) (by norm_num) (by norm_num) (str "ab") 11
    rfl (by norm_num)
  have : c = 3 := by
    have a : (2 : ℝ) < c := by push_cast at h1; linarith
    have b : (c : ℝ) < 4 := by push_cast at h2; linarith
    have a' : 2 < c := by exact_mod_cast a
    have b' : c < 4 := by exact_mod_cast b
    omega
  subst this
  exact ⟨p, h⟩

/-- The last call prints the full bar and a newline. -/
example (L : Libm) : @progressAscii B32 (ops L) B32.toInt 20 (10 : ℕ) (10 : ℕ) (str "ab") =
    .ok (Spec.bar (str "ab") 11 11 100 true) := by
  obtain ⟨c, p, -, -, -, -, h1, h2, h⟩ := C55_monotone L 20 (by norm_num) 10 (by norm_num) (by norm_num) (str "ab") 11 rfl
    (by norm_num)
  rw [h 10 le_rfl, h1, h2]
  simp

end NN
