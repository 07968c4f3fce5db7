import Verif.Properties.Progress
import Verif.Proofs.OptFloat
/-
C55: the terminal, and the progress bar outside of its range.
-/
namespace NN
open FloatOps B32

/-- **C55** The width of the bar: nothing is printed unless `stdout` is a terminal; the width is what the terminal says, and 80 if it
says nothing. -/
theorem C55_terminal {F : Type} [FloatOps F] (toInt : F → M Int) (x n : Int) (label : Bytes) :
    (∀ size, progressTty toInt false size x n label = .ok []) ∧
    progressTty toInt true none x n label = progressAscii toInt 80 x n label ∧
    progressTty toInt true (some 0) x n label = progressAscii toInt 80 x n label ∧
    ∀ k, 0 < k → progressTty toInt true (some k) x n label = progressAscii toInt k x n label := by
  refine ⟨fun size => ?_, rfl, rfl, fun k hk => ?_⟩
  · exact C55_narrow toInt _ x n label (by simp [getcols])
  · simp [progressTty, getcols, Nat.pos_iff_ne_zero.1 hk]

theorem toInt_special {a : B32} (h : a.isFinite = false) : a.toInt = .error .overflow := by
  rw [B32.toInt, if_neg (by simp [h])]

theorem B32.inf_special (s : Bool) : (inf s).isFinite = false := by cases s <;> decide

theorem B32.mul_special {a b : B32} (h : a.isFinite = false) : (B32.mul a b).isFinite = false := by
  have hq : qnan.isFinite = false := by decide
  have hk : a.isNan = true ∨ a.isInf = true := by
    simp only [B32.isFinite, B32.isNan, B32.isInf] at h ⊢
    rcases Nat.eq_zero_or_pos a.mantField with h' | h' <;> simp_all; omega
  rw [B32.mul]
  by_cases hn : a.isNan = true
  · simp [hn, hq]
  · have hi : a.isInf = true := by tauto
    rw [if_pos hi]
    split_ifs <;> first | exact hq | exact B32.inf_special _

/-- **C55 is false** for `n = 0`: for every `x` an infinity or NaN is converted to `int`, which is undefined. -/
theorem C55_zero_false (L : Libm) (cols : Nat) (x : Int) (label : Bytes) (h : label.length + 8 ≤ cols) :
    @progressAscii B32 (ops L) B32.toInt cols x 0 label = .error .overflow := by
  have hz : Is (@ofInt B32 (ops L) 0) 0 := by
    have := is_ofInt L (k := 0) (by norm_num)
    simpa [rnd_zero] using this
  have hd : ∀ a, (B32.div a (@ofInt B32 (ops L) 0)).isFinite = false := by
    intro a
    have hq : qnan.isFinite = false := by decide
    rw [B32.div]
    simp only [not_nan hz.1, not_inf hz.1, hz.2, if_true, if_false, Bool.false_eq_true]
    split_ifs <;> first | exact hq | exact B32.inf_special _
  have e1 : ∀ a b, (ops L).mul a b = B32.mul a b := fun _ _ => rfl
  have e2 : ∀ a b, (ops L).div a b = B32.div a b := fun _ _ => rfl
  simp only [progressAscii, if_neg (by omega : ¬ (cols : Int) - 7 - label.length < 1), e1, e2, toInt_special (B32.mul_special (hd _)),
    bind, Except.bind]

theorem is_ofInt_neg (L : Libm) {k : ℕ} (h0 : 0 < k) (hk : k ≤ 2 ^ 31) : Is (@ofInt B32 (ops L) (-(k : Int))) (-rnd k) := by
  have h := is_ofInt L hk
  have : @ofInt B32 (ops L) (-(k : Int)) = B32.neg (@ofInt B32 (ops L) (k : Int)) := by
    simp only [ofInt, if_neg (by omega : ¬ (k : Int) < 0), if_pos (by omega : -(k : Int) < 0), Int.natAbs_natCast, Int.natAbs_neg]
    rfl
  rw [this]
  exact is_neg h

/-- **C55 is false** for negative `x`: the line grows by the cells that would be filled at `-x`, all of them empty, and is longer than
the terminal is wide as soon as there is one. -/
theorem C55_negative_false (L : Libm) (cols : Nat) (hc : cols < 2 ^ 16) (y n : ℕ) (hy : 0 < y) (hn31 : n < 2 ^ 31) (hyn : y ≤ n)
    (label : Bytes) (w : ℕ) (hw : cols = w + 7 + label.length) (hw1 : 1 ≤ w) :
    ∃ c percent : ℕ, c ≤ w ∧ (y = n → c = w) ∧ @progressAscii B32 (ops L) B32.toInt cols y n label = .ok (Spec.bar label w c percent (y = n)) ∧
      @progressAscii B32 (ops L) B32.toInt cols (-(y : Int)) n label = .ok (label ++ str "[" ++ List.replicate (w + c) 45 ++ str "] " ++
        padLeft 3 32 (decInt (-(percent : Int))) ++ str "%" ++ str "\r") := by
  have hn : 0 < n := by omega
  have hw24 : w ≤ 2 ^ 24 := by
    have : w ≤ cols := by omega
    norm_num at hc ⊢; omega
  refine ⟨_, _, cells_le hn hyn hw24, fun e => cells_same hn (by rw [e]) hw24, progress_eq L cols hc y n hn hn31 hyn label w hw hw1, ?_⟩
  obtain ⟨r0, r1⟩ := ratio_mem hn hyn
  have hpos := rnd_one_le hn
  have hx0 : 0 ≤ rnd y := rnd_nonneg (by positivity)
  have hxn : rnd y ≤ rnd n := rnd_mono (by exact_mod_cast hyn)
  have hd : Is (B32.div (@ofInt B32 (ops L) (-(y : Int))) (@ofInt B32 (ops L) (n : Int))) (-rnd (rnd y / rnd n)) := by
    rw [← rnd_neg, ← neg_div]
    refine div_is (is_ofInt_neg L hy (by omega)) (is_ofInt L (by omega)) (by linarith) (maxF32_big ?_)
    rw [neg_div, abs_neg, abs_of_nonneg (by positivity)]
    exact (div_le_one_of_le₀ hxn (by linarith)).trans (by norm_num)
  have hm : ∀ k : ℕ, k ≤ 2 ^ 24 → (B32.mul (B32.div (@ofInt B32 (ops L) (-(y : Int))) (@ofInt B32 (ops L) (n : Int)))
      (@ofInt B32 (ops L) (k : Int))).toInt = .ok (-(cells y n k : Int)) := by
    intro k hk
    have hkr : (k : ℝ) ≤ 2 ^ 24 := by exact_mod_cast hk
    have h1 := is_ofInt L (k := k) (by norm_num at hk ⊢; omega)
    rw [rnd_natCast hk] at h1
    have hp := mul_le_of_le_one_left (Nat.cast_nonneg (α := ℝ) k) r1
    obtain ⟨s0, s1⟩ := scaled_mem hn hyn hk
    have h2 := mul_is hd h1 (maxF32_big (by
      rw [neg_mul, abs_neg, abs_of_nonneg (by positivity)]
      linarith [show (2 : ℝ) ^ 24 ≤ 2 ^ 32 by norm_num]))
    rw [neg_mul, rnd_neg] at h2
    obtain ⟨hf, hv⟩ := h2
    have h24 : (2 : ℝ) ^ 24 < 2 ^ 31 := by norm_num
    rw [B32.toInt, hv, if_pos ⟨hf, by linarith, by linarith⟩]
    have e : (cells y n k : Int) = ⌊rnd (rnd (rnd y / rnd n) * k)⌋ := Int.natCast_floor_eq_floor s0
    rw [e]
    split_ifs with h0
    · have : rnd (rnd (rnd y / rnd n) * k) = 0 := by linarith
      rw [this]; simp [pure, Except.pure]
    · rw [Int.ceil_neg]; rfl
  have hwi : (cols : Int) - 7 - label.length = (w : Int) := by omega
  have t1 := hm w hw24
  have t2 := hm 100 (by norm_num)
  rw [show ((100 : ℕ) : Int) = 100 from rfl] at t2
  have e1 : ∀ a b, (ops L).mul a b = B32.mul a b := fun _ _ => rfl
  have e2 : ∀ a b, (ops L).div a b = B32.div a b := fun _ _ => rfl
  simp only [progressAscii, hwi, if_neg (by omega : ¬ (w : Int) < 1), e1, e2, t1, t2, bind, Except.bind, pure, Except.pure,
    Except.ok.injEq]
  rw [show (w - -(cells y n w : Int)).toNat = w + cells y n w by omega, show (-(cells y n w : Int)).toNat = 0 by omega,
    if_neg (by omega : ¬ -(y : Int) = n)]
  simp

/-- `x = -n`: twice as many cells as fit. -/
example (L : Libm) : ∃ s, @progressAscii B32 (ops L) B32.toInt 20 (-((10 : ℕ) : Int)) ((10 : ℕ) : Int) (str "ab") = .ok s ∧ 20 < s.length := by
  obtain ⟨c, p, -, hf, -, h⟩ := C55_negative_false L 20 (by norm_num) 10 10 (by norm_num) (by norm_num) le_rfl (str "ab") 11 rfl
    (by norm_num)
  refine ⟨_, h, ?_⟩
  rw [hf rfl]
  simp only [List.length_append, List.length_replicate]
  omega

/-- No samples at all, as in an empty epoch. -/
example (L : Libm) : @progressAscii B32 (ops L) B32.toInt 80 0 0 (str "Epoch") = .error .overflow :=
  C55_zero_false L 80 0 (str "Epoch") (by decide)

/-- Output to a file. -/
example (L : Libm) : @progressTty B32 (ops L) B32.toInt false (some 80) 3 10 (str "Epoch") = .ok [] :=
  (@C55_terminal B32 (ops L) B32.toInt 3 10 (str "Epoch")).1 _

end NN
