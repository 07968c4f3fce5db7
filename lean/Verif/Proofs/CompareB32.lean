import Verif.Properties.Rounding
import Verif.Properties.Callbacks
/-
IEEE-754 single precision has the comparisons that the callbacks need.
-/
namespace NN
open FloatOps Spec

/-- The value of a float, `none` for NaN. -/
noncomputable def B32.val (a : B32) : Option EReal := if a.isNan then none else some a.extVal

theorem B32.is_fltMax (L : B32.Libm) : B32.Is (@fltMax B32 (B32.ops L)) 340282346638528859811704183484516925440 := by
  have : (340282346638528859811704183484516925440 : ℝ) = ((2 ^ 24 - 1 : ℤ) : ℝ) * 2 ^ (104 : ℤ) := by norm_num
  have h := is_exact (s := false) (2 ^ 24 - 1) 104 this (by norm_num) (by norm_num) (by norm_num [max32])
  simpa [fltMax, FloatOps.lit, B32.ops] using h

theorem b32_compares (L : B32.Libm) : @Compares B32 (B32.ops L) B32.val := by
  let _ := B32.ops L
  refine ⟨fun a b => ?_, fun a b => ?_, ?_⟩
  · show B32.lt a b = true ↔ _
    cases ha : a.isNan <;> cases hb : b.isNan <;> simp [B32.lt, B32.val, ha, hb]
  · show B32.eq a b = true ↔ _
    cases ha : a.isNan <;> cases hb : b.isNan <;> simp [B32.eq, B32.val, ha, hb, eq_comm]
  · have h := B32.is_fltMax L
    simp [B32.val, B32.not_nan h.1, B32.extVal, B32.not_inf h.1, h.2, fltMaxE]

end NN
