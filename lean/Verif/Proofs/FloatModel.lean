import Verif.Proofs.B32
/-
The standard model of floating point arithmetic: what the error analysis needs to know about the operations.  `Is a x` says
that `a` is a finite number of value `x`.  Exact arithmetic and binary32 satisfy it.
-/
namespace NN
open FloatOps

/-- Every operation returns the exact result up to a relative error `u` and an absolute error `η` (underflow), as long as the
exact result does not exceed `Ω`. -/
structure FloatModel (F : Type) [FloatOps F] where
  Is : F → ℝ → Prop
  u : ℝ
  η : ℝ
  Ω : ℝ
  u_nonneg : 0 ≤ u
  η_nonneg : 0 ≤ η
  zero : Is zero 0
  one : Is one 1
  eq {a b : F} {x y : ℝ} : Is a x → Is b y → (FloatOps.eq a b = true ↔ x = y)
  lt {a b : F} {x y : ℝ} : Is a x → Is b y → (FloatOps.lt a b = true ↔ x < y)
  neg {a : F} {x : ℝ} : Is a x → Is (neg a) (-x)
  add {a b : F} {x y : ℝ} : Is a x → Is b y → |x + y| ≤ Ω → ∃ z, Is (add a b) z ∧ |z - (x + y)| ≤ u * |x + y|
  sub {a b : F} {x y : ℝ} : Is a x → Is b y → |x - y| ≤ Ω → ∃ z, Is (sub a b) z ∧ |z - (x - y)| ≤ u * |x - y|
  mul {a b : F} {x y : ℝ} : Is a x → Is b y → |x * y| ≤ Ω → ∃ z, Is (mul a b) z ∧ |z - x * y| ≤ u * |x * y| + η
  div {a b : F} {x y : ℝ} : Is a x → Is b y → y ≠ 0 → |x / y| ≤ Ω → ∃ z, Is (div a b) z ∧ |z - x / y| ≤ u * |x / y| + η
  fma {a b c : F} {x y w : ℝ} : Is a x → Is b y → Is c w → |x * y + w| ≤ Ω →
    ∃ z, Is (fma a b c) z ∧ |z - (x * y + w)| ≤ u * |x * y + w| + η

namespace B32

/-- `a` is finite and has the value `x`. -/
def Is (a : B32) (x : ℝ) : Prop := a.isFinite = true ∧ a.value = x

theorem not_nan {a : B32} (h : a.isFinite = true) : a.isNan = false := by
  simp only [isFinite, bne_iff_ne, ne_eq] at h; simp [isNan, h]

theorem not_inf {a : B32} (h : a.isFinite = true) : a.isInf = false := by
  simp only [isFinite, bne_iff_ne, ne_eq] at h; simp [isInf, h]

theorem is_ofReal {s : Bool} {x : ℝ} (h : |x| ≤ maxF32) : Is (ofReal s x) (rnd x) := ⟨ofReal_finite h, ofReal_value h⟩

theorem is_zeroS (s : Bool) : Is (zeroS s) 0 := by
  refine ⟨finite_withSign (by norm_num), ?_⟩
  rw [zeroS, value_withSign (by norm_num)]
  simp [natVal]

theorem is_one : Is (ofReal false 1) 1 := by
  have h : rnd 1 = 1 := rnd_exact (k := 1) (j := 0) (by norm_num) (by norm_num) (by norm_num)
  have := is_ofReal (s := false) (x := 1) (by rw [maxF32]; norm_num)
  rwa [h] at this

theorem neg_toNat (a : B32) : (neg a).bits.toNat = if 2 ^ 31 ≤ a.bits.toNat then a.bits.toNat - 2 ^ 31 else a.bits.toNat + 2 ^ 31 := by
  have h := a.bits.isLt
  simp only [neg, BitVec.toNat_ofNat]
  split_ifs <;> omega

theorem is_neg {a : B32} {x : ℝ} (h : Is a x) : Is (neg a) (-x) := by
  obtain ⟨h1, h2⟩ := h
  have hn := neg_toNat a
  have hlt := a.bits.isLt
  have he : (neg a).bits.toNat / 2 ^ 23 % 2 ^ 8 = a.bits.toNat / 2 ^ 23 % 2 ^ 8 := by rw [hn]; split_ifs <;> omega
  have hm : (neg a).bits.toNat % 2 ^ 23 = a.bits.toNat % 2 ^ 23 := by rw [hn]; split_ifs <;> omega
  refine ⟨?_, ?_⟩
  · simpa only [isFinite, expField, he] using h1
  · rw [← h2]
    simp only [value, f32Value, he, hm]
    by_cases hs : a.bits.toNat < 2 ^ 31
    · rw [if_pos hs, if_neg (by rw [hn, if_neg (by omega)]; omega)]
    · rw [if_neg hs, if_pos (by rw [hn, if_pos (by omega)]; omega)]; ring

theorem eq_iff {a b : B32} {x y : ℝ} (ha : Is a x) (hb : Is b y) : eq a b = true ↔ x = y := by
  simp [eq, not_nan ha.1, not_nan hb.1, extVal, not_inf ha.1, not_inf hb.1, ha.2, hb.2]

theorem lt_iff {a b : B32} {x y : ℝ} (ha : Is a x) (hb : Is b y) : lt a b = true ↔ x < y := by
  simp [lt, not_nan ha.1, not_nan hb.1, extVal, not_inf ha.1, not_inf hb.1, ha.2, hb.2]

theorem le_iff {a b : B32} {x y : ℝ} (ha : Is a x) (hb : Is b y) : le a b = true ↔ x ≤ y := by
  simp [le, not_nan ha.1, not_nan hb.1, extVal, not_inf ha.1, not_inf hb.1, ha.2, hb.2]

theorem add_is {a b : B32} {x y : ℝ} (ha : Is a x) (hb : Is b y) (h : |x + y| ≤ maxF32) : Is (add a b) (rnd (x + y)) := by
  simp only [add, not_nan ha.1, not_nan hb.1, not_inf ha.1, not_inf hb.1, ha.2, hb.2, Bool.or_self, Bool.false_eq_true, if_false]
  exact is_ofReal h

theorem sub_is {a b : B32} {x y : ℝ} (ha : Is a x) (hb : Is b y) (h : |x - y| ≤ maxF32) : Is (sub a b) (rnd (x - y)) := by
  have := add_is ha (is_neg hb) (by rwa [← sub_eq_add_neg])
  rwa [← sub_eq_add_neg] at this

theorem mul_is {a b : B32} {x y : ℝ} (ha : Is a x) (hb : Is b y) (h : |x * y| ≤ maxF32) : Is (mul a b) (rnd (x * y)) := by
  simp only [mul, not_nan ha.1, not_nan hb.1, not_inf ha.1, not_inf hb.1, ha.2, hb.2, Bool.or_self, Bool.false_eq_true, if_false]
  exact is_ofReal h

theorem div_is {a b : B32} {x y : ℝ} (ha : Is a x) (hb : Is b y) (hy : y ≠ 0) (h : |x / y| ≤ maxF32) :
    Is (div a b) (rnd (x / y)) := by
  simp only [div, not_nan ha.1, not_nan hb.1, not_inf ha.1, not_inf hb.1, ha.2, hb.2, Bool.or_self, Bool.false_eq_true, if_false, hy]
  exact is_ofReal h

theorem fma_is {a b c : B32} {x y w : ℝ} (ha : Is a x) (hb : Is b y) (hc : Is c w) (h : |x * y + w| ≤ maxF32) :
    Is (fma a b c) (rnd (x * y + w)) := by
  simp only [fma, not_nan ha.1, not_nan hb.1, not_nan hc.1, not_inf ha.1, not_inf hb.1, not_inf hc.1, ha.2, hb.2, hc.2,
    Bool.or_self, Bool.false_eq_true, if_false]
  exact is_ofReal h

theorem add_grid {a b : B32} {x y : ℝ} (ha : Is a x) (hb : Is b y) : ∃ k : ℤ, x + y = k * 2 ^ (-149 : ℤ) := by
  obtain ⟨k, h1⟩ := value_grid ha.1
  obtain ⟨l, h2⟩ := value_grid hb.1
  refine ⟨k + l, ?_⟩
  rw [← ha.2, ← hb.2, h1, h2]; push_cast; ring

/-- Binary32 satisfies the standard model with `u = 2^-24`. -/
noncomputable def model (L : Libm) : @FloatModel B32 (ops L) :=
  letI := ops L
  { Is := Is
    u := 2 ^ (-24 : ℤ)
    η := 2 ^ (-150 : ℤ)
    Ω := maxF32
    u_nonneg := by positivity
    η_nonneg := by positivity
    zero := is_zeroS false
    one := is_one
    eq := eq_iff
    lt := lt_iff
    neg := is_neg
    add := fun ha hb h => by
      obtain ⟨k, hk⟩ := add_grid ha hb
      exact ⟨_, add_is ha hb h, rnd_grid hk⟩
    sub := fun ha hb h => by
      obtain ⟨k, hk⟩ := add_grid ha (is_neg hb)
      rw [← sub_eq_add_neg] at hk
      exact ⟨_, sub_is ha hb h, rnd_grid hk⟩
    mul := fun ha hb h => ⟨_, mul_is ha hb h, rnd_abs _⟩
    div := fun ha hb hy h => ⟨_, div_is ha hb hy h, rnd_abs _⟩
    fma := fun ha hb hc h => ⟨_, fma_is ha hb hc h, rnd_abs _⟩ }

end B32

/-- Exact arithmetic satisfies it without error, and without bound. -/
noncomputable def realModel (Ω : ℝ) : FloatModel ℝ where
  Is a x := a = x
  u := 0
  η := 0
  Ω := Ω
  u_nonneg := le_rfl
  η_nonneg := le_rfl
  zero := rfl
  one := rfl
  eq := by rintro a b x y rfl rfl; simp
  lt := by rintro a b x y rfl rfl; simp
  neg := by rintro a x rfl; simp
  add := by rintro a b x y rfl rfl _; exact ⟨_, rfl, by simp⟩
  sub := by rintro a b x y rfl rfl _; exact ⟨_, rfl, by simp⟩
  mul := by rintro a b x y rfl rfl _; exact ⟨_, rfl, by simp⟩
  div := by rintro a b x y rfl rfl _ _; exact ⟨_, rfl, by simp⟩
  fma := by rintro a b c x y w rfl rfl rfl _; exact ⟨_, rfl, by simp⟩

end NN
