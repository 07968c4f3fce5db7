import Verif.Proofs.OptFloat
/-
Bit patterns of floats: a number is its sign and value; adding zero, dividing by one and the sign of zero sums.
-/
namespace NN.B32

theorem natVal_strictMono : StrictMono natVal := by
  apply strictMono_nat_of_lt_succ
  intro n
  obtain ⟨k, m, hn, hk, hm⟩ : ∃ k m, n = k * 2 ^ 23 + m ∧ (k = 0 ∨ 2 ^ 23 ≤ m) ∧ m < 2 ^ 24 := by
    rcases Nat.lt_or_ge n (2 ^ 23) with h | h
    · exact ⟨0, n, by omega, Or.inl rfl, by omega⟩
    · exact ⟨n / 2 ^ 23 - 1, n - (n / 2 ^ 23 - 1) * 2 ^ 23, by omega, Or.inr (by omega), by omega⟩
  have e : n + 1 = k * 2 ^ 23 + (m + 1) := by omega
  rw [e, hn, natVal_split hk (by omega), natVal_split (by omega) (by omega)]
  have h2 : (0 : ℝ) < 2 ^ ((k : ℤ) - 149) := by positivity
  push_cast
  nlinarith

theorem natVal_zero : natVal 0 = 0 := by simp [natVal]

theorem natVal_pos {n : ℕ} (h : n ≠ 0) : 0 < natVal n := by
  have := natVal_strictMono (Nat.pos_of_ne_zero h)
  rwa [natVal_zero] at this

/-- A number is its sign bit and the other 31 bits. -/
theorem eq_withSign (a : B32) : a = withSign a.sign (a.bits.toNat % 2 ^ 31) := by
  have hlt := a.bits.isLt
  ext1
  apply BitVec.eq_of_toNat_eq
  rw [bits_withSign (Nat.mod_lt _ (by norm_num))]
  by_cases h : 2 ^ 31 ≤ a.bits.toNat
  · simp only [sign, h, decide_true, if_true]; omega
  · simp only [sign, h, decide_false, Bool.false_eq_true, if_false]; omega

theorem finite_iff_bits (a : B32) : a.isFinite = true ↔ a.bits.toNat % 2 ^ 31 < 255 * 2 ^ 23 := by
  have hlt := a.bits.isLt
  simp only [isFinite, expField, bne_iff_ne, ne_eq]
  omega

theorem value_bits {a : B32} (h : a.isFinite = true) :
    a.value = if a.sign then -natVal (a.bits.toNat % 2 ^ 31) else natVal (a.bits.toNat % 2 ^ 31) := by
  conv_lhs => rw [eq_withSign a]
  exact value_withSign ((finite_iff_bits a).1 h)

/-- Finite numbers with the same sign and value are the same. -/
theorem value_inj {a b : B32} (ha : a.isFinite = true) (hb : b.isFinite = true) (hs : a.sign = b.sign)
    (hv : a.value = b.value) : a = b := by
  rw [value_bits ha, value_bits hb, hs] at hv
  have : natVal (a.bits.toNat % 2 ^ 31) = natVal (b.bits.toNat % 2 ^ 31) := by
    cases h : b.sign <;> simp [h] at hv <;> exact hv
  rw [eq_withSign a, eq_withSign b, hs, natVal_strictMono.injective this]

theorem sign_withSign {s : Bool} {n : ℕ} (h : n < 2 ^ 31) : (withSign s n).sign = s := by
  rw [sign, bits_withSign h]
  cases s <;> simp; omega

theorem sign_zeroS (s : Bool) : (zeroS s).sign = s := sign_withSign (by norm_num)

/-- A finite number of value zero is a zero. -/
theorem eq_zeroS {a : B32} (ha : Is a 0) : a = zeroS a.sign :=
  value_inj ha.1 (is_zeroS _).1 (sign_zeroS _).symm (by rw [ha.2, (is_zeroS _).2])

theorem sign_of_value {a : B32} (h : a.value ≠ 0) : a.sign = decide (a.value < 0) := by
  rcases lt_or_gt_of_ne h with h | h
  · rw [sign_of_neg h, decide_eq_true h]
  · rw [sign_of_pos h, decide_eq_false (by linarith)]

/-- Rounding a number that is a float gives the float. -/
theorem ofReal_self {a : B32} (ha : a.isFinite = true) (h0 : a.value ≠ 0) (s : Bool) : ofReal s a.value = a := by
  have h := is_ofReal (s := s) (value_abs_le ha)
  rw [rnd_value ha] at h
  refine value_inj h.1 ha ?_ h.2
  rw [sign_of_value h0, sign_of_value (by rw [h.2]; exact h0), h.2]

theorem rnd_ne_zero {x : ℝ} {k : ℤ} (hx : x = k * 2 ^ (-149 : ℤ)) (h0 : x ≠ 0) : rnd x ≠ 0 := by
  have h := rnd_grid hx
  intro hr
  rw [hr, zero_sub, abs_neg] at h
  have hp := abs_pos.2 h0
  have : (2 : ℝ) ^ (-24 : ℤ) < 1 := by norm_num
  nlinarith

/-- Neither a negative zero nor a NaN other than the default one. -/
def Plain (a : B32) : Prop := a ≠ zeroS true ∧ (a.isNan = true → a = qnan)

theorem plain_qnan : Plain qnan := ⟨by decide, fun _ => rfl⟩

theorem plain_zero : Plain (zeroS false) := ⟨by decide, fun h => absurd h (by decide)⟩

theorem plain_inf (s : Bool) : Plain (inf s) := by
  cases s <;> exact ⟨by decide, fun h => absurd h (by decide)⟩

theorem Is.plain {a : B32} {x : ℝ} (h : Is a x) (h0 : x ≠ 0 ∨ a.sign = false) : Plain a := by
  refine ⟨?_, fun hn => absurd hn (by simp [not_nan h.1])⟩
  rintro rfl
  rcases h0 with h0 | h0
  · exact h0 (by rw [← h.2, (is_zeroS _).2])
  · rw [sign_zeroS] at h0; simp at h0

theorem plain_ofReal {x : ℝ} {k : ℤ} (hx : x = k * 2 ^ (-149 : ℤ)) (s : Bool) (h0 : x ≠ 0 ∨ s = false) :
    Plain (ofReal s x) := by
  rcases lt_or_ge |x| (maxF32 + 2 ^ 103) with h | h
  · have hi := is_ofReal' (s := s) h
    by_cases hz : x = 0
    · have hs : s = false := h0.resolve_left (by simp [hz])
      subst hz hs
      have e : ofReal false 0 = zeroS false := by simp [ofReal]
      rw [e]; exact plain_zero
    · exact hi.plain (Or.inl (rnd_ne_zero hx hz))
  · rw [ofReal_inf h]; exact plain_inf _

theorem grid_sum {a b : B32} (ha : a.isFinite = true) (hb : b.isFinite = true) :
    ∃ k : ℤ, a.value + b.value = k * 2 ^ (-149 : ℤ) := by
  obtain ⟨k, hk⟩ := value_grid ha
  obtain ⟨j, hj⟩ := value_grid hb
  exact ⟨k + j, by rw [hk, hj]; push_cast; ring⟩

theorem nonpos_of_sign {a : B32} (hs : a.sign = true) : a.value ≤ 0 := by
  by_contra hc
  rw [sign_of_pos (not_le.1 hc)] at hs
  simp at hs

theorem neg_of_plain {a : B32} (h : a.isFinite = true) (hp : Plain a) (hs : a.sign = true) : a.value < 0 := by
  rcases lt_or_eq_of_le (nonpos_of_sign hs) with h1 | h1
  · exact h1
  · exact absurd (by have := eq_zeroS ⟨h, h1⟩; rwa [hs] at this) hp.1

theorem add_nan_left {a b : B32} (h : a.isNan = true) : add a b = qnan := by simp [add, h]
theorem add_nan_right {a b : B32} (h : b.isNan = true) : add a b = qnan := by simp [add, h]

theorem add_finite {a b : B32} (ha : a.isFinite = true) (hb : b.isFinite = true) :
    add a b = ofReal (a.sign && b.sign) (a.value + b.value) := by
  simp [add, not_nan ha, not_nan hb, not_inf ha, not_inf hb]

theorem add_infL {s : Bool} {b : B32} (hb : b.isNan = false) :
    add (inf s) b = if b.isInf && s != b.sign then qnan else inf s := by
  simp [add, is_inf s, hb]

theorem add_infR {a : B32} {s : Bool} (ha : a.isFinite = true) : add a (inf s) = inf s := by
  simp [add, is_inf s, not_nan ha, not_inf ha]

/-- A sum whose first operand is plain is plain. -/
theorem plain_add {a : B32} (ha : Plain a) (b : B32) : Plain (add a b) := by
  by_cases hb : b.isNan = true
  · rw [add_nan_right hb]; exact plain_qnan
  rcases kinds a with h | ⟨s, rfl⟩ | h
  · rw [add_nan_left h]; exact plain_qnan
  · rw [add_infL (by simpa using hb)]
    split_ifs
    · exact plain_qnan
    · exact plain_inf _
  · rcases kinds b with h' | ⟨t, rfl⟩ | h'
    · exact absurd h' hb
    · rw [add_infR h.1]; exact plain_inf _
    · rw [add_finite h.1 h'.1]
      obtain ⟨k, hk⟩ := grid_sum h.1 h'.1
      refine plain_ofReal hk _ ?_
      by_contra hc
      simp only [not_or, not_not, Bool.not_eq_false, Bool.and_eq_true, ne_eq] at hc
      have h1 := neg_of_plain h.1 ha hc.2.1
      have h2 := nonpos_of_sign hc.2.2
      linarith [hc.1]

/-- Adding a zero to a plain number changes nothing. -/
theorem add_zeroS {a : B32} (ha : Plain a) (s : Bool) : add a (zeroS s) = a := by
  rcases kinds a with h | ⟨t, rfl⟩ | h
  · rw [add_nan_left h, ha.2 h]
  · rw [add_infL (not_nan (is_zeroS s).1), not_inf (is_zeroS s).1]; simp
  · rw [add_finite h.1 (is_zeroS s).1, (is_zeroS s).2, add_zero]
    by_cases h0 : a.value = 0
    · have e : a = zeroS false := by
        have := eq_zeroS ⟨h.1, h0⟩
        cases hs : a.sign
        · rwa [hs] at this
        · rw [hs] at this; exact absurd this ha.1
      rw [e, sign_zeroS, (is_zeroS _).2]
      simp [ofReal]
    · exact ofReal_self h.1 h0 _

theorem add_comm' (a b : B32) : add a b = add b a := by
  by_cases hn : a.isNan = true
  · rw [add_nan_left hn, add_nan_right hn]
  by_cases hn' : b.isNan = true
  · rw [add_nan_left hn', add_nan_right hn']
  rcases kinds a with h | ⟨s, rfl⟩ | h
  · exact absurd h hn
  · rcases kinds b with h' | ⟨t, rfl⟩ | h'
    · exact absurd h' hn'
    · cases s <;> cases t <;> simp [add, is_inf]
    · rw [add_infR h'.1, add_infL (not_nan h'.1), not_inf h'.1]; simp
  · rcases kinds b with h' | ⟨t, rfl⟩ | h'
    · exact absurd h' hn'
    · rw [add_infR h.1, add_infL (not_nan h.1), not_inf h.1]; simp
    · rw [add_finite h.1 h'.1, add_finite h'.1 h.1, Bool.and_comm, add_comm]

theorem zero_add' {a : B32} (ha : Plain a) : add (zeroS false) a = a := by
  rw [add_comm', add_zeroS ha]

theorem div_one' {a : B32} (ha : Plain a) : div a (ofReal false 1) = a := by
  have h1 := is_one
  have hs : (ofReal false 1).sign = false := sign_of_pos (by rw [h1.2]; norm_num)
  rcases kinds a with h | ⟨t, rfl⟩ | h
  · rw [ha.2 h]; simp [div, qnan_isNan]
  · simp [div, is_inf, not_nan h1.1, not_inf h1.1, hs]
  · simp only [div, not_nan h.1, not_nan h1.1, not_inf h.1, not_inf h1.1, h1.2, hs, Bool.or_self, Bool.false_eq_true,
      if_false, one_ne_zero, Bool.xor_false, div_one]
    by_cases h0 : a.value = 0
    · rw [h0]; simp only [ofReal, if_true]; exact (eq_zeroS ⟨h.1, h0⟩).symm
    · exact ofReal_self h.1 h0 _

theorem mul_nan_left {a b : B32} (h : a.isNan = true) : mul a b = qnan := by simp [mul, h]

/-- A zero times a number is a zero or NaN, whatever the sign of the zero. -/
theorem mul_zeroS (s : Bool) (b : B32) : mul (zeroS s) b = qnan ∧ mul (zeroS (!s)) b = qnan ∨
    ∃ t, mul (zeroS s) b = zeroS t ∧ mul (zeroS (!s)) b = zeroS (!t) := by
  rcases kinds b with h | ⟨t, rfl⟩ | h
  · left; simp [mul, h]
  · left
    simp [mul, is_inf, not_nan (is_zeroS _).1, not_inf (is_zeroS _).1, (is_zeroS _).2]
  · right
    refine ⟨s ^^ b.sign, ?_, ?_⟩ <;>
      simp [mul, not_nan (is_zeroS _).1, not_inf (is_zeroS _).1, (is_zeroS _).2, not_nan h.1, not_inf h.1, ofReal, sign_zeroS]

/-- The step `w + (0 + x) * s` is `w + x * s` although `0 + x` differs from `x` for the negative zero. -/
theorem step_zero {w : B32} (hw : Plain w) (x s : B32) :
    add w (mul (add (zeroS false) x) s) = add w (mul x s) := by
  by_cases hn : x.isNan = true
  · rw [add_nan_right hn, mul_nan_left hn, mul_nan_left qnan_isNan]
  by_cases hx : x = zeroS true
  · subst hx
    have e : add (zeroS false) (zeroS true) = zeroS false := add_zeroS plain_zero true
    rw [e]
    rcases mul_zeroS false s with ⟨h1, h2⟩ | ⟨t, h1, h2⟩
    · rw [h1]; rw [Bool.not_false] at h2; rw [h2]
    · rw [Bool.not_false] at h2
      rw [h1, h2, add_zeroS hw, add_zeroS hw]
  · rw [zero_add' ⟨hx, fun h => absurd h hn⟩]

end NN.B32
