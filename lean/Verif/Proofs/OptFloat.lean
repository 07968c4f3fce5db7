import Verif.Proofs.OptSteps
import Verif.Proofs.InitFloat
import Verif.Proofs.ActFloat
/-
The operations of the optimizers on one number, in `float` arithmetic.
-/
namespace NN
open B32

namespace B32

theorem isInf_eq {a : B32} (h : a.isInf = true) : a = inf a.sign := by
  simp only [isInf, Bool.and_eq_true, beq_iff_eq, expField, mantField] at h
  have hb := a.bits.isLt
  ext1
  apply BitVec.eq_of_toNat_eq
  rw [inf, bits_withSign (by norm_num), sign]
  by_cases hs : 2 ^ 31 ≤ a.bits.toNat
  · simp only [hs, decide_true, if_true]; omega
  · simp only [hs, decide_false, Bool.false_eq_true, if_false]; omega

/-- A number is NaN, infinite or finite. -/
theorem kinds (a : B32) : a.isNan = true ∨ (∃ s, a = inf s) ∨ Is a a.value := by
  by_cases h : a.isFinite = true
  · exact .inr (.inr ⟨h, rfl⟩)
  · simp only [isFinite, bne_iff_ne, ne_eq, not_not] at h
    by_cases hm : a.mantField = 0
    · exact .inr (.inl ⟨a.sign, isInf_eq (by simp [isInf, h, hm])⟩)
    · exact .inl (by simp [isNan, h, hm])

theorem extVal_is {a : B32} {x : ℝ} (h : Is a x) : a.extVal = x := by simp [extVal, not_inf h.1, h.2]
theorem extVal_inf (s : Bool) : (inf s).extVal = if s then ⊥ else ⊤ := by simp [extVal, is_inf s]

/-- A nonnegative number or plus infinity. -/
def NonNeg (a : B32) : Prop := (∃ x, 0 ≤ x ∧ Is a x) ∨ a = inf false

theorem sqrt_is0 {a : B32} {x : ℝ} (ha : Is a x) (hx : 0 ≤ x) (h : √x ≤ maxF32) : Is (sqrt a) (rnd √x) := by
  rcases hx.lt_or_eq with hx | hx
  · exact sqrt_is ha hx h
  · subst hx
    have : sqrt a = a := by simp [sqrt, not_nan ha.1, ha.1, ha.2]
    rw [this, Real.sqrt_zero, rnd_zero]; exact ha

/-- A sum of nonnegative numbers. -/
theorem add_nonneg' {a b : B32} {x y : ℝ} (ha : Is a x) (hb : Is b y) (hx : 0 ≤ x) (hy : 0 ≤ y) :
    Is (add a b) (rnd (x + y)) ∨ add a b = inf false := by
  rcases lt_or_ge |x + y| (maxF32 + 2 ^ 103) with h | h
  · exact .inl (add_is' ha hb h)
  · right
    simp only [add, not_nan ha.1, not_nan hb.1, not_inf ha.1, not_inf hb.1, ha.2, hb.2, Bool.or_self, Bool.false_eq_true, if_false]
    rw [ofReal_inf h]
    congr 1
    simp; positivity

theorem mul_is' {a b : B32} {x y : ℝ} (ha : Is a x) (hb : Is b y) (h : |x * y| < maxF32 + 2 ^ 103) : Is (mul a b) (rnd (x * y)) := by
  simp only [mul, not_nan ha.1, not_nan hb.1, not_inf ha.1, not_inf hb.1, ha.2, hb.2, Bool.or_self, Bool.false_eq_true, if_false]
  exact is_ofReal' h

/-- A product that is not negative. -/
theorem mul_nonneg' {a b : B32} {x y : ℝ} (ha : Is a x) (hb : Is b y) (hxy : 0 ≤ x * y) :
    Is (mul a b) (rnd (x * y)) ∨ mul a b = inf false := by
  rcases lt_or_ge |x * y| (maxF32 + 2 ^ 103) with h | h
  · exact .inl (mul_is' ha hb h)
  · right
    simp only [mul, not_nan ha.1, not_nan hb.1, not_inf ha.1, not_inf hb.1, ha.2, hb.2, Bool.or_self, Bool.false_eq_true, if_false]
    rw [ofReal_inf h]
    congr 1
    simpa using hxy

theorem add_inf_right {a : B32} {x : ℝ} (ha : Is a x) (s : Bool) : add a (inf s) = inf s := by
  simp [add, not_nan ha.1, not_inf ha.1, is_inf s]

theorem add_inf_left {a : B32} {x : ℝ} (ha : Is a x) (s : Bool) : add (inf s) a = inf s := by
  simp [add, not_nan ha.1, not_inf ha.1, is_inf s]

theorem add_inf_inf (s : Bool) : add (inf s) (inf s) = inf s := by simp [add, is_inf s]

/-- `r` is overtaken by `r'`, or `r'` is NaN. -/
def Grows (r r' : B32) : Prop := r'.isNan = true ∨ (r.isNan = false ∧ r.extVal ≤ r'.extVal)

theorem Grows.refl (r : B32) : Grows r r := by
  cases h : r.isNan
  · exact .inr ⟨h, le_rfl⟩
  · exact .inl h

theorem qnan_isNan : qnan.isNan = true := by decide

theorem square_cases (g : B32) : (mul g g).isNan = true ∨ mul g g = inf false ∨ ∃ q, 0 ≤ q ∧ Is (mul g g) q := by
  rcases kinds g with h | ⟨s, rfl⟩ | h
  · left; simp [mul, h, qnan_isNan]
  · right; left; simp [mul, is_inf s]
  · rcases mul_nonneg' h h (mul_self_nonneg _) with h' | h'
    · exact .inr (.inr ⟨_, rnd_nonneg (mul_self_nonneg _), h'⟩)
    · exact .inr (.inl h')

/-- `r + g * g` is not less than `r`, whatever `r` and `g` are. -/
theorem grows_add_square (r g : B32) : Grows r (add r (mul g g)) := by
  rcases square_cases g with h | h | ⟨q, hq0, hq⟩
  · left; simp [add, h, qnan_isNan]
  · rw [h]
    rcases kinds r with hr | ⟨s, rfl⟩ | hr
    · left; simp [add, hr, qnan_isNan]
    · cases s
      · rw [add_inf_inf]; exact .refl _
      · left; simp [add, is_inf, qnan_isNan]
    · right
      rw [add_inf_right hr, extVal_inf]
      exact ⟨not_nan hr.1, by simp⟩
  · rcases kinds r with hr | ⟨s, rfl⟩ | hr
    · left; simp [add, hr, qnan_isNan]
    · rw [add_inf_left hq]; exact .refl _
    · right
      refine ⟨not_nan hr.1, ?_⟩
      rcases lt_or_ge |r.value + q| (maxF32 + 2 ^ 103) with h | h
      · rw [extVal_is hr, extVal_is (add_is' hr hq h), EReal.coe_le_coe_iff]
        exact le_rnd (by linarith) (rnd_is hr)
      · have h0 : 0 ≤ r.value + q := by
          by_contra hn
          have := (abs_le.1 (value_abs_le hr.1)).1
          rw [abs_of_neg (not_le.1 hn)] at h
          have : (0 : ℝ) < 2 ^ 103 := by positivity
          linarith
        have e : add r (mul g g) = inf false := by
          simp only [add, not_nan hr.1, not_nan hq.1, not_inf hr.1, not_inf hq.1, hq.2, Bool.or_self, Bool.false_eq_true, if_false]
          rw [ofReal_inf h]; congr 1; simpa using h0
        rw [e, extVal_inf]; simp

theorem Grows.trans {a b c : B32} (h : Grows a b) (h' : Grows b c) : Grows a c := by
  rcases h' with h' | ⟨h1, h2⟩
  · exact .inl h'
  · rcases h with h | ⟨h3, h4⟩
    · rw [h] at h1; cases h1
    · exact .inr ⟨h3, h4.trans h2⟩

end B32

/-! ### The step of Adagrad and RMSprop -/

theorem eps_is (L : Libm) : ∃ e, Is (@epsUpdate B32 (ops L)) e ∧ 2 ^ (-24 : ℤ) ≤ e ∧ e ≤ 2 ^ (-22 : ℤ) := by
  have h : Is (ofReal false (((1 : ℤ) : ℝ) / ((10000000 : ℕ) : ℝ))) (rnd (((1 : ℤ) : ℝ) / ((10000000 : ℕ) : ℝ))) :=
    is_ofReal (by unfold maxF32; push_cast; rw [abs_of_nonneg (by norm_num)]; norm_num)
  refine ⟨_, h, le_rnd (by norm_num) (rnd_exact (k := 1) (j := -24) (by norm_num) (by norm_num) (by norm_num)),
    rnd_le (by norm_num) (rnd_exact (k := 1) (j := -22) (by norm_num) (by norm_num) (by norm_num))⟩

theorem scaledElem_eq (L : Libm) (lr g r : B32) : @scaledElem B32 (ops L) lr g r =
    B32.mul g (B32.div (B32.neg lr) (B32.add (@epsUpdate B32 (ops L)) (B32.sqrt r))) := rfl

/-- An accumulator at infinity stops its parameter. -/
theorem scaled_inf (L : Libm) {lr g : B32} {l x : ℝ} (hl : Is lr l) (hg : Is g x) :
    Is (@scaledElem B32 (ops L) lr g (inf false)) 0 := by
  obtain ⟨e, he, -, -⟩ := eps_is L
  have h1 : B32.sqrt (inf false) = inf false := by simp [B32.sqrt, is_inf]
  have hn := is_neg hl
  have h2 : Is (B32.div (B32.neg lr) (inf false)) 0 := by
    have : B32.div (B32.neg lr) (inf false) = zeroS ((B32.neg lr).sign ^^ false) := by
      simp [B32.div, is_inf, not_nan hn.1, not_inf hn.1]
    rw [this]; exact is_zeroS _
  rw [scaledElem_eq, h1, add_inf_right he]
  have := mul_is hg h2 (by simp [maxF32]; norm_num)
  rwa [mul_zero, rnd_zero] at this

/-- The size and direction of a step: `k` is such that the accumulator is at least about `(k * gradient)^2`. -/
theorem scaled_float (L : Libm) {lr g r : B32} {l x y k : ℝ} (hl : Is lr l) (l0 : 0 ≤ l) (l1 : l ≤ 2 ^ 100) (hg : Is g x)
    (hr : Is r y) (y0 : 0 ≤ y) (k0 : 2 ^ (-12 : ℤ) ≤ k) (k1 : k ≤ 1)
    (hy : 2 ^ (-50 : ℤ) ≤ |x| → (k * |x|) ^ 2 * (1 - 2 ^ (-21 : ℤ)) ≤ y) :
    ∃ d, Is (@scaledElem B32 (ops L) lr g r) d ∧ |d| ≤ l / k * (1 + 2 ^ (-18 : ℤ)) + 2 ^ (-70 : ℤ) ∧ d * x ≤ 0 := by
  obtain ⟨e, he, e0, e1⟩ := eps_is L
  have kp : 0 < k := lt_of_lt_of_le (by positivity) k0
  have ymax : y ≤ maxF32 := by have := value_abs_le hr.1; rw [hr.2, abs_of_nonneg y0] at this; exact this
  have smax : √y ≤ 2 ^ 64 := by
    rw [Real.sqrt_le_left (by positivity)]
    refine ymax.trans ?_
    unfold maxF32; norm_num
  have hs := sqrt_is0 hr y0 (smax.trans (by unfold maxF32; norm_num))
  have s0 : 0 ≤ rnd √y := rnd_nonneg (Real.sqrt_nonneg _)
  have s1 : rnd √y ≤ 2 ^ 64 := rnd_le smax (rnd_exact (k := 1) (j := 64) (by norm_num) (by norm_num) (by norm_num))
  have hd := add_is he hs (by
    rw [abs_of_nonneg (by linarith [show (0 : ℝ) < 2 ^ (-24 : ℤ) by positivity])]
    unfold maxF32
    norm_num at e1 s1 ⊢; linarith)
  set D := rnd (e + rnd √y) with hD
  have De : e ≤ D := le_rnd (by linarith) (rnd_is he)
  have Ds : rnd √y ≤ D := le_rnd (by linarith [show (0 : ℝ) < 2 ^ (-24 : ℤ) by positivity]) (rnd_is hs)
  have D0 : 2 ^ (-24 : ℤ) ≤ D := e0.trans De
  have Dp : 0 < D := lt_of_lt_of_le (by positivity) D0
  -- the quotient of gradient and denominator
  have hP : k * |x| ≤ D * (1 + 2 ^ (-19 : ℤ)) := by
    rcases lt_or_ge |x| (2 ^ (-50 : ℤ)) with hx | hx
    · have h1 : k * |x| ≤ 1 * 2 ^ (-50 : ℤ) := mul_le_mul k1 hx.le (abs_nonneg _) (by norm_num)
      have h2 : D * 1 ≤ D * (1 + 2 ^ (-19 : ℤ)) := mul_le_mul_of_nonneg_left (by norm_num) Dp.le
      norm_num at h1 h2 D0 ⊢; linarith
    · have hyx := hy hx
      have hb : k * |x| * (1 - 2 ^ (-21 : ℤ)) ≤ √y := by
        apply Real.le_sqrt_of_sq_le
        refine le_trans ?_ hyx
        rw [mul_pow]
        apply mul_le_mul_of_nonneg_left _ (by positivity)
        norm_num
      have hn : 2 ^ (-62 : ℤ) ≤ k * |x| := by
        have := mul_le_mul k0 hx (by positivity) kp.le
        norm_num at this ⊢; linarith
      have hrel := rnd_rel (x := √y) (.inr (by
        rw [abs_of_nonneg (Real.sqrt_nonneg _)]
        refine le_trans ?_ hb
        have := mul_le_mul_of_nonneg_right hn (show (0 : ℝ) ≤ 1 - 2 ^ (-21 : ℤ) by norm_num)
        norm_num at this ⊢; linarith))
      rw [abs_of_nonneg (Real.sqrt_nonneg _)] at hrel
      have h3 := (abs_le.1 hrel).1
      have h4 : √y * (1 - 2 ^ (-24 : ℤ)) ≤ D := by linarith
      have h5 := mul_le_mul_of_nonneg_right hb (show (0 : ℝ) ≤ 1 - 2 ^ (-24 : ℤ) by norm_num)
      have h6 : k * |x| * (1 - 2 ^ (-21 : ℤ)) * (1 - 2 ^ (-24 : ℤ)) ≤ D := h5.trans h4
      norm_num at h6 ⊢
      have : 0 ≤ k * |x| := by positivity
      nlinarith
  have hxD : |x| / D ≤ (1 + 2 ^ (-19 : ℤ)) / k := by
    rw [div_le_div_iff₀ Dp kp]; linarith
  -- the quotient of learning rate and denominator
  have hlD : l / D ≤ 2 ^ 124 := by
    rw [div_le_iff₀ Dp]
    have := mul_le_mul_of_nonneg_left D0 (show (0 : ℝ) ≤ 2 ^ 124 by positivity)
    norm_num at this l1 ⊢; linarith
  have hlD0 : 0 ≤ l / D := by positivity
  have hq := div_is (is_neg hl) hd Dp.ne' (by
    rw [neg_div, abs_neg, abs_of_nonneg hlD0]
    refine hlD.trans ?_
    unfold maxF32; norm_num)
  rw [neg_div, rnd_neg] at hq
  set Q := rnd (l / D) with hQ
  have Q0 : 0 ≤ Q := rnd_nonneg hlD0
  have Q1 : Q ≤ l / D * (1 + 2 ^ (-24 : ℤ)) + 2 ^ (-150 : ℤ) := by
    have := (abs_le.1 (rnd_abs (l / D))).2
    rw [abs_of_nonneg hlD0] at this; linarith
  have xmax : |x| ≤ 2 ^ 77 := by
    rcases lt_or_ge |x| (2 ^ (-50 : ℤ)) with hx | hx
    · exact hx.le.trans (by norm_num)
    · have h1 := mul_le_mul_of_nonneg_right k0 (abs_nonneg x)
      have h2 : D ≤ 2 ^ 65 - 2 ^ 63 := by
        refine rnd_le ?_ (rnd_exact (k := 3) (j := 63) (by norm_num) (by norm_num) (by norm_num))
        norm_num at e1 s1 ⊢; linarith
      norm_num at h1 h2 hP ⊢
      nlinarith [abs_nonneg x]
  have hxQ : |x| * Q ≤ l / k * (1 + 2 ^ (-19 : ℤ)) * (1 + 2 ^ (-24 : ℤ)) + 2 ^ (-73 : ℤ) := by
    have h1 : |x| * Q ≤ |x| * (l / D * (1 + 2 ^ (-24 : ℤ)) + 2 ^ (-150 : ℤ)) := mul_le_mul_of_nonneg_left Q1 (abs_nonneg _)
    have h2 : |x| * (l / D) ≤ l / k * (1 + 2 ^ (-19 : ℤ)) := by
      have := mul_le_mul_of_nonneg_left hxD l0
      calc |x| * (l / D) = l * (|x| / D) := by ring
        _ ≤ l * ((1 + 2 ^ (-19 : ℤ)) / k) := this
        _ = _ := by ring
    have h3 : |x| * 2 ^ (-150 : ℤ) ≤ 2 ^ (-73 : ℤ) := by
      have := mul_le_mul_of_nonneg_right xmax (show (0 : ℝ) ≤ 2 ^ (-150 : ℤ) by positivity)
      norm_num at this ⊢; linarith
    have h4 := mul_le_mul_of_nonneg_right h2 (show (0 : ℝ) ≤ 1 + 2 ^ (-24 : ℤ) by positivity)
    calc |x| * Q ≤ _ := h1
      _ = |x| * (l / D) * (1 + 2 ^ (-24 : ℤ)) + |x| * 2 ^ (-150 : ℤ) := by ring
      _ ≤ _ := add_le_add h4 h3
  have hlk : 0 ≤ l / k := by positivity
  have hlk1 : l / k ≤ 2 ^ 112 := by
    rw [div_le_iff₀ kp]
    have := mul_le_mul_of_nonneg_left k0 (show (0 : ℝ) ≤ 2 ^ 112 by positivity)
    norm_num at this l1 ⊢; linarith
  have hab : |x * -Q| = |x| * Q := by rw [abs_mul, abs_neg, abs_of_nonneg Q0]
  have hm := mul_is hg hq (by
    rw [hab]
    refine hxQ.trans ?_
    unfold maxF32
    norm_num at hlk1 ⊢; nlinarith)
  refine ⟨_, hm, ?_, ?_⟩
  · have h1 := rnd_abs (x * -Q)
    rw [hab] at h1
    have h2 : |rnd (x * -Q)| ≤ |x| * Q * (1 + 2 ^ (-24 : ℤ)) + 2 ^ (-150 : ℤ) := by
      have := abs_sub_abs_le_abs_sub (rnd (x * -Q)) (x * -Q)
      rw [hab] at this; linarith
    refine h2.trans ?_
    have h3 := mul_le_mul_of_nonneg_right hxQ (show (0 : ℝ) ≤ 1 + 2 ^ (-24 : ℤ) by positivity)
    norm_num at h3 ⊢
    nlinarith
  · rcases le_total 0 x with hx | hx
    · have : rnd (x * -Q) ≤ 0 := rnd_le (by nlinarith) rnd_zero
      nlinarith
    · have : 0 ≤ rnd (x * -Q) := rnd_nonneg (by nlinarith)
      nlinarith

/-- `r + g * g` for a nonnegative `r`. -/
theorem adagrad_accum {r g : B32} {x : ℝ} (hr : NonNeg r) (hg : Is g x) :
    B32.add r (B32.mul g g) = inf false ∨ ∃ y, 0 ≤ y ∧ Is (B32.add r (B32.mul g g)) y ∧
      (2 ^ (-50 : ℤ) ≤ |x| → (1 * |x|) ^ 2 * (1 - 2 ^ (-21 : ℤ)) ≤ y) := by
  rcases mul_nonneg' hg hg (mul_self_nonneg _) with hq | hq
  · have q0 : 0 ≤ rnd (x * x) := rnd_nonneg (mul_self_nonneg _)
    rcases hr with ⟨v, v0, hv⟩ | rfl
    · rcases add_nonneg' hv hq v0 q0 with ha | ha
      · refine .inr ⟨_, rnd_nonneg (by positivity), ha, fun hx => ?_⟩
        have h1 : rnd (x * x) ≤ rnd (v + rnd (x * x)) := le_rnd (by linarith) (rnd_is hq)
        have hx2 : 2 ^ (-100 : ℤ) ≤ x * x := by
          have := mul_le_mul hx hx (by positivity) (abs_nonneg _)
          rw [abs_mul_abs_self] at this
          norm_num at this ⊢; linarith
        have h2 := rnd_rel (x := x * x) (.inr (by
          rw [abs_of_nonneg (mul_self_nonneg _)]
          norm_num at hx2 ⊢; linarith))
        rw [abs_of_nonneg (mul_self_nonneg x)] at h2
        have h3 := (abs_le.1 h2).1
        rw [one_mul, sq_abs, sq]
        norm_num at h3 ⊢
        nlinarith [mul_self_nonneg x]
      · exact .inl ha
    · exact .inl (add_inf_left hq false)
  · rw [hq]
    rcases hr with ⟨v, v0, hv⟩ | rfl
    · exact .inl (add_inf_right hv false)
    · exact .inl (add_inf_inf false)

/-- Adagrad on one parameter. -/
theorem adagrad_elem (L : Libm) {lr g r : B32} {l x : ℝ} (hl : Is lr l) (l0 : 0 ≤ l) (l1 : l ≤ 2 ^ 100) (hg : Is g x) (hr : NonNeg r) :
    NonNeg (B32.add r (B32.mul g g)) ∧ ∃ d, Is (@scaledElem B32 (ops L) lr g (B32.add r (B32.mul g g))) d ∧
      |d| ≤ l * (1 + 2 ^ (-18 : ℤ)) + 2 ^ (-70 : ℤ) ∧ d * x ≤ 0 ∧ (B32.add r (B32.mul g g) = inf false → d = 0) := by
  rcases adagrad_accum hr hg with h | ⟨y, y0, hy, hk⟩
  · rw [h]
    refine ⟨.inr rfl, 0, scaled_inf L hl hg, ?_, by simp, fun _ => rfl⟩
    rw [abs_zero]; positivity
  · obtain ⟨d, h1, h2, h3⟩ := scaled_float L hl l0 l1 hg hy y0 (by norm_num) le_rfl hk
    refine ⟨.inl ⟨y, y0, hy⟩, d, h1, by simpa using h2, h3, fun he => ?_⟩
    rw [he] at hy
    have := hy.1
    rw [(is_inf false).1] at this; cases this

theorem B32.mul_comm' (a b : B32) : B32.mul a b = B32.mul b a := by
  have fi : ∀ c : B32, c.isInf = true → c.isFinite = false := by
    intro c h
    rw [isInf_eq h]; exact (is_inf _).1
  have nf : ∀ c : B32, c.isNan = false → c.isInf = false → c.isFinite = true := by
    intro c h h'
    rcases kinds c with hc | ⟨s, rfl⟩ | hc
    · rw [hc] at h; cases h
    · rw [(is_inf s).2.1] at h'; cases h'
    · exact hc.1
  cases ha : a.isNan <;> cases hb : b.isNan <;> cases ia : a.isInf <;> cases ib : b.isInf <;>
    simp [B32.mul, ha, hb, ia, ib, Bool.xor_comm b.sign, mul_comm b.value]
  · simp [nf a ha ia]
  · simp [nf b hb ib]
  · simp [fi a ia, fi b ib]

/-- The largest number below 1. -/
theorem lt_one_gap {a : B32} {x : ℝ} (h : Is a x) (h1 : x < 1) : x ≤ 1 - 2 ^ (-24 : ℤ) := by
  obtain ⟨k, j, e, hk, -, -⟩ := value_rep h.1
  rw [h.2] at e
  rcases le_or_gt (-24) j with hj | hj
  · obtain ⟨m, rfl⟩ : ∃ m : ℕ, j = -24 + m := ⟨(j + 24).toNat, by omega⟩
    rw [zpow_add₀ (by norm_num), zpow_natCast] at e
    have e2 : x = ((k * 2 ^ m : ℤ) : ℝ) * 2 ^ (-24 : ℤ) := by rw [e]; push_cast; ring
    have h2 : ((k * 2 ^ m : ℤ) : ℝ) < ((2 ^ 24 : ℤ) : ℝ) := by
      rw [e2] at h1
      norm_num at h1 ⊢; linarith
    have h3 : k * 2 ^ m ≤ 2 ^ 24 - 1 := by have := Int.cast_lt.1 h2; omega
    have h4 : ((k * 2 ^ m : ℤ) : ℝ) ≤ ((2 ^ 24 - 1 : ℤ) : ℝ) := Int.cast_le.2 h3
    rw [e2]
    norm_num at h4 ⊢; linarith
  · have h2 : |(k : ℝ)| < 2 ^ 24 := by exact_mod_cast hk
    have h3 : (2 : ℝ) ^ j ≤ 2 ^ (-25 : ℤ) := zpow_le_zpow_right₀ (by norm_num) (by omega)
    have h4 : x ≤ 2 ^ 24 * 2 ^ (-25 : ℤ) := by
      rw [e]
      exact mul_le_mul ((le_abs_self _).trans h2.le) h3 (by positivity) (by positivity)
    norm_num at h4 ⊢; linarith

/-- `1.0f - rho`. -/
theorem one_minus {a : B32} {p : ℝ} (h : Is a p) (h0 : 0 ≤ p) (h1 : p < 1) :
    ∃ q, Is (B32.sub (ofReal false 1) a) q ∧ (1 - p) * (1 - 2 ^ (-24 : ℤ)) ≤ q ∧ q ≤ (1 - p) * (1 + 2 ^ (-24 : ℤ)) ∧
      2 ^ (-24 : ℤ) ≤ q ∧ q ≤ 1 := by
  have hg := lt_one_gap h h1
  have hs := sub_is is_one h (by rw [abs_of_nonneg (by linarith)]; unfold maxF32; norm_num; linarith)
  have hr := rnd_rel (x := 1 - p) (.inr (by rw [abs_of_nonneg (by linarith)]; norm_num at hg ⊢; linarith))
  rw [abs_of_nonneg (show 0 ≤ 1 - p by linarith)] at hr
  have := abs_le.1 hr
  refine ⟨_, hs, by linarith, by linarith,
    le_rnd (by linarith) (rnd_exact (k := 1) (j := -24) (by norm_num) (by norm_num) (by norm_num)), rnd_le (by linarith) rnd_one⟩

/-- `rho * r + (1 - rho) * g * g` for a nonnegative `r`. -/
theorem rmsprop_accum {r g rho : B32} {x p : ℝ} (hp : Is rho p) (p0 : 0 < p) (p1 : p < 1) (hr : NonNeg r) (hg : Is g x) :
    let r' := B32.add (B32.mul rho r) (B32.mul (B32.sub (ofReal false 1) rho) (B32.mul g g))
    r' = inf false ∨ ∃ y, 0 ≤ y ∧ Is r' y ∧ (2 ^ (-50 : ℤ) ≤ |x| → (√(1 - p) * |x|) ^ 2 * (1 - 2 ^ (-21 : ℤ)) ≤ y) := by
  obtain ⟨q, hq, q1, -, q2, q3⟩ := one_minus hp p0.le p1
  have q0 : 0 < q := lt_of_lt_of_le (by positivity) q2
  have hsg : rho.sign = false := sign_of_pos (by rw [hp.2]; exact p0)
  have hsq : (B32.sub (ofReal false 1) rho).sign = false := sign_of_pos (by rw [hq.2]; exact q0)
  -- the first summand
  have h1 : (∃ v, 0 ≤ v ∧ Is (B32.mul rho r) v) ∨ B32.mul rho r = inf false := by
    rcases hr with ⟨v, v0, hv⟩ | rfl
    · rcases mul_nonneg' hp hv (by positivity) with h | h
      · exact .inl ⟨_, rnd_nonneg (by positivity), h⟩
      · exact .inr h
    · right; simp [B32.mul, is_inf, not_nan hp.1, not_inf hp.1, hp.2, p0.ne', hsg]
  -- the second summand
  have h2 : (∃ v, 0 ≤ v ∧ Is (B32.mul (B32.sub (ofReal false 1) rho) (B32.mul g g)) v ∧
        (2 ^ (-50 : ℤ) ≤ |x| → (√(1 - p) * |x|) ^ 2 * (1 - 2 ^ (-21 : ℤ)) ≤ v)) ∨
      B32.mul (B32.sub (ofReal false 1) rho) (B32.mul g g) = inf false := by
    rcases mul_nonneg' hg hg (mul_self_nonneg _) with hs | hs
    · have s0 : 0 ≤ rnd (x * x) := rnd_nonneg (mul_self_nonneg _)
      rcases mul_nonneg' hq hs (by positivity) with h | h
      · refine .inl ⟨_, rnd_nonneg (by positivity), h, fun hx => ?_⟩
        have hx2 : 2 ^ (-100 : ℤ) ≤ x * x := by
          have := mul_le_mul hx hx (by positivity) (abs_nonneg _)
          rw [abs_mul_abs_self] at this
          norm_num at this ⊢; linarith
        have r1 := rnd_rel (x := x * x) (.inr (by
          rw [abs_of_nonneg (mul_self_nonneg _)]
          norm_num at hx2 ⊢; linarith))
        rw [abs_of_nonneg (mul_self_nonneg x)] at r1
        have r2 := (abs_le.1 r1).1
        have r3 : x * x * (1 - 2 ^ (-24 : ℤ)) ≤ rnd (x * x) := by linarith
        have r4 : 2 ^ (-101 : ℤ) ≤ rnd (x * x) := by norm_num at r3 hx2 ⊢; linarith
        have r5 : 2 ^ (-126 : ℤ) ≤ q * rnd (x * x) := by
          have := mul_le_mul q2 r4 (by positivity) q0.le
          norm_num at this ⊢; linarith
        have r6 := rnd_rel (x := q * rnd (x * x)) (.inr (r5.trans (le_abs_self _)))
        rw [abs_of_nonneg (show 0 ≤ q * rnd (x * x) by positivity)] at r6
        have r7 := (abs_le.1 r6).1
        have p' : 0 ≤ 1 - p := by linarith
        rw [mul_pow, Real.sq_sqrt p', sq_abs, sq]
        have r8 : (1 - p) * (1 - 2 ^ (-24 : ℤ)) * (x * x * (1 - 2 ^ (-24 : ℤ))) ≤ q * rnd (x * x) :=
          mul_le_mul q1 r3 (mul_nonneg (mul_self_nonneg _) (by norm_num)) q0.le
        have r9 : 0 ≤ (1 - p) * (x * x) := mul_nonneg p' (mul_self_nonneg _)
        have r10 : (1 - p) * (x * x) * ((1 - 2 ^ (-24 : ℤ)) * (1 - 2 ^ (-24 : ℤ)) * (1 - 2 ^ (-24 : ℤ))) ≤ rnd (q * rnd (x * x)) := by
          have a1 : q * rnd (x * x) * (1 - 2 ^ (-24 : ℤ)) ≤ rnd (q * rnd (x * x)) := by linarith
          have a2 := mul_le_mul_of_nonneg_right r8 (show (0 : ℝ) ≤ 1 - 2 ^ (-24 : ℤ) by norm_num)
          calc _ = (1 - p) * (1 - 2 ^ (-24 : ℤ)) * (x * x * (1 - 2 ^ (-24 : ℤ))) * (1 - 2 ^ (-24 : ℤ)) := by ring
            _ ≤ _ := a2.trans a1
        refine le_trans ?_ r10
        apply mul_le_mul_of_nonneg_left _ r9
        norm_num
      · exact .inr h
    · right
      rw [hs]
      simp [B32.mul, is_inf, not_nan hq.1, not_inf hq.1, hq.2, q0.ne', hsq]
  intro r'
  rcases h1 with ⟨v, v0, hv⟩ | h1
  · rcases h2 with ⟨t, t0, ht, hk⟩ | h2
    · rcases add_nonneg' hv ht v0 t0 with h | h
      · exact .inr ⟨_, rnd_nonneg (by positivity), h, fun hx => (hk hx).trans (le_rnd (by linarith) (rnd_is ht))⟩
      · exact .inl h
    · left; simp only [r']; rw [h2]; exact add_inf_right hv false
  · left
    simp only [r']
    rw [h1]
    rcases h2 with ⟨t, t0, ht, -⟩ | h2
    · exact add_inf_left ht false
    · rw [h2]; exact add_inf_inf false

/-- RMSprop on one parameter. -/
theorem rmsprop_elem (L : Libm) {lr g r rho : B32} {l x p : ℝ} (hl : Is lr l) (l0 : 0 ≤ l) (l1 : l ≤ 2 ^ 100) (hp : Is rho p)
    (p0 : 0 < p) (p1 : p < 1) (hg : Is g x) (hr : NonNeg r) :
    let r' := B32.add (B32.mul rho r) (B32.mul (B32.sub (ofReal false 1) rho) (B32.mul g g))
    NonNeg r' ∧ ∃ d, Is (@scaledElem B32 (ops L) lr g r') d ∧
      |d| ≤ l / √(1 - p) * (1 + 2 ^ (-18 : ℤ)) + 2 ^ (-70 : ℤ) ∧ d * x ≤ 0 ∧ (r' = inf false → d = 0) := by
  intro r'
  have pg := lt_one_gap hp p1
  have k0 : 2 ^ (-12 : ℤ) ≤ √(1 - p) := by
    apply Real.le_sqrt_of_sq_le
    norm_num at pg ⊢; linarith
  have k1 : √(1 - p) ≤ 1 := by
    rw [Real.sqrt_le_one]; linarith
  rcases rmsprop_accum hp p0 p1 hr hg with h | ⟨y, y0, hy, hk⟩
  · have h : r' = inf false := h
    rw [h]
    refine ⟨.inr rfl, 0, scaled_inf L hl hg, ?_, by simp, fun _ => rfl⟩
    rw [abs_zero]; positivity
  · obtain ⟨d, h1, h2, h3⟩ := scaled_float L hl l0 l1 hg hy y0 k0 k1 hk
    refine ⟨.inl ⟨y, y0, hy⟩, d, h1, h2, h3, fun he => ?_⟩
    have he : B32.add (B32.mul rho r) (B32.mul (B32.sub (ofReal false 1) rho) (B32.mul g g)) = inf false := he
    rw [he] at hy
    have := hy.1
    rw [(is_inf false).1] at this; cases this

/-! ### Adam -/

theorem abs_rnd_le (z : ℝ) : |rnd z| ≤ |z| * (1 + 2 ^ (-24 : ℤ)) + 2 ^ (-150 : ℤ) := by
  have h1 := rnd_abs z
  have h2 := abs_sub_abs_le_abs_sub (rnd z) z
  linarith

/-- A moving average stays below twice the bound `2^e` of its terms. -/
theorem average_bound {b v B : ℝ} {e : ℕ} (b0 : 0 ≤ b) (b1 : b ≤ 1 - 2 ^ (-12 : ℤ)) (hv : |v| ≤ 2 * 2 ^ e)
    (hB : |B| ≤ (1 - b) * 2 ^ e * (1 + 2 ^ (-21 : ℤ)) + 2 ^ (-100 : ℤ)) : |rnd (b * v) + B| ≤ 2 * 2 ^ e := by
  have h1 := abs_rnd_le (b * v)
  rw [abs_mul, abs_of_nonneg b0] at h1
  have h2 : b * |v| ≤ b * (2 * 2 ^ e) := mul_le_mul_of_nonneg_left hv b0
  have h3 := abs_add_le (rnd (b * v)) B
  have he : (1 : ℝ) ≤ 2 ^ e := one_le_pow₀ (by norm_num)
  have h4 : b * 2 ^ e ≤ (1 - 2 ^ (-12 : ℤ)) * 2 ^ e := mul_le_mul_of_nonneg_right b1 (by linarith)
  norm_num at h1 hB h4 ⊢
  nlinarith

theorem rnd_pow (e : ℕ) (he : e ≤ 120) : rnd (2 * 2 ^ e) = 2 * 2 ^ e :=
  rnd_exact (k := 2) (j := e) (by rw [zpow_natCast]; norm_num) (by norm_num) (by omega)

theorem pow_le_max {e : ℕ} (he : e ≤ 120) : (2 : ℝ) * 2 ^ e ≤ maxF32 := by
  have : (2 : ℝ) ^ e ≤ 2 ^ 120 := pow_le_pow_right₀ (by norm_num) he
  unfold maxF32
  norm_num at this ⊢; linarith

/-- The sum `b * v + B` in floats. -/
theorem average_float {b v B : B32} {β x y : ℝ} {e : ℕ} (he : e ≤ 120) (hb : Is b β) (b0 : 0 ≤ β) (b1 : β ≤ 1 - 2 ^ (-12 : ℤ))
    (hv : Is v x) (hx : |x| ≤ 2 * 2 ^ e) (hB : Is B y) (hy : |y| ≤ (1 - β) * 2 ^ e * (1 + 2 ^ (-21 : ℤ)) + 2 ^ (-100 : ℤ)) :
    Is (B32.add (B32.mul b v) B) (rnd (rnd (β * x) + y)) ∧ |rnd (rnd (β * x) + y)| ≤ 2 * 2 ^ e := by
  have h1 : |β * x| ≤ 2 * 2 ^ e := by
    rw [abs_mul, abs_of_nonneg b0]
    have : β ≤ 1 := b1.trans (by norm_num)
    calc β * |x| ≤ 1 * (2 * 2 ^ e) := mul_le_mul this hx (abs_nonneg _) (by norm_num)
      _ = _ := one_mul _
  have h2 := average_bound b0 b1 hx hy
  have hm := mul_is hb hv (h1.trans (pow_le_max he))
  refine ⟨add_is hm hB (h2.trans (pow_le_max he)), ?_⟩
  rw [abs_le] at h2 ⊢
  have hp := rnd_pow e he
  exact ⟨le_rnd h2.1 (by rw [rnd_neg, hp]), rnd_le h2.2 hp⟩

/-- `1 - beta` times a gradient. -/
theorem first_term {b g : B32} {β x : ℝ} (hb : Is b β) (b0 : 0 ≤ β) (b1 : β ≤ 1 - 2 ^ (-12 : ℤ)) (hg : Is g x) (hx : |x| ≤ 2 ^ 40) :
    ∃ y, Is (B32.mul (B32.sub (ofReal false 1) b) g) y ∧ |y| ≤ (1 - β) * 2 ^ 40 * (1 + 2 ^ (-22 : ℤ)) + 2 ^ (-150 : ℤ) ∧ 0 ≤ y * x := by
  obtain ⟨q, hq, -, q1, q2, q3⟩ := one_minus hb b0 (b1.trans_lt (by norm_num))
  have q0 : 0 < q := lt_of_lt_of_le (by positivity) q2
  have h1 : |q * x| ≤ (1 - β) * (1 + 2 ^ (-24 : ℤ)) * 2 ^ 40 := by
    rw [abs_mul, abs_of_pos q0]
    exact mul_le_mul q1 hx (abs_nonneg _) (le_trans q0.le q1)
  have p0 : 0 ≤ 1 - β := by linarith [show (0 : ℝ) < 2 ^ (-12 : ℤ) by positivity]
  have hm := mul_is hq hg (by
    refine h1.trans ?_
    unfold maxF32
    norm_num; nlinarith)
  refine ⟨_, hm, ?_, ?_⟩
  · have h2 := abs_rnd_le (q * x)
    norm_num at h1 h2 ⊢
    nlinarith
  · rcases le_total 0 x with h | h
    · exact mul_nonneg (rnd_nonneg (mul_nonneg q0.le h)) h
    · exact mul_nonneg_of_nonpos_of_nonpos (rnd_le (mul_nonpos_of_nonneg_of_nonpos q0.le h) rnd_zero) h

/-- `(1 - beta) * g * g` in the order of the scalar code. -/
theorem second_term {b g : B32} {β x : ℝ} (hb : Is b β) (b0 : 0 ≤ β) (b1 : β ≤ 1 - 2 ^ (-12 : ℤ)) (hg : Is g x) (hx : |x| ≤ 2 ^ 40) :
    ∃ y, Is (B32.mul (B32.mul (B32.sub (ofReal false 1) b) g) g) y ∧
      |y| ≤ (1 - β) * 2 ^ 80 * (1 + 2 ^ (-21 : ℤ)) + 2 ^ (-100 : ℤ) ∧ 0 ≤ y := by
  obtain ⟨y, hy, h1, h2⟩ := first_term hb b0 b1 hg hx
  have p0 : 0 ≤ 1 - β := by linarith [show (0 : ℝ) < 2 ^ (-12 : ℤ) by positivity]
  have h3 : |y * x| ≤ ((1 - β) * 2 ^ 40 * (1 + 2 ^ (-22 : ℤ)) + 2 ^ (-150 : ℤ)) * 2 ^ 40 := by
    rw [abs_mul]
    exact mul_le_mul h1 hx (abs_nonneg _) (by positivity)
  have hm := mul_is hy hg (by
    refine h3.trans ?_
    unfold maxF32
    norm_num; nlinarith)
  refine ⟨_, hm, ?_, rnd_nonneg h2⟩
  have h4 := abs_rnd_le (y * x)
  norm_num at h3 h4 ⊢
  nlinarith

/-- `g * g * (1 - beta)` in the order of the vector code. -/
theorem second_term' {b g : B32} {β x : ℝ} (hb : Is b β) (b0 : 0 ≤ β) (b1 : β ≤ 1 - 2 ^ (-12 : ℤ)) (hg : Is g x) (hx : |x| ≤ 2 ^ 40) :
    ∃ y, Is (B32.mul (B32.mul g g) (B32.sub (ofReal false 1) b)) y ∧
      |y| ≤ (1 - β) * 2 ^ 80 * (1 + 2 ^ (-21 : ℤ)) + 2 ^ (-100 : ℤ) ∧ 0 ≤ y := by
  obtain ⟨q, hq, -, q1, q2, q3⟩ := one_minus hb b0 (b1.trans_lt (by norm_num))
  have q0 : 0 < q := lt_of_lt_of_le (by positivity) q2
  have p0 : 0 ≤ 1 - β := by linarith [show (0 : ℝ) < 2 ^ (-12 : ℤ) by positivity]
  have hx2 : x * x ≤ 2 ^ 80 := by
    have := mul_le_mul hx hx (abs_nonneg _) (by positivity)
    rw [abs_mul_abs_self] at this
    norm_num at this ⊢; linarith
  have x0 := mul_self_nonneg x
  have hs := mul_is hg hg (by
    rw [abs_of_nonneg x0]
    refine hx2.trans ?_
    unfold maxF32; norm_num)
  have s0 := rnd_nonneg x0
  have s1 : rnd (x * x) ≤ 2 ^ 80 := rnd_le hx2 (rnd_exact (k := 1) (j := 80) (by norm_num) (by norm_num) (by norm_num))
  have h3 : rnd (x * x) * q ≤ 2 ^ 80 * ((1 - β) * (1 + 2 ^ (-24 : ℤ))) := mul_le_mul s1 q1 q0.le (by positivity)
  have hm := mul_is hs hq (by
    rw [abs_of_nonneg (by positivity)]
    refine h3.trans ?_
    unfold maxF32
    norm_num; nlinarith)
  refine ⟨_, hm, ?_, rnd_nonneg (by positivity)⟩
  have h4 := abs_rnd_le (rnd (x * x) * q)
  rw [abs_of_nonneg (show 0 ≤ rnd (x * x) * q by positivity)] at h4
  norm_num at h3 h4 ⊢
  nlinarith

theorem epsAdam_is (L : Libm) : ∃ e, Is (@epsAdam B32 (ops L)) e ∧ 2 ^ (-27 : ℤ) ≤ e ∧ e ≤ 2 ^ (-26 : ℤ) := by
  have h : Is (ofReal false (((1 : ℤ) : ℝ) / ((100000000 : ℕ) : ℝ))) (rnd (((1 : ℤ) : ℝ) / ((100000000 : ℕ) : ℝ))) :=
    is_ofReal (by unfold maxF32; push_cast; rw [abs_of_nonneg (by norm_num)]; norm_num)
  refine ⟨_, h, le_rnd (by norm_num) (rnd_exact (k := 1) (j := -27) (by norm_num) (by norm_num) (by norm_num)),
    rnd_le (by norm_num) (rnd_exact (k := 1) (j := -26) (by norm_num) (by norm_num) (by norm_num))⟩

theorem adamElem_eq (L : Libm) (p1 p2 lr s r : B32) : @adamElem B32 (ops L) p1 p2 lr s r =
    B32.div (B32.mul (B32.neg lr) (B32.div s (B32.sub (ofReal false 1) p1)))
      (B32.add (B32.sqrt (B32.div r (B32.sub (ofReal false 1) p2))) (@epsAdam B32 (ops L))) := rfl

/-- The step of Adam is a number, and has the direction opposite to the first moment. -/
theorem adam_step (L : Libm) {p1 p2 lr s r : B32} {a b l x y : ℝ} (hp1 : Is p1 a) (a0 : 0 ≤ a) (a1 : a ≤ 1 - 2 ^ (-12 : ℤ))
    (hp2 : Is p2 b) (b0 : 0 ≤ b) (b1 : b ≤ 1 - 2 ^ (-12 : ℤ)) (hl : Is lr l) (l0 : 0 ≤ l) (l1 : l ≤ 1)
    (hs : Is s x) (hx : |x| ≤ 2 ^ 41) (hr : Is r y) (y0 : 0 ≤ y) (y1 : y ≤ 2 ^ 81) :
    ∃ d, Is (@adamElem B32 (ops L) p1 p2 lr s r) d ∧ |d| ≤ 2 ^ 82 ∧ d * x ≤ 0 := by
  obtain ⟨q1, hq1, q11, -, -, q13⟩ := one_minus hp1 a0 (a1.trans_lt (by norm_num))
  obtain ⟨q2, hq2, q21, -, -, q23⟩ := one_minus hp2 b0 (b1.trans_lt (by norm_num))
  obtain ⟨e, he, e0, e1⟩ := epsAdam_is L
  have z1 : 2 ^ (-13 : ℤ) ≤ q1 := by
    refine le_trans ?_ q11
    norm_num at a1 ⊢; linarith
  have z2 : 2 ^ (-13 : ℤ) ≤ q2 := by
    refine le_trans ?_ q21
    norm_num at b1 ⊢; linarith
  have z10 : 0 < q1 := lt_of_lt_of_le (by positivity) z1
  have z20 : 0 < q2 := lt_of_lt_of_le (by positivity) z2
  have hx1 : |x / q1| ≤ 2 ^ 54 := by
    rw [abs_div, abs_of_pos z10, div_le_iff₀ z10]
    norm_num at hx z1 ⊢; linarith
  have d1 := div_is hs hq1 z10.ne' (hx1.trans (by unfold maxF32; norm_num))
  have d1b : |rnd (x / q1)| ≤ 2 ^ 54 := by
    rw [abs_le] at hx1 ⊢
    have hp : rnd (2 ^ 54) = 2 ^ 54 := rnd_exact (k := 1) (j := 54) (by norm_num) (by norm_num) (by norm_num)
    exact ⟨le_rnd hx1.1 (by rw [rnd_neg, hp]), rnd_le hx1.2 hp⟩
  have hml : |-l * rnd (x / q1)| ≤ 2 ^ 54 := by
    rw [abs_mul, abs_neg, abs_of_nonneg l0]
    calc l * |rnd (x / q1)| ≤ 1 * 2 ^ 54 := mul_le_mul l1 d1b (abs_nonneg _) (by norm_num)
      _ = _ := one_mul _
  have m1 := mul_is (is_neg hl) d1 (hml.trans (by unfold maxF32; norm_num))
  have m1b : |rnd (-l * rnd (x / q1))| ≤ 2 ^ 54 := by
    rw [abs_le] at hml ⊢
    have hp : rnd (2 ^ 54) = 2 ^ 54 := rnd_exact (k := 1) (j := 54) (by norm_num) (by norm_num) (by norm_num)
    exact ⟨le_rnd hml.1 (by rw [rnd_neg, hp]), rnd_le hml.2 hp⟩
  have hy1 : y / q2 ≤ 2 ^ 94 := by
    rw [div_le_iff₀ z20]
    norm_num at y1 z2 ⊢; linarith
  have hy0 : 0 ≤ y / q2 := by positivity
  have d2 := div_is hr hq2 z20.ne' (by
    rw [abs_of_nonneg hy0]; exact hy1.trans (by unfold maxF32; norm_num))
  have d20 := rnd_nonneg hy0
  have d21 : rnd (y / q2) ≤ 2 ^ 94 := rnd_le hy1 (rnd_exact (k := 1) (j := 94) (by norm_num) (by norm_num) (by norm_num))
  have hs1 : √(rnd (y / q2)) ≤ 2 ^ 47 := by
    rw [Real.sqrt_le_left (by positivity)]
    norm_num at d21 ⊢; linarith
  have hsq := sqrt_is0 d2 d20 (hs1.trans (by unfold maxF32; norm_num))
  have sq0 := rnd_nonneg (Real.sqrt_nonneg (rnd (y / q2)))
  have sq1 : rnd √(rnd (y / q2)) ≤ 2 ^ 47 := rnd_le hs1 (rnd_exact (k := 1) (j := 47) (by norm_num) (by norm_num) (by norm_num))
  have ep : 0 < e := lt_of_lt_of_le (by positivity) e0
  have hden := add_is hsq he (by
    rw [abs_of_nonneg (by positivity)]
    unfold maxF32
    norm_num at sq1 e1 ⊢; linarith)
  have den0 : e ≤ rnd (rnd √(rnd (y / q2)) + e) := le_rnd (by linarith) (rnd_is he)
  have denp : 0 < rnd (rnd √(rnd (y / q2)) + e) := ep.trans_le den0
  generalize rnd (rnd √(rnd (y / q2)) + e) = D at hden den0 denp
  have hfin : |rnd (-l * rnd (x / q1)) / D| ≤ 2 ^ 81 := by
    rw [abs_div, abs_of_pos denp, div_le_iff₀ denp]
    have := e0.trans den0
    norm_num at this m1b ⊢; linarith
  have hf := div_is m1 hden denp.ne' (hfin.trans (by unfold maxF32; norm_num))
  rw [adamElem_eq]
  refine ⟨_, hf, ?_, ?_⟩
  · rw [abs_le] at hfin ⊢
    have hp : rnd (2 ^ 81) = 2 ^ 81 := rnd_exact (k := 1) (j := 81) (by norm_num) (by norm_num) (by norm_num)
    have g1 := le_rnd hfin.1 (by rw [rnd_neg, hp])
    have g2 := rnd_le hfin.2 hp
    norm_num at g1 g2 ⊢
    exact ⟨by linarith, by linarith⟩
  · rcases le_total 0 x with h | h
    · have h1 : 0 ≤ rnd (x / q1) := rnd_nonneg (by positivity)
      have h2 : rnd (-l * rnd (x / q1)) ≤ 0 := rnd_le (by nlinarith) rnd_zero
      have h3 : rnd (rnd (-l * rnd (x / q1)) / D) ≤ 0 := rnd_le (div_nonpos_of_nonpos_of_nonneg h2 denp.le) rnd_zero
      exact mul_nonpos_of_nonpos_of_nonneg h3 h
    · have h1 : rnd (x / q1) ≤ 0 := rnd_le (div_nonpos_of_nonpos_of_nonneg h z10.le) rnd_zero
      have h2 : 0 ≤ rnd (-l * rnd (x / q1)) := rnd_nonneg (by nlinarith)
      have h3 : 0 ≤ rnd (rnd (-l * rnd (x / q1)) / D) := rnd_nonneg (by positivity)
      exact mul_nonpos_of_nonneg_of_nonpos h3 h

/-- Two different numbers are not too close. -/
theorem B32.gap {a b : B32} {x y : ℝ} (ha : Is a x) (hb : Is b y) (h : |y - x| ≤ |x| * 2 ^ (-25 : ℤ)) (h0 : x ≠ 0) : y = x := by
  obtain ⟨k, j, e, hk, -, -⟩ := value_rep ha.1
  obtain ⟨k', j', e', hk', -, -⟩ := value_rep hb.1
  rw [ha.2] at e
  rw [hb.2] at e'
  by_contra hne
  have hk1 : |(k : ℝ)| < 2 ^ 24 := by exact_mod_cast hk
  have hk2 : |(k' : ℝ)| < 2 ^ 24 := by exact_mod_cast hk'
  have hx : 0 < |x| := abs_pos.2 h0
  rcases le_total j j' with hj | hj
  · obtain ⟨m, rfl⟩ : ∃ m : ℕ, j' = j + m := ⟨(j' - j).toNat, by omega⟩
    have p : (0 : ℝ) < 2 ^ j := by positivity
    have e2 : y - x = ((k' * 2 ^ m - k : ℤ) : ℝ) * 2 ^ j := by
      rw [e, e', zpow_add₀ (by norm_num), zpow_natCast]; push_cast; ring
    have hz : (k' * 2 ^ m - k : ℤ) ≠ 0 := by
      intro hz
      rw [hz] at e2
      apply hne; simp at e2; linarith
    have h1 : (1 : ℝ) ≤ |((k' * 2 ^ m - k : ℤ) : ℝ)| := by
      rw [← Int.cast_abs]; exact_mod_cast Int.one_le_abs hz
    have h2 : 2 ^ j ≤ |y - x| := by
      rw [e2, abs_mul, abs_of_pos p]; nlinarith
    have h3 : |x| < 2 ^ 24 * 2 ^ j := by
      rw [e, abs_mul, abs_of_pos p]; exact mul_lt_mul_of_pos_right hk1 p
    norm_num at h h3
    linarith
  · obtain ⟨m, rfl⟩ : ∃ m : ℕ, j = j' + m := ⟨(j - j').toNat, by omega⟩
    have p : (0 : ℝ) < 2 ^ j' := by positivity
    have e2 : y - x = ((k' - k * 2 ^ m : ℤ) : ℝ) * 2 ^ j' := by
      rw [e, e', zpow_add₀ (by norm_num), zpow_natCast]; push_cast; ring
    have hz : (k' - k * 2 ^ m : ℤ) ≠ 0 := by
      intro hz
      rw [hz] at e2
      apply hne; simp at e2; linarith
    have h1 : (1 : ℝ) ≤ |((k' - k * 2 ^ m : ℤ) : ℝ)| := by
      rw [← Int.cast_abs]; exact_mod_cast Int.one_le_abs hz
    have h2 : 2 ^ j' ≤ |y - x| := by
      rw [e2, abs_mul, abs_of_pos p]; nlinarith
    have h3 : |y| < 2 ^ 24 * 2 ^ j' := by
      rw [e', abs_mul, abs_of_pos p]; exact mul_lt_mul_of_pos_right hk2 p
    have h4 : |x| ≤ |y| + |y - x| := by
      have := abs_sub_abs_le_abs_sub x y
      rw [abs_sub_comm x y] at this; linarith
    norm_num at h h3
    linarith

end NN
