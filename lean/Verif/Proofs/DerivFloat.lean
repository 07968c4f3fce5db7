import Verif.Proofs.OptFloat
import Verif.Proofs.NetFloat
import Verif.Spec.BackFloat
/-
The derivatives of the activation functions on one number, in `float` arithmetic.
-/
set_option linter.unusedSimpArgs false

namespace NN
open B32 Spec

namespace B32

theorem one_sub_float {a : B32} {v : ℝ} (h : Is a v) (hv : |v| ≤ 1) :
    ∃ w, Is (B32.sub (ofReal false 1) a) w ∧ |w - (1 - v)| ≤ 2 ^ (-24 : ℤ) * |1 - v| ∧ |w| ≤ 2 := by
  obtain ⟨v1, v2⟩ := abs_le.1 hv
  have hb : |1 - v| ≤ 2 := by rw [abs_of_nonneg (by linarith)]; linarith
  have hs := sub_is is_one h (hb.trans (by unfold maxF32; norm_num))
  refine ⟨_, hs, ?_, ?_⟩
  · refine rnd_rel ?_
    rcases eq_or_ne v 1 with rfl | hne
    · left; simp
    · right
      have : (2 : ℝ) ^ (-25 : ℤ) ≤ |1 - v| := by
        by_contra hc
        have := gap is_one h (by rw [abs_one, one_mul, abs_sub_comm]; exact (not_le.1 hc).le) one_ne_zero
        exact hne this
      exact le_trans (by norm_num) this
  · have r2 : rnd 2 = 2 := rnd_exact (k := 1) (j := 1) (by norm_num) (by norm_num) (by norm_num)
    rw [abs_le]
    exact ⟨le_trans (by norm_num) (rnd_nonneg (by linarith)), rnd_le (by linarith) r2⟩

end B32

theorem sigmoidD_float (L : Libm) {a : B32} {v : ℝ} (h : Is a v) (h0 : 0 ≤ v) (h1 : v ≤ 1) :
    ∃ s, Is (@sigmoidD B32 (ops L) a) s ∧ |s - slope .sigmoid v| ≤ 2 ^ (-20 : ℤ) := by
  obtain ⟨w, hw, we, -⟩ := one_sub_float h (abs_le.2 ⟨by linarith, h1⟩)
  rw [abs_of_nonneg (by linarith : 0 ≤ 1 - v)] at we
  obtain ⟨w1, w2⟩ := abs_le.1 we
  have hw1 : |w| ≤ 2 := by rw [abs_le]; norm_num at w1 w2 ⊢; constructor <;> linarith
  have hvw : |v * w| ≤ 2 := by
    rw [abs_mul, abs_of_nonneg h0]
    exact (mul_le_of_le_one_left (abs_nonneg _) h1).trans hw1
  refine ⟨_, mul_is h hw (hvw.trans (by unfold maxF32; norm_num)), ?_⟩
  have e := rnd_size 2 (hvw.trans_lt (by norm_num)) (by norm_num)
  obtain ⟨e1, e2⟩ := abs_le.1 e
  have e3 : |v * w - v * (1 - v)| ≤ 2 ^ (-24 : ℤ) := by
    rw [← mul_sub, abs_mul, abs_of_nonneg h0]
    refine (mul_le_of_le_one_left (abs_nonneg _) h1).trans ((abs_le.2 ⟨w1, w2⟩).trans ?_)
    exact mul_le_of_le_one_right (by positivity) (by linarith)
  obtain ⟨e4, e5⟩ := abs_le.1 e3
  simp only [slope]
  rw [abs_le]
  norm_num at e1 e2 e4 e5 ⊢
  constructor <;> linarith

theorem tanhD_float (L : Libm) {a : B32} {v : ℝ} (h : Is a v) (h0 : |v| ≤ 1) :
    ∃ s, Is (@tanhD B32 (ops L) a) s ∧ |s - slope .tanh v| ≤ 2 ^ (-20 : ℤ) := by
  have hv2 : v * v ≤ 1 := by have := sq_le_one_iff_abs_le_one v |>.2 h0; nlinarith
  have hv0 : 0 ≤ v * v := mul_self_nonneg v
  have hm := mul_is h h (by rw [abs_of_nonneg hv0]; refine hv2.trans ?_; unfold maxF32; norm_num)
  have m1 : rnd (v * v) ≤ 1 := rnd_le hv2 rnd_one
  have m0 : 0 ≤ rnd (v * v) := rnd_nonneg hv0
  have e := rnd_size (x := v * v) 1 (by rw [abs_of_nonneg hv0]; norm_num; linarith) (by norm_num)
  obtain ⟨w, hw, we, -⟩ := one_sub_float hm (abs_le.2 ⟨by linarith, m1⟩)
  refine ⟨w, hw, ?_⟩
  rw [abs_of_nonneg (by linarith : 0 ≤ 1 - rnd (v * v))] at we
  obtain ⟨w1, w2⟩ := abs_le.1 we
  obtain ⟨e1, e2⟩ := abs_le.1 e
  simp only [slope]
  rw [abs_le]
  norm_num at e1 e2 w1 w2 ⊢
  constructor <;> nlinarith

theorem hardSigmoidD_float (L : Libm) {a : B32} {v : ℝ} (h : Is a v) :
    ∃ s, Is (@hardSigmoidD B32 (ops L) a) s ∧ |s - slope .hardSigmoid v| ≤ 2 ^ (-20 : ℤ) := by
  obtain ⟨c, hc, hce⟩ := fifth_is
  have e : @hardSigmoidD B32 (ops L) a = if B32.le a (zeroS false) = true then zeroS false
      else if B32.le (ofReal false 1) a = true then zeroS false else ofReal false (((1 : ℤ) : ℝ) / ((5 : ℕ) : ℝ)) := rfl
  rw [e]
  simp only [slope]
  simp only [B32.le_iff h (is_zeroS false), B32.le_iff is_one h]
  by_cases h1 : v ≤ 0
  · rw [if_pos h1, if_neg (by rintro ⟨h, -⟩; linarith)]
    exact ⟨0, is_zeroS false, by norm_num⟩
  by_cases h2 : 1 ≤ v
  · rw [if_neg h1, if_pos h2, if_neg (by rintro ⟨-, h⟩; linarith)]
    exact ⟨0, is_zeroS false, by norm_num⟩
  · rw [if_neg h1, if_neg h2, if_pos ⟨not_le.1 h1, not_le.1 h2⟩]
    exact ⟨c, hc, hce.trans (by norm_num)⟩

theorem reluD_float (L : Libm) {a : B32} {v : ℝ} (h : Is a v) : Is (@reluD B32 (ops L) a) (slope .relu v) := by
  have e : @reluD B32 (ops L) a = if B32.le a (zeroS false) = true then zeroS false else ofReal false 1 := rfl
  rw [e]
  simp only [slope]
  split_ifs with h1 h2 h3
  · rw [B32.le_iff h (is_zeroS false)] at h1; linarith
  · exact is_zeroS false
  · exact is_one
  · rw [B32.le_iff h (is_zeroS false)] at h1; linarith

theorem softplusD_float {L : Libm} (hL : L.Accurate) {a : B32} {v : ℝ} (h : Is a v) (h0 : -(1 / 10 ^ 6) ≤ v) (h88 : v ≤ 88) :
    ∃ s, Is (@softplusD B32 (ops L) a) s ∧ |s - slope .softplus v| ≤ 2 ^ (-20 : ℤ) := by
  obtain ⟨x, hx, x0, xe⟩ := exponential_float hL h h88
  obtain ⟨x1, x2⟩ := abs_le.1 xe
  have hE : 1 - 1 / 10 ^ 6 ≤ Real.exp v := by have := Real.add_one_le_exp v; linarith
  have hx' : 9 / 10 ≤ x := by nlinarith
  have hxm : x ≤ maxF32 := by rw [← hx.2]; exact (le_abs_self _).trans (value_abs_le hx.1)
  have hs := sub_is hx is_one (by rw [abs_le]; constructor <;> [(unfold maxF32; norm_num; linarith); linarith])
  have sR := rnd_abs (x - 1)
  have sx : |x - 1| ≤ x := by rw [abs_le]; constructor <;> linarith
  have sR2 : |rnd (x - 1) - (x - 1)| ≤ 2 ^ (-23 : ℤ) * x := by
    refine sR.trans ?_
    norm_num at sx hx' ⊢
    linarith
  obtain ⟨s1, s2⟩ := abs_le.1 sR2
  have hxp : 0 < x := by linarith
  generalize rnd (x - 1) = q at *
  have q1 : |q / x| ≤ 2 := by
    rw [abs_div, abs_of_pos hxp, div_le_iff₀ hxp]
    obtain ⟨t1, t2⟩ := abs_le.1 sx
    rw [abs_le]
    norm_num at s1 s2 ⊢
    constructor <;> linarith
  have hd := div_is hs hx hxp.ne' (q1.trans (by unfold maxF32; norm_num))
  refine ⟨_, hd, ?_⟩
  have dR := rnd_size 2 (q1.trans_lt (by norm_num)) (by norm_num)
  have e1 : |q / x - (1 - 1 / x)| ≤ 2 ^ (-23 : ℤ) := by
    rw [show q / x - (1 - 1 / x) = (q - (x - 1)) / x by field_simp, abs_div, abs_of_pos hxp, div_le_iff₀ hxp]
    exact sR2
  have e2 : |1 / x - Real.exp (-v)| ≤ 3 / 10 ^ 7 := by
    have hEp := Real.exp_pos v
    rw [Real.exp_neg, inv_eq_one_div, div_sub_div _ _ hxp.ne' hEp.ne', abs_div, abs_of_pos (mul_pos hxp hEp), div_le_iff₀ (mul_pos hxp hEp)]
    rw [abs_le]
    constructor <;> nlinarith
  simp only [slope]
  have h3 := abs_le.1 dR
  have h4 := abs_le.1 e1
  have h5 := abs_le.1 e2
  rw [abs_le]
  norm_num at h3 h4 h5 ⊢
  constructor <;> linarith [h3.1, h3.2, h4.1, h4.2, h5.1, h5.2]

/-- The chain of quotients in `softsign_derivative`. -/
theorem softsign_real {s t x q : ℝ} (hs : 0 < s) (hs1 : s ≤ 1) (ht : |t - s| ≤ 2 ^ (-24 : ℤ) * s) (hx : |x - (1 - s) / t| ≤ 2 ^ (-24 : ℤ) * ((1 - s) / t) + 2 ^ (-150 : ℤ))
    (hq : |q - (1 + x)| ≤ 2 ^ (-24 : ℤ) * (1 + x)) : |q * s - 1| ≤ 2 ^ (-22 : ℤ) := by
  obtain ⟨t1, t2⟩ := abs_le.1 ht
  obtain ⟨x1, x2⟩ := abs_le.1 hx
  obtain ⟨q1, q2⟩ := abs_le.1 hq
  have htp : 0 < t := by norm_num at t1; linarith
  have hts : s / t ≤ 1 + 101 / 100 * 2 ^ (-24 : ℤ) := by rw [div_le_iff₀ htp]; norm_num at t1 ⊢; linarith
  have hts' : 1 - 101 / 100 * 2 ^ (-24 : ℤ) ≤ s / t := by rw [le_div_iff₀ htp]; norm_num at t2 ⊢; linarith
  obtain ⟨r, hr⟩ : ∃ r, r = s / t := ⟨_, rfl⟩
  have e : (1 - s) / t * s = (1 - s) * r := by rw [hr]; ring
  obtain ⟨y, hy⟩ : ∃ y, y = (1 - s) / t := ⟨_, rfl⟩
  rw [← hy] at x1 x2 e
  rw [← hr] at hts hts'
  have hy0 : 0 ≤ y := by rw [hy]; exact div_nonneg (by linarith) htp.le
  have a1 : x * s - y * s ≤ (2 ^ (-24 : ℤ) * y + 2 ^ (-150 : ℤ)) * s := by rw [← sub_mul]; exact mul_le_mul_of_nonneg_right x2 hs.le
  have a2 : -((2 ^ (-24 : ℤ) * y + 2 ^ (-150 : ℤ)) * s) ≤ x * s - y * s := by
    rw [← sub_mul, ← neg_mul]; exact mul_le_mul_of_nonneg_right x1 hs.le
  have a3 : q * s - (1 + x) * s ≤ 2 ^ (-24 : ℤ) * ((1 + x) * s) := by
    have := mul_le_mul_of_nonneg_right q2 hs.le
    linarith
  have a4 : -(2 ^ (-24 : ℤ) * ((1 + x) * s)) ≤ q * s - (1 + x) * s := by
    have := mul_le_mul_of_nonneg_right q1 hs.le
    linarith
  have b1 : (1 - s) * r ≤ (1 - s) * (1 + 101 / 100 * 2 ^ (-24 : ℤ)) := mul_le_mul_of_nonneg_left hts (by linarith)
  have b2 : (1 - s) * (1 - 101 / 100 * 2 ^ (-24 : ℤ)) ≤ (1 - s) * r := mul_le_mul_of_nonneg_left hts' (by linarith)
  have c1 : (1 + x) * s = s + x * s := by ring
  have c2 : (2 ^ (-24 : ℤ) * y + 2 ^ (-150 : ℤ)) * s = 2 ^ (-24 : ℤ) * (y * s) + 2 ^ (-150 : ℤ) * s := by ring
  rw [c1] at a3 a4
  rw [c2] at a1 a2
  rw [e] at a1 a2
  have c3 : q * s - (s + x * s) = q * s - s - x * s := by ring
  rw [abs_le]
  norm_num at *
  constructor <;> linarith

theorem softsignD_float (L : Libm) {a : B32} {v : ℝ} (h : Is a v) (h0 : |v| ≤ 1) :
    ∃ s, Is (@softsignD B32 (ops L) a) s ∧ |s - slope .softsign v| ≤ 2 ^ (-20 : ℤ) := by
  have ha := abs_is h
  have e : @softsignD B32 (ops L) a = B32.div (ofReal false 1) (B32.mul
      (B32.add (ofReal false 1) (B32.abs (B32.div a (B32.sub (ofReal false 1) (B32.abs a)))))
      (B32.add (ofReal false 1) (B32.abs (B32.div a (B32.sub (ofReal false 1) (B32.abs a)))))) := rfl
  rw [e]
  simp only [slope]
  obtain ⟨t, ht, hte, -⟩ := one_sub_float ha (by rwa [abs_abs])
  have v0 := abs_nonneg v
  rw [abs_of_nonneg (by linarith : 0 ≤ 1 - |v|)] at hte
  rcases eq_or_ne |v| 1 with h1 | h1
  · -- infinity
    have ht0 : t = 0 := by rw [h1] at hte; simpa using hte
    subst ht0
    have hv0 : v ≠ 0 := by rintro rfl; simp at h1
    have d1 : B32.div a (B32.sub (ofReal false 1) (B32.abs a)) = inf (a.sign ^^ (B32.sub (ofReal false 1) (B32.abs a)).sign) := by
      rw [B32.div]
      simp only [not_nan h.1, not_nan ht.1, not_inf h.1, not_inf ht.1, Bool.or_self, Bool.false_eq_true, if_false, ht.2, if_true, h.2, hv0]
    have d2 : ∀ s, B32.abs (inf s) = inf false := by intro s; cases s <;> rfl
    rw [d1, d2, add_inf_right is_one]
    have d3 : B32.mul (inf false) (inf false) = inf false := by simp [B32.mul, is_inf false]
    have d4 : B32.div (ofReal false 1) (inf false) = zeroS (B32.sign (ofReal false 1) ^^ false) := by
      rw [B32.div]
      simp [not_nan is_one.1, not_inf is_one.1, is_inf false]
    rw [d3, d4, h1]
    exact ⟨0, is_zeroS _, by norm_num⟩
  · have hv1 : |v| < 1 := lt_of_le_of_ne h0 h1
    have hs : (2 : ℝ) ^ (-25 : ℤ) ≤ 1 - |v| := by
      by_contra hc
      refine h1 (gap is_one ha ?_ one_ne_zero)
      rw [abs_one, one_mul, abs_sub_comm, abs_of_nonneg (by linarith)]
      exact (not_le.1 hc).le
    obtain ⟨s, es⟩ : ∃ s, s = 1 - |v| := ⟨_, rfl⟩
    rw [← es] at hte hs ⊢
    have hsp : 0 < s := lt_of_lt_of_le (by norm_num) hs
    have hs1 : s ≤ 1 := by linarith
    obtain ⟨t1, t2⟩ := abs_le.1 hte
    have htp : (2 : ℝ) ^ (-26 : ℤ) ≤ t := by norm_num at hs t1 ⊢; linarith
    have ht0 : 0 < t := lt_of_lt_of_le (by norm_num) htp
    have hvt : |v / t| ≤ 2 ^ (26 : ℤ) := by
      rw [abs_div, abs_of_pos ht0, div_le_iff₀ ht0]; norm_num at htp ⊢; linarith
    have hd := div_is h ht ht0.ne' (hvt.trans (by unfold maxF32; norm_num))
    have hx := abs_is hd
    have xe : |(|rnd (v / t)|) - (1 - s) / t| ≤ 2 ^ (-24 : ℤ) * ((1 - s) / t) + 2 ^ (-150 : ℤ) := by
      have e1 : (1 - s) / t = |v / t| := by rw [abs_div, abs_of_pos ht0, es]; congr 1; ring
      rw [e1]
      exact (abs_abs_sub_abs_le _ _).trans (rnd_abs _)
    have xb : |rnd (v / t)| ≤ 2 ^ (26 : ℤ) := by
      have r : rnd (2 ^ (26 : ℤ)) = 2 ^ (26 : ℤ) := rnd_exact (k := 1) (j := 26) (by norm_num) (by norm_num) (by norm_num)
      obtain ⟨b1, b2⟩ := abs_le.1 hvt
      rw [abs_le]
      refine ⟨?_, rnd_le b2 r⟩
      have := rnd_le (x := -(v / t)) (by linarith) r
      rw [rnd_neg] at this; linarith
    obtain ⟨x, hxe⟩ : ∃ x, x = |rnd (v / t)| := ⟨_, rfl⟩
    have x0 : 0 ≤ x := by rw [hxe]; exact abs_nonneg _
    rw [← hxe] at hx xe xb
    have hq := add_is is_one hx (by rw [abs_of_nonneg (by linarith)]; unfold maxF32; norm_num at xb ⊢; linarith)
    have qe := rnd_rel (x := 1 + x) (.inr (by rw [abs_of_nonneg (by linarith)]; norm_num; linarith))
    rw [abs_of_nonneg (by linarith : 0 ≤ 1 + x)] at qe
    have hqs := softsign_real hsp hs1 hte xe qe
    obtain ⟨q1, q2⟩ := abs_le.1 qe
    have ql : 1 ≤ rnd (1 + x) := le_rnd (by linarith) rnd_one
    have qu : rnd (1 + x) ≤ 2 ^ (27 : ℤ) := by norm_num at xb q2 ⊢; linarith
    generalize rnd (1 + x) = q at *
    have qq1 : 1 ≤ q * q := by nlinarith
    have qqu : q * q ≤ 2 ^ (54 : ℤ) := by
      have := mul_le_mul qu qu (by linarith) (by positivity)
      exact this.trans (by norm_num)
    have hp := mul_is hq hq (by rw [abs_of_nonneg (by linarith)]; refine qqu.trans ?_; unfold maxF32; norm_num)
    have pe := rnd_rel (x := q * q) (.inr (by rw [abs_of_nonneg (by linarith)]; refine le_trans ?_ qq1; norm_num))
    rw [abs_of_nonneg (by linarith : 0 ≤ q * q)] at pe
    have p1 : 1 ≤ rnd (q * q) := le_rnd qq1 rnd_one
    generalize rnd (q * q) = p at *
    have pp : 0 < p := by linarith
    have ip : |1 / p| ≤ 1 := by rw [abs_of_pos (by positivity), div_le_one pp]; exact p1
    refine ⟨_, div_is is_one hp pp.ne' (ip.trans (by unfold maxF32; norm_num)), ?_⟩
    have re := rnd_size (x := 1 / p) 1 (ip.trans_lt (by norm_num)) (by norm_num)
    have ds : |1 / p - s ^ 2| ≤ 2 ^ (-21 : ℤ) * (12 / 10) := by
      obtain ⟨g1, g2⟩ := abs_le.1 hqs
      obtain ⟨p2, p3⟩ := abs_le.1 pe
      have k1 : |(q * s) ^ 2 - 1| ≤ 2 ^ (-21 : ℤ) * (21 / 20) := by
        obtain ⟨z, hz⟩ : ∃ z, z = q * s - 1 := ⟨_, rfl⟩
        have : (q * s) ^ 2 - 1 = z * (2 + z) := by rw [hz]; ring
        rw [this, abs_mul]
        have z1 : |2 + z| ≤ 21 / 10 := by rw [hz, abs_le]; norm_num at g1 g2 ⊢; constructor <;> linarith
        rw [hz] at z1 ⊢
        refine (mul_le_mul hqs z1 (abs_nonneg _) (by positivity)).trans (by norm_num)
      have k2 : |p * s ^ 2 - 1| ≤ 2 ^ (-21 : ℤ) * (12 / 10) := by
        have : p * s ^ 2 - 1 = (p - q * q) * s ^ 2 + ((q * s) ^ 2 - 1) := by ring
        rw [this]
        refine (abs_add_le _ _).trans ?_
        have : |(p - q * q) * s ^ 2| ≤ 2 ^ (-24 : ℤ) * (q * s) ^ 2 := by
          rw [abs_mul, abs_of_nonneg (sq_nonneg s)]
          calc _ ≤ 2 ^ (-24 : ℤ) * (q * q) * s ^ 2 := mul_le_mul_of_nonneg_right pe (sq_nonneg s)
            _ = _ := by ring
        have k3 := (abs_le.1 k1).2
        norm_num at this k1 k3 ⊢
        linarith
      have : 1 / p - s ^ 2 = (1 - p * s ^ 2) / p := by field_simp
      rw [this, abs_div, abs_of_pos pp, div_le_iff₀ pp, abs_sub_comm]
      exact k2.trans (le_mul_of_one_le_right (by positivity) p1)
    have h3 := abs_le.1 re
    have h4 := abs_le.1 ds
    rw [abs_le]
    norm_num at h3 h4 ⊢
    constructor <;> linarith [h3.1, h3.2, h4.1, h4.2]

/-! ### Range of the activation functions -/

/-- Where the value `o` computed by an activation function from `v` lies. -/
def ActRange (a : Act) (o : B32) (v : ℝ) : Prop :=
  match a with
  | .relu => o.value = Spec.relu v
  | .sigmoid => 0 ≤ o.value ∧ o.value ≤ 1
  | .tanh | .softsign => |o.value| ≤ 1
  | .hardSigmoid => (v < -5 / 2 → o.value = 0) ∧ (5 / 2 < v → o.value = 1)
  | .softplus => -(1 / 10 ^ 6) ≤ o.value
  | _ => True

theorem hardSigmoid_ends (L : Libm) {x : B32} {X : ℝ} (h : Is x X) :
    (X < -5 / 2 → (@hardSigmoidS B32 (ops L) x).value = 0) ∧ (5 / 2 < X → (@hardSigmoidS B32 (ops L) x).value = 1) := by
  have hlo : Is (ofReal false (((-5 : ℤ) : ℝ) / ((2 : ℕ) : ℝ))) (-5 / 2) := by
    have := is_lit (p := -5) (q := 2) 1 (by norm_num) (by norm_num) (by norm_num)
    simpa using this
  have hhi : Is (ofReal false (((5 : ℤ) : ℝ) / ((2 : ℕ) : ℝ))) (5 / 2) := by
    have := is_lit (p := 5) (q := 2) 1 (by norm_num) (by norm_num) (by norm_num)
    simpa using this
  have e : @hardSigmoidS B32 (ops L) x = if B32.lt x (ofReal false (((-5 : ℤ) : ℝ) / ((2 : ℕ) : ℝ))) = true then zeroS false
      else if B32.lt (ofReal false (((5 : ℤ) : ℝ) / ((2 : ℕ) : ℝ))) x = true then ofReal false 1
      else B32.add (B32.mul (ofReal false (((1 : ℤ) : ℝ) / ((5 : ℕ) : ℝ))) x) (ofReal false (((1 : ℤ) : ℝ) / ((2 : ℕ) : ℝ))) := rfl
  rw [e]
  constructor
  · intro h1
    rw [if_pos ((B32.lt_iff h hlo).2 h1), (is_zeroS false).2]
  · intro h1
    rw [if_neg (by rw [B32.lt_iff h hlo]; linarith), if_pos ((B32.lt_iff hhi h).2 h1), is_one.2]

theorem activateF_range (env : CustomEnv B32) {L : Libm} (hL : L.Accurate) (c : Cfg) (a : Act) (f : ℝ → ℝ) (hf : textbook a = some f)
    (addr : ℕ) (l : List B32) (hx : ∀ x ∈ l, x.isFinite = true) (h88 : Unbounded a → ∀ x ∈ l, x.value ≤ 88) :
    List.Forall₂ (fun o x => ActRange a o x.value) (@activateF B32 (ops L) env c a addr l) l := by
  have hmap : ∀ (g : B32 → B32), (∀ x ∈ l, ActRange a (g x) x.value) → List.Forall₂ (fun o x => ActRange a o x.value) (l.map g) l := by
    intro g h
    rw [List.forall₂_map_left_iff, List.forall₂_same]
    exact h
  have happ : ∀ (g : ℕ → B32 → B32), (∀ k, ∀ x ∈ l, ActRange a (g k x) x.value) →
      List.Forall₂ (fun o x => ActRange a o x.value) (applyTo g l.length l) l := by
    intro g h
    rw [List.forall₂_iff_get]
    refine ⟨by simp, ?_⟩
    intro i h1 h2
    have : (applyTo g l.length l)[i]'h1 = g i l[i] := by simp [applyTo, h2]
    simp only [List.get_eq_getElem, this]
    exact h i _ (List.getElem_mem _)
  cases a <;> simp only [textbook, Option.some.injEq, reduceCtorEq] at hf <;> subst hf
  · refine hmap _ fun x hm => ?_
    obtain ⟨s, hs, he⟩ := softplus_float hL (⟨hx x hm, rfl⟩ : Is x x.value) (h88 (.inr rfl) x hm)
    simp only [ActRange]
    rw [hs.2]
    have h0 : 0 ≤ Spec.softplus x.value := Real.log_nonneg (by have := Real.exp_pos x.value; linarith)
    have := (abs_le.1 he).1
    linarith
  · refine hmap _ fun x hm => ?_
    obtain ⟨s, hs, h1, h2, -⟩ := softsign_float L (⟨hx x hm, rfl⟩ : Is x x.value)
    simp only [ActRange]
    rw [hs.2]
    exact abs_le.2 ⟨h1, h2⟩
  · exact hmap _ fun x hm => hardSigmoid_ends L (⟨hx x hm, rfl⟩ : Is x x.value)
  · exact hmap _ fun x hm => trivial
  · simp only [activateF]
    rw [List.forall₂_same]
    exact fun x hm => trivial
  · refine happ _ fun k x hm => ?_
    obtain ⟨r1, r2⟩ := relu_float (⟨hx x hm, rfl⟩ : Is x x.value)
    unfold reluOp regionOp
    simp only [ActRange]
    split
    · beta_reduce; split
      · exact r2.2
      · exact r1.2
    · exact r1.2
  · refine happ _ fun k x hm => ?_
    obtain ⟨s, hs, s0, s1, -⟩ := sigmoidV_float L (⟨hx x hm, rfl⟩ : Is x x.value)
    obtain ⟨t, ht, t0, t1, -⟩ := sigmoidS_float hL (⟨hx x hm, rfl⟩ : Is x x.value)
    have e1 : 0 ≤ (@sigmoidV B32 (ops L) x).value ∧ (@sigmoidV B32 (ops L) x).value ≤ 1 := by rw [hs.2]; exact ⟨s0, s1⟩
    have e2 : 0 ≤ (@sigmoidS B32 (ops L) x).value ∧ (@sigmoidS B32 (ops L) x).value ≤ 1 := by rw [ht.2]; exact ⟨t0, t1⟩
    unfold sigmoidOp regionOp
    simp only [ActRange]
    split
    · beta_reduce; split
      · exact e1
      · exact e2
    · exact e2
  · refine happ _ fun k x hm => ?_
    obtain ⟨s, hs, s0, s1, -⟩ := tanhV_float L (⟨hx x hm, rfl⟩ : Is x x.value)
    obtain ⟨t, ht, t0, t1, -⟩ := tanhS_float hL (⟨hx x hm, rfl⟩ : Is x x.value)
    have e1 : |(@tanhV B32 (ops L) x).value| ≤ 1 := by rw [hs.2]; exact abs_le.2 ⟨s0, s1⟩
    have e2 : |(@FloatOps.tanh B32 (ops L) x).value| ≤ 1 := by
      rw [show (@FloatOps.tanh B32 (ops L) x).value = t from ht.2]; exact abs_le.2 ⟨t0, t1⟩
    unfold tanhOp regionOp
    simp only [ActRange]
    split
    · beta_reduce; split
      · exact e1
      · exact e2
    · exact e2

/-! ### The derivative at a perturbed activation -/

/-- The factor applied by a derivative function. -/
noncomputable def slopeFn (L : Libm) (d : ActDeriv) : B32 → B32 :=
  let _ := ops L
  match d with
  | .relu => reluD
  | .sigmoid => sigmoidD
  | .tanh => tanhD
  | .softplus => softplusD
  | .softsign => softsignD
  | .hardSigmoid => hardSigmoidD
  | _ => fun a => a

theorem exp_lip {a b e : ℝ} (ha : a ≤ 1 / 10 ^ 6) (h : |a - b| ≤ e) : Real.exp a - Real.exp b ≤ 2 * e := by
  have h1 : Real.exp a ≤ 2 := by
    have h6 := Real.add_one_le_exp (-a)
    have h7 : Real.exp a * Real.exp (-a) = 1 := by rw [← Real.exp_add]; simp
    have h8 := Real.exp_pos a
    norm_num at ha
    nlinarith
  have h2 := Real.add_one_le_exp (b - a)
  have h3 : Real.exp b = Real.exp a * Real.exp (b - a) := by rw [← Real.exp_add]; ring_nf
  have h4 := mul_le_mul_of_nonneg_left h2 (Real.exp_pos a).le
  have h5 : Real.exp a * (a - b) ≤ 2 * e := by
    have h0 : 0 ≤ e := (abs_nonneg _).trans h
    calc _ ≤ Real.exp a * e := mul_le_mul_of_nonneg_left ((le_abs_self _).trans h) (Real.exp_pos a).le
      _ ≤ 2 * e := mul_le_mul_of_nonneg_right h1 h0
  rw [h3]
  linarith

theorem slopeFn_within {L : Libm} (hL : L.Accurate) {a : Act} {f : ℝ → ℝ} (hf : textbook a = some f) (hlin : a ≠ .linear) {o : B32}
    {v z ze e : ℝ} (ho : o.isFinite = true) (hr : ActRange a o v) (hv : |v - z| ≤ ze) (hy : |o.value - f z| ≤ e)
    (hs : SlopeSafe (derivOf a) z ze (f z) e) :
    ∃ s, Is (slopeFn L (derivOf a) o) s ∧ |s - slope (derivOf a) (f z)| ≤ slopeError (derivOf a) e := by
  have hi : Is o o.value := ⟨ho, rfl⟩
  have he : 0 ≤ e := (abs_nonneg _).trans hy
  obtain ⟨v1, v2⟩ := abs_le.1 hv
  obtain ⟨y1, y2⟩ := abs_le.1 hy
  have hze : 0 ≤ ze := (abs_nonneg _).trans hv
  cases a <;> simp only [textbook, Option.some.injEq, reduceCtorEq] at hf <;> subst hf <;>
    simp only [ActRange, derivOf, SlopeSafe, slopeFn, slopeError] at *
  · -- softplus
    have h0 : 0 ≤ Spec.softplus z := Real.log_nonneg (by have := Real.exp_pos z; linarith)
    obtain ⟨s, h1, h2⟩ := softplusD_float hL hi hr (by linarith)
    refine ⟨s, h1, ?_⟩
    have h3 : |slope .softplus o.value - slope .softplus (Spec.softplus z)| ≤ 2 * e := by
      simp only [slope]
      have g1 := exp_lip (a := -o.value) (b := -Spec.softplus z) (e := e) (by linarith) (by rw [neg_sub_neg, abs_sub_comm]; exact hy)
      have g2 := exp_lip (a := -Spec.softplus z) (b := -o.value) (e := e) (by norm_num; linarith) (by rw [neg_sub_neg]; exact hy)
      rw [abs_le]; constructor <;> linarith
    have := abs_tri s (slope .softplus o.value) (slope .softplus (Spec.softplus z))
    linarith
  · -- softsign
    obtain ⟨s, h1, h2⟩ := softsignD_float L hi hr
    refine ⟨s, h1, ?_⟩
    have hz : |Spec.softsign z| ≤ 1 := by
      have := abs_nonneg z
      rw [Spec.softsign, abs_div, abs_of_pos (by linarith : 0 < 1 + |z|), div_le_one (by linarith)]; linarith
    have h3 : |slope .softsign o.value - slope .softsign (Spec.softsign z)| ≤ 2 * e := by
      simp only [slope]
      generalize Spec.softsign z = y at *
      have h4 : |(|y| - |o.value|)| ≤ e := by rw [abs_sub_comm]; exact (abs_abs_sub_abs_le _ _).trans hy
      have := abs_nonneg y
      have := abs_nonneg o.value
      rw [show (1 - |o.value|) ^ 2 - (1 - |y|) ^ 2 = (|y| - |o.value|) * (2 - |o.value| - |y|) by ring, abs_mul,
        abs_of_nonneg (by linarith : 0 ≤ 2 - |o.value| - |y|)]
      nlinarith [abs_nonneg (|y| - |o.value|)]
    have := abs_tri s (slope .softsign o.value) (slope .softsign (Spec.softsign z))
    linarith
  · -- hard_sigmoid
    obtain ⟨s, h1, h2⟩ := hardSigmoidD_float L hi
    refine ⟨s, h1, ?_⟩
    have h3 : slope .hardSigmoid o.value = slope .hardSigmoid (Spec.hardSigmoid z) := by
      simp only [slope]
      rcases hs with hs | hs | ⟨hs1, hs2⟩
      · rw [hr.1 (by linarith), Spec.hardSigmoid, min_eq_right (by linarith), max_eq_left (by linarith)]
      · rw [hr.2 (by linarith), Spec.hardSigmoid, min_eq_left (by linarith), max_eq_right (by norm_num)]
      · rw [if_pos ⟨by linarith, by linarith⟩, if_pos ⟨by linarith, by linarith⟩]
    rw [h3] at h2
    linarith
  · -- exponential
    exact ⟨_, hi, hy⟩
  · exact absurd rfl hlin
  · -- relu
    refine ⟨_, reluD_float L hi, ?_⟩
    have : slope .relu o.value = slope .relu (Spec.relu z) := by
      simp only [slope]
      rw [hr, Spec.relu, Spec.relu]
      rcases hs with hs | hs
      · rw [max_eq_left (by linarith), max_eq_left (by linarith)]
      · rw [max_eq_right (by linarith), max_eq_right (by linarith), if_pos (by linarith), if_pos (by linarith)]
    rw [this, sub_self, abs_zero]
  · -- sigmoid
    obtain ⟨s, h1, h2⟩ := sigmoidD_float L hi hr.1 hr.2
    refine ⟨s, h1, ?_⟩
    have hp := Real.exp_pos (-z)
    have z0 : 0 ≤ Spec.sigmoid z := by unfold Spec.sigmoid; positivity
    have z1 : Spec.sigmoid z ≤ 1 := by unfold Spec.sigmoid; rw [div_le_one (by positivity)]; linarith
    have h3 : |slope .sigmoid o.value - slope .sigmoid (Spec.sigmoid z)| ≤ 2 * e := by
      simp only [slope]
      generalize Spec.sigmoid z = y at *
      rw [show o.value * (1 - o.value) - y * (1 - y) = (o.value - y) * (1 - o.value - y) by ring, abs_mul]
      have : |1 - o.value - y| ≤ 1 := by rw [abs_le]; constructor <;> linarith [hr.1, hr.2]
      nlinarith [abs_nonneg (o.value - y)]
    have := abs_tri s (slope .sigmoid o.value) (slope .sigmoid (Spec.sigmoid z))
    linarith
  · -- tanh
    obtain ⟨s, h1, h2⟩ := tanhD_float L hi hr
    refine ⟨s, h1, ?_⟩
    have hz := tanh_abs_le z
    have h3 : |slope .tanh o.value - slope .tanh (Real.tanh z)| ≤ 2 * e := by
      simp only [slope]
      generalize Real.tanh z = y at *
      rw [show 1 - o.value ^ 2 - (1 - y ^ 2) = (o.value - y) * -(o.value + y) by ring, abs_mul, abs_neg]
      have := abs_add_le o.value y
      nlinarith [abs_nonneg (o.value - y), abs_nonneg (o.value + y)]
    have := abs_tri s (slope .tanh o.value) (slope .tanh (Real.tanh z))
    linarith

end NN
