import Verif.Proofs.BackFloat
import Verif.Proofs.GradientOut
/-
The float backward pass of networks with smooth squashing activation functions: closed bounds.
-/
namespace NN
open B32 Finset Spec

theorem mulError_bound {x e y f X A Y B : ℝ} (hx : |x| ≤ X) (he0 : 0 ≤ e) (he : e ≤ X * (A - 1)) (hy : |y| ≤ Y) (hf0 : 0 ≤ f)
    (hf : f ≤ Y * (B - 1)) (hXY : 1 ≤ X * Y) (hA : 1 ≤ A) (hB : 1 ≤ B) :
    0 ≤ mulError x e y f ∧ mulError x e y f ≤ X * Y * (A * B * (1 + 2 ^ (-23 : ℤ)) - 1) ∧ (|x| + e) * (|y| + f) ≤ X * Y * (A * B) := by
  have hX : 0 ≤ X := (abs_nonneg x).trans hx
  have hY : 0 ≤ Y := (abs_nonneg y).trans hy
  have h1 : |x| + e ≤ X * A := by linarith
  have h2 : |y| + f ≤ Y * B := by linarith
  have hx0 := abs_nonneg x
  have hy0 := abs_nonneg y
  have h3 : (|x| + e) * (|y| + f) ≤ X * Y * (A * B) := by
    calc _ ≤ (X * A) * (Y * B) := mul_le_mul h1 h2 (by linarith) (by positivity)
      _ = _ := by ring
  have h4 : e * |y| ≤ X * (A - 1) * Y := mul_le_mul he hy hy0 (he0.trans he)
  have h5 : (|x| + e) * f ≤ X * A * (Y * (B - 1)) := mul_le_mul h1 hf hf0 (by positivity)
  have hAB : 1 ≤ A * B := by nlinarith
  have h6 : 1 ≤ X * Y * (A * B) := by nlinarith
  have h0 : 0 ≤ (|x| + e) * (|y| + f) := by positivity
  refine ⟨?_, ?_, h3⟩
  · unfold mulError u32 η32; positivity
  · have e24 : (2 : ℝ) ^ (-23 : ℤ) = 2 * 2 ^ (-24 : ℤ) := by norm_num
    have e150 : (2 : ℝ) ^ (-150 : ℤ) ≤ 2 ^ (-24 : ℤ) := by norm_num
    have p24 : (0 : ℝ) < 2 ^ (-24 : ℤ) := by positivity
    unfold mulError u32 η32
    rw [e24]
    generalize (2 : ℝ) ^ (-24 : ℤ) = v at *
    generalize (2 : ℝ) ^ (-150 : ℤ) = w at *
    generalize (|x| + e) * (|y| + f) = Z at *
    have h7 : v * Z ≤ v * (X * Y * (A * B)) := mul_le_mul_of_nonneg_left h3 p24.le
    have h8 : w ≤ v * (X * Y * (A * B)) := by nlinarith
    have : X * (A - 1) * Y + X * A * (Y * (B - 1)) = X * Y * (A * B) - X * Y := by ring
    have h9 : X * Y * (A * B * (1 + 2 * v) - 1) = X * Y * (A * B) - X * Y + v * (X * Y * (A * B)) + v * (X * Y * (A * B)) := by ring
    rw [h9]
    linarith

theorem at_append_left' {a b : List ℝ} {k : ℕ} (h : k < a.length) : at_ (a ++ b) k = at_ a k := by
  simp [at_, List.getElem?_append_left h]

theorem at_append_right' {a b : List ℝ} {k : ℕ} (h : a.length ≤ k) : at_ (a ++ b) k = at_ b (k - a.length) := by
  simp [at_, List.getElem?_append_right h]

section
variable {N : ℕ} {R E : ℝ}

theorem stepκ_pos (hE0 : 0 ≤ E) : 0 < stepκ N E := by unfold stepκ; positivity

theorem stepκ_slope (hE : E ≤ 1) : (1 + (2 * E + 2 ^ (-20 : ℤ))) * (1 + 2 ^ (-23 : ℤ)) ≤ 1 + stepκ N E := by
  have h : (0 : ℝ) ≤ (N + 7) * 2 ^ (-23 : ℤ) := by positivity
  unfold stepκ
  generalize ((N : ℝ) + 7) * 2 ^ (-23 : ℤ) = a at *
  norm_num
  nlinarith

theorem stepκ_act (hE0 : 0 ≤ E) : (1 + E) * (1 + 2 ^ (-23 : ℤ)) ≤ 1 + stepκ N E := by
  have h : (0 : ℝ) ≤ (N + 7) * 2 ^ (-23 : ℤ) := by positivity
  unfold stepκ
  generalize ((N : ℝ) + 7) * 2 ^ (-23 : ℤ) = a at *
  norm_num
  nlinarith

theorem slope_bound (env : CustomEnv ℝ) {l : Layer ℝ} (hl : SmoothLayer N R l) (hfit : SlopeFits l) {x : List ℝ} {i : ℕ} (hi : i < l.nOut)
    {e : ℝ} (he0 : 0 ≤ e) : |slope l.slopeOf (at_ ((l.toSpec env).apply x) i)| ≤ 1 ∧ 0 ≤ slopeError l.slopeOf e ∧
      slopeError l.slopeOf e ≤ 2 * e + 2 ^ (-20 : ℤ) ∧ ∀ z ze y f, SlopeSafe l.slopeOf z ze y f := by
  obtain ⟨⟨hsq, hn, hsum⟩, hh, -⟩ := hl
  have hlin : ∀ d, (d = .linear ∨ d = .softmax) → l.slopeOf = d → |slope l.slopeOf (at_ ((l.toSpec env).apply x) i)| ≤ 1 ∧ 0 ≤ slopeError l.slopeOf e ∧
      slopeError l.slopeOf e ≤ 2 * e + 2 ^ (-20 : ℤ) ∧ ∀ z ze y f, SlopeSafe l.slopeOf z ze y f := by
    intro d hd hdd
    rw [hdd]
    rcases hd with rfl | rfl <;> refine ⟨by simp [slope], by simp only [slopeError]; positivity, by simp only [slopeError]; exact le_rfl, fun _ _ _ _ => trivial⟩
  rcases hfit with h | h | h
  · have hso : l.slopeOf = derivOf l.act := by unfold Layer.slopeOf; rw [h]; rfl
    have hap : ∀ f, textbook l.act = some f → at_ ((l.toSpec env).apply x) i = f (at_ (affine l.nIn l.nOut l.weight.data l.bias.data x) i) := by
      intro f hf
      have : (l.toSpec env).apply x = (affine l.nIn l.nOut l.weight.data l.bias.data x).map f := by
        unfold Spec.Layer.apply Layer.toSpec
        simp only [actSpec_textbook env l.act f hf]
      rw [this, at_map' (by simp [affine, hi])]
    rw [hso]
    rcases hsq with ha | ha | ha | ha
    · rw [hap Spec.sigmoid (by rw [ha]; rfl), ha]
      generalize at_ (affine l.nIn l.nOut l.weight.data l.bias.data x) i = z
      have hp := Real.exp_pos (-z)
      have h0 : 0 ≤ Spec.sigmoid z := by unfold Spec.sigmoid; positivity
      have h1 : Spec.sigmoid z ≤ 1 := by rw [Spec.sigmoid, div_le_one (by positivity)]; linarith
      refine ⟨?_, by simp only [derivOf, slopeError]; positivity, by simp only [derivOf, slopeError]; exact le_rfl, fun _ _ _ _ => trivial⟩
      simp only [derivOf, slope]
      rw [abs_le]; constructor <;> nlinarith
    · rw [hap Real.tanh (by rw [ha]; rfl), ha]
      generalize at_ (affine l.nIn l.nOut l.weight.data l.bias.data x) i = z
      have h1 := abs_le.mp (tanh_abs_le z)
      refine ⟨?_, by simp only [derivOf, slopeError]; positivity, by simp only [derivOf, slopeError]; exact le_rfl, fun _ _ _ _ => trivial⟩
      simp only [derivOf, slope]
      rw [abs_le]; constructor <;> nlinarith
    · rw [hap Spec.softsign (by rw [ha]; rfl), ha]
      generalize at_ (affine l.nIn l.nOut l.weight.data l.bias.data x) i = z
      have h0 := abs_nonneg z
      have h1 : |Spec.softsign z| ≤ 1 := by
        rw [Spec.softsign, abs_div, abs_of_pos (by linarith : 0 < 1 + |z|), div_le_one (by linarith)]; linarith
      have h2 := abs_nonneg (Spec.softsign z)
      refine ⟨?_, by simp only [derivOf, slopeError]; positivity, by simp only [derivOf, slopeError]; exact le_rfl, fun _ _ _ _ => trivial⟩
      simp only [derivOf, slope]
      rw [abs_le]; constructor <;> nlinarith
    · exact absurd ha hh
  · exact hlin .linear (Or.inl rfl) (by unfold Layer.slopeOf; rw [h]; rfl)
  · exact hlin .softmax (Or.inr rfl) (by unfold Layer.slopeOf; rw [h]; rfl)

/-- One layer of the backward pass. -/
theorem step_bound (env : CustomEnv ℝ) {l : Layer ℝ} (hl : SmoothLayer N R l) (hfit : SlopeFits l) (hE0 : 0 ≤ E) (hE : E ≤ 1) {x e u ue : List ℝ}
    (hx : ∀ i, i < l.nIn → |at_ x i| ≤ 1 ∧ 0 ≤ at_ e i ∧ at_ e i ≤ E)
    (hy : ∀ k, k < l.nOut → 0 ≤ at_ (layerError l x e) k ∧ at_ (layerError l x e) k ≤ E) (lu : u.length = l.nOut) (lue : ue.length = l.nOut) {U A : ℝ}
    (hU : 1 ≤ U) (hA : 1 ≤ A) (hu : ∀ k, k < l.nOut → |at_ u k| ≤ U ∧ 0 ≤ at_ ue k ∧ at_ ue k ≤ U * (A - 1)) (hmax : U * (A * (1 + stepκ N E) ^ 2) ≤ max32) :
    StepSafe env l x e u ue ∧
    (∀ k, k < l.nOut → |at_ (signal l.slopeOf ((l.toSpec env).apply x) u) k| ≤ U ∧
      0 ≤ at_ (signalError l.slopeOf ((l.toSpec env).apply x) (layerError l x e) u ue) k ∧
      at_ (signalError l.slopeOf ((l.toSpec env).apply x) (layerError l x e) u ue) k ≤ U * (A * (1 + stepκ N E) - 1)) ∧
    ∀ k, k < l.nIn * l.nOut → at_ (outerError l.nIn l.nOut x e (signal l.slopeOf ((l.toSpec env).apply x) u)
      (signalError l.slopeOf ((l.toSpec env).apply x) (layerError l x e) u ue)) k ≤ U * (A * (1 + stepκ N E) ^ 2 - 1) := by
  have hκ := stepκ_pos (N := N) hE0
  have hκs := stepκ_slope (N := N) hE
  have hκa := stepκ_act (N := N) hE0
  have hU0 : 0 ≤ U := by linarith
  have hσ0 : (0 : ℝ) < 2 ^ (-20 : ℤ) := by positivity
  have hσ : (1 : ℝ) ≤ 1 + (2 * E + 2 ^ (-20 : ℤ)) := by linarith
  have hκσ : 1 + (2 * E + 2 ^ (-20 : ℤ)) ≤ 1 + stepκ N E := by
    refine le_trans ?_ hκs
    refine le_mul_of_one_le_right (by linarith) ?_
    norm_num
  have hκE : 1 + E ≤ 1 + stepκ N E := by
    refine le_trans ?_ hκa
    refine le_mul_of_one_le_right (by linarith) ?_
    norm_num
  have hAκ : 1 ≤ A * (1 + stepκ N E) := by nlinarith
  have hsig : ∀ k, k < l.nOut → |at_ (signal l.slopeOf ((l.toSpec env).apply x) u) k| ≤ U ∧
      0 ≤ at_ (signalError l.slopeOf ((l.toSpec env).apply x) (layerError l x e) u ue) k ∧
      at_ (signalError l.slopeOf ((l.toSpec env).apply x) (layerError l x e) u ue) k ≤ U * (A * (1 + stepκ N E) - 1) ∧
      (|at_ u k| + at_ ue k) * (|slope l.slopeOf (at_ ((l.toSpec env).apply x) k)| + slopeError l.slopeOf (at_ (layerError l x e) k)) ≤ max32 := by
    intro k hk
    obtain ⟨u1, u2, u3⟩ := hu k hk
    obtain ⟨y1, y2⟩ := hy k hk
    obtain ⟨s1, s2, s3, -⟩ := slope_bound env hl hfit (x := x) hk y1
    have hk' : k < u.length := by omega
    obtain ⟨m1, m2, m3⟩ := mulError_bound u1 u2 u3 s1 s2 (B := 1 + (2 * E + 2 ^ (-20 : ℤ))) (by linarith) (by linarith) hA hσ
    rw [mul_one] at m2 m3
    have hm : U * (A * (1 + (2 * E + 2 ^ (-20 : ℤ))) * (1 + 2 ^ (-23 : ℤ)) - 1) ≤ U * (A * (1 + stepκ N E) - 1) := by
      apply mul_le_mul_of_nonneg_left _ hU0
      have := mul_le_mul_of_nonneg_left hκs (by linarith : 0 ≤ A)
      rw [mul_assoc]; linarith
    refine ⟨?_, ?_⟩
    · rw [signal, at_range_map hk', abs_mul]
      calc _ ≤ U * 1 := mul_le_mul u1 s1 (abs_nonneg _) hU0
        _ = U := mul_one U
    refine ⟨?_, ?_, ?_⟩
    · unfold signalError
      split
      · exact u2
      · exact u2
      · rw [at_range_map hk']; exact m1
    · unfold signalError
      have h1 : U * (A - 1) ≤ U * (A * (1 + stepκ N E) - 1) := by
        apply mul_le_mul_of_nonneg_left _ hU0
        nlinarith
      split
      · exact u3.trans h1
      · exact u3.trans h1
      · rw [at_range_map hk']; exact m2.trans hm
    · refine (m3.trans ?_).trans hmax
      apply mul_le_mul_of_nonneg_left _ hU0
      apply mul_le_mul_of_nonneg_left _ (by linarith : 0 ≤ A)
      nlinarith
  have hout : ∀ i k, i < l.nIn → k < l.nOut →
      mulError (at_ x i) (at_ e i) (at_ (signal l.slopeOf ((l.toSpec env).apply x) u) k)
        (at_ (signalError l.slopeOf ((l.toSpec env).apply x) (layerError l x e) u ue) k) ≤ U * (A * (1 + stepκ N E) ^ 2 - 1) ∧
      (|at_ x i| + at_ e i) * (|at_ (signal l.slopeOf ((l.toSpec env).apply x) u) k| +
        at_ (signalError l.slopeOf ((l.toSpec env).apply x) (layerError l x e) u ue) k) ≤ max32 := by
    intro i k hi hk
    obtain ⟨x1, x2, x3⟩ := hx i hi
    obtain ⟨s1, s2, s3, -⟩ := hsig k hk
    obtain ⟨m1, m2, m3⟩ := mulError_bound x1 x2 (A := 1 + E) (by linarith) s1 s2 s3 (by linarith) (by linarith) hAκ
    rw [one_mul] at m2 m3
    constructor
    · refine m2.trans ?_
      apply mul_le_mul_of_nonneg_left _ hU0
      have := mul_le_mul_of_nonneg_left hκa (by linarith : 0 ≤ A * (1 + stepκ N E))
      have e1 : (1 + E) * (A * (1 + stepκ N E)) * (1 + 2 ^ (-23 : ℤ)) = A * (1 + stepκ N E) * ((1 + E) * (1 + 2 ^ (-23 : ℤ))) := by ring
      rw [e1]
      have e2 : A * (1 + stepκ N E) ^ 2 = A * (1 + stepκ N E) * (1 + stepκ N E) := by ring
      rw [e2]
      linarith
    · refine (m3.trans ?_).trans hmax
      apply mul_le_mul_of_nonneg_left _ hU0
      have e2 : A * (1 + stepκ N E) ^ 2 = (1 + stepκ N E) * (A * (1 + stepκ N E)) := by ring
      rw [e2]
      exact mul_le_mul_of_nonneg_right hκE (by linarith)
  refine ⟨⟨hfit, ?_, fun k hk => (hsig k hk).2.2.2, fun i k hi hk => (hout i k hi hk).2⟩, fun k hk => ⟨(hsig k hk).1, (hsig k hk).2.1, (hsig k hk).2.2.1⟩, ?_⟩
  · intro k hk
    exact (slope_bound env hl hfit (x := x) hk (hy k hk).1).2.2.2 _ _ _ _
  · intro k hk
    rw [outerError, at_range_map hk]
    have hpos : 0 < l.nOut := by
      rcases Nat.eq_zero_or_pos l.nOut with h | h
      · rw [h] at hk; simp at hk
      · exact h
    exact (hout (k / l.nOut) (k % l.nOut) ((Nat.div_lt_iff_lt_mul hpos).2 hk) (Nat.mod_lt _ hpos)).1

/-- The signal passed to the layer below. -/
theorem matVec_bound (hN : N + 6 ≤ 2 ^ 20) (hR : 1 ≤ R) (hE0 : 0 ≤ E) {l : Layer ℝ} (hl : SmoothLayer N R l) {δ δe : List ℝ} {U A : ℝ} (hU : 1 ≤ U) (hA : 1 ≤ A)
    (hδ : ∀ k, k < l.nOut → |at_ δ k| ≤ U ∧ 0 ≤ at_ δe k ∧ at_ δe k ≤ U * (A - 1)) (hmax : R * U * (A * (1 + stepκ N E)) ≤ max32) :
    (∀ i, i < l.nIn → peak (l.nOut + 6) l.nOut (absMatVecErr l.nOut l.weight.data δ δe i) ≤ max32) ∧
    ∀ i, i < l.nIn → |at_ (matVec l.nIn l.nOut l.weight.data δ) i| ≤ R * U ∧ 0 ≤ at_ (matVecError l.nIn l.nOut l.weight.data δ δe) i ∧
      at_ (matVecError l.nIn l.nOut l.weight.data δ δe) i ≤ R * U * (A * (1 + stepκ N E) - 1) := by
  obtain ⟨-, -, hm, hrow⟩ := hl
  have hU0 : 0 ≤ U := by linarith
  have hR0 : 0 ≤ R := by linarith
  obtain ⟨r1, r2⟩ := pow_rel (show l.nOut + 6 ≤ 2 ^ 20 by omega)
  have hmN : ((l.nOut + 6 : ℕ) : ℝ) ≤ N + 6 := by push_cast; exact_mod_cast Nat.add_le_add_right hm 6
  have hm20 : (l.nOut : ℝ) ≤ 2 ^ 20 := by exact_mod_cast (by omega : l.nOut ≤ 2 ^ 20)
  have hη : (l.nOut : ℝ) * η32 ≤ 2 ^ (-130 : ℤ) := by
    refine (mul_le_mul_of_nonneg_right hm20 (by unfold η32; positivity)).trans ?_
    unfold η32; norm_num
  have hη0 : 0 ≤ (l.nOut : ℝ) * η32 := by unfold η32; positivity
  have hP1 : (1 : ℝ) ≤ (1 + u32) ^ (l.nOut + 6) := one_le_pow₀ (by unfold u32; norm_num)
  have hP2 : (1 + u32) ^ (l.nOut + 6) ≤ 2 := by
    have e : u32 = (2 : ℝ) ^ (-24 : ℤ) := rfl
    rw [e]
    generalize (1 + (2 : ℝ) ^ (-24 : ℤ)) ^ (l.nOut + 6) = p at *
    generalize ((l.nOut + 6 : ℕ) : ℝ) * 2 ^ (-24 : ℤ) = y at *
    linarith
  have hPκ : (1 + u32) ^ (l.nOut + 6) + 2 ^ (-24 : ℤ) ≤ 1 + stepκ N E := by
    have e : u32 = (2 : ℝ) ^ (-24 : ℤ) := rfl
    rw [e]
    have h1 : ((l.nOut + 6 : ℕ) : ℝ) * 2 ^ (-24 : ℤ) ≤ (N + 6) * 2 ^ (-24 : ℤ) := mul_le_mul_of_nonneg_right hmN (by positivity)
    have h2 : (0 : ℝ) ≤ ((l.nOut + 6 : ℕ) : ℝ) * 2 ^ (-24 : ℤ) := by positivity
    have h3 : ((N : ℝ) + 7) * 2 ^ (-23 : ℤ) = 2 * ((N + 6) * 2 ^ (-24 : ℤ)) + 2 * 2 ^ (-24 : ℤ) := by
      rw [show (2 : ℝ) ^ (-23 : ℤ) = 2 * 2 ^ (-24 : ℤ) by norm_num]; ring
    unfold stepκ
    rw [h3]
    have h4 : (0 : ℝ) < 2 ^ (-24 : ℤ) := by positivity
    have h5 : (0 : ℝ) < 2 ^ (-19 : ℤ) := by positivity
    generalize (1 + (2 : ℝ) ^ (-24 : ℤ)) ^ (l.nOut + 6) = p at *
    generalize ((l.nOut + 6 : ℕ) : ℝ) * 2 ^ (-24 : ℤ) = y at *
    generalize ((N : ℝ) + 6) * 2 ^ (-24 : ℤ) = z at *
    generalize (2 : ℝ) ^ (-24 : ℤ) = v at *
    linarith
  have hRUA : 1 ≤ R * U * A := by
    have : 1 ≤ R * U := by nlinarith
    nlinarith
  have hmη : (l.nOut : ℝ) * η32 * (1 + u32) ^ (l.nOut + 6) ≤ R * U * A * 2 ^ (-24 : ℤ) := by
    calc _ ≤ (2 : ℝ) ^ (-130 : ℤ) * 2 := mul_le_mul hη hP2 (by linarith) (by positivity)
      _ ≤ 1 * 2 ^ (-24 : ℤ) := by norm_num
      _ ≤ _ := mul_le_mul_of_nonneg_right hRUA (by positivity)
  have hkey : (1 + u32) ^ (l.nOut + 6) * (R * U * A) + (l.nOut : ℝ) * η32 * (1 + u32) ^ (l.nOut + 6) ≤ R * U * A * (1 + stepκ N E) := by
    have := mul_le_mul_of_nonneg_left hPκ (by linarith : 0 ≤ R * U * A)
    rw [mul_add] at this
    rw [mul_comm ((1 + u32) ^ (l.nOut + 6)) (R * U * A)]
    linarith
  have habs : ∀ i, i < l.nIn → 0 ≤ absMatVecErr l.nOut l.weight.data δ δe i ∧ absMatVecErr l.nOut l.weight.data δ δe i ≤ R * U * A := by
    intro i hi
    constructor
    · apply sum_nonneg
      intro j hj
      have := hδ j (by simpa using hj)
      have h1 := abs_nonneg (at_ δ j)
      exact mul_nonneg (abs_nonneg _) (by linarith [this.2.1])
    · calc _ ≤ ∑ j ∈ range l.nOut, |at_ l.weight.data (i * l.nOut + j)| * (U * A) := by
            apply sum_le_sum
            intro j hj
            have := hδ j (by simpa using hj)
            apply mul_le_mul_of_nonneg_left _ (abs_nonneg _)
            linarith [this.1, this.2.2]
        _ = (∑ j ∈ range l.nOut, |at_ l.weight.data (i * l.nOut + j)|) * (U * A) := by rw [sum_mul]
        _ ≤ R * (U * A) := mul_le_mul_of_nonneg_right (hrow i hi) (by positivity)
        _ = _ := by ring
  constructor
  · intro i hi
    obtain ⟨a1, a2⟩ := habs i hi
    have e1 : R * U * (A * (1 + stepκ N E)) = R * U * A * (1 + stepκ N E) := by ring
    rw [e1] at hmax
    refine le_trans ?_ (hkey.trans hmax)
    unfold peak
    rw [mul_add, mul_comm ((1 + u32) ^ (l.nOut + 6)) ((l.nOut : ℝ) * η32)]
    have := mul_le_mul_of_nonneg_left a2 (by linarith : 0 ≤ (1 + u32) ^ (l.nOut + 6))
    linarith
  · intro i hi
    obtain ⟨a1, a2⟩ := habs i hi
    refine ⟨?_, ?_⟩
    · rw [matVec, at_range_map hi]
      calc _ ≤ ∑ j ∈ range l.nOut, |at_ l.weight.data (i * l.nOut + j) * at_ δ j| := abs_sum_le_sum_abs _ _
        _ ≤ ∑ j ∈ range l.nOut, |at_ l.weight.data (i * l.nOut + j)| * U := by
            apply sum_le_sum
            intro j hj
            rw [abs_mul]
            exact mul_le_mul_of_nonneg_left (hδ j (by simpa using hj)).1 (abs_nonneg _)
        _ = (∑ j ∈ range l.nOut, |at_ l.weight.data (i * l.nOut + j)|) * U := by rw [sum_mul]
        _ ≤ R * U := mul_le_mul_of_nonneg_right (hrow i hi) hU0
    · rw [matVecError, at_range_map hi]
      have s0 : 0 ≤ ∑ j ∈ range l.nOut, |at_ l.weight.data (i * l.nOut + j)| * at_ δe j :=
        sum_nonneg fun j hj => mul_nonneg (abs_nonneg _) (hδ j (by simpa using hj)).2.1
      have s1 : ∑ j ∈ range l.nOut, |at_ l.weight.data (i * l.nOut + j)| * at_ δe j ≤ R * (U * (A - 1)) := by
        calc _ ≤ ∑ j ∈ range l.nOut, |at_ l.weight.data (i * l.nOut + j)| * (U * (A - 1)) := by
              apply sum_le_sum
              intro j hj
              exact mul_le_mul_of_nonneg_left (hδ j (by simpa using hj)).2.2 (abs_nonneg _)
          _ = (∑ j ∈ range l.nOut, |at_ l.weight.data (i * l.nOut + j)|) * (U * (A - 1)) := by rw [sum_mul]
          _ ≤ _ := mul_le_mul_of_nonneg_right (hrow i hi) (by nlinarith)
      have p0 : 0 ≤ (1 + u32) ^ (l.nOut + 6) - 1 := by linarith
      constructor
      · unfold slack
        have := mul_nonneg p0 a1
        have : 0 ≤ (l.nOut : ℝ) * η32 * (1 + u32) ^ (l.nOut + 6) := mul_nonneg hη0 (by linarith)
        linarith
      · unfold slack
        have h1 := mul_le_mul_of_nonneg_left a2 p0
        have e1 : R * U * (A * (1 + stepκ N E) - 1) = R * U * A * (1 + stepκ N E) - R * U := by ring
        rw [e1]
        have e2 : ((1 + u32) ^ (l.nOut + 6) - 1) * (R * U * A) = (1 + u32) ^ (l.nOut + 6) * (R * U * A) - R * U * A := by ring
        rw [e2] at h1
        have e3 : R * (U * (A - 1)) = R * U * A - R * U := by ring
        linarith

/-- The whole backward pass. -/
theorem smallBack (env : CustomEnv ℝ) (hN : N + 6 ≤ 2 ^ 20) (hR : 1 ≤ R) (hR' : R ≤ 2 ^ 100) (hE : E ≤ 1) (g ge : List ℝ) {U : ℝ} (hU : 1 ≤ U) :
    ∀ (ls : List (Layer ℝ)) (last : Layer ℝ) (D : ℕ) (x e : List ℝ), ls.getLast? = some last → Chained ls → (∀ l ∈ ls, SmoothLayer N R l ∧ SlopeFits l) →
      depthError N R (D + ls.length) ≤ E →
      (∀ l, ls.head? = some l → ∀ i, i < l.nIn → |at_ x i| ≤ 1 ∧ 0 ≤ at_ e i ∧ at_ e i ≤ depthError N R D) →
      g.length = last.nOut → ge.length = last.nOut →
      (∀ k, k < last.nOut → |at_ g k| ≤ U ∧ 0 ≤ at_ ge k ∧ at_ ge k ≤ U * ((1 + stepκ N E) - 1)) →
      U * R ^ (ls.length - 1) * (1 + stepκ N E) ^ (2 * ls.length + 1) ≤ max32 →
      BackSafe env ls x e g ge ∧
      (∀ l, ls.head? = some l → (backError env ls x e g ge).1.length = l.nOut ∧ (backError env ls x e g ge).2.1.length = l.nOut ∧
        ∀ k, k < l.nOut → |at_ (backError env ls x e g ge).1 k| ≤ U * R ^ (ls.length - 1) ∧ 0 ≤ at_ (backError env ls x e g ge).2.1 k ∧
          at_ (backError env ls x e g ge).2.1 k ≤ U * R ^ (ls.length - 1) * ((1 + stepκ N E) ^ (2 * ls.length) - 1)) ∧
      (backError env ls x e g ge).2.2.length = nParams ls ∧
      ∀ k, k < nParams ls → at_ (backError env ls x e g ge).2.2 k ≤ U * R ^ (ls.length - 1) * ((1 + stepκ N E) ^ (2 * ls.length + 1) - 1)
  | [], _, _, _, _, h, _, _, _, _, _, _, _, _ => by simp at h
  | [l], last, D, x, e, h, _, hs, hD, hx, lg, lge, hg, hmax => by
    simp at h; subst h
    obtain ⟨hsm, hfit⟩ := hs l (by simp)
    have h0 : 0 ≤ depthError N R D := by unfold depthError layerδ; positivity
    have h1 := depthError_mono N (by linarith : 0 ≤ R) (show D ≤ D + [l].length by simp)
    have hx' := hx l rfl
    have hE0 : 0 ≤ E := h0.trans (h1.trans hD)
    have hκ := stepκ_pos (N := N) hE0
    obtain ⟨g1, g2, g3⟩ := smallLayer_step env (by omega) hR hR' h0 ((h1.trans hD).trans hE) hsm.1 (fun i hi => (hx' i hi).1) (fun i hi => (hx' i hi).2)
    have hy : ∀ k, k < l.nOut → 0 ≤ at_ (layerError l x e) k ∧ at_ (layerError l x e) k ≤ E := fun k hk =>
      ⟨(g3 k hk).1, (g3 k hk).2.trans (by rw [← depthError_succ]; exact hD)⟩
    simp only [List.length_singleton, Nat.sub_self, pow_zero, mul_one, Nat.reduceAdd] at hmax ⊢
    obtain ⟨b1, b2, b3⟩ := step_bound env hsm hfit hE0 hE (fun i hi => ⟨(hx' i hi).1, (hx' i hi).2.1, (hx' i hi).2.2.trans (h1.trans hD)⟩) hy lg lge hU (by linarith : 1 ≤ 1 + stepκ N E) hg
      (by rw [← pow_succ']; exact hmax)
    have lδ := signal_length l.slopeOf ((l.toSpec env).apply x) g
    have lδe := signalError_length l.slopeOf ((l.toSpec env).apply x) (layerError l x e) g ge (by omega)
    rw [← pow_succ'] at b3
    rw [← pow_two] at b2
    refine ⟨b1, ?_, ?_, ?_⟩
    · intro m hm
      simp at hm; subst hm
      exact ⟨lδ.trans lg, lδe.trans lg, b2⟩
    · rw [nParams_cons]
      have := len_append (lδe.trans lg) (outerError_length l.nIn l.nOut x e (signal l.slopeOf ((l.toSpec env).apply x) g)
        (signalError l.slopeOf ((l.toSpec env).apply x) (layerError l x e) g ge))
      simp only [nParams, List.map_nil, List.sum_nil, Nat.add_zero]
      exact this
    · intro k hk
      rw [nParams_cons] at hk
      simp only [nParams, List.map_nil, List.sum_nil, Nat.add_zero] at hk
      simp only [backError]
      rcases Nat.lt_or_ge k l.nOut with h | h
      · rw [at_append_left' (by rw [lδe, lg]; exact h)]
        refine (b2 k h).2.2.trans ?_
        apply mul_le_mul_of_nonneg_left _ (by linarith)
        have := pow_le_pow_right₀ (by linarith : 1 ≤ 1 + stepκ N E) (show 2 ≤ 3 by norm_num)
        linarith
      · rw [at_append_right' (by rw [lδe, lg]; exact h), lδe, lg]
        exact b3 _ (by omega)
  | l :: l' :: ls, last, D, x, e, h, hc, hs, hD, hx, lg, lge, hg, hmax => by
    obtain ⟨hsm, hfit⟩ := hs l (by simp)
    have h0 : 0 ≤ depthError N R D := by unfold depthError layerδ; positivity
    have h1 := depthError_mono N (by linarith : 0 ≤ R) (show D ≤ D + (l :: l' :: ls).length by simp)
    have h1' := depthError_mono N (by linarith : 0 ≤ R) (show D + 1 ≤ D + (l :: l' :: ls).length by simp)
    have hx' := hx l rfl
    have hE0 : 0 ≤ E := h0.trans (h1.trans hD)
    have hκ := stepκ_pos (N := N) hE0
    have hκ1 : 1 ≤ 1 + stepκ N E := by linarith
    obtain ⟨g1, g2, g3⟩ := smallLayer_step env (by omega) hR hR' h0 ((h1.trans hD).trans hE) hsm.1 (fun i hi => (hx' i hi).1) (fun i hi => (hx' i hi).2)
    have hy : ∀ k, k < l.nOut → 0 ≤ at_ (layerError l x e) k ∧ at_ (layerError l x e) k ≤ E := fun k hk =>
      ⟨(g3 k hk).1, (g3 k hk).2.trans (by rw [← depthError_succ]; exact h1'.trans hD)⟩
    have e1 : D + 1 + (l' :: ls).length = D + (l :: l' :: ls).length := by simp; omega
    have el : (l :: l' :: ls).length = (l' :: ls).length + 1 := rfl
    have el2 : (l :: l' :: ls).length - 1 = (l' :: ls).length := rfl
    have hd1 : 1 ≤ (l' :: ls).length := by simp
    rw [el2, el] at hmax
    rw [el2, el]
    generalize hd : (l' :: ls).length = d at *
    have hU0 : 0 ≤ U := by linarith
    have hRd : 1 ≤ R ^ (d - 1) := one_le_pow₀ hR
    have hRR : R * (U * R ^ (d - 1)) = U * R ^ d := by
      obtain ⟨j, rfl⟩ : ∃ j, d = j + 1 := ⟨d - 1, by omega⟩
      rw [Nat.add_sub_cancel, pow_succ]; ring
    have hUR : 1 ≤ U * R ^ (d - 1) := by nlinarith
    have hUR' : 1 ≤ R * (U * R ^ (d - 1)) := by nlinarith
    have hle : U * R ^ (d - 1) ≤ U * R ^ d := by rw [← hRR]; nlinarith
    have hmaxd : ∀ j, j ≤ 2 * (d + 1) + 1 → U * R ^ d * (1 + stepκ N E) ^ j ≤ max32 := by
      intro j hj
      refine le_trans ?_ hmax
      apply mul_le_mul_of_nonneg_left _ (by linarith)
      exact pow_le_pow_right₀ hκ1 hj
    obtain ⟨i1, i2, i3, i4⟩ := smallBack env hN hR hR' hE g ge hU (l' :: ls) last (D + 1) ((l.toSpec env).apply x) (layerError l x e) (by simpa using h) hc.2
      (fun m hm => hs m (by simp [List.mem_cons.mp hm])) (by rw [hd, e1]; exact hD)
      (fun m hm i hi => by
        simp at hm; subst hm
        rw [← hc.1] at hi
        refine ⟨g2 i hi, (g3 i hi).1, ?_⟩
        rw [depthError_succ]; exact (g3 i hi).2) lg lge hg
      (by
        rw [hd]
        refine le_trans ?_ (hmaxd (2 * d + 1) (by omega))
        exact mul_le_mul_of_nonneg_right hle (by positivity))
    rw [hd] at i2 i4
    obtain ⟨j1, j2, j3⟩ := i2 l' rfl
    have hA : 1 ≤ (1 + stepκ N E) ^ (2 * d) := one_le_pow₀ hκ1
    have hio : l'.nIn = l.nOut := hc.1.symm
    obtain ⟨m1, m2⟩ := matVec_bound hN hR hE0 (hs l' (by simp)).1 hUR hA j3 (by
      rw [hRR, ← pow_succ]; exact hmaxd _ (by omega))
    rw [← pow_succ, hRR] at m2
    rw [hRR] at hUR'
    obtain ⟨b1, b2, b3⟩ := step_bound env hsm hfit hE0 hE (fun i hi => ⟨(hx' i hi).1, (hx' i hi).2.1, (hx' i hi).2.2.trans (h1.trans hD)⟩) hy
      (u := matVec l'.nIn l'.nOut l'.weight.data (backError env (l' :: ls) ((l.toSpec env).apply x) (layerError l x e) g ge).1)
      (ue := matVecError l'.nIn l'.nOut l'.weight.data (backError env (l' :: ls) ((l.toSpec env).apply x) (layerError l x e) g ge).1
        (backError env (l' :: ls) ((l.toSpec env).apply x) (layerError l x e) g ge).2.1)
      (by simp [matVec, hio]) (by simp [matVecError, hio]) hUR' (one_le_pow₀ hκ1 : 1 ≤ (1 + stepκ N E) ^ (2 * d + 1))
      (by rw [← hio]; exact m2) (by rw [← pow_add]; exact hmaxd _ (by omega))
    rw [← pow_add] at b3
    rw [← pow_succ] at b2
    have lu : (matVec l'.nIn l'.nOut l'.weight.data (backError env (l' :: ls) ((l.toSpec env).apply x) (layerError l x e) g ge).1).length = l.nOut := by
      simp [matVec, hio]
    have lue : (matVecError l'.nIn l'.nOut l'.weight.data (backError env (l' :: ls) ((l.toSpec env).apply x) (layerError l x e) g ge).1
        (backError env (l' :: ls) ((l.toSpec env).apply x) (layerError l x e) g ge).2.1).length = l.nOut := by simp [matVecError, hio]
    have lδ := signal_length l.slopeOf ((l.toSpec env).apply x) (matVec l'.nIn l'.nOut l'.weight.data (backError env (l' :: ls) ((l.toSpec env).apply x) (layerError l x e) g ge).1)
    have lδe := signalError_length l.slopeOf ((l.toSpec env).apply x) (layerError l x e) _ _ (lue.trans lu.symm)
    have lδe' := lδe.trans lu
    have lo := outerError_length l.nIn l.nOut x e (signal l.slopeOf ((l.toSpec env).apply x) (matVec l'.nIn l'.nOut l'.weight.data
      (backError env (l' :: ls) ((l.toSpec env).apply x) (layerError l x e) g ge).1)) (signalError l.slopeOf ((l.toSpec env).apply x) (layerError l x e)
        (matVec l'.nIn l'.nOut l'.weight.data (backError env (l' :: ls) ((l.toSpec env).apply x) (layerError l x e) g ge).1)
        (matVecError l'.nIn l'.nOut l'.weight.data (backError env (l' :: ls) ((l.toSpec env).apply x) (layerError l x e) g ge).1
          (backError env (l' :: ls) ((l.toSpec env).apply x) (layerError l x e) g ge).2.1))
    have hURd : 0 ≤ U * R ^ d := by linarith
    refine ⟨⟨i1, m1, b1⟩, ?_, ?_, ?_⟩
    · intro m hm
      simp at hm; subst hm
      exact ⟨lδ.trans lu, lδe', b2⟩
    · rw [nParams_cons]
      exact len_append (len_append lδe' lo) i3
    · intro k hk
      rw [nParams_cons] at hk
      simp only [backError]
      rcases Nat.lt_or_ge k (l.nOut + l.nIn * l.nOut) with h | h
      · rw [at_append_left' (by rw [len_append lδe' lo]; exact h)]
        rcases Nat.lt_or_ge k l.nOut with h' | h'
        · rw [at_append_left' (by rw [lδe']; exact h')]
          refine (b2 k h').2.2.trans ?_
          apply mul_le_mul_of_nonneg_left _ hURd
          have := pow_le_pow_right₀ hκ1 (show 2 * d + 1 + 1 ≤ 2 * (d + 1) + 1 by omega)
          linarith
        · rw [at_append_right' (by rw [lδe']; exact h'), lδe']
          exact b3 _ (by omega)
      · rw [at_append_right' (by rw [len_append lδe' lo]; exact h), len_append lδe' lo]
        refine (i4 _ (by omega)).trans ?_
        have p1 := pow_le_pow_right₀ hκ1 (show 2 * d + 1 ≤ 2 * (d + 1) + 1 by omega)
        have p2 : 1 ≤ (1 + stepκ N E) ^ (2 * d + 1) := one_le_pow₀ hκ1
        exact mul_le_mul hle (by linarith) (by linarith) hURd

theorem lossStart {loss : Loss} (hl : loss = .mse ∨ loss = .bce) {n : ℕ} (hn : 1 ≤ n) (hE0 : 0 ≤ E) (hE : E ≤ 1) {p e y : ℝ} (hp : |p| ≤ 1) (he0 : 0 ≤ e)
    (he : e ≤ E) (hy : |y| ≤ 1) : |lossSlope loss n p y| ≤ 4 ∧ 0 ≤ lossSlopeError loss n p e y ∧ lossSlopeError loss n p e y ≤ 4 * ((1 + stepκ N E) - 1) ∧
      |p - y| + e ≤ 2 ^ (126 : ℤ) := by
  have h1 : |p - y| ≤ 2 := (abs_sub p y).trans (by linarith)
  have h10 := abs_nonneg (p - y)
  have hn' : (1 : ℝ) ≤ n := by exact_mod_cast hn
  have hdiv : ∀ a : ℝ, 0 ≤ a → a / n ≤ a := fun a ha => div_le_self ha hn'
  have hk : (0 : ℝ) ≤ (N + 7) * 2 ^ (-23 : ℤ) := by positivity
  have hκ : 2 * E + 2 ^ (-19 : ℤ) ≤ stepκ N E := by
    unfold stepκ
    generalize ((N : ℝ) + 7) * 2 ^ (-23 : ℤ) = a at *
    linarith
  have h2 : (2 : ℝ) ^ (-21 : ℤ) * (|p - y| + e) ≤ 2 ^ (-21 : ℤ) * 3 := mul_le_mul_of_nonneg_left (by linarith) (by positivity)
  have h20 : (0 : ℝ) ≤ 2 ^ (-21 : ℤ) * (|p - y| + e) := by positivity
  have h3 : (2 : ℝ) ^ (-21 : ℤ) * 3 + 2 ^ (-140 : ℤ) ≤ 2 ^ (-19 : ℤ) := by norm_num
  have h4 : (0 : ℝ) < 2 ^ (-19 : ℤ) := by positivity
  have h5 : (0 : ℝ) < 2 ^ (-140 : ℤ) := by positivity
  have h126 : |p - y| + e ≤ 2 ^ (126 : ℤ) := by
    have : (3 : ℝ) ≤ 2 ^ (126 : ℤ) := by norm_num
    linarith
  rcases hl with rfl | rfl
  · simp only [lossSlope, lossSlopeError]
    refine ⟨?_, by positivity, ?_, h126⟩
    · rw [abs_div, abs_mul, abs_of_pos (by linarith : (0 : ℝ) < n)]
      refine (hdiv _ (by positivity)).trans ?_
      rw [abs_two]; linarith
    · have := hdiv (2 * e + 2 ^ (-21 : ℤ) * (|p - y| + e)) (by positivity)
      generalize (2 * e + 2 ^ (-21 : ℤ) * (|p - y| + e)) / (n : ℝ) = q at *
      generalize (2 : ℝ) ^ (-21 : ℤ) * (|p - y| + e) = r at *
      generalize (2 : ℝ) ^ (-21 : ℤ) * 3 = s at *
      generalize (2 : ℝ) ^ (-140 : ℤ) = t at *
      generalize (2 : ℝ) ^ (-19 : ℤ) = v at *
      linarith
  · simp only [lossSlope, lossSlopeError]
    refine ⟨?_, by positivity, ?_, h126⟩
    · rw [abs_div, abs_of_pos (by linarith : (0 : ℝ) < n)]
      refine (hdiv _ (by positivity)).trans ?_
      linarith
    · have := hdiv (e + 2 ^ (-21 : ℤ) * (|p - y| + e)) (by positivity)
      generalize (e + 2 ^ (-21 : ℤ) * (|p - y| + e)) / (n : ℝ) = q at *
      generalize (2 : ℝ) ^ (-21 : ℤ) * (|p - y| + e) = r at *
      generalize (2 : ℝ) ^ (-21 : ℤ) * 3 = s at *
      generalize (2 : ℝ) ^ (-140 : ℤ) = t at *
      generalize (2 : ℝ) ^ (-19 : ℤ) = v at *
      linarith

end

/-- With bounded weights the activations of the last layer are bounded. -/
theorem network_bounded (env : CustomEnv ℝ) {N : ℕ} {R : ℝ} : ∀ (ls : List (Layer ℝ)) (last : Layer ℝ) (x : List ℝ), ls.getLast? = some last → (∀ l ∈ ls, SmallLayer N R l) →
    ∀ k, k < last.nOut → |at_ (Spec.network (ls.map (Layer.toSpec env)) x) k| ≤ 1
  | [], _, _, h, _ => by simp at h
  | [l], last, x, h, hs => by
    simp at h; subst h
    obtain ⟨hsq, -, -⟩ := hs l (by simp)
    obtain ⟨f, hf, -, -, -, -, hf1⟩ := hsq.spec
    intro k hk
    have : Spec.network ([l].map (Layer.toSpec env)) x = (affine l.nIn l.nOut l.weight.data l.bias.data x).map f := by
      show (l.toSpec env).apply x = _
      unfold Spec.Layer.apply Layer.toSpec
      simp only [actSpec_textbook env l.act f hf]
    rw [this, at_map' (by simp [affine, hk])]
    exact hf1 _
  | l :: l' :: ls, last, x, h, hs => by
    intro k hk
    exact network_bounded env (l' :: ls) last ((l.toSpec env).apply x) (by simpa using h) (fun m hm => hs m (by simp [List.mem_cons.mp hm])) k hk

theorem netError_nonneg (env : CustomEnv ℝ) {N : ℕ} {R : ℝ} (hN : N < 2 ^ 20) (hR : 1 ≤ R) (hR' : R ≤ 2 ^ 100) :
    ∀ (ls : List (Layer ℝ)) (last : Layer ℝ) (D : ℕ) (x e : List ℝ), ls.getLast? = some last → Chained ls → (∀ l ∈ ls, SmallLayer N R l) →
      depthError N R (D + ls.length) ≤ 1 →
      (∀ l, ls.head? = some l → ∀ i, i < l.nIn → |at_ x i| ≤ 1 ∧ 0 ≤ at_ e i ∧ at_ e i ≤ depthError N R D) →
      ∀ k, k < last.nOut → 0 ≤ at_ (netError env ls x e) k
  | [], _, _, _, _, h, _, _, _, _ => by simp at h
  | [l], last, D, x, e, h, _, hs, hD, hx => by
    simp at h; subst h
    have h0 : 0 ≤ depthError N R D := by unfold depthError layerδ; positivity
    have h1 := depthError_mono N (by linarith : 0 ≤ R) (show D ≤ D + [l].length by simp)
    have hx' := hx l rfl
    obtain ⟨g1, g2, g3⟩ := smallLayer_step env hN hR hR' h0 (h1.trans hD) (hs l (by simp)) (fun i hi => (hx' i hi).1) (fun i hi => (hx' i hi).2)
    exact fun k hk => (g3 k hk).1
  | l :: l' :: ls, last, D, x, e, h, hc, hs, hD, hx => by
    have h0 : 0 ≤ depthError N R D := by unfold depthError layerδ; positivity
    have h1 := depthError_mono N (by linarith : 0 ≤ R) (show D ≤ D + (l :: l' :: ls).length by simp)
    have hx' := hx l rfl
    obtain ⟨g1, g2, g3⟩ := smallLayer_step env hN hR hR' h0 (h1.trans hD) (hs l (by simp)) (fun i hi => (hx' i hi).1) (fun i hi => (hx' i hi).2)
    have e1 : D + 1 + (l' :: ls).length = D + (l :: l' :: ls).length := by simp; omega
    exact netError_nonneg env hN hR hR' (l' :: ls) last (D + 1) ((l.toSpec env).apply x) (layerError l x e) (by simpa using h) hc.2
      (fun m hm => hs m (by simp [List.mem_cons.mp hm])) (by rw [e1]; exact hD)
      (fun m hm i hi => by
        simp at hm; subst hm
        rw [← hc.1] at hi
        refine ⟨g2 i hi, (g3 i hi).1, ?_⟩
        rw [depthError_succ]; exact (g3 i hi).2)

theorem Net.values_setLoss (recs : List ActRecord) (nn : Net B32) (name : String) : (setLoss recs nn name).values = setLoss recs nn.values name := by
  unfold setLoss
  split
  · rfl
  · simp only [Net.values, matchPair, List.map_map, List.getLast?_map]
    cases h : nn.layers.getLast? with
    | none => simp [Function.comp_def, resetDeriv, Layer.values]
    | some last =>
      simp only [Option.map_some, Function.comp_apply]
      split
      · rename_i hc
        rw [if_pos (by exact hc)]
        simp [Function.comp_def, resetDeriv, Layer.values, List.map_dropLast]
      · rename_i hc
        rw [if_neg (by exact hc)]
        simp [Function.comp_def, resetDeriv, Layer.values]

theorem BackAligned_values (c : Cfg) (ga : ℕ) : ∀ (gb : ℕ) (ls : List (Layer B32)), BackAligned c ga gb (ls.map Layer.values) ↔ BackAligned c ga gb ls
  | _, [] => Iff.rfl
  | _, [_] => Iff.rfl
  | _, _ :: l' :: ls => and_congr Iff.rfl (and_congr Iff.rfl (BackAligned_values c ga _ (l' :: ls)))

/-- With bounded weights the exact gradient is bounded. -/
theorem smooth_grad (env : CustomEnv ℝ) (c : Cfg) {N : ℕ} {R : ℝ} (hR : 1 ≤ R) (g : List ℝ) {U : ℝ} (hU : 1 ≤ U) :
    ∀ (ls : List (Layer ℝ)) (last : Layer ℝ), ls.getLast? = some last → (∀ l ∈ ls, l.WF c) → Chained ls →
      (∀ l ∈ ls, SmoothLayer N R l ∧ SlopeFits l) → g.length = last.nOut → (∀ k, k < last.nOut → |at_ g k| ≤ U) →
      ∀ x, (∀ l, ls.head? = some l → x.length = l.nIn ∧ ∀ i, i < l.nIn → |at_ x i| ≤ 1) →
      (∀ k, |at_ (backF env c (traceF env c ls x) g).2 k| ≤ U * R ^ (ls.length - 1)) ∧
      ∀ k, |at_ (backF env c (traceF env c ls x) g).1 k| ≤ U * R ^ (ls.length - 1) := by
  have hcust : ∀ l : Layer ℝ, SmoothLayer N R l → ∀ i, l.act ≠ .custom i := by
    rintro l ⟨⟨h, -⟩, -⟩ i hi
    rcases h with h | h | h | h <;> rw [h] at hi <;> simp at hi
  -- one layer
  have step : ∀ (l : Layer ℝ), SmoothLayer N R l → SlopeFits l → l.WF c → ∀ x, x.length = l.nIn → (∀ i, i < l.nIn → |at_ x i| ≤ 1) → ∀ (u : List ℝ) (V : ℝ), 0 ≤ V →
      u.length = l.nOut → (∀ k, k < l.nOut → |at_ u k| ≤ V) →
      (∀ k, |at_ (signal l.slopeOf ((l.toSpec env).apply x) u) k| ≤ V) ∧
      ∀ k, |at_ (signal l.slopeOf ((l.toSpec env).apply x) u ++ outerF l.nIn l.nOut x (signal l.slopeOf ((l.toSpec env).apply x) u)) k| ≤ V := by
    intro l hs hf hw x lx hx u V hV lu hu
    have h1 : ∀ k, |at_ (signal l.slopeOf ((l.toSpec env).apply x) u) k| ≤ V := by
      intro k
      by_cases hk : k < u.length
      · rw [signal, at_range_map hk, abs_mul]
        have h2 := (slope_bound env hs hf (x := x) (show k < l.nOut by omega) (le_refl (0 : ℝ))).1
        calc _ ≤ V * 1 := mul_le_mul (hu k (by omega)) h2 (abs_nonneg _) hV
          _ = V := mul_one V
      · have : at_ (signal l.slopeOf ((l.toSpec env).apply x) u) k = 0 := by
          simp only [at_, List.getD_eq_getElem?_getD]
          rw [List.getElem?_eq_none (by rw [signal_length]; omega)]; rfl
        rw [this, abs_zero]; exact hV
    refine ⟨h1, fun k => ?_⟩
    have ls := signal_length l.slopeOf ((l.toSpec env).apply x) u
    rw [outerF_real _ _ _ _ (by omega) (by omega)]
    by_cases hk : k < (signal l.slopeOf ((l.toSpec env).apply x) u).length
    · rw [at_append_left' hk]; exact h1 k
    · rw [at_append_right' (by omega)]
      generalize k - (signal l.slopeOf ((l.toSpec env).apply x) u).length = j
      by_cases hj : j < l.nIn * l.nOut
      · rw [outer, at_range_map hj, abs_mul]
        have hpos : 0 < l.nOut := hw.out_pos
        calc _ ≤ 1 * V := mul_le_mul (hx _ ((Nat.div_lt_iff_lt_mul hpos).2 hj)) (h1 _) (abs_nonneg _) zero_le_one
          _ = V := one_mul V
      · have : at_ (outer l.nIn l.nOut x (signal l.slopeOf ((l.toSpec env).apply x) u)) j = 0 := by
          simp only [at_, List.getD_eq_getElem?_getD]
          rw [List.getElem?_eq_none (by rw [outer_length]; omega)]; rfl
        rw [this, abs_zero]; exact hV
  intro ls
  induction ls with
  | nil => intro last h; simp at h
  | cons l ls ih =>
    intro last h hw hc hs lg hg x hx
    obtain ⟨lx, hx1⟩ := hx l rfl
    obtain ⟨s1, s2⟩ := hs l (by simp)
    have h1 := layerF_real env c l (hw l (by simp)) 0 x lx
    cases ls with
    | nil =>
      simp at h; subst h
      simp only [traceF, backF, h1, derivF_signal env c l x g (hcust l s1) s2 lg, List.length_singleton, Nat.sub_self, pow_zero, mul_one]
      exact step l s1 s2 (hw l (by simp)) x lx hx1 g U (by linarith) lg hg
    | cons l' ls =>
      have hal := apply_length env l x
      have hb1 : ∀ i, i < l.nOut → |at_ ((l.toSpec env).apply x) i| ≤ 1 := network_bounded env [l] l x rfl (by simpa using s1.1)
      obtain ⟨i1, i2⟩ := ih last (by simpa using h) (fun m hm => hw m (by simp [List.mem_cons.mp hm])) hc.2
        (fun m hm => hs m (by simp [List.mem_cons.mp hm])) lg hg ((l.toSpec env).apply x)
        (fun m hm => by simp at hm; subst hm; rw [hal, hc.1]; exact ⟨rfl, fun i hi => hb1 i (by rw [hc.1]; exact hi)⟩)
      have lb := ((backF_shape env c (l' :: ls) ((l.toSpec env).apply x) g last (by simpa using h) lg hc.2).2 l' rfl).1
      have hwl := (hw l' (by simp)).weight_len
      have hd1 : (l :: l' :: ls).length - 1 = (l' :: ls).length - 1 + 1 := by simp
      rw [hd1, pow_succ]
      generalize (l' :: ls).length - 1 = d at *
      simp only [traceF] at i1 i2 lb
      simp only [traceF, backF, h1]
      rw [mvmF_real c _ _ _ _ (by omega) (by omega), derivF_signal env c l x _ (hcust l s1) s2 (by simp [matVec, hc.1])]
      have hV : 0 ≤ U * R ^ d := by positivity
      have hVR : U * R ^ d ≤ U * (R ^ d * R) := by rw [← mul_assoc]; exact le_mul_of_one_le_right hV hR
      obtain ⟨j1, j2⟩ := step l s1 s2 (hw l (by simp)) x lx hx1 (matVec l'.nIn l'.nOut l'.weight.data
        (backF env c ((l', (l.toSpec env).apply x, layerF env c l' 0 ((l.toSpec env).apply x)) :: traceF env c ls (layerF env c l' 0 ((l.toSpec env).apply x))) g).2)
        (U * (R ^ d * R)) (hV.trans hVR) (by simp [matVec, hc.1]) (by
          intro k hk
          rw [hc.1] at hk
          rw [matVec, at_range_map hk]
          refine (abs_sum_le_sum_abs _ _).trans ?_
          calc _ ≤ ∑ j ∈ range l'.nOut, |at_ l'.weight.data (k * l'.nOut + j)| * (U * R ^ d) := by
                refine sum_le_sum fun j _ => ?_
                rw [abs_mul]
                exact mul_le_mul_of_nonneg_left (i1 j) (abs_nonneg _)
            _ = (∑ j ∈ range l'.nOut, |at_ l'.weight.data (k * l'.nOut + j)|) * (U * R ^ d) := by rw [sum_mul]
            _ ≤ R * (U * R ^ d) := mul_le_mul_of_nonneg_right ((hs l' (by simp)).1.2.2.2 k hk) hV
            _ = _ := by ring)
      refine ⟨j1, fun k => ?_⟩
      rcases Nat.lt_or_ge k (signal l.slopeOf ((l.toSpec env).apply x) (matVec l'.nIn l'.nOut l'.weight.data
        (backF env c ((l', (l.toSpec env).apply x, layerF env c l' 0 ((l.toSpec env).apply x)) :: traceF env c ls (layerF env c l' 0 ((l.toSpec env).apply x))) g).2) ++
        outerF l.nIn l.nOut x (signal l.slopeOf ((l.toSpec env).apply x) (matVec l'.nIn l'.nOut l'.weight.data
        (backF env c ((l', (l.toSpec env).apply x, layerF env c l' 0 ((l.toSpec env).apply x)) :: traceF env c ls (layerF env c l' 0 ((l.toSpec env).apply x))) g).2))).length with hk | hk
      · rw [at_append_left' hk]; exact j2 k
      · rw [at_append_right' hk]; exact (i2 _).trans hVR

end NN
