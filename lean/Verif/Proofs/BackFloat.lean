import Verif.Proofs.DerivFloat
import Verif.Proofs.InitFloat
import Verif.Proofs.Gradient
/-
The backward pass in `float` arithmetic.
-/
set_option linter.unusedSimpArgs false

namespace NN
open B32 Finset Spec

/-! ### Lists -/

theorem Within.append {n m : ℕ} {o o' : List B32} {z z' e e' : List ℝ} (h : Within n o z e) (h' : Within m o' z' e') (lo : o.length = n)
    (lz : z.length = n) (le : e.length = n) : Within (n + m) (o ++ o') (z ++ z') (e ++ e') := by
  intro k hk
  by_cases hkn : k < n
  · obtain ⟨a, h1, h2, h3⟩ := h k hkn
    refine ⟨a, ?_, h2, ?_⟩
    · rw [List.getElem?_append_left (by omega)]; exact h1
    · rw [at_append_left (by omega), at_append_left (by omega)]; exact h3
  · obtain ⟨j, rfl⟩ := Nat.exists_eq_add_of_le (not_lt.1 hkn)
    obtain ⟨a, h1, h2, h3⟩ := h' j (by omega)
    refine ⟨a, ?_, h2, ?_⟩
    · rw [List.getElem?_append_right (by omega), lo, Nat.add_sub_cancel_left]; exact h1
    · rw [at_append_right lz, at_append_right le]; exact h3

theorem Within.finite {n : ℕ} {o : List B32} {z e : List ℝ} (h : Within n o z e) (lo : o.length = n) : ∀ v ∈ o, v.isFinite = true := by
  intro v hv
  obtain ⟨k, hk, rfl⟩ := List.mem_iff_getElem.1 hv
  obtain ⟨a, h1, h2, _⟩ := h k (by omega)
  rw [List.getElem?_eq_getElem hk] at h1
  simp only [Option.some.injEq] at h1
  rwa [h1]

theorem Within.value {n : ℕ} {o : List B32} {z e : List ℝ} (h : Within n o z e) (lo : o.length = n) {k : ℕ} (hk : k < n) :
    |at_ (o.map B32.value) k - at_ z k| ≤ at_ e k := by
  obtain ⟨a, h1, _, h3⟩ := h k hk
  have hk' : k < o.length := by omega
  rw [List.getElem?_eq_getElem hk'] at h1
  simp only [Option.some.injEq] at h1
  have : at_ (o.map B32.value) k = a.value := by rw [← h1]; simp [at_, hk']
  rwa [this]

theorem within_values (xs : List B32) (h : ∀ x ∈ xs, x.isFinite = true) (n : ℕ) (hn : xs.length = n) :
    Within n xs (xs.map B32.value) (List.replicate n 0) := by
  subst hn
  intro k hk
  refine ⟨_, List.getElem?_eq_getElem hk, h _ (List.getElem_mem hk), ?_⟩
  have e1 : at_ (xs.map B32.value) k = (xs[k]).value := by simp [at_, hk]
  rw [e1, sub_self, abs_zero]
  simp [at_, hk]

theorem abs_perturb {x' x e : ℝ} (h : |x' - x| ≤ e) : |x'| ≤ |x| + e := by
  have := abs_add_le (x' - x) x
  rw [sub_add_cancel] at this
  linarith

/-! ### Products -/

theorem max32_eq : max32 = maxF32 := by unfold max32 maxF32; norm_num

theorem mul_within {a b : B32} {x' y' x y e f : ℝ} (ha : Is a x') (hb : Is b y') (hx : |x' - x| ≤ e) (hy : |y' - y| ≤ f)
    (hm : (|x| + e) * (|y| + f) ≤ max32) :
    (B32.mul a b).isFinite = true ∧ |(B32.mul a b).value - x * y| ≤ mulError x e y f := by
  have h1 := abs_perturb hx
  have h2 := abs_perturb hy
  have h3 : |x' * y'| ≤ (|x| + e) * (|y| + f) := by
    rw [abs_mul]; exact mul_le_mul h1 h2 (abs_nonneg _) ((abs_nonneg _).trans h1)
  have hi := mul_is ha hb (h3.trans (hm.trans max32_eq.le))
  refine ⟨hi.1, ?_⟩
  rw [hi.2]
  have h4 := rnd_abs (x' * y')
  have h5 : |x' * y' - x * y| ≤ e * |y| + (|x| + e) * f := by
    rw [show x' * y' - x * y = (x' - x) * y + x' * (y' - y) by ring]
    refine (abs_add_le _ _).trans ?_
    rw [abs_mul, abs_mul]
    exact add_le_add (mul_le_mul_of_nonneg_right hx (abs_nonneg _)) (mul_le_mul h1 hy (abs_nonneg _) ((abs_nonneg _).trans h1))
  have h6 := abs_tri (rnd (x' * y')) (x' * y') (x * y)
  have h7 : u32 * |x' * y'| ≤ u32 * ((|x| + e) * (|y| + f)) := mul_le_mul_of_nonneg_left h3 (by unfold u32; positivity)
  unfold mulError
  unfold u32 η32 at *
  linarith

theorem mul_within' {a b : B32} {x' y' x y e f : ℝ} (ha : Is a x') (hb : Is b y') (hx : |x' - x| ≤ e) (hy : |y' - y| ≤ f)
    (hm : (|x| + e) * (|y| + f) ≤ max32) :
    (B32.mul b a).isFinite = true ∧ |(B32.mul b a).value - x * y| ≤ mulError x e y f := by
  have h1 := abs_perturb hx
  have h2 := abs_perturb hy
  have h3 : |x' * y'| ≤ max32 := by
    rw [abs_mul]; exact (mul_le_mul h1 h2 (abs_nonneg _) ((abs_nonneg _).trans h1)).trans hm
  have hi := mul_is ha hb (h3.trans max32_eq.le)
  have hi' := mul_is hb ha (by rw [mul_comm]; exact h3.trans max32_eq.le)
  have := mul_within ha hb hx hy hm
  rw [hi.2] at this
  refine ⟨hi'.1, ?_⟩
  rw [hi'.2, mul_comm]
  exact this.2

/-! ### The derivatives of a layer -/

theorem layerF_slope (env : CustomEnv B32) (envR : CustomEnv ℝ) {L : Libm} (hL : L.Accurate) (c : Cfg) (l : Layer B32) (hw : l.WF c)
    (hf : l.Finite) (addr : ℕ) (xs : List B32) (x e : List ℝ) (lx : xs.length = l.nIn) (hx : Within l.nIn xs x e)
    (hs : LayerSafe l.values x e) {f : ℝ → ℝ} (ht : textbook l.act = some f) (hlin : l.act ≠ .linear)
    (hsl : ∀ k, k < l.nOut → SlopeSafe (derivOf l.act) (at_ (affine l.nIn l.nOut l.values.weight.data l.values.bias.data x) k)
      (at_ (affineError l.nIn l.nOut l.values.weight.data l.values.bias.data x e) k) (at_ ((l.values.toSpec envR).apply x) k)
      (at_ (layerError l.values x e) k)) :
    ∀ k, k < l.nOut → ∃ a s, (@layerF B32 (ops L) env c l addr xs)[k]? = some a ∧ Is (slopeFn L (derivOf l.act) a) s ∧
      |s - slope (derivOf l.act) (at_ ((l.values.toSpec envR).apply x) k)| ≤ slopeError (derivOf l.act) (at_ (layerError l.values x e) k) := by
  intro k hk
  obtain ⟨a, ha1, ha2, ha3⟩ := layerF_within env envR hL c l hw hf addr xs x e lx hx hs k hk
  obtain ⟨s1, s2, s3, s4⟩ := hs
  have hv := vmmF_within (L := L) c l.nIn l.nOut hf.1 hf.2 hw.weight_len hw.bias_len lx hx s1
  have hvl := @vmmF_length B32 (ops L) c l.nIn l.nOut l.weight.data l.bias.data xs hw.bias_len.ge
  obtain ⟨v, hv1, hv2, hv3⟩ := hv k hk
  have hr := activateF_range env hL c l.act f ht addr (@vmmF B32 (ops L) c l.nIn l.nOut l.weight.data l.bias.data xs)
    (hv.finite hvl) (fun hU w hw' => by
      obtain ⟨j, hj, rfl⟩ := List.mem_iff_getElem.1 hw'
      obtain ⟨b, h1, h2, h3⟩ := hv j (by omega)
      rw [List.getElem?_eq_getElem hj] at h1
      simp only [Option.some.injEq] at h1
      rw [h1]
      have h4 := s2 hU j (by rw [hvl] at hj; exact hj)
      have h5 := (abs_le.1 h3).2
      simp only [Layer.values] at h4
      linarith)
  have hrk : ActRange l.act a v.value := by
    rw [List.forall₂_iff_get] at hr
    have hk1 : k < (@activateF B32 (ops L) env c l.act addr (@vmmF B32 (ops L) c l.nIn l.nOut l.weight.data l.bias.data xs)).length := by
      rw [hr.1, hvl]; exact hk
    have := hr.2 k hk1 (by rw [hvl]; exact hk)
    have e1 : (@activateF B32 (ops L) env c l.act addr (@vmmF B32 (ops L) c l.nIn l.nOut l.weight.data l.bias.data xs))[k] = a := by
      have h := ha1
      unfold layerF at h
      rw [List.getElem?_eq_getElem hk1] at h
      exact Option.some.inj h
    have e2 : (@vmmF B32 (ops L) c l.nIn l.nOut l.weight.data l.bias.data xs)[k]'(by rw [hvl]; exact hk) = v := by
      have h := hv1
      rw [List.getElem?_eq_getElem (by rw [hvl]; exact hk)] at h
      exact Option.some.inj h
    simp only [List.get_eq_getElem] at this
    rwa [e1, e2] at this
  have hfz : at_ ((l.values.toSpec envR).apply x) k = f (at_ (affine l.nIn l.nOut l.values.weight.data l.values.bias.data x) k) := by
    have : (l.values.toSpec envR).apply x = (affine l.nIn l.nOut l.values.weight.data l.values.bias.data x).map f := by
      have h1 : (l.values.toSpec envR).apply x = actSpec envR l.act (affine l.nIn l.nOut l.values.weight.data l.values.bias.data x) := rfl
      rw [h1]
      cases h : l.act <;> rw [h] at ht <;> simp only [textbook, Option.some.injEq, reduceCtorEq] at ht <;> subst ht <;> simp [actSpec]
    rw [this, at_map' (by simp [affine]; exact hk)]
  have hsl' := hsl k hk
  rw [hfz] at ha3 hsl' ⊢
  obtain ⟨s, hs1, hs2⟩ := slopeFn_within hL ht hlin ha2 hrk hv3 ha3 hsl'
  exact ⟨a, s, ha1, hs1, hs2⟩

theorem apply_length (env : CustomEnv ℝ) (l : Layer ℝ) (x : List ℝ) : ((l.toSpec env).apply x).length = l.nOut := by
  have h1 : (l.toSpec env).apply x = actSpec env l.act (affine l.nIn l.nOut l.weight.data l.bias.data x) := rfl
  have h2 : (affine l.nIn l.nOut l.weight.data l.bias.data x).length = l.nOut := by simp [affine]
  rw [h1]
  cases l.act <;> simp [actSpec, Spec.softmax, h2, env.act_length]

/-- The derivative call of a layer, in `float` arithmetic. -/
theorem derivF_within (env : CustomEnv B32) (envR : CustomEnv ℝ) {L : Libm} (hL : L.Accurate) (c : Cfg) (l : Layer B32) (hw : l.WF c)
    (hf : l.Finite) (addr : ℕ) (xs us : List B32) (x e u ue : List ℝ) (lx : xs.length = l.nIn) (hx : Within l.nIn xs x e)
    (hs : LayerSafe l.values x e) (lus : us.length = l.nOut) (lu : u.length = l.nOut) (hu : Within l.nOut us u ue)
    (hsafe : StepSafe envR l.values x e u ue) :
    Within l.nOut (@derivF B32 (ops L) env c l (@layerF B32 (ops L) env c l addr xs) us)
      (signal l.values.slopeOf ((l.values.toSpec envR).apply x) u)
      (signalError l.values.slopeOf ((l.values.toSpec envR).apply x) (layerError l.values x e) u ue) := by
  obtain ⟨hfit, hsl, hmul, -⟩ := hsafe
  have hso : l.values.slopeOf = l.deriv.getD .linear := rfl
  have hid : ∀ d, (d = .linear ∨ d = .softmax) → l.values.slopeOf = d →
      Within l.nOut (@derivF B32 (ops L) env c l (@layerF B32 (ops L) env c l addr xs) us)
      (signal l.values.slopeOf ((l.values.toSpec envR).apply x) u)
      (signalError l.values.slopeOf ((l.values.toSpec envR).apply x) (layerError l.values x e) u ue) := by
    intro d hd hdd
    have e1 : @derivF B32 (ops L) env c l (@layerF B32 (ops L) env c l addr xs) us = us := by
      unfold derivF
      rw [← hso, hdd]
      rcases hd with rfl | rfl <;> simp [activateDerivF]
    have e2 : signalError l.values.slopeOf ((l.values.toSpec envR).apply x) (layerError l.values x e) u ue = ue := by
      rw [hdd]; rcases hd with rfl | rfl <;> rfl
    have e3 : signal l.values.slopeOf ((l.values.toSpec envR).apply x) u = u := by
      rw [hdd]
      apply List.ext_getElem (by simp [signal])
      intro i h1 h2
      rcases hd with rfl | rfl <;> simp [signal, slope, at_, h2]
    rw [e1, e2, e3]; exact hu
  have hmain : l.deriv = some (derivOf l.act) → l.act ≠ .linear → l.act ≠ .softmax → 
      Within l.nOut (@derivF B32 (ops L) env c l (@layerF B32 (ops L) env c l addr xs) us)
      (signal l.values.slopeOf ((l.values.toSpec envR).apply x) u)
      (signalError l.values.slopeOf ((l.values.toSpec envR).apply x) (layerError l.values x e) u ue) := by
    intro hd hn1 hn2
    have hdd : l.values.slopeOf = derivOf l.act := by rw [hso, hd]; rfl
    obtain ⟨f, ht⟩ : ∃ f, textbook l.act = some f := by
      have hc := hs.2.2.2
      cases h : l.act <;> simp only [textbook, Option.some.injEq, exists_eq'] <;> first | exact absurd h hn2 | exact absurd h (hc _)
    have hS := layerF_slope env envR hL c l hw hf addr xs x e lx hx hs ht hn1 (by rw [hdd] at hsl; exact hsl)
    rw [hdd] at hmul ⊢
    intro k hk
    obtain ⟨a, s, ha, his, hse⟩ := hS k hk
    obtain ⟨g, hg1, hg2, hg3⟩ := hu k hk
    have m1 := mul_within (⟨hg2, rfl⟩ : Is g g.value) his hg3 hse (hmul k hk)
    have m2 := mul_within' (⟨hg2, rfl⟩ : Is g g.value) his hg3 hse (hmul k hk)
    have hsig : at_ (signal (derivOf l.act) ((l.values.toSpec envR).apply x) u) k =
        at_ u k * slope (derivOf l.act) (at_ ((l.values.toSpec envR).apply x) k) := at_range_map (by omega)
    have hsige : at_ (signalError (derivOf l.act) ((l.values.toSpec envR).apply x) (layerError l.values x e) u ue) k =
        mulError (at_ u k) (at_ ue k) (slope (derivOf l.act) (at_ ((l.values.toSpec envR).apply x) k))
          (slopeError (derivOf l.act) (at_ (layerError l.values x e) k)) := by
      have hc := hs.2.2.2
      cases h : l.act <;> first | exact absurd h hn1 | exact absurd h hn2 | exact absurd h (hc _) | exact at_range_map (by omega)
    rw [hsig, hsige]
    have hel : (@derivF B32 (ops L) env c l (@layerF B32 (ops L) env c l addr xs) us)[k]? = some (B32.mul g (slopeFn L (derivOf l.act) a)) ∨
        (@derivF B32 (ops L) env c l (@layerF B32 (ops L) env c l addr xs) us)[k]? = some (B32.mul (slopeFn L (derivOf l.act) a) g) := by
      unfold derivF
      rw [hd, Option.getD_some]
      have hc := hs.2.2.2
      cases h : l.act <;> simp only [derivOf, activateDerivF, applyTo_getElem?, hg1, lus, hk, if_true, Option.map_some, zipOp, derivOp, ha] <;>
        first
        | exact absurd h hn1 | exact absurd h hn2 | exact absurd h (hc _) | exact .inl rfl
        | (split
           · exact .inr rfl
           · exact .inl rfl)
    rcases hel with hel | hel
    · exact ⟨_, hel, m1⟩
    · exact ⟨_, hel, m2⟩
  rcases hfit with h | h | h
  · by_cases hn1 : l.act = .linear
    · exact hid .linear (.inl rfl) (by rw [hso, show l.deriv = _ from h]; simp [Layer.values, hn1, derivOf])
    by_cases hn2 : l.act = .softmax
    · exact hid .softmax (.inr rfl) (by rw [hso, show l.deriv = _ from h]; simp [Layer.values, hn2, derivOf])
    exact hmain h hn1 hn2
  · exact hid .linear (.inl rfl) (by rw [hso, show l.deriv = _ from h]; rfl)
  · exact hid .softmax (.inr rfl) (by rw [hso, show l.deriv = _ from h]; rfl)

theorem slope_eq {a : Act} {f : ℝ → ℝ} (hf : textbook a = some f) (z : ℝ) : slope (derivOf a) (f z) = derivFactor (derivOf a) (f z) := by
  cases a <;> simp only [textbook, Option.some.injEq, reduceCtorEq] at hf <;> subst hf <;> simp only [derivOf, slope, derivFactor]
  · simp only [softplusD, RealOps.exp_def, RealOps.div_def, RealOps.sub_def, RealOps.one_def]
    rw [Real.exp_neg, sub_div, div_self (Real.exp_pos _).ne', one_div]
  · simp only [softsignD, RealOps.div_def, RealOps.sub_def, RealOps.one_def, RealOps.mul_def, RealOps.add_def, RealOps.abs_def]
    have h0 := abs_nonneg z
    have hz : |Spec.softsign z| < 1 := by
      rw [Spec.softsign, abs_div, abs_of_pos (by linarith : 0 < 1 + |z|), div_lt_one (by linarith)]; linarith
    generalize Spec.softsign z = y at *
    have hp : 0 < 1 - |y| := by linarith
    rw [abs_div, abs_of_pos hp]
    have : 1 + |y| / (1 - |y|) = 1 / (1 - |y|) := by field_simp; ring
    rw [this]; field_simp
  · simp only [hardSigmoidD, RealOps.le_iff, RealOps.zero_def, RealOps.one_def, RealOps.lit_def]
    generalize Spec.hardSigmoid z = y
    by_cases h1 : y ≤ 0
    · rw [if_neg (by rintro ⟨h, -⟩; linarith), if_pos (by simpa using h1)]
    by_cases h2 : 1 ≤ y
    · rw [if_neg (by rintro ⟨-, h⟩; linarith), if_neg (by simpa using h1), if_pos (by simpa using h2)]
    · rw [if_pos ⟨not_le.1 h1, not_le.1 h2⟩, if_neg (by simpa using h1), if_neg (by simpa using h2)]; norm_num
  · simp only [reluD, RealOps.le_iff, RealOps.zero_def, RealOps.one_def]
    generalize Spec.relu z = y
    by_cases h1 : y ≤ 0
    · rw [if_neg (by linarith), if_pos (by simpa using h1)]
    · rw [if_pos (not_le.1 h1), if_neg (by simpa using h1)]
  · simp [sigmoidD]
  · simp [tanhD]; ring

/-- The derivative call of a layer, in exact arithmetic. -/
theorem derivF_signal (env : CustomEnv ℝ) (c : Cfg) (l : Layer ℝ) (x u : List ℝ) (hc : ∀ i, l.act ≠ .custom i) (hfit : SlopeFits l)
    (lu : u.length = l.nOut) : derivF env c l ((l.toSpec env).apply x) u = signal l.slopeOf ((l.toSpec env).apply x) u := by
  have hal := apply_length env l x
  have hcd : ∀ i, l.slopeOf ≠ .custom i := by
    intro i hi
    unfold Layer.slopeOf at hi
    rcases hfit with h | h | h <;> rw [h] at hi <;> simp at hi
    cases ha : l.act <;> rw [ha] at hi <;> simp [derivOf] at hi
    exact hc _ ha
  unfold derivF
  rw [show l.deriv.getD .linear = l.slopeOf from rfl, activateDerivF_real env c _ _ _ (by omega) hcd]
  apply List.ext_getElem (by simp [signal]; omega)
  intro k h1 h2
  have hk : k < u.length := by simp at h1; omega
  have e : ∀ (l : List ℝ) (h : k < l.length), at_ l k = l[k] := fun l h => by simp [at_, h]
  simp only [signal, List.getElem_zipWith, List.getElem_map, List.getElem_range, e u hk, e _ (show k < ((l.toSpec env).apply x).length by omega)]
  congr 1
  rcases hfit with h | h | h
  · by_cases hn2 : l.act = .softmax
    · simp [Layer.slopeOf, h, hn2, derivOf, slope, derivFactor]
    obtain ⟨f, ht⟩ : ∃ f, textbook l.act = some f := by
      cases h : l.act <;> simp only [textbook, Option.some.injEq, exists_eq'] <;> first | exact absurd h hn2 | exact absurd h (hc _)
    have hap : (l.toSpec env).apply x = (affine l.nIn l.nOut l.weight.data l.bias.data x).map f := by
      have h1 : (l.toSpec env).apply x = actSpec env l.act (affine l.nIn l.nOut l.weight.data l.bias.data x) := rfl
      rw [h1]
      cases h : l.act <;> rw [h] at ht <;> simp only [textbook, Option.some.injEq, reduceCtorEq] at ht <;> subst ht <;> simp [actSpec]
    simp only [hap, List.getElem_map, Layer.slopeOf, h, Option.getD_some]
    exact (slope_eq ht _).symm
  · simp [Layer.slopeOf, h, slope, derivFactor]
  · simp [Layer.slopeOf, h, slope, derivFactor]

/-! ### The linear parts -/

theorem slack_mono' {N N' c : ℕ} {S : ℝ} (hN : N ≤ N') (hS : 0 ≤ S) : slack N c S ≤ slack N' c S := by
  unfold slack
  have : (1 + u32) ^ N ≤ (1 + u32) ^ N' := pow_le_pow_right₀ (by unfold u32; norm_num) hN
  have h0 : (0 : ℝ) ≤ η32 := by unfold η32; positivity
  gcongr

theorem peak_mono' {N N' c : ℕ} {S : ℝ} (hN : N ≤ N') (hS : 0 ≤ S) : peak N c S ≤ peak N' c S := by
  unfold peak
  have : (1 + u32) ^ N ≤ (1 + u32) ^ N' := pow_le_pow_right₀ (by unfold u32; norm_num) hN
  have h0 : (0 : ℝ) ≤ η32 := by unfold η32; positivity
  gcongr

theorem rowDepth_le (c : Cfg) (n : ℕ) : rowDepth c n ≤ n + 6 := by
  unfold rowDepth; split_ifs <;> omega

theorem mvmF_within {L : Libm} (c : Cfg) (n m : ℕ) {w vs : List B32} {v e : List ℝ} (hw : ∀ a ∈ w, a.isFinite = true) (lw : w.length = n * m)
    (lv : vs.length = m) (hv : Within m vs v e) (hmax : ∀ i, i < n → peak (m + 6) m (absMatVecErr m (w.map B32.value) v e i) ≤ max32) :
    Within n (@mvmF B32 (ops L) c n m w vs) (matVec n m (w.map B32.value) v) (matVecError n m (w.map B32.value) v e) := by
  let _ := ops L
  have iW := isL_values L hw
  have iv := isL_values L (hv.finite lv)
  intro i hi
  have hrow : i * m + m ≤ w.length := by
    have : (i + 1) * m ≤ n * m := Nat.mul_le_mul_right _ hi
    rw [Nat.add_mul] at this; omega
  obtain ⟨W, hW⟩ : ∃ W, W = w.map B32.value := ⟨_, rfl⟩
  obtain ⟨V, hV⟩ : ∃ V, V = vs.map B32.value := ⟨_, rfl⟩
  have hVi : ∀ j, j < m → |at_ V j - at_ v j| ≤ at_ e j := fun j hj => by rw [hV]; exact hv.value lv hj
  rw [← hW] at iW hmax ⊢
  rw [← hV] at iv
  have lW : W.length = n * m := by rw [hW]; simp [lw]
  have lV : V.length = m := by rw [hV]; simp [lv]
  have e' : ∀ j, at_ V j * at_ (W.drop (i * m)) j = at_ W (i * m + j) * at_ V j := fun j => by rw [at_drop]; ring
  have hS : ∑ j ∈ range m, |at_ W (i * m + j) * at_ V j| ≤ absMatVecErr m W v e i := by
    unfold absMatVecErr
    refine sum_le_sum fun j hj => ?_
    rw [abs_mul]
    exact mul_le_mul_of_nonneg_left (abs_perturb (hVi j (by simpa using hj))) (abs_nonneg _)
  have hS0 : 0 ≤ ∑ j ∈ range m, |at_ W (i * m + j) * at_ V j| := sum_nonneg fun _ _ => abs_nonneg _
  have hmi : peak (rowDepth c m) m (∑ j ∈ range m, |at_ W (i * m + j) * at_ V j|) ≤ max32 :=
    (peak_mono' (rowDepth_le c m) hS0).trans ((peak_mono hS).trans (hmax i hi))
  have h0 : c.avx512 = false → (model L).Is (zeroS false) 0 := fun _ => is_zeroS false
  have hnear := FloatModel.near_dotF (P := model L) c (iW.drop (i * m)) iv (n := m) (by omega) (by simp; omega) h0
    (by simp only [e', abs_zero, ite_self, zero_add]; exact hmi)
  simp only [e', abs_zero, ite_self, zero_add] at hnear
  have hns := near_slack L hnear
  refine ⟨_, ?_, hns.1, ?_⟩
  · simp only [mvmF, applyTo_getElem?, List.getElem?_replicate, hi, if_true, Option.map_some]; rfl
  · rw [at_matVec hi, matVecError, at_range_map hi]
    have h1 := hns.2.trans ((slack_mono' (rowDepth_le c m) hS0).trans (slack_mono hS))
    have h2 : |∑ j ∈ range m, at_ W (i * m + j) * at_ V j - ∑ j ∈ range m, at_ W (i * m + j) * at_ v j| ≤
        ∑ j ∈ range m, |at_ W (i * m + j)| * at_ e j := by
      rw [← sum_sub_distrib]
      refine (abs_sum_le_sum_abs _ _).trans (sum_le_sum fun j hj => ?_)
      rw [← mul_sub, abs_mul]
      exact mul_le_mul_of_nonneg_left (hVi j (by simpa using hj)) (abs_nonneg _)
    refine (abs_tri _ (∑ j ∈ range m, at_ W (i * m + j) * at_ V j) _).trans ?_
    linarith

theorem outerF_within {L : Libm} (n m : ℕ) {xs ys : List B32} {x e y f : List ℝ} (hx : Within n xs x e) (hy : Within m ys y f)
    (hmax : ∀ i k, i < n → k < m → (|at_ x i| + at_ e i) * (|at_ y k| + at_ f k) ≤ max32) :
    Within (n * m) (@outerF B32 (ops L) n m xs ys) (outer n m x y) (outerError n m x e y f) := by
  intro k hk
  have hm : 0 < m := Nat.pos_of_ne_zero (by rintro rfl; simp at hk)
  have h1 : k / m < n := Nat.div_lt_of_lt_mul (by rw [Nat.mul_comm]; exact hk)
  have h2 : k % m < m := Nat.mod_lt _ hm
  obtain ⟨a, ha1, ha2, ha3⟩ := hx _ h1
  obtain ⟨b, hb1, hb2, hb3⟩ := hy _ h2
  have hmm := hmax _ _ h1 h2
  rw [outer, at_range_map hk, outerError, at_range_map hk]
  by_cases h0 : B32.eq a (zeroS false) = true
  · refine ⟨zeroS false, ?_, (is_zeroS false).1, ?_⟩
    · simp only [outerF, applyTo_getElem?, List.getElem?_replicate, hk, if_true, Option.map_some, outerOp, ha1, hb1]
      exact congrArg some (if_pos h0)
    · have ha : Is a a.value := ⟨ha2, rfl⟩
      have hb : Is b b.value := ⟨hb2, rfl⟩
      have := mul_within ha hb ha3 hb3 hmm
      rw [B32.eq_iff ha (is_zeroS false)] at h0
      have hmz : (B32.mul a b).value = 0 := by
        rw [(mul_is ha hb (by rw [h0, zero_mul, abs_zero]; unfold maxF32; norm_num)).2, h0, zero_mul, rnd_zero]
      rw [hmz] at this
      rw [(is_zeroS false).2]
      exact this.2
  · refine ⟨B32.mul a b, ?_, mul_within (⟨ha2, rfl⟩ : Is a a.value) (⟨hb2, rfl⟩ : Is b b.value) ha3 hb3 hmm⟩
    simp only [outerF, applyTo_getElem?, List.getElem?_replicate, hk, if_true, Option.map_some, outerOp, ha1, hb1]
    exact congrArg some (if_neg h0)

/-! ### The derivative of the loss -/

theorem sub_float {p y : B32} {q e : ℝ} (hp : p.isFinite = true) (hy : y.isFinite = true) (hq : |p.value - q| ≤ e)
    (hm : |q - y.value| + e ≤ 2 ^ (126 : ℤ)) :
    ∃ d, Is (B32.sub p y) d ∧ |d - (q - y.value)| ≤ e + (2 ^ (-24 : ℤ) * (|q - y.value| + e) + 2 ^ (-150 : ℤ)) := by
  have h1 : |p.value - y.value| ≤ |q - y.value| + e := by
    have := abs_tri p.value q y.value
    linarith
  refine ⟨_, sub_is (⟨hp, rfl⟩ : Is p p.value) (⟨hy, rfl⟩ : Is y y.value) (h1.trans (hm.trans (by unfold maxF32; norm_num))), ?_⟩
  have h2 := rnd_abs (p.value - y.value)
  have h3 := abs_tri (rnd (p.value - y.value)) (p.value - y.value) (q - y.value)
  have h4 : |p.value - y.value - (q - y.value)| ≤ e := by rw [sub_sub_sub_cancel_right]; exact hq
  have h5 : (2 : ℝ) ^ (-24 : ℤ) * |p.value - y.value| ≤ 2 ^ (-24 : ℤ) * (|q - y.value| + e) := mul_le_mul_of_nonneg_left h1 (by positivity)
  linarith

theorem div_nat_float {a : B32} {d x E : ℝ} {n : ℕ} (hn : 1 ≤ n) (hn2 : n < 2 ^ 24) (ha : Is a d) (he : |d - x| ≤ E)
    (hm : |d| ≤ maxF32) :
    ∃ w, Is (B32.div a (ofReal false (n : ℝ))) w ∧ |w - x / n| ≤ (E + 2 ^ (-24 : ℤ) * (|x| + E)) / n + 2 ^ (-150 : ℤ) := by
  have hN : Is (ofReal false (n : ℝ)) n := by
    have := ofNat_is (n := n) (hn2.trans (by norm_num))
    have e : rnd (n : ℝ) = n := by
      refine rnd_exact (k := (n : ℤ)) (j := 0) (by push_cast; rw [zpow_zero, mul_one]) ?_ (by norm_num)
      rw [abs_of_nonneg (by positivity)]
      exact_mod_cast hn2
    rwa [e] at this
  have n1 : (1 : ℝ) ≤ n := by exact_mod_cast hn
  have n0 : (0 : ℝ) < n := by linarith
  have hdn : |d / n| ≤ |d| := by rw [abs_div, abs_of_pos n0]; exact div_le_self (abs_nonneg _) n1
  refine ⟨_, div_is ha hN n0.ne' (hdn.trans hm), ?_⟩
  have h1 := rnd_abs (d / n)
  have h2 := abs_tri (rnd (d / n)) (d / n) (x / n)
  have h3 : |d / n - x / n| ≤ E / n := by rw [← sub_div, abs_div, abs_of_pos n0]; gcongr
  have h4 : |d / n| ≤ (|x| + E) / n := by
    rw [abs_div, abs_of_pos n0]; gcongr; exact abs_perturb he
  have h5 : (2 : ℝ) ^ (-24 : ℤ) * |d / n| ≤ 2 ^ (-24 : ℤ) * ((|x| + E) / n) := mul_le_mul_of_nonneg_left h4 (by positivity)
  have h6 : (E + 2 ^ (-24 : ℤ) * (|x| + E)) / (n : ℝ) = E / n + 2 ^ (-24 : ℤ) * ((|x| + E) / n) := by ring
  rw [h6]
  linarith

theorem small_div {A B C : ℝ} {n : ℕ} (hn : 1 ≤ n) (h : A ≤ B + C) (hC : 0 ≤ C) : A / n ≤ B / n + C := by
  have n1 : (1 : ℝ) ≤ n := by exact_mod_cast hn
  have n0 : (0 : ℝ) < n := by linarith
  calc A / n ≤ (B + C) / n := by gcongr
    _ = B / n + C / n := by ring
    _ ≤ B / n + C := by gcongr; exact div_le_self hC n1

theorem lossF_within {L : Libm} (loss : Loss) (n : ℕ) {ps ys : List B32} {p e : List ℝ} (lp : ps.length = n) (ly : ys.length = n)
    (hp : Within n ps p e) (hy : ∀ y ∈ ys, y.isFinite = true) (hs : LossSafe loss n p e (ys.map B32.value)) :
    Within n (@lossF B32 (ops L) loss n ps ys) (lossGrad loss n p (ys.map B32.value)) (lossGradError loss n p e (ys.map B32.value)) := by
  obtain ⟨s1, s2, s3, s4⟩ := hs
  intro k hk
  have hn : 1 ≤ n := by omega
  obtain ⟨a, ha1, ha2, ha3⟩ := hp k hk
  have hky : k < ys.length := by omega
  have hbf := hy _ (List.getElem_mem hky)
  have hb1 : ys[k]? = some ys[k] := List.getElem?_eq_getElem hky
  have hbv : at_ (ys.map B32.value) k = ys[k].value := by simp [at_, hky]
  have h3 := s3 k hk
  rw [hbv] at h3
  generalize ys[k] = b at *
  have hel : (@lossF B32 (ops L) loss n ps ys)[k]? = some (@lossElem B32 (ops L) loss n a b) := by
    simp [lossF, List.getElem?_zipWith, ha1, hb1]
  rw [lossGrad, at_range_map hk, lossGradError, at_range_map hk, hbv]
  generalize hP : at_ p k = q at *
  generalize hE : at_ e k = ε at *
  have hε : 0 ≤ ε := (abs_nonneg _).trans ha3
  have hQ := abs_nonneg (q - b.value)
  obtain ⟨d, hd1, hd2⟩ := sub_float ha2 hbf ha3 h3
  have hdm : |d| ≤ 2 ^ (127 : ℤ) * (9 / 10) := by
    have := abs_perturb hd2
    norm_num at this h3 ⊢
    linarith
  have fin : ∀ {w x E : ℝ}, Is (@lossElem B32 (ops L) loss n a b) w → |w - x| ≤ E →
      ∃ a, (@lossF B32 (ops L) loss n ps ys)[k]? = some a ∧ a.isFinite = true ∧ |a.value - x| ≤ E := by
    intro w x E h1 h2
    exact ⟨_, hel, h1.1, by rw [h1.2]; exact h2⟩
  cases loss <;> simp only [lossSlope, lossSlopeError]
  case mape => exact absurd rfl s1
  case mse =>
    have h2d : |2 * d| ≤ maxF32 * (95 / 100) := by
      rw [abs_mul, abs_two]; unfold maxF32; norm_num at hdm ⊢; linarith
    have hm := mul_is is_two hd1 (h2d.trans (by unfold maxF32; norm_num))
    have hr := rnd_abs (2 * d)
    have e1 : |2 * d| ≤ 2 * (|q - b.value| + (ε + (2 ^ (-24 : ℤ) * (|q - b.value| + ε) + 2 ^ (-150 : ℤ)))) := by
      rw [abs_mul, abs_two]; gcongr; exact abs_perturb hd2
    have e2 : |2 * d - 2 * (q - b.value)| ≤ 2 * (ε + (2 ^ (-24 : ℤ) * (|q - b.value| + ε) + 2 ^ (-150 : ℤ))) := by
      rw [← mul_sub, abs_mul, abs_two]; gcongr
    have e3 : |rnd (2 * d) - 2 * (q - b.value)| ≤ 2 * ε + 2 ^ (-22 : ℤ) * (101 / 100) * (|q - b.value| + ε) + 2 ^ (-147 : ℤ) := by
      have := abs_tri (rnd (2 * d)) (2 * d) (2 * (q - b.value))
      norm_num at e1 e2 hr ⊢
      linarith
    have hmm : |rnd (2 * d)| ≤ maxF32 := by
      have h := abs_perturb hr
      unfold maxF32 at *
      norm_num at h h2d ⊢
      linarith
    obtain ⟨w, hw1, hw2⟩ := div_nat_float hn s2 hm e3 hmm
    refine fin (w := w) hw1 (hw2.trans ?_)
    have e4 : |2 * (q - b.value)| = 2 * |q - b.value| := by rw [abs_mul, abs_two]
    rw [e4]
    have := small_div (A := 2 * ε + 2 ^ (-22 : ℤ) * (101 / 100) * (|q - b.value| + ε) + 2 ^ (-147 : ℤ) +
      2 ^ (-24 : ℤ) * (2 * |q - b.value| + (2 * ε + 2 ^ (-22 : ℤ) * (101 / 100) * (|q - b.value| + ε) + 2 ^ (-147 : ℤ))))
      (B := 2 * ε + 2 ^ (-21 : ℤ) * (|q - b.value| + ε)) (C := 2 ^ (-146 : ℤ)) hn (by norm_num; linarith) (by positivity)
    refine (add_le_add_left this _).trans ?_
    rw [add_assoc]
    refine add_le_add_right ?_ _
    norm_num
  case mae =>
    have hne := s4 rfl k hk
    rw [hP, hE, hbv] at hne
    have hle : B32.le b a = true ↔ b.value ≤ q := by
      rw [B32.le_iff (⟨hbf, rfl⟩ : Is b b.value) (⟨ha2, rfl⟩ : Is a a.value)]
      obtain ⟨a1, a2⟩ := abs_le.1 ha3
      constructor
      · intro h
        by_contra hc
        rw [abs_of_neg (by linarith)] at hne
        linarith
      · intro h
        rw [abs_of_nonneg (by linarith)] at hne
        linarith
    have key : ∀ {c : B32} {s : ℝ}, Is c s → |s| = 1 → @lossElem B32 (ops L) .mae n a b = B32.div c (ofReal false (n : ℝ)) →
        ∃ a, (@lossF B32 (ops L) .mae n ps ys)[k]? = some a ∧ a.isFinite = true ∧ |a.value - s / n| ≤ 2 ^ (-21 : ℤ) / n + 2 ^ (-140 : ℤ) := by
      intro c s hc hs1 he
      obtain ⟨w, hw1, hw2⟩ := div_nat_float (x := s) (E := 0) hn s2 hc (by simp) (by rw [hs1]; unfold maxF32; norm_num)
      refine fin (w := w) (by rw [he]; exact hw1) (hw2.trans ?_)
      rw [hs1]
      have := small_div (A := 0 + 2 ^ (-24 : ℤ) * (1 + 0)) (B := 2 ^ (-21 : ℤ)) (C := 0) hn (by norm_num) le_rfl
      refine (add_le_add_left this _).trans ?_
      norm_num
    have hdef : @lossElem B32 (ops L) .mae n a b = B32.div (if B32.le b a = true then ofReal false 1 else ofReal false (((-1 : ℤ) : ℝ) / ((1 : ℕ) : ℝ)))
      (ofReal false (n : ℝ)) := rfl
    by_cases h : b.value ≤ q
    · simp only [if_pos h]
      exact key is_one abs_one (by rw [hdef, if_pos (hle.2 h)])
    · simp only [if_neg h]
      exact key is_neg_one (by simp) (by rw [hdef, if_neg (fun h' => h (hle.1 h'))])
  case cce =>
    refine fin (w := d) hd1 (hd2.trans ?_)
    norm_num
    linarith
  case bce =>
    obtain ⟨w, hw1, hw2⟩ := div_nat_float hn s2 hd1 hd2 (hdm.trans (by unfold maxF32; norm_num))
    refine fin (w := w) hw1 (hw2.trans ?_)
    have := small_div (A := ε + (2 ^ (-24 : ℤ) * (|q - b.value| + ε) + 2 ^ (-150 : ℤ)) +
      2 ^ (-24 : ℤ) * (|q - b.value| + (ε + (2 ^ (-24 : ℤ) * (|q - b.value| + ε) + 2 ^ (-150 : ℤ)))))
      (B := ε + 2 ^ (-21 : ℤ) * (|q - b.value| + ε)) (C := 2 ^ (-146 : ℤ)) hn (by norm_num; linarith) (by positivity)
    refine (add_le_add_left this _).trans ?_
    rw [add_assoc]
    refine add_le_add_right ?_ _
    norm_num

theorem lossF_real (loss : Loss) (n : ℕ) (p y : List ℝ) (hp : p.length = n) (hy : y.length = n) (hm : loss ≠ .mape) :
    lossF loss n p y = lossGrad loss n p y := by
  apply List.ext_getElem (by simp [lossF, lossGrad]; omega)
  intro k h1 h2
  have hk : k < n := by simp [lossGrad] at h2; exact h2
  have e : ∀ (l : List ℝ) (h : k < l.length), at_ l k = l[k] := fun l h => by simp [at_, h]
  simp only [lossF, lossGrad, List.getElem_zipWith, List.getElem_map, List.getElem_range, e p (by omega), e y (by omega)]
  cases loss <;> simp [lossElem, lossSlope] at hm ⊢

/-! ### The backward pass -/

theorem signal_length (d : ActDeriv) (y u : List ℝ) : (signal d y u).length = u.length := by simp [signal]

theorem layerError_length (l : Layer ℝ) (x e : List ℝ) (hc : ∀ i, l.act ≠ .custom i) : (layerError l x e).length = l.nOut := by
  have h2 : (affine l.nIn l.nOut l.weight.data l.bias.data x).length = l.nOut := by simp [affine]
  unfold layerError actError
  cases h : l.act <;> simp [textbook, Spec.softmax, h2]
  exact absurd h (hc _)

theorem signalError_length (d : ActDeriv) (y ye u ue : List ℝ) (h : ue.length = u.length) : (signalError d y ye u ue).length = u.length := by
  cases d <;> simp [signalError, h]

theorem len_append {α : Type} {a b : List α} {n m : ℕ} (h : a.length = n) (h' : b.length = m) : (a ++ b).length = n + m := by
  rw [List.length_append, h, h']

theorem outer_length (n m : ℕ) (x y : List ℝ) : (outer n m x y).length = n * m := by simp [outer]

theorem outerError_length (n m : ℕ) (x e y f : List ℝ) : (outerError n m x e y f).length = n * m := by simp [outerError]

theorem values_wf {c : Cfg} {l : Layer B32} (h : l.WF c) : l.values.WF c :=
  ⟨h.in_pos, h.out_pos, by simp [Layer.values, h.weight_len], by simp [Layer.values, h.bias_len], h.weight_al, h.bias_al⟩

/-- The exact backward pass has the error signals of `backError`; the float backward pass is close to it. -/
theorem backF_within (env : CustomEnv B32) (envR : CustomEnv ℝ) {L : Libm} (hL : L.Accurate) (c : Cfg) (gs : List B32) (g ge : List ℝ) :
    ∀ (ls : List (Layer B32)) (last : Layer B32), ls.getLast? = some last → (∀ l ∈ ls, l.WF c) → Chained ls → (∀ l ∈ ls, l.Finite) →
      gs.length = last.nOut → g.length = last.nOut → ge.length = last.nOut → Within last.nOut gs g ge →
      ∀ (xs : List B32) (x e : List ℝ), (∀ l, ls.head? = some l → xs.length = l.nIn ∧ x.length = l.nIn) → Within xs.length xs x e →
      NetSafe envR (ls.map Layer.values) x e → BackSafe envR (ls.map Layer.values) x e g ge →
      (backError envR (ls.map Layer.values) x e g ge).1 = (backF envR c (traceF envR c (ls.map Layer.values) x) g).2 ∧
      (∀ l, ls.head? = some l →
        (backError envR (ls.map Layer.values) x e g ge).1.length = l.nOut ∧ (backError envR (ls.map Layer.values) x e g ge).2.1.length = l.nOut ∧
        Within l.nOut (@backF B32 (ops L) env c (@traceF B32 (ops L) env c ls xs) gs).2
          (backError envR (ls.map Layer.values) x e g ge).1 (backError envR (ls.map Layer.values) x e g ge).2.1) ∧
      (backError envR (ls.map Layer.values) x e g ge).2.2.length = nParams ls ∧
      Within (nParams ls) (@backF B32 (ops L) env c (@traceF B32 (ops L) env c ls xs) gs).1
        (backF envR c (traceF envR c (ls.map Layer.values) x) g).1 (backError envR (ls.map Layer.values) x e g ge).2.2
  | [], _, h, _, _, _, _, _, _, _, _, _, _, _, _, _, _ => by simp at h
  | [l], last, h, hw, hc, hf, lgs, lg, lge, hg, xs, x, e, hl, hx, hs, hb => by
    simp at h; subst h
    obtain ⟨hlen, hlen'⟩ := hl l rfl
    rw [hlen] at hx
    have hwl := hw l (by simp)
    have hfl := hf l (by simp)
    obtain ⟨hsl, -⟩ := hs
    have hstep : StepSafe envR l.values x e g ge := hb
    have hlr := layerF_real envR c l.values (values_wf hwl) 0 x hlen'
    have hcu : ∀ i, l.values.act ≠ .custom i := hsl.2.2.2
    have hd := derivF_within env envR hL c l hwl hfl 0 xs gs x e g ge hlen hx hsl lgs lg hg hstep
    have hdr := derivF_signal envR c l.values x g hcu hstep.1 lg
    have lδs := @derivF_length B32 (ops L) env c l (@layerF B32 (ops L) env c l 0 xs) gs
    have lδ := signal_length l.values.slopeOf ((l.values.toSpec envR).apply x) g
    have lδe := signalError_length l.values.slopeOf ((l.values.toSpec envR).apply x) (layerError l.values x e) g ge (by omega)
    have ho := outerF_within (L := L) l.nIn l.nOut hx hd hstep.2.2.2
    have hor := outerF_real l.nIn l.nOut x (signal l.values.slopeOf ((l.values.toSpec envR).apply x) g) hlen'.ge (by omega)
    simp only [List.map_cons, List.map_nil, backError, traceF, backF, hlr, hdr]
    refine ⟨trivial, ?_, ?_, ?_⟩
    · intro m hm
      simp at hm; subst hm
      exact ⟨by omega, by omega, hd⟩
    · rw [List.length_append, lδe, nParams_cons]
      simp [outerError, nParams, Layer.values, lge, lg]
    · rw [nParams_cons]
      have hp : nParams ([] : List (Layer B32)) = 0 := by simp [nParams]
      rw [hp, Nat.add_zero]
      have := hd.append ho (by omega) (by omega) (by omega)
      rw [← hor] at this
      exact this
  | l :: l' :: ls, last, h, hw, hc, hf, lgs, lg, lge, hg, xs, x, e, hl, hx, hs, hb => by
    obtain ⟨hlen, hlen'⟩ := hl l rfl
    rw [hlen] at hx
    have hwl := hw l (by simp)
    have hfl := hf l (by simp)
    have hwl' := hw l' (by simp)
    obtain ⟨hsl, hsr⟩ := hs
    obtain ⟨hbr, hbp, hstep⟩ := hb
    have hlr := layerF_real envR c l.values (values_wf hwl) 0 x hlen'
    have hcu : ∀ i, l.values.act ≠ .custom i := hsl.2.2.2
    have h1 := layerF_within env envR hL c l hwl hfl 0 xs x e hlen hx hsl
    have hll := @layerF_length B32 (ops L) env c l 0 xs hwl
    have hal := apply_length envR l.values x
    obtain ⟨ih1, ih2, ih3, ih4⟩ := backF_within env envR hL c gs g ge (l' :: ls) last (by simpa using h) (fun m hm => hw m (by simp [List.mem_cons.mp hm])) hc.2
      (fun m hm => hf m (by simp [List.mem_cons.mp hm])) lgs lg lge hg (@layerF B32 (ops L) env c l 0 xs) ((l.values.toSpec envR).apply x) (layerError l.values x e)
      (fun m hm => by simp at hm; subst hm; exact ⟨by rw [hll, hc.1], by rw [hal]; exact hc.1⟩) (by rw [hll]; exact h1) hsr hbr
    obtain ⟨ih5, ih6, ih7⟩ := ih2 l' rfl
    have lb := (@backF_shape B32 (ops L) env c (l' :: ls) (@layerF B32 (ops L) env c l 0 xs) gs last (by simpa using h) lgs hc.2)
    have lb2 := (lb.2 l' rfl).1
    have hmv := mvmF_within (L := L) c l'.nIn l'.nOut (hf l' (by simp)).1 hwl'.weight_len lb2 ih7 hbp
    have hmr := mvmF_real c l'.nIn l'.nOut l'.values.weight.data (backError envR ((l' :: ls).map Layer.values) ((l.values.toSpec envR).apply x)
      (layerError l.values x e) g ge).1 (by omega) (by simp [Layer.values, hwl'.weight_len])
    have lus := @mvmF_length B32 (ops L) c l'.nIn l'.nOut l'.weight.data
      (@backF B32 (ops L) env c (@traceF B32 (ops L) env c (l' :: ls) (@layerF B32 (ops L) env c l 0 xs)) gs).2
    have hio : l'.nIn = l.nOut := hc.1.symm
    have lu : (matVec l'.nIn l'.nOut l'.values.weight.data (backError envR ((l' :: ls).map Layer.values) ((l.values.toSpec envR).apply x)
      (layerError l.values x e) g ge).1).length = l.nOut := by simp [matVec, hio]
    have lue : (matVecError l'.nIn l'.nOut l'.values.weight.data (backError envR ((l' :: ls).map Layer.values) ((l.values.toSpec envR).apply x)
      (layerError l.values x e) g ge).1 (backError envR ((l' :: ls).map Layer.values) ((l.values.toSpec envR).apply x)
      (layerError l.values x e) g ge).2.1).length = l.nOut := by simp [matVecError, hio]
    have hd := derivF_within env envR hL c l hwl hfl 0 xs _ x e _ _ hlen hx hsl (lus.trans hio) lu (by rw [← hio]; exact hmv) hstep
    have hdr := derivF_signal envR c l.values x _ hcu hstep.1 lu
    have lδs := @derivF_length B32 (ops L) env c l (@layerF B32 (ops L) env c l 0 xs) (@mvmF B32 (ops L) c l'.nIn l'.nOut l'.weight.data
      (@backF B32 (ops L) env c (@traceF B32 (ops L) env c (l' :: ls) (@layerF B32 (ops L) env c l 0 xs)) gs).2)
    have ho := outerF_within (L := L) l.nIn l.nOut hx hd hstep.2.2.2
    have hor := outerF_real l.nIn l.nOut x (signal l.values.slopeOf ((l.values.toSpec envR).apply x)
      (matVec l'.nIn l'.nOut l'.values.weight.data (backError envR ((l' :: ls).map Layer.values) ((l.values.toSpec envR).apply x)
        (layerError l.values x e) g ge).1)) hlen'.ge (by rw [signal_length, lu])
    have lδ := signal_length l.values.slopeOf ((l.values.toSpec envR).apply x)
      (matVec l'.nIn l'.nOut l'.values.weight.data (backError envR ((l' :: ls).map Layer.values) ((l.values.toSpec envR).apply x)
        (layerError l.values x e) g ge).1)
    have lδe := signalError_length l.values.slopeOf ((l.values.toSpec envR).apply x) (layerError l.values x e) _ _ (lue.trans lu.symm)
    simp only [List.map_cons] at ih1 ih2 ih3 ih4 ih5 ih6 ih7 hmv hmr lu lue hd hdr ho hor lδ lδe
    simp only [traceF] at ih1 ih4 lus lδs
    simp only [List.map_cons, backError, traceF, backF, hlr]
    have hrn : l'.values.nIn = l'.nIn := rfl
    have hro : l'.values.nOut = l'.nOut := rfl
    rw [← ih1, hrn, hro, hmr, hdr]
    refine ⟨rfl, ?_, ?_, ?_⟩
    · intro m hm
      simp at hm; subst hm
      exact ⟨lδ.trans lu, lδe.trans lu, hd⟩
    · rw [nParams_cons l]
      exact len_append (len_append (lδe.trans lu) (outerError_length _ _ _ _ _ _)) ih3
    · rw [nParams_cons l]
      have ho' := hd.append ho (lδs.trans (lus.trans hio)) (lδ.trans lu) (lδe.trans lu)
      have := ho'.append ih4 (len_append (lδs.trans (lus.trans hio)) (@outerF_length B32 (ops L) _ _ _ _)) (len_append (lδ.trans lu) (outer_length _ _ _ _))
        (len_append (lδe.trans lu) (outerError_length _ _ _ _ _ _))
      rw [← hor] at this
      exact this

/-! ### Whole networks -/

theorem Net.values_wf {c : Cfg} {nn : Net B32} (h : nn.WF c) : nn.values.WF c := by
  have hc : ∀ ls : List (Layer B32), Chained ls → Chained (ls.map Layer.values) := by
    intro ls
    induction ls with
    | nil => intro _; trivial
    | cons l ls ih =>
      cases ls with
      | nil => intro _; trivial
      | cons l' ls => intro h; exact ⟨h.1, ih h.2⟩
  refine ⟨by simpa [Net.values] using h.ne, ?_, hc _ h.chain⟩
  intro l hl
  simp only [Net.values, List.mem_map] at hl
  obtain ⟨l, hl, rfl⟩ := hl
  exact NN.values_wf (h.layer l hl)

theorem Net.values_nInput (nn : Net B32) : nn.values.nInput = nn.nInput := by
  rcases nn with ⟨_ | ⟨a, b⟩, _⟩ <;> rfl

theorem Net.values_nOutput (nn : Net B32) : nn.values.nOutput = nn.nOutput := by
  rcases hm : nn.layers.getLast? with _ | a <;> simp [Net.nOutput, Net.values, hm, Layer.values]

theorem nParams_values (ls : List (Layer B32)) : nParams (ls.map Layer.values) = nParams ls := by
  simp [nParams, Function.comp_def, Layer.values]

/-- Over the reals the backward pass does not depend on the build. -/
theorem backF_build (env : CustomEnv ℝ) (c c' : Cfg) (g : List ℝ) :
    ∀ (ls : List (Layer ℝ)) (last : Layer ℝ), ls.getLast? = some last → (∀ l ∈ ls, l.WF c) → (∀ l ∈ ls, l.WF c') → Chained ls →
      (∀ l ∈ ls, (∀ i, l.act ≠ .custom i) ∧ SlopeFits l) → g.length = last.nOut → ∀ x, (∀ l, ls.head? = some l → x.length = l.nIn) →
      backF env c (traceF env c ls x) g = backF env c' (traceF env c' ls x) g
  | [], _, h, _, _, _, _, _, _, _ => by simp at h
  | [l], last, h, hw, hw', hc, hf, lg, x, hl => by
    simp at h; subst h
    have h1 := layerF_real env c l (hw l (by simp)) 0 x (hl l rfl)
    have h2 := layerF_real env c' l (hw' l (by simp)) 0 x (hl l rfl)
    obtain ⟨f1, f2⟩ := hf l (by simp)
    simp only [traceF, backF, h1, h2, derivF_signal env c l x g f1 f2 lg, derivF_signal env c' l x g f1 f2 lg]
  | l :: l' :: ls, last, h, hw, hw', hc, hf, lg, x, hl => by
    have h1 := layerF_real env c l (hw l (by simp)) 0 x (hl l rfl)
    have h2 := layerF_real env c' l (hw' l (by simp)) 0 x (hl l rfl)
    obtain ⟨f1, f2⟩ := hf l (by simp)
    have hal := apply_length env l x
    have ih := backF_build env c c' g (l' :: ls) last (by simpa using h) (fun m hm => hw m (by simp [List.mem_cons.mp hm]))
      (fun m hm => hw' m (by simp [List.mem_cons.mp hm])) hc.2 (fun m hm => hf m (by simp [List.mem_cons.mp hm])) lg ((l.toSpec env).apply x)
      (fun m hm => by simp at hm; subst hm; rw [hal, hc.1])
    have lb := ((backF_shape env c (l' :: ls) ((l.toSpec env).apply x) g last (by simpa using h) lg hc.2).2 l' rfl).1
    have hwl := (hw l' (by simp)).weight_len
    simp only [traceF] at ih lb
    simp only [traceF, backF, h1, h2]
    rw [← ih, mvmF_real c _ _ _ _ (by omega) (by omega), mvmF_real c' _ _ _ _ (by omega) (by omega)]
    rw [derivF_signal env c l x _ f1 f2 (by simp [matVec, hc.1]), derivF_signal env c' l x _ f1 f2 (by simp [matVec, hc.1])]

theorem safe_fits (env : CustomEnv ℝ) (g ge : List ℝ) : ∀ (ls : List (Layer ℝ)) (x e : List ℝ), NetSafe env ls x e → BackSafe env ls x e g ge →
    ∀ l ∈ ls, (∀ i, l.act ≠ .custom i) ∧ SlopeFits l
  | [], _, _, _, _, l, hl => by simp at hl
  | [a], x, e, hs, hb, l, hl => by
    simp at hl; subst hl
    have hb' : StepSafe env l x e g ge := hb
    exact ⟨hs.1.2.2.2, hb'.1⟩
  | a :: b :: ls, x, e, hs, hb, l, hl => by
    rcases List.mem_cons.mp hl with rfl | hl
    · exact ⟨hs.1.2.2.2, hb.2.2.1⟩
    · exact safe_fits env g ge (b :: ls) _ _ hs.2 hb.1 l hl

theorem lossGrad_length (loss : Loss) (n : ℕ) (p y : List ℝ) : (lossGrad loss n p y).length = n := by simp [lossGrad]
theorem lossGradError_length (loss : Loss) (n : ℕ) (p e y : List ℝ) : (lossGradError loss n p e y).length = n := by simp [lossGradError]

theorem gradF_exact (env : CustomEnv ℝ) (c : Cfg) (nn : Net B32) (hw : nn.WF c) (loss : Loss) (xs ys : List B32) (lx : xs.length = nn.nInput)
    (ly : ys.length = nn.nOutput) (hm : loss ≠ .mape) : gradF env c nn.values loss (xs.map B32.value) (ys.map B32.value) =
      (backF env c (traceF env c (nn.layers.map Layer.values) (xs.map B32.value)) (lossGrad loss nn.nOutput (exactOut env nn xs) (ys.map B32.value))).1 := by
  have hw' := Net.values_wf hw
  obtain ⟨last, hlast, hno, -⟩ := exists_last hw'
  have hn : netF env c 0 (nn.layers.map Layer.values) (xs.map B32.value) = exactOut env nn xs :=
    netF_real env c 0 _ _ hw'.layer hw'.chain (fun l hl => by
      rw [List.length_map, lx, ← Net.values_nInput]; exact Net.nInput_eq (nn := nn.values) hl)
  have hlen : (exactOut env nn xs).length = nn.nOutput := by
    rw [← hn]
    exact (netF_length env c 0 nn.values.layers _ last hlast hw'.layer).trans (hno.symm.trans (Net.values_nOutput nn))
  rw [gradF, Net.values_nOutput]
  show (backF env c (traceF env c (nn.layers.map Layer.values) _) (lossF loss nn.nOutput (netF env c 0 (nn.layers.map Layer.values) _) _)).1 = _
  rw [hn, lossF_real loss nn.nOutput _ _ hlen (by simp [ly]) hm]

theorem gradF_within (env : CustomEnv B32) (envR : CustomEnv ℝ) {L : Libm} (hL : L.Accurate) (c : Cfg) (nn : Net B32) (hw : nn.WF c)
    (hf : ∀ l ∈ nn.layers, l.Finite) (loss : Loss) (xs ys : List B32) (lx : xs.length = nn.nInput) (ly : ys.length = nn.nOutput)
    (hx : ∀ x ∈ xs, x.isFinite = true) (hy : ∀ y ∈ ys, y.isFinite = true) (hs : TrainSafe envR nn loss xs ys) :
    Within (nParams nn.layers) (@gradF B32 (ops L) env c nn loss xs ys) (gradF envR c nn.values loss (xs.map B32.value) (ys.map B32.value))
      (gradError envR nn loss xs ys) ∧ (gradError envR nn loss xs ys).length = nParams nn.layers := by
  obtain ⟨s1, s2, s3⟩ := hs
  obtain ⟨last, hlast, hno, -⟩ := @exists_last B32 (ops L) c nn hw
  have hhead : ∀ l, nn.layers.head? = some l → xs.length = l.nIn := fun l hl => by rw [lx, Net.nInput_eq hl]
  have hxw : Within xs.length xs (xs.map B32.value) (List.replicate nn.nInput 0) := lx ▸ within_values xs hx _ rfl
  have hnet := netF_within env envR hL c 0 nn.layers last hlast hw.layer hw.chain hf xs (xs.map B32.value) (List.replicate nn.nInput 0) hhead hxw s1
  have hnl := @netF_length B32 (ops L) env c 0 nn.layers xs last hlast hw.layer
  rw [gradF_exact envR c nn hw loss xs ys lx ly s2.1]
  have hlossw := lossF_within (L := L) loss nn.nOutput (hnl.trans hno.symm) ly (by rw [hno]; exact hnet) hy s2
  have hll : (@lossF B32 (ops L) loss nn.nOutput (@netF B32 (ops L) env c 0 nn.layers xs) ys).length = last.nOut := by
    simp only [lossF, List.length_zipWith, hnl]; omega
  have := backF_within env envR hL c _ _ _ nn.layers last hlast hw.layer hw.chain hf hll
    ((lossGrad_length _ _ _ _).trans hno) ((lossGradError_length _ _ _ _ _).trans hno) (by rw [← hno]; exact hlossw) xs (xs.map B32.value) (List.replicate nn.nInput 0)
    (fun l hl => ⟨hhead l hl, by rw [List.length_map]; exact hhead l hl⟩) hxw s1 s3
  exact ⟨this.2.2.2, this.2.2.1⟩

end NN
