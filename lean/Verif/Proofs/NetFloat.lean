import Verif.Properties.Exp256Float
import Verif.Properties.Rounding
import Verif.Proofs.ForwardReal
import Verif.Spec.NetFloat
import Mathlib.Analysis.Calculus.MeanValue
/-
The forward pass in `float` arithmetic.
-/
namespace NN
open B32 Finset Spec

/-! ### Lipschitz constants -/

theorem lipschitz_deriv {f : ℝ → ℝ} {f' : ℝ → ℝ} (h : ∀ x, HasDerivAt f (f' x) x) (hb : ∀ x, |f' x| ≤ 1) (x y : ℝ) :
    |f x - f y| ≤ |x - y| := by
  have := Convex.norm_image_sub_le_of_norm_hasDerivWithin_le (s := Set.univ) (C := 1) (fun x _ => (h x).hasDerivWithinAt)
    (fun x _ => by rw [Real.norm_eq_abs]; exact hb x) convex_univ (Set.mem_univ y) (Set.mem_univ x)
  simpa using this

theorem lipschitz_textbook (a : Act) (f : ℝ → ℝ) (hf : textbook a = some f) (ha : a ≠ .exponential) (x y : ℝ) :
    |f x - f y| ≤ |x - y| := by
  have hd := C19_derivative a f hf
  cases a <;> simp only [textbook, Option.some.injEq, reduceCtorEq] at hf <;> subst hf
  · refine lipschitz_deriv (f' := fun x => derivFactor (derivOf .softplus) (Spec.softplus x)) (fun x => hd x trivial) ?_ x y
    intro x
    have h0 : 0 ≤ Spec.softplus x := Real.log_nonneg (by have := Real.exp_pos x; linarith)
    have h1 : 1 ≤ Real.exp (Spec.softplus x) := Real.one_le_exp h0
    have e : derivFactor (derivOf .softplus) (Spec.softplus x) = (Real.exp (Spec.softplus x) - 1) / Real.exp (Spec.softplus x) := by
      simp [derivFactor, derivOf, softplusD]
    rw [e, abs_of_nonneg (div_nonneg (by linarith) (by linarith)), div_le_one (by linarith)]
    linarith
  · refine lipschitz_deriv (f' := fun x => derivFactor (derivOf .softsign) (Spec.softsign x)) (fun x => hd x trivial) ?_ x y
    intro x
    obtain ⟨z, hz⟩ : ∃ z, z = |Spec.softsign x / (1 - |Spec.softsign x|)| := ⟨_, rfl⟩
    have e : derivFactor (derivOf .softsign) (Spec.softsign x) = 1 / ((1 + z) * (1 + z)) := by
      simp [derivFactor, derivOf, softsignD, hz]
    have hz0 : 0 ≤ z := by rw [hz]; exact abs_nonneg _
    rw [e, abs_of_nonneg (by positivity), div_le_one (by positivity)]
    nlinarith
  · unfold Spec.hardSigmoid
    rw [max_comm 0, max_comm 0, min_comm 1, min_comm 1]
    refine (abs_max_sub_max_le_abs _ _ _).trans ((abs_min_sub_min_le_max _ _ _ _).trans ?_)
    rw [sub_self, abs_zero, max_eq_left (abs_nonneg _), show x / 5 + 1 / 2 - (y / 5 + 1 / 2) = (x - y) / 5 by ring, abs_div]
    have := abs_nonneg (x - y)
    norm_num
    linarith
  · exact absurd rfl ha
  · exact le_rfl
  · unfold Spec.relu
    rw [max_comm 0 x, max_comm 0 y]
    exact abs_max_sub_max_le_abs _ _ _
  · refine lipschitz_deriv (f' := fun x => derivFactor (derivOf .sigmoid) (Spec.sigmoid x)) (fun x => hd x trivial) ?_ x y
    intro x
    have hp := Real.exp_pos (-x)
    have h0 : 0 ≤ Spec.sigmoid x := by unfold Spec.sigmoid; positivity
    have h1 : Spec.sigmoid x ≤ 1 := by unfold Spec.sigmoid; rw [div_le_one (by positivity)]; linarith
    have e : derivFactor (derivOf .sigmoid) (Spec.sigmoid x) = Spec.sigmoid x * (1 - Spec.sigmoid x) := by
      simp [derivFactor, derivOf, sigmoidD]
    rw [e, abs_of_nonneg (mul_nonneg h0 (by linarith))]
    nlinarith
  · refine lipschitz_deriv (f' := fun x => derivFactor (derivOf .tanh) (Real.tanh x)) (fun x => hd x trivial) ?_ x y
    intro x
    have ht := abs_le.1 (tanh_abs_le x)
    have e : derivFactor (derivOf .tanh) (Real.tanh x) = 1 - Real.tanh x * Real.tanh x := by
      simp [derivFactor, derivOf, tanhD]
    rw [e, abs_le]
    constructor <;> nlinarith [ht.1, ht.2]

/-! ### Errors of the activation functions -/

/-- The first `n` entries of `o` are finite and differ from those of `z` by at most those of `e`. -/
def Within (n : ℕ) (o : List B32) (z e : List ℝ) : Prop :=
  ∀ k, k < n → ∃ a, o[k]? = some a ∧ a.isFinite = true ∧ |a.value - at_ z k| ≤ at_ e k

theorem at_range_map {n k : ℕ} {g : ℕ → ℝ} (h : k < n) : at_ ((List.range n).map g) k = g k := by
  simp [at_, h]

theorem at_map' {l : List ℝ} {g : ℝ → ℝ} {k : ℕ} (h : k < l.length) : at_ (l.map g) k = g (at_ l k) := by
  simp [at_, h]

theorem le_maxEntry {l : List ℝ} {k : ℕ} (h : k < l.length) : at_ l k ≤ maxEntry l := by
  have key : ∀ x ∈ l, x ≤ maxEntry l := by
    clear h
    intro x hx
    induction l with
    | nil => simp at hx
    | cons y l ih =>
      rw [maxEntry, List.foldr_cons]
      rcases List.mem_cons.1 hx with rfl | hx
      · exact le_max_left _ _
      · exact (ih hx).trans (le_max_right _ _)
  have e : at_ l k = l[k] := by simp [at_, h]
  rw [e]; exact key _ (List.getElem_mem h)

/-- Softmax of two vectors that differ by at most `D`. -/
theorem softmax_perturb {x y : List ℝ} {D : ℝ} (hl : x.length = y.length) (h : ∀ k, k < y.length → |at_ x k - at_ y k| ≤ D) {k : ℕ}
    (hk : k < y.length) : at_ (Spec.softmax x) k ≤ Real.exp (2 * D) * at_ (Spec.softmax y) k ∧
      at_ (Spec.softmax y) k ≤ Real.exp (2 * D) * at_ (Spec.softmax x) k := by
  have key : ∀ {x y : List ℝ}, x.length = y.length → (∀ k, k < y.length → |at_ x k - at_ y k| ≤ D) → ∀ k, k < y.length →
      at_ (Spec.softmax x) k ≤ Real.exp (2 * D) * at_ (Spec.softmax y) k := by
    intro x y hl h k hk
    have hsum : (y.map Real.exp).sum ≤ Real.exp D * (x.map Real.exp).sum := by
      rw [← List.sum_map_mul_left]
      apply List.Forall₂.sum_le_sum
      rw [List.forall₂_map_left_iff, List.forall₂_map_right_iff, List.forall₂_iff_get]
      refine ⟨hl.symm, ?_⟩
      intro i h1 h2
      have := h i h1
      simp only [at_, List.getD_eq_getElem?_getD, h1, h2, List.getElem?_eq_getElem, Option.getD_some] at this
      rw [List.get_eq_getElem, List.get_eq_getElem, ← Real.exp_add, Real.exp_le_exp]
      have := (abs_le.1 this).1
      linarith
    have e1 : at_ (Spec.softmax x) k = Real.exp (at_ x k) / (x.map Real.exp).sum := by rw [Spec.softmax, at_map' (by omega)]
    have e2 : at_ (Spec.softmax y) k = Real.exp (at_ y k) / (y.map Real.exp).sum := by rw [Spec.softmax, at_map' hk]
    have hpos : ∀ l : List ℝ, l ≠ [] → 0 < (l.map Real.exp).sum := by
      intro l hl
      apply List.sum_pos
      · intro e he
        obtain ⟨z, _, rfl⟩ := List.mem_map.1 he
        exact Real.exp_pos _
      · simpa using hl
    have hx := hpos x (by intro h'; rw [h'] at hl; simp at hl; omega)
    have hy := hpos y (by intro h'; rw [h'] at hk; simp at hk)
    have h2 : Real.exp (at_ x k) ≤ Real.exp D * Real.exp (at_ y k) := by
      rw [← Real.exp_add, Real.exp_le_exp]
      have := (abs_le.1 (h k hk)).2
      linarith
    rw [e1, e2, two_mul, Real.exp_add, div_le_iff₀ hx]
    have h3 : Real.exp D * Real.exp (at_ y k) * (y.map Real.exp).sum ≤
        Real.exp D * Real.exp (at_ y k) * (Real.exp D * (x.map Real.exp).sum) :=
      mul_le_mul_of_nonneg_left hsum (by positivity)
    calc Real.exp (at_ x k) ≤ Real.exp D * Real.exp (at_ y k) := h2
      _ = Real.exp D * Real.exp (at_ y k) * (y.map Real.exp).sum / (y.map Real.exp).sum := by field_simp
      _ ≤ Real.exp D * Real.exp (at_ y k) * (Real.exp D * (x.map Real.exp).sum) / (y.map Real.exp).sum := by gcongr
      _ = _ := by ring
  refine ⟨key hl h k hk, key hl.symm (fun j hj => ?_) k (by omega)⟩
  rw [abs_sub_comm]; exact h j (by omega)

theorem abs_tri (x y z : ℝ) : |x - z| ≤ |x - y| + |y - z| := by
  have := abs_add_le (x - y) (y - z); simpa using this

theorem tol_mono {x y : ℝ} (h : x ≤ y) : tol x ≤ tol y := by unfold tol; gcongr

/-- The activation functions on perturbed inputs. -/
theorem activateF_within (env : CustomEnv B32) (envR : CustomEnv ℝ) {L : Libm} (hL : L.Accurate) (c : Cfg) (a : Act) (hc : ∀ i, a ≠ .custom i)
    (addr : ℕ) (o : List B32) (y d : List ℝ) (hne : o ≠ []) (hlen : y.length = o.length) (hd : d.length = o.length)
    (h : Within o.length o y d) (h88 : Unbounded a → ∀ k, k < o.length → at_ y k + at_ d k ≤ 88) (hbig : a = .softmax → o.length + 4 ≤ 2 ^ 20) :
    Within o.length (@activateF B32 (ops L) env c a addr o) (actSpec envR a y) (actError a y d) := by
  have hfin : ∀ x ∈ o, x.isFinite = true := by
    intro x hx
    obtain ⟨k, hk, rfl⟩ := List.mem_iff_getElem.1 hx
    obtain ⟨a, h1, h2, _⟩ := h k hk
    rw [List.getElem?_eq_getElem hk] at h1
    simp only [Option.some.injEq] at h1
    rwa [h1]
  have hval : ∀ k (hk : k < o.length), |o[k].value - at_ y k| ≤ at_ d k := by
    intro k hk
    obtain ⟨a, h1, _, h3⟩ := h k hk
    rw [List.getElem?_eq_getElem hk] at h1
    simp only [Option.some.injEq] at h1
    rwa [h1]
  by_cases hs : a = .softmax
  · subst hs
    intro k hk
    have hF := softmaxF_float hL c addr o hne (hbig rfl) hfin
    have hl2 := hF.length_eq
    have hl3 : (Spec.softmax (o.map B32.value)).length = o.length := by simp [Spec.softmax]
    have hk2 : k < (@softmaxF B32 (ops L) c addr o).length := by omega
    obtain ⟨z, hz, z0, z1, he⟩ := (List.forall₂_iff_get.1 hF).2 k hk2 (by omega)
    refine ⟨_, List.getElem?_eq_getElem hk2, hz.1, ?_⟩
    rw [show ((@softmaxF B32 (ops L) c addr o)[k]).value = z from hz.2]
    obtain ⟨q, hq⟩ : ∃ q, q = at_ (Spec.softmax (o.map B32.value)) k := ⟨_, rfl⟩
    have hq' : (Spec.softmax (o.map B32.value)).get ⟨k, by omega⟩ = q := by
      rw [hq]; simp [at_, hl3, hk]
    rw [hq'] at he
    have hky : k < y.length := by omega
    obtain ⟨p1, p2⟩ := softmax_perturb (x := o.map B32.value) (y := y) (D := maxEntry d) (by simp [hlen]) (fun j hj => by
      have hjo : j < o.length := by omega
      have : at_ (o.map B32.value) j = o[j].value := by simp [at_, hjo]
      rw [this]
      exact (hval j hjo).trans (le_maxEntry (by omega))) hky
    rw [← hq] at p1 p2
    simp only [actSpec, actError]
    rw [at_map' (by simp [Spec.softmax]; omega)]
    obtain ⟨p, hp⟩ : ∃ p, p = at_ (Spec.softmax y) k := ⟨_, rfl⟩
    rw [← hp] at p1 p2 ⊢
    have hp0 : 0 ≤ p := by
      rw [hp, Spec.softmax, at_map' hky]
      apply div_nonneg (Real.exp_pos _).le
      apply List.sum_nonneg
      intro e he
      obtain ⟨z, _, rfl⟩ := List.mem_map.1 he
      exact (Real.exp_pos _).le
    unfold softmaxError
    rw [hlen]
    have hD : 0 ≤ maxEntry d := by
      have := hval k hk
      exact ((abs_nonneg _).trans this).trans (le_maxEntry (by omega))
    have hR : 1 ≤ Real.exp (2 * maxEntry d) := Real.one_le_exp (by linarith)
    have hε : 0 ≤ softmaxEps o.length := by unfold softmaxEps; positivity
    generalize Real.exp (2 * maxEntry d) = R at *
    generalize softmaxEps o.length = ε at *
    have hqp : |q - p| ≤ (R - 1) * p := by
      rw [abs_le]
      constructor
      · have hq0 : 0 ≤ q := by nlinarith
        rcases le_or_gt p q with h' | h'
        · nlinarith
        · nlinarith [mul_le_mul_of_nonneg_left h'.le (by linarith : (0:ℝ) ≤ R - 1)]
      · linarith
    have h5 := abs_tri z q p
    have h6 := mul_le_mul_of_nonneg_left p1 hε
    linarith
  · obtain ⟨f, hf⟩ : ∃ f, textbook a = some f := by
      cases a <;> simp only [textbook, Option.some.injEq, exists_eq'] <;> first | exact absurd rfl hs | exact absurd rfl (hc _)
    have hspec : actSpec envR a y = y.map f := by
      cases a <;> simp only [textbook, Option.some.injEq, reduceCtorEq] at hf <;> subst hf <;> simp [actSpec]
    have hF := activateF_float env hL c a f hf addr o hfin (fun hU x hx => by
      obtain ⟨k, hk, rfl⟩ := List.mem_iff_getElem.1 hx
      have h1 := h88 hU k hk
      have h2 := (abs_le.1 (hval k hk)).2
      linarith)
    intro k hk
    have hl2 := hF.length_eq
    have hk2 : k < (@activateF B32 (ops L) env c a addr o).length := by omega
    obtain ⟨g1, g2⟩ := (List.forall₂_iff_get.1 hF).2 k hk2 hk
    rw [List.get_eq_getElem, List.get_eq_getElem] at g2
    refine ⟨_, List.getElem?_eq_getElem hk2, g1, ?_⟩
    rw [hspec, at_map' (by omega)]
    have hv := hval k hk
    have hky : k < y.length := by omega
    generalize ((@activateF B32 (ops L) env c a addr o)[k]).value = z at *
    generalize o[k].value = w at *
    have h5 := abs_tri z (f w) (f (at_ y k))
    by_cases hex : a = .exponential
    · subst hex
      simp only [textbook, Option.some.injEq] at hf
      subst hf
      simp only [actError]
      rw [at_range_map hky]
      generalize at_ y k = Y at *
      generalize at_ d k = D at *
      obtain ⟨b1, b2⟩ := abs_le.1 hv
      have hup : Real.exp w ≤ Real.exp (Y + D) := Real.exp_le_exp.2 (by linarith)
      have hlo : Real.exp (Y - D) ≤ Real.exp w := Real.exp_le_exp.2 (by linarith)
      have hD : 0 ≤ D := (abs_nonneg _).trans hv
      have hR : 1 ≤ Real.exp D := Real.one_le_exp hD
      have e1 : Real.exp (Y + D) = Real.exp Y * Real.exp D := Real.exp_add _ _
      have e2 : Real.exp (Y - D) * Real.exp D = Real.exp Y := by rw [← Real.exp_add]; ring_nf
      have hY := Real.exp_pos Y
      have hYD := Real.exp_pos (Y - D)
      have h6 : |Real.exp w - Real.exp Y| ≤ (Real.exp D - 1) * Real.exp Y := by
        rw [abs_le]
        constructor
        · have h7 : Real.exp (Y - D) ≤ Real.exp Y := Real.exp_le_exp.2 (by linarith)
          nlinarith
        · linarith
      unfold expError
      have h8 : 6 / 10 ^ 7 * max 1 |Real.exp w| ≤ tol (Real.exp (Y + D)) := by
        rw [abs_of_pos (Real.exp_pos _)]; exact tol_mono hup
      linarith
    · have hlip := lipschitz_textbook a f hf hex w (at_ y k)
      have he : actError a y d = (List.range y.length).map fun k => lipError f (at_ y k) (at_ d k) := by
        unfold actError
        cases a <;> simp only [textbook, Option.some.injEq, reduceCtorEq, not_true_eq_false] at hf hs hex ⊢ <;> rw [hf]
      rw [he, at_range_map hky]
      unfold lipError
      have h7 : |f w| ≤ |f (at_ y k)| + at_ d k := by
        have := abs_add_le (f w - f (at_ y k)) (f (at_ y k))
        rw [sub_add_cancel] at this
        linarith
      have h8 : 6 / 10 ^ 7 * max 1 |f w| ≤ tol (|f (at_ y k)| + at_ d k) := tol_mono h7
      linarith

/-! ### Layers -/

theorem isL_values (L : Libm) {l : List B32} (h : ∀ x ∈ l, x.isFinite = true) :
    @FloatModel.IsL B32 (ops L) (model L) l (l.map B32.value) := by
  let _ := ops L
  unfold FloatModel.IsL
  rw [List.length_map, List.take_length, List.forall₂_map_right_iff, List.forall₂_same]
  exact fun x hx => ⟨h x hx, rfl⟩

theorem slack_mono {N c : ℕ} {S T : ℝ} (h : S ≤ T) : slack N c S ≤ slack N c T := by
  unfold slack
  have : (0 : ℝ) ≤ (1 + u32) ^ N - 1 := by
    have : (1 : ℝ) ≤ (1 + u32) ^ N := one_le_pow₀ (by unfold u32; norm_num)
    linarith
  gcongr

theorem peak_mono {N c : ℕ} {S T : ℝ} (h : S ≤ T) : peak N c S ≤ peak N c T := by
  unfold peak
  have : (0 : ℝ) ≤ (1 + u32) ^ N := pow_nonneg (by unfold u32; norm_num) _
  gcongr

theorem vmmF_within {L : Libm} (c : Cfg) (n m : ℕ) {w b xs : List B32} {x e : List ℝ} (hw : ∀ v ∈ w, v.isFinite = true)
    (hb : ∀ v ∈ b, v.isFinite = true) (lw : w.length = n * m) (lb : b.length = m) (lx : xs.length = n)
    (hx : Within n xs x e)
    (hmax : ∀ k, k < m → peak (n + 1) n (absAffineErr n m (w.map B32.value) (b.map B32.value) x e k) ≤ max32) :
    Within m (@vmmF B32 (ops L) c n m w b xs) (affine n m (w.map B32.value) (b.map B32.value) x)
      (affineError n m (w.map B32.value) (b.map B32.value) x e) := by
  let _ := ops L
  have iW := isL_values L hw
  have ib := isL_values L hb
  have hxf : ∀ v ∈ xs, v.isFinite = true := by
    intro v hv
    obtain ⟨k, hk, rfl⟩ := List.mem_iff_getElem.1 hv
    obtain ⟨a, h1, h2, _⟩ := hx k (by omega)
    rw [List.getElem?_eq_getElem hk] at h1
    simp only [Option.some.injEq] at h1
    rwa [h1]
  have ix := isL_values L hxf
  intro k hk
  obtain ⟨a, ha1, ha2⟩ := ib.get (i := k) (by simp; omega)
  obtain ⟨X, hX⟩ : ∃ X, X = xs.map B32.value := ⟨_, rfl⟩
  obtain ⟨W, hW⟩ : ∃ W, W = w.map B32.value := ⟨_, rfl⟩
  obtain ⟨B, hB⟩ : ∃ B, B = b.map B32.value := ⟨_, rfl⟩
  rw [← hX] at ix
  rw [← hW] at iW hmax ⊢
  rw [← hB] at ib ha2 hmax ⊢
  have hXi : ∀ i, i < n → |at_ X i - at_ x i| ≤ at_ e i := by
    intro i hi
    obtain ⟨v, h1, _, h3⟩ := hx i hi
    have hi' : i < xs.length := by omega
    rw [List.getElem?_eq_getElem hi'] at h1
    simp only [Option.some.injEq] at h1
    have : at_ X i = v.value := by rw [hX, ← h1]; simp [at_, hi']
    rwa [this]
  have hS : absAffine n m W B X k ≤ absAffineErr n m W B x e k := by
    unfold absAffine absAffineErr
    gcongr with i hi
    rw [abs_mul]
    have h1 := hXi i (by simpa using hi)
    have h2 : |at_ X i| ≤ |at_ x i| + at_ e i := by
      have := abs_add_le (at_ X i - at_ x i) (at_ x i)
      rw [sub_add_cancel] at this
      linarith
    exact mul_le_mul_of_nonneg_right h2 (abs_nonneg _)
  have hmax' : peak (n + 1) n (absAffine n m W B X k) ≤ max32 := (peak_mono hS).trans (hmax k hk)
  have hnear := near_slack L (FloatModel.near_vmmElem (P := model L) c m iW ix ha2 hk (N := n) (by rw [hX]; simp; omega)
    (by rw [hW]; simp; omega) hmax' le_rfl)
  refine ⟨vmmElem c m w xs n k a, ?_, hnear.1, ?_⟩
  · simp [vmmF, hk, ha1]
  · rw [at_affine hk, affineError, at_range_map hk]
    have h1 := hnear.2.trans (slack_mono hS)
    have h2 : |(at_ B k + ∑ i ∈ range n, at_ X i * at_ W (i * m + k)) - (at_ B k + ∑ i ∈ range n, at_ x i * at_ W (i * m + k))| ≤
        ∑ i ∈ range n, at_ e i * |at_ W (i * m + k)| := by
      rw [add_sub_add_left_eq_sub, ← sum_sub_distrib]
      refine (abs_sum_le_sum_abs _ _).trans (sum_le_sum ?_)
      intro i hi
      rw [← sub_mul, abs_mul]
      exact mul_le_mul_of_nonneg_right (hXi i (by simpa using hi)) (abs_nonneg _)
    have h3 := abs_tri (vmmElem c m w xs n k a).value (at_ B k + ∑ i ∈ range n, at_ X i * at_ W (i * m + k))
      (at_ B k + ∑ i ∈ range n, at_ x i * at_ W (i * m + k))
    linarith

theorem layerF_within (env : CustomEnv B32) (envR : CustomEnv ℝ) {L : Libm} (hL : L.Accurate) (c : Cfg) (l : Layer B32) (hw : l.WF c)
    (hf : l.Finite) (addr : ℕ) (xs : List B32) (x e : List ℝ) (lx : xs.length = l.nIn) (hx : Within l.nIn xs x e)
    (hs : LayerSafe l.values x e) :
    Within l.nOut (@layerF B32 (ops L) env c l addr xs) ((l.values.toSpec envR).apply x) (layerError l.values x e) := by
  obtain ⟨s1, s2, s3, s4⟩ := hs
  have hv := vmmF_within (L := L) c l.nIn l.nOut hf.1 hf.2 hw.weight_len hw.bias_len lx hx s1
  have hvl := @vmmF_length B32 (ops L) c l.nIn l.nOut l.weight.data l.bias.data xs hw.bias_len.ge
  have ho := hw.out_pos
  have := activateF_within env envR hL c l.act s4 addr (@vmmF B32 (ops L) c l.nIn l.nOut l.weight.data l.bias.data xs)
    (affine l.nIn l.nOut (l.weight.data.map B32.value) (l.bias.data.map B32.value) x)
    (affineError l.nIn l.nOut (l.weight.data.map B32.value) (l.bias.data.map B32.value) x e)
    (by intro h; rw [h] at hvl; simp at hvl; omega)
    (by rw [hvl]; simp [affine]) (by rw [hvl]; simp [affineError]) (by rw [hvl]; exact hv) (by rw [hvl]; exact s2)
    (by rw [hvl]; exact s3)
  rw [hvl] at this
  exact this

/-! ### Networks -/

theorem netF_within (env : CustomEnv B32) (envR : CustomEnv ℝ) {L : Libm} (hL : L.Accurate) (c : Cfg) (outAddr : ℕ) :
    ∀ (ls : List (Layer B32)) (last : Layer B32), ls.getLast? = some last → (∀ l ∈ ls, l.WF c) → Chained ls → (∀ l ∈ ls, l.Finite) →
      ∀ (xs : List B32) (x e : List ℝ), (∀ l, ls.head? = some l → xs.length = l.nIn) → Within xs.length xs x e →
      NetSafe envR (ls.map Layer.values) x e →
      Within last.nOut (@netF B32 (ops L) env c outAddr ls xs) (Spec.network ((ls.map Layer.values).map (Layer.toSpec envR)) x)
        (netError envR (ls.map Layer.values) x e)
  | [], _, h, _, _, _, _, _, _, _, _, _ => by simp at h
  | [l], last, h, hw, hc, hf, xs, x, e, hl, hx, hs => by
    simp at h; subst h
    have hlen := hl l rfl
    rw [hlen] at hx
    exact layerF_within env envR hL c l (hw l (by simp)) (hf l (by simp)) outAddr xs x e hlen hx hs.1
  | l :: l' :: ls, last, h, hw, hc, hf, xs, x, e, hl, hx, hs => by
    have hlen := hl l rfl
    rw [hlen] at hx
    have h1 := layerF_within env envR hL c l (hw l (by simp)) (hf l (by simp)) 0 xs x e hlen hx hs.1
    have hll := @layerF_length B32 (ops L) env c l 0 xs (hw l (by simp))
    have := netF_within env envR hL c outAddr (l' :: ls) last (by simpa using h) (fun m hm => hw m (by simp [List.mem_cons.mp hm])) hc.2
      (fun m hm => hf m (by simp [List.mem_cons.mp hm])) (@layerF B32 (ops L) env c l 0 xs) _ _
      (fun m hm => by simp at hm; subst hm; rw [hll, hc.1]) (by rw [hll]; exact h1) hs.2
    exact this

/-! ### Squashing activation functions -/

theorem Squashing.spec {a : Act} (h : Squashing a) : ∃ f, textbook a = some f ∧ a ≠ .exponential ∧ a ≠ .softmax ∧ a ≠ .softplus ∧
    (∀ i, a ≠ .custom i) ∧ ∀ x, |f x| ≤ 1 := by
  rcases h with rfl | rfl | rfl | rfl
  · refine ⟨_, rfl, by simp, by simp, by simp, by simp, fun x => ?_⟩
    have hp := Real.exp_pos (-x)
    have h0 : 0 ≤ Spec.sigmoid x := by unfold Spec.sigmoid; positivity
    rw [abs_of_nonneg h0, Spec.sigmoid, div_le_one (by positivity)]; linarith
  · exact ⟨_, rfl, by simp, by simp, by simp, by simp, tanh_abs_le⟩
  · refine ⟨_, rfl, by simp, by simp, by simp, by simp, fun x => ?_⟩
    have := abs_nonneg x
    rw [Spec.softsign, abs_div, abs_of_pos (by linarith : 0 < 1 + |x|), div_le_one (by linarith)]; linarith
  · refine ⟨_, rfl, by simp, by simp, by simp, by simp, fun x => ?_⟩
    unfold Spec.hardSigmoid
    rw [abs_le]
    constructor
    · have := le_max_left 0 (min 1 (x / 5 + 1 / 2)); linarith
    · exact max_le (by norm_num) (min_le_left _ _)

/-- Error added by one layer with up to `N` inputs and weights and bias of each output adding up to at most `R`. -/
noncomputable def layerδ (N : ℕ) (R : ℝ) : ℝ := (N + 1) * R * 2 ^ (-22 : ℤ) + 1 / 10 ^ 6

/-- Error after `D` such layers. -/
noncomputable def depthError (N : ℕ) (R : ℝ) (D : ℕ) : ℝ := layerδ N R * ∑ i ∈ range D, (2 * R) ^ i

theorem smallLayer_step (envR : CustomEnv ℝ) {N : ℕ} {R E : ℝ} (hN : N < 2 ^ 20) (hR : 1 ≤ R) (hR' : R ≤ 2 ^ 100) (hE0 : 0 ≤ E) (hE : E ≤ 1) {l : Layer ℝ}
    (hl : SmallLayer N R l) {x e : List ℝ} (hx : ∀ i, i < l.nIn → |at_ x i| ≤ 1) (he : ∀ i, i < l.nIn → 0 ≤ at_ e i ∧ at_ e i ≤ E) :
    LayerSafe l x e ∧ (∀ k, k < l.nOut → |at_ ((l.toSpec envR).apply x) k| ≤ 1) ∧
      ∀ k, k < l.nOut → 0 ≤ at_ (layerError l x e) k ∧ at_ (layerError l x e) k ≤ 2 * R * E + layerδ N R := by
  obtain ⟨hsq, hn, hsum⟩ := hl
  obtain ⟨f, hf, a1, a2, a3, a4, hf1⟩ := hsq.spec
  have hS : ∀ k, k < l.nOut → 0 ≤ absAffineErr l.nIn l.nOut l.weight.data l.bias.data x e k ∧
      absAffineErr l.nIn l.nOut l.weight.data l.bias.data x e k ≤ 2 * R := by
    intro k hk
    constructor
    · apply add_nonneg (abs_nonneg _) (sum_nonneg ?_)
      intro i hi
      have := (he i (by simpa using hi)).1
      positivity
    · have h1 : ∑ i ∈ range l.nIn, (|at_ x i| + at_ e i) * |at_ l.weight.data (i * l.nOut + k)| ≤
          ∑ i ∈ range l.nIn, 2 * |at_ l.weight.data (i * l.nOut + k)| := by
        apply sum_le_sum
        intro i hi
        have h2 := hx i (by simpa using hi)
        have h3 := he i (by simpa using hi)
        apply mul_le_mul_of_nonneg_right _ (abs_nonneg _)
        linarith [h3.2]
      rw [← mul_sum] at h1
      have h4 := hsum k hk
      have h5 := abs_nonneg (at_ l.bias.data k)
      unfold absAffineErr
      linarith
  have hn1 : l.nIn + 1 ≤ 2 ^ 20 := by omega
  obtain ⟨r1, r2⟩ := pow_rel hn1
  have hnN : ((l.nIn + 1 : ℕ) : ℝ) ≤ N + 1 := by push_cast; exact_mod_cast Nat.succ_le_succ hn
  have hn20 : (l.nIn : ℝ) ≤ 2 ^ 20 := by exact_mod_cast (by omega : l.nIn ≤ 2 ^ 20)
  have hpow : (1 + u32) ^ (l.nIn + 1) ≤ 2 := by
    have e : u32 = (2 : ℝ) ^ (-24 : ℤ) := rfl
    rw [e]
    generalize (1 + (2 : ℝ) ^ (-24 : ℤ)) ^ (l.nIn + 1) = p at *
    generalize ((l.nIn + 1 : ℕ) : ℝ) * 2 ^ (-24 : ℤ) = y at *
    linarith
  have hη : (l.nIn : ℝ) * η32 ≤ 1 / 10 ^ 30 := by
    refine (mul_le_mul_of_nonneg_right hn20 (by unfold η32; positivity)).trans ?_
    unfold η32; norm_num
  have hη0 : 0 ≤ (l.nIn : ℝ) * η32 := by unfold η32; positivity
  have hslack : ∀ k, k < l.nOut → 0 ≤ slack (l.nIn + 1) l.nIn (absAffineErr l.nIn l.nOut l.weight.data l.bias.data x e k) ∧
      slack (l.nIn + 1) l.nIn (absAffineErr l.nIn l.nOut l.weight.data l.bias.data x e k) ≤ 17 / 8 * ((N + 1) * R * 2 ^ (-24 : ℤ)) + 2 / 10 ^ 30 := by
    intro k hk
    obtain ⟨s1, s2⟩ := hS k hk
    have p1 : (1 : ℝ) ≤ (1 + u32) ^ (l.nIn + 1) := one_le_pow₀ (by unfold u32; norm_num)
    constructor
    · unfold slack
      have : 0 ≤ (1 + u32) ^ (l.nIn + 1) - 1 := by linarith
      positivity
    · refine (slack_mono s2).trans ?_
      unfold slack
      have h1 : ((1 + u32) ^ (l.nIn + 1) - 1) * (2 * R) ≤ 17 / 16 * ((N + 1) * 2 ^ (-24 : ℤ)) * (2 * R) := by
        apply mul_le_mul_of_nonneg_right _ (by linarith)
        refine le_trans r1 ?_
        gcongr
      have h2 : (l.nIn : ℝ) * η32 * (1 + u32) ^ (l.nIn + 1) ≤ 1 / 10 ^ 30 * 2 := mul_le_mul hη hpow (by linarith) (by norm_num)
      calc _ ≤ 17 / 16 * ((N + 1) * 2 ^ (-24 : ℤ)) * (2 * R) + 1 / 10 ^ 30 * 2 := add_le_add h1 h2
        _ = _ := by ring
  have hd : ∀ k, k < l.nOut → 0 ≤ at_ (affineError l.nIn l.nOut l.weight.data l.bias.data x e) k ∧
      at_ (affineError l.nIn l.nOut l.weight.data l.bias.data x e) k ≤ R * E + (17 / 8 * ((N + 1) * R * 2 ^ (-24 : ℤ)) + 2 / 10 ^ 30) := by
    intro k hk
    rw [affineError, at_range_map hk]
    obtain ⟨s1, s2⟩ := hslack k hk
    have h1 : ∑ i ∈ range l.nIn, at_ e i * |at_ l.weight.data (i * l.nOut + k)| ≤ E * R := by
      have : ∑ i ∈ range l.nIn, at_ e i * |at_ l.weight.data (i * l.nOut + k)| ≤ ∑ i ∈ range l.nIn, E * |at_ l.weight.data (i * l.nOut + k)| := by
        apply sum_le_sum
        intro i hi
        exact mul_le_mul_of_nonneg_right (he i (by simpa using hi)).2 (abs_nonneg _)
      rw [← mul_sum] at this
      refine this.trans (mul_le_mul_of_nonneg_left ?_ hE0)
      have h4 := hsum k hk
      have h5 := abs_nonneg (at_ l.bias.data k)
      linarith
    have h0 : 0 ≤ ∑ i ∈ range l.nIn, at_ e i * |at_ l.weight.data (i * l.nOut + k)| :=
      sum_nonneg fun i hi => mul_nonneg (he i (by simpa using hi)).1 (abs_nonneg _)
    exact ⟨add_nonneg h0 s1, by linarith⟩
  refine ⟨⟨?_, ?_, ?_, a4⟩, ?_, ?_⟩
  · intro k hk
    obtain ⟨s1, s2⟩ := hS k hk
    unfold peak
    have h1 : (1 + u32) ^ (l.nIn + 1) * (absAffineErr l.nIn l.nOut l.weight.data l.bias.data x e k + l.nIn * η32) ≤ 2 * (2 * R + 1) :=
      mul_le_mul hpow (by linarith) (by linarith) (by norm_num)
    refine h1.trans ?_
    unfold max32
    norm_num at hR' ⊢
    linarith
  · rintro (h | h)
    · exact absurd h a1
    · exact absurd h a3
  · exact fun h => absurd h a2
  · intro k hk
    have : (l.toSpec envR).apply x = (affine l.nIn l.nOut l.weight.data l.bias.data x).map f := by
      unfold Spec.Layer.apply Layer.toSpec
      rcases hsq with h | h | h | h <;> rw [h] at hf ⊢ <;> simp only [textbook, Option.some.injEq] at hf <;> subst hf <;> rfl
    rw [this, at_map' (by simp [affine, hk])]
    exact hf1 _
  · intro k hk
    have herr : layerError l x e = (List.range l.nOut).map fun k => lipError f (at_ (affine l.nIn l.nOut l.weight.data l.bias.data x) k)
        (at_ (affineError l.nIn l.nOut l.weight.data l.bias.data x e) k) := by
      unfold layerError actError
      have hlen : (affine l.nIn l.nOut l.weight.data l.bias.data x).length = l.nOut := by simp [affine]
      rw [hlen]
      rcases hsq with h | h | h | h <;> rw [h] at hf ⊢ <;> simp only [textbook, Option.some.injEq] at hf <;> subst hf <;> rfl
    rw [herr, at_range_map hk]
    obtain ⟨d0, d1⟩ := hd k hk
    have hfy := hf1 (at_ (affine l.nIn l.nOut l.weight.data l.bias.data x) k)
    have hfy0 := abs_nonneg (f (at_ (affine l.nIn l.nOut l.weight.data l.bias.data x) k))
    generalize at_ (affineError l.nIn l.nOut l.weight.data l.bias.data x e) k = d at *
    generalize at_ (affine l.nIn l.nOut l.weight.data l.bias.data x) k = y at *
    unfold lipError tol layerδ
    have hmax : max 1 (|f y| + d) ≤ 1 + d := max_le (by linarith) (by linarith)
    have hmax0 : 0 ≤ max 1 (|f y| + d) := le_trans zero_le_one (le_max_left _ _)
    refine ⟨by linarith, ?_⟩
    have e22 : (2 : ℝ) ^ (-22 : ℤ) = 4 * 2 ^ (-24 : ℤ) := by norm_num
    rw [e22]
    have hP : 0 ≤ ((N : ℝ) + 1) * R * 2 ^ (-24 : ℤ) := by positivity
    rw [show ((N : ℝ) + 1) * R * (4 * 2 ^ (-24 : ℤ)) = 4 * ((N + 1) * R * 2 ^ (-24 : ℤ)) by ring]
    generalize ((N : ℝ) + 1) * R * 2 ^ (-24 : ℤ) = P at *
    have hRE : 0 ≤ R * E := mul_nonneg (by linarith) hE0
    rw [show 2 * R * E = 2 * (R * E) by ring]
    generalize R * E = Q at *
    linarith

theorem depthError_succ (N : ℕ) (R : ℝ) (D : ℕ) : depthError N R (D + 1) = 2 * R * depthError N R D + layerδ N R := by
  unfold depthError
  rw [sum_range_succ']
  simp only [pow_succ, pow_zero]
  rw [← sum_mul]
  ring

theorem depthError_mono (N : ℕ) {R : ℝ} (hR : 0 ≤ R) {D D' : ℕ} (h : D ≤ D') : depthError N R D ≤ depthError N R D' := by
  unfold depthError
  have : 0 ≤ layerδ N R := by unfold layerδ; positivity
  apply mul_le_mul_of_nonneg_left _ this
  exact sum_le_sum_of_subset_of_nonneg (range_subset_range.2 h) fun _ _ _ => by positivity

theorem smallNet_within (envR : CustomEnv ℝ) {N : ℕ} {R : ℝ} (hN : N < 2 ^ 20) (hR : 1 ≤ R) (hR' : R ≤ 2 ^ 100) :
    ∀ (ls : List (Layer ℝ)) (last : Layer ℝ) (D : ℕ) (x e : List ℝ), ls.getLast? = some last → Chained ls → (∀ l ∈ ls, SmallLayer N R l) →
      depthError N R (D + ls.length) ≤ 1 →
      (∀ l, ls.head? = some l → ∀ i, i < l.nIn → |at_ x i| ≤ 1 ∧ 0 ≤ at_ e i ∧ at_ e i ≤ depthError N R D) →
      NetSafe envR ls x e ∧ ∀ k, k < last.nOut → at_ (netError envR ls x e) k ≤ depthError N R (D + ls.length)
  | [], _, _, _, _, h, _, _, _, _ => by simp at h
  | [l], last, D, x, e, h, _, hs, hD, hx => by
    simp at h; subst h
    have h0 : 0 ≤ depthError N R D := by unfold depthError layerδ; positivity
    have h1 := depthError_mono N (by linarith : 0 ≤ R) (show D ≤ D + [l].length by simp)
    have hx' := hx l rfl
    obtain ⟨g1, g2, g3⟩ := smallLayer_step envR hN hR hR' h0 (h1.trans hD) (hs l (by simp)) (fun i hi => (hx' i hi).1) (fun i hi => (hx' i hi).2)
    refine ⟨⟨g1, trivial⟩, ?_⟩
    intro k hk
    rw [List.length_singleton, depthError_succ]
    exact (g3 k hk).2
  | l :: l' :: ls, last, D, x, e, h, hc, hs, hD, hx => by
    have h0 : 0 ≤ depthError N R D := by unfold depthError layerδ; positivity
    have h1 := depthError_mono N (by linarith : 0 ≤ R) (show D ≤ D + (l :: l' :: ls).length by simp)
    have hx' := hx l rfl
    obtain ⟨g1, g2, g3⟩ := smallLayer_step envR hN hR hR' h0 (h1.trans hD) (hs l (by simp)) (fun i hi => (hx' i hi).1) (fun i hi => (hx' i hi).2)
    have e1 : D + 1 + (l' :: ls).length = D + (l :: l' :: ls).length := by simp; omega
    obtain ⟨r1, r2⟩ := smallNet_within envR hN hR hR' (l' :: ls) last (D + 1) ((l.toSpec envR).apply x) (layerError l x e) (by simpa using h) hc.2
      (fun m hm => hs m (by simp [List.mem_cons.mp hm])) (by rw [e1]; exact hD)
      (fun m hm i hi => by
        simp at hm; subst hm
        rw [← hc.1] at hi
        refine ⟨g2 i hi, (g3 i hi).1, ?_⟩
        rw [depthError_succ]; exact (g3 i hi).2)
    refine ⟨⟨g1, r1⟩, ?_⟩
    rw [← e1]
    exact r2

end NN
