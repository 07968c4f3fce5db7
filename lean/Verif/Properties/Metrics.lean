import Verif.Proofs.Metrics
import Verif.Proofs.GradientOut
/-
C21 – C23: losses and metrics.
-/
set_option linter.unusedSimpArgs false
set_option linter.unusedSectionVars false

namespace NN
open FloatOps Spec

/-- The value of a metric in textbook terms. -/
noncomputable def metricSpec : Metric → ℕ → List ℝ → List ℝ → ℝ
  | .mse, n, p, y => Spec.mse n p y
  | .mae, n, p, y => Spec.mae n p y
  | .mape, n, p, y => Spec.mape (1 / 10000000) n p y
  | .bce, n, p, y => Spec.binaryCrossentropy n (p.map (Spec.clip (1 / 10000000))) y
  | .cce, n, p, y => Spec.categoricalCrossentropy n (p.map (Spec.clip (1 / 10000000))) y / n
  | .binaryAccuracy, n, p, y =>
    (∑ k ∈ Finset.range n, if roundAway (min (max (at_ y k) 0) 1) = roundAway (at_ p k) then 1 else 0) / n
  | .categoricalAccuracy, n, p, y =>
    if (argmaxF p (n - 1)).2 = (argmaxF y (n - 1)).2 then 1 else 0

/-- Every metric delivers its textbook value and does not access anything but the first `n` floats. -/
theorem runMetric_real (m : Metric) (n : ℕ) (hn : 1 ≤ n) (p y : View ℝ) (hp : n ≤ p.data.length)
    (hy : n ≤ y.data.length) : runMetric m n p y = .ok (metricSpec m n p.data y.data) := by
  cases m <;> simp only [runMetric, bind, Except.bind, pure, Except.pure, metricSpec,
    sumLoop_eq _ n p y hp hy, sumF_real _ n _ _ hp hy, argmaxLoop_eq n _ hn hp, argmaxLoop_eq n _ hn hy,
    Except.ok.injEq, RealOps.div_def, RealOps.ofNat_def, RealOps.neg_def, RealOps.mul_def, RealOps.sub_def,
    RealOps.add_def, RealOps.one_def, RealOps.zero_def, RealOps.abs_def, RealOps.log_def, RealOps.fmax_def,
    RealOps.fmin_def, RealOps.round_def, RealOps.lit_def, RealOps.eq_iff]
  · simp only [Spec.mse]; congr 1; refine Finset.sum_congr rfl fun k _ => ?_; ring
  · simp only [Spec.mae]; congr 1; refine Finset.sum_congr rfl fun k _ => abs_sub_comm _ _
  · simp only [Spec.mape]; congr 1
    rw [Finset.mul_sum]
    refine Finset.sum_congr rfl fun k _ => ?_
    have h0 : (0:ℝ) < max (at_ y.data k) (1 / 10000000) := lt_of_lt_of_le (by norm_num) (le_max_right _ _)
    have e : (epsilon : ℝ) = 1 / 10000000 := by simp [epsilon]
    rw [e, abs_div, abs_of_pos h0, abs_sub_comm]
    push_cast
    ring
  · simp only [Spec.categoricalCrossentropy]
    congr 2
    refine Finset.sum_congr rfl fun k hk => ?_
    have hk' : k < p.data.length := by simp at hk; omega
    rw [at_map _ hk', clip_real]
  · simp only [Spec.binaryCrossentropy]
    congr 2
    refine Finset.sum_congr rfl fun k hk => ?_
    have hk' : k < p.data.length := by simp at hk; omega
    rw [at_map _ hk', clip_real]
  · simp only [beq_iff_eq]

/-! ### C21, C22: loss functions and metrics -/

/-- What the loss function writes for the prediction `act z` is the gradient, with respect to `z`, of
the metric: the derivative in every direction `v` is the inner product with `v`. -/
def GradientOfMetric (loss : Loss) (metric : Metric) (act : List ℝ → List ℝ) (n : ℕ) (z y : List ℝ) : Prop :=
  ∃ g : List ℝ, g.length = n ∧
    (∀ pa ya ga old, old.length = n →
      runLoss loss n ⟨pa, act z⟩ ⟨ya, y⟩ ⟨ga, old⟩ = .ok ⟨ga, g⟩) ∧
    ∀ v : List ℝ, v.length = n → ∃ f : ℝ → ℝ,
      (∀ t pa ya, runMetric metric n ⟨pa, act (List.zipWith (fun a d => a + t * d) z v)⟩ ⟨ya, y⟩ = .ok (f t)) ∧
      HasDerivAt f (Spec.dot n g v) 0

/-- The layer with pre-activation `z` for every input. -/
def constLayer (n : ℕ) (z : List ℝ) (a : Act) : Layer ℝ :=
  ⟨0, n, ⟨0, []⟩, ⟨0, z⟩, a, some .linear⟩

theorem preact_constLayer (n : ℕ) (z : List ℝ) (a : Act) (hz : z.length = n) :
    preact (constLayer n z a) [] = z := by
  apply List.ext_getElem
  · simp [preact, affine, constLayer, hz]
  · intro i h1 h2
    simp [preact, affine, constLayer, at_eq h2]

theorem runLoss_list (loss : Loss) (n : ℕ) (p y : List ℝ) (hp : p.length = n) (hy : y.length = n)
    (pa ya ga : ℕ) (old : List ℝ) (ho : old.length = n) :
    runLoss loss n ⟨pa, p⟩ ⟨ya, y⟩ ⟨ga, old⟩ = .ok ⟨ga, lossF loss n p y⟩ := by
  rw [runLoss_eq loss n _ _ _ (by simp [hp]) (by simp [hy]) (by simp [ho])]
  simp only
  rw [List.take_of_length_le hp.le, List.take_of_length_le hy.le, List.drop_of_length_le ho.le,
    List.append_nil]

/-- Derivative of the objective along a line, from the analysis of the output layer. -/
theorem line_derivative (env : CustomEnv ℝ) (loss : Loss) (a : Act) (n : ℕ) (z y v : List ℝ)
    (hz : z.length = n) (hv : v.length = n)
    (h : OutOk env ⟨.sse, false, false⟩ (fun p => objective loss n p y) (lossF loss n (actSpec env a z) y)
      (constLayer n z a) []) :
    HasDerivAt (fun t => objective loss n (actSpec env a (List.zipWith (fun x d => x + t * d) z v)) y)
      (Spec.dot n (lossF loss n (actSpec env a z) y) v) 0 := by
  have ht := tangent_line n z v hz (by omega)
  rw [← hv, List.take_length, hv] at ht
  have := h _ _ ht (by
    rw [preact_constLayer n z a hz]
    apply List.ext_getElem
    · simp [hz, hv]
    · intro i h1 h2; simp)
  refine HasDerivAt.congr_deriv this ?_
  rw [derivF_linear env _ _ rfl]
  rfl

/-- **C21** For the mean squared, mean absolute and mean absolute percentage error the loss function
writes the gradient of the metric of the same name (off the kinks of the absolute value). -/
theorem C21_gradient (loss : Loss) (metric : Metric)
    (hm : getMetricFunc (getLossName (some loss)) = some metric)
    (hl : loss = .mse ∨ loss = .mae ∨ loss = .mape) (n : ℕ) (hn : 1 ≤ n) (p y : List ℝ)
    (hp : p.length = n) (hy : y.length = n) (hk : loss ≠ .mse → ∀ k < n, at_ p k ≠ at_ y k) :
    GradientOfMetric loss metric id n p y := by
  refine ⟨lossF loss n p y, by simp [lossF, hp, hy], fun pa ya ga old ho =>
    runLoss_list loss n p y hp hy pa ya ga old ho, fun v hv => ?_⟩
  have hlen : ∀ t : ℝ, (List.zipWith (fun a d => a + t * d) p v).length = n := by intro t; simp [hp, hv]
  refine ⟨fun t => objective loss n (List.zipWith (fun a d => a + t * d) p v) y, ?_, ?_⟩
  · intro t pa ya
    rw [runMetric_real metric n hn _ _ (by simp [hp, hv]) (by simp [hy])]
    rcases hl with rfl | rfl | rfl <;>
      · simp only [getLossName, getMetricFunc] at hm
        simp at hm
        subst hm
        simp [metricSpec, objective]
  · have ho := outOk (noCustom ℝ) ⟨.sse, false, false⟩ loss (constLayer n p .linear) [] y
      (by rcases hl with rfl | rfl | rfl <;> rfl) hy
      (by
        rw [preact_constLayer n p _ hp]
        rcases hl with rfl | rfl | rfl
        · exact ⟨_, rfl, fun k _ => trivial⟩
        · exact ⟨_, rfl, fun k hk' => ⟨trivial, hk (by decide) k hk'⟩⟩
        · exact ⟨_, rfl, fun k hk' => ⟨trivial, hk (by decide) k hk'⟩⟩)
    rw [preact_constLayer n p _ hp] at ho
    have := line_derivative (noCustom ℝ) loss .linear n p y v hp hv ho
    simpa [actSpec] using this

theorem clip_eventually (f : ℝ → ℝ) (hf : ContinuousAt f 0) (h1 : 1 / 10000000 < f 0)
    (h2 : f 0 < 1 - 1 / 10000000) : ∀ᶠ t in nhds (0 : ℝ), Spec.clip (1 / 10000000) (f t) = f t := by
  have := hf.eventually (Ioo_mem_nhds h1 h2)
  filter_upwards [this] with t ht
  rw [Spec.clip, max_eq_left ht.1.le, min_eq_left ht.2.le]

/-- Clipping does nothing near a prediction inside the clipping range. -/
theorem clip_list_eventually (n : ℕ) (p : ℝ → List ℝ) (hl : ∀ t, (p t).length = n)
    (hc : ∀ k < n, ContinuousAt (fun t => at_ (p t) k) 0)
    (h : ∀ k < n, 1 / 10000000 < at_ (p 0) k ∧ at_ (p 0) k < 1 - 1 / 10000000) :
    ∀ᶠ t in nhds (0 : ℝ), (p t).map (Spec.clip (1 / 10000000)) = p t := by
  have : ∀ᶠ t in nhds (0 : ℝ), ∀ k ∈ Finset.range n, Spec.clip (1 / 10000000) (at_ (p t) k) = at_ (p t) k := by
    rw [Finset.eventually_all]
    intro k hk
    exact clip_eventually _ (hc k (by simpa using hk)) (h k (by simpa using hk)).1 (h k (by simpa using hk)).2
  filter_upwards [this] with t ht
  apply List.ext_getElem
  · simp
  · intro i h1 h2
    have := ht i (by rw [hl] at h2; simpa using h2)
    rw [at_eq h2] at this
    simpa using this

/-- **C21** For `binary_crossentropy` on sigmoid outputs: what the loss function writes is the gradient
of the metric with respect to the argument of the sigmoid, as long as the predictions are not
clipped. -/
theorem C21_bce (n : ℕ) (hn : 1 ≤ n) (z y : List ℝ) (hz : z.length = n) (hy : y.length = n)
    (hc : ∀ k < n, 1 / 10000000 < Spec.sigmoid (at_ z k) ∧ Spec.sigmoid (at_ z k) < 1 - 1 / 10000000) :
    GradientOfMetric .bce .bce (List.map Spec.sigmoid) n z y := by
  refine ⟨lossF .bce n (z.map Spec.sigmoid) y, by simp [lossF, hz, hy], fun pa ya ga old ho =>
    runLoss_list .bce n _ y (by simpa using hz) hy pa ya ga old ho, fun v hv => ?_⟩
  refine ⟨fun t => metricSpec .bce n ((List.zipWith (fun a d => a + t * d) z v).map Spec.sigmoid) y, ?_, ?_⟩
  · intro t pa ya
    rw [runMetric_real .bce n hn _ _ (by simp [hz, hv]) (by simp [hy])]
  · have ho := outOk_bce (noCustom ℝ) ⟨.sse, false, false⟩ (constLayer n z .sigmoid) [] y rfl rfl hy
    rw [preact_constLayer n z _ hz] at ho
    have hd := line_derivative (noCustom ℝ) .bce .sigmoid n z y v hz hv ho
    have ht := tangent_textbook (noCustom ℝ) .sigmoid Spec.sigmoid rfl n _ _
      (by have := tangent_line n z v hz (by omega); rwa [← hv, List.take_length, hv] at this)
      (fun _ _ => trivial)
    refine HasDerivAt.congr_of_eventuallyEq hd ?_
    have h0 : List.zipWith (fun x d => x + (0:ℝ) * d) z v = z := by
      apply List.ext_getElem
      · simp [hz, hv]
      · intro i h1 h2; simp
    have := clip_list_eventually n (fun t => (List.zipWith (fun a d => a + t * d) z v).map Spec.sigmoid)
      (by intro t; simp [hz, hv]) (fun k hk => (ht.2 k hk).continuousAt)
      (by
        intro k hk
        simp only [h0]
        rw [at_map _ (by omega)]
        exact hc k hk)
    filter_upwards [this] with t hct
    simp only [metricSpec, objective, actSpec, hct]

/-- **C21** Where a prediction is clipped the metric is flat, but the loss function still writes a
non-zero gradient: the hypothesis on the clipping range in `C21_bce` cannot be dropped. -/
theorem C21_bce_clipped : ∃ z y : ℝ, ¬ GradientOfMetric .bce .bce (List.map Spec.sigmoid) 1 [z] [y] := by
  obtain ⟨z, hz⟩ : ∃ z : ℝ, ∀ x ≤ z + 1, Spec.sigmoid x < 1 / 10000000 := by
    refine ⟨-10000001, fun x hx => ?_⟩
    have h1 : (10000000 : ℝ) ≤ -x := by linarith
    have h2 := Real.add_one_le_exp (-x)
    rw [Spec.sigmoid, div_lt_div_iff₀ (by positivity) (by norm_num)]
    linarith
  refine ⟨z, 1, ?_⟩
  rintro ⟨g, hg, h1, h2⟩
  have hg' := h1 0 0 0 [0] rfl
  rw [runLoss_list .bce 1 _ _ (by simp) (by simp) 0 0 0 [0] rfl] at hg'
  obtain ⟨f, hf, hd⟩ := h2 [1] rfl
  have hf' : ∀ t : ℝ, f t = metricSpec .bce 1 [Spec.sigmoid (z + t * 1)] [1] := by
    intro t
    have := hf t 0 0
    rw [runMetric_real .bce 1 le_rfl _ _ (by simp) (by simp)] at this
    simp at this
    rw [← this]; simp
  have hconst : HasDerivAt f 0 0 := by
    refine HasDerivAt.congr_of_eventuallyEq (hasDerivAt_const (0:ℝ) (f 0)) ?_
    filter_upwards [Iio_mem_nhds (show (0:ℝ) < 1 by norm_num)] with t ht
    have ht' : t < 1 := ht
    have e : ∀ s : ℝ, s < 1 → Spec.clip (1 / 10000000) (Spec.sigmoid (z + s * 1)) = 1 / 10000000 := by
      intro s hs
      have := hz (z + s * 1) (by linarith)
      rw [Spec.clip, max_eq_right this.le, min_eq_left (by norm_num)]
    rw [hf', hf']
    simp only [metricSpec, List.map_cons, List.map_nil, e t ht', e 0 (by norm_num)]
  have hu := hd.unique hconst
  have hgv : g = [Spec.sigmoid z - 1] := by
    simp only [Except.ok.injEq, View.mk.injEq, true_and] at hg'
    rw [← hg']
    simp [lossF, lossElem]
  rw [hgv] at hu
  simp [Spec.dot, at_] at hu
  have := hz z (by linarith)
  have h3 : Spec.sigmoid z = 1 := by linarith
  rw [h3] at this
  norm_num at this

/-- **C22** `categorical_crossentropy` on softmax outputs, targets summing to 1: the loss function
writes `n` times the gradient of the metric.  Missing for the full property: the factor `n`; it is
1 only for a single output. -/
theorem C22_scaled_partial (n : ℕ) (hn : 1 ≤ n) (z y : List ℝ) (hz : z.length = n) (hy : y.length = n)
    (hy1 : ∑ k ∈ Finset.range n, at_ y k = 1)
    (hc : ∀ k < n, 1 / 10000000 < at_ (Spec.softmax z) k ∧ at_ (Spec.softmax z) k < 1 - 1 / 10000000) :
    ∃ g : List ℝ, g.length = n ∧
      (∀ pa ya ga old, old.length = n →
        runLoss .cce n ⟨pa, Spec.softmax z⟩ ⟨ya, y⟩ ⟨ga, old⟩ = .ok ⟨ga, g⟩) ∧
      ∀ v : List ℝ, v.length = n → ∃ f : ℝ → ℝ,
        (∀ t pa ya, runMetric .cce n ⟨pa, Spec.softmax (List.zipWith (fun a d => a + t * d) z v)⟩ ⟨ya, y⟩ =
          .ok (f t)) ∧
        HasDerivAt f (Spec.dot n g v / n) 0 := by
  have hsl : ∀ l : List ℝ, (Spec.softmax l).length = l.length := by intro l; simp [Spec.softmax]
  refine ⟨lossF .cce n (Spec.softmax z) y, by simp [lossF, hz, hy, hsl], fun pa ya ga old ho =>
    runLoss_list .cce n _ y (by rw [hsl, hz]) hy pa ya ga old ho, fun v hv => ?_⟩
  refine ⟨fun t => metricSpec .cce n (Spec.softmax (List.zipWith (fun a d => a + t * d) z v)) y, ?_, ?_⟩
  · intro t pa ya
    rw [runMetric_real .cce n hn _ _ (by simp [hsl, hz, hv]) (by simp [hy])]
  · have ho := outOk_cce (noCustom ℝ) ⟨.sse, false, false⟩ (constLayer n z .softmax) [] y rfl rfl hy hy1
    rw [preact_constLayer n z _ hz] at ho
    have hd := line_derivative (noCustom ℝ) .cce .softmax n z y v hz hv ho
    have hzt := tangent_line n z v hz (by omega)
    rw [← hv, List.take_length, hv] at hzt
    have h0 : List.zipWith (fun x d => x + (0:ℝ) * d) z v = z := by
      apply List.ext_getElem
      · simp [hz, hv]
      · intro i h1 h2; simp
    have hlen : ∀ t : ℝ, (List.zipWith (fun a d => a + t * d) z v).length = n := hzt.1
    have hcont : ∀ k < n, ContinuousAt (fun t => at_ (Spec.softmax (List.zipWith (fun a d => a + t * d) z v)) k) 0 := by
      intro k hk
      have e : (fun t => at_ (Spec.softmax (List.zipWith (fun a d => a + t * d) z v)) k) = fun t =>
          Real.exp (at_ (List.zipWith (fun a d => a + t * d) z v) k) /
            ∑ j ∈ Finset.range n, Real.exp (at_ (List.zipWith (fun a d => a + t * d) z v) j) := by
        funext t
        rw [at_softmax _ k (by rw [hlen]; exact hk), hlen]
      rw [e]
      have hS : HasDerivAt (fun t => ∑ j ∈ Finset.range n,
          Real.exp (at_ (List.zipWith (fun a d => a + t * d) z v) j)) _ 0 :=
        HasDerivAt.fun_sum fun j hj => (hzt.2 j (by simpa using hj)).exp
      refine ContinuousAt.div (hzt.2 k hk).exp.continuousAt hS.continuousAt ?_
      exact (Finset.sum_pos (fun j _ => Real.exp_pos _) ⟨0, by simpa using (by omega : 0 < n)⟩).ne'
    have := clip_list_eventually n (fun t => Spec.softmax (List.zipWith (fun a d => a + t * d) z v))
      (by intro t; rw [hsl, hlen]) hcont
      (by
        intro k hk
        simp only [h0]
        exact hc k hk)
    refine HasDerivAt.congr_of_eventuallyEq (hd.div_const (n : ℝ)) ?_
    filter_upwards [this] with t hct
    simp only [metricSpec, objective, actSpec, hct]

/-- **C22 is false** With two classes, equal scores and target `[1, 0]` the gradient written by the
loss function is not the gradient of the metric of the same name (it is twice as large). -/
theorem C22_false : getMetricFunc (getLossName (some .cce)) = some .cce ∧
    ¬ GradientOfMetric .cce .cce Spec.softmax 2 [0, 0] [1, 0] := by
  refine ⟨by decide, ?_⟩
  rintro ⟨g, -, h1, h2⟩
  have hs : Spec.softmax [0, 0] = [1 / 2, 1 / 2] := by
    simp [Spec.softmax]; norm_num
  obtain ⟨g', -, h1', h2'⟩ := C22_scaled_partial 2 (by decide) [0, 0] [1, 0] rfl rfl
    (by simp [Finset.sum_range_succ, at_]) (by
      intro k hk
      rw [hs]
      interval_cases k <;> norm_num [at_])
  have e1 := h1 0 0 0 [0, 0] rfl
  have e2 := h1' 0 0 0 [0, 0] rfl
  have hg : g = g' := by
    rw [e1] at e2; simpa using e2
  have hgv : g = [-(1 / 2), 1 / 2] := by
    rw [runLoss_list .cce 2 _ _ (by simp [hs]) (by simp) 0 0 0 [0, 0] rfl, hs] at e1
    simp only [Except.ok.injEq, View.mk.injEq, true_and] at e1
    rw [← e1]
    simp [lossF, lossElem]
    norm_num
  obtain ⟨f, hf, hd⟩ := h2 [1, 0] rfl
  obtain ⟨f', hf', hd'⟩ := h2' [1, 0] rfl
  have hff : f = f' := by
    funext t
    have a := hf t 0 0
    rw [hf' t 0 0] at a
    simpa using a.symm
  rw [← hff, ← hg] at hd'
  have := hd.unique hd'
  rw [hgv] at this
  simp [Spec.dot, at_, Finset.sum_range_succ] at this
  norm_num at this

/-! ### C23: values of the metrics -/

/-- **C23** The error metrics are non-negative, and zero exactly on perfect predictions. -/
theorem C23_error_metrics (m : Metric) (hm : m = .mse ∨ m = .mae ∨ m = .mape) (n : ℕ) (hn : 1 ≤ n)
    (p y : View ℝ) (hp : n ≤ p.data.length) (hy : n ≤ y.data.length) :
    ∃ r : ℝ, runMetric m n p y = .ok r ∧ 0 ≤ r ∧ (r = 0 ↔ ∀ k < n, at_ p.data k = at_ y.data k) := by
  refine ⟨_, runMetric_real m n hn p y hp hy, ?_⟩
  have hn0 : (0:ℝ) < n := by exact_mod_cast hn
  have key : ∀ φ : ℕ → ℝ, (∀ k, 0 ≤ φ k) → (∀ k, φ k = 0 ↔ at_ p.data k = at_ y.data k) →
      0 ≤ (∑ k ∈ Finset.range n, φ k) / n ∧
      ((∑ k ∈ Finset.range n, φ k) / n = 0 ↔ ∀ k < n, at_ p.data k = at_ y.data k) := by
    intro φ h0 h1
    refine ⟨div_nonneg (Finset.sum_nonneg fun k _ => h0 k) hn0.le, ?_⟩
    rw [div_eq_zero_iff, or_iff_left hn0.ne', Finset.sum_eq_zero_iff_of_nonneg fun k _ => h0 k]
    simp [h1]
  rcases hm with rfl | rfl | rfl
  · exact key _ (fun k => sq_nonneg _) (fun k => by rw [sq_eq_zero_iff, sub_eq_zero])
  · exact key _ (fun k => abs_nonneg _) (fun k => by rw [abs_eq_zero, sub_eq_zero])
  · have hpos : ∀ k, (0:ℝ) < max (at_ y.data k) (1 / 10000000) := fun k =>
      lt_of_lt_of_le (by norm_num) (le_max_right _ _)
    refine key _ (fun k => ?_) (fun k => ?_)
    · exact div_nonneg (mul_nonneg (by norm_num) (abs_nonneg _)) (hpos k).le
    · rw [div_eq_zero_iff, or_iff_left (hpos k).ne', mul_eq_zero, or_iff_right (by norm_num), abs_eq_zero,
        sub_eq_zero]

theorem clip_mem (p : ℝ) : 1 / 10000000 ≤ Spec.clip (1 / 10000000) p ∧
    Spec.clip (1 / 10000000) p ≤ 1 - 1 / 10000000 := by
  rw [Spec.clip]
  exact ⟨le_min (le_max_right _ _) (by norm_num), min_le_right _ _⟩

theorem log_clip (p : ℝ) : Real.log (1 / 10000000) ≤ Real.log (Spec.clip (1 / 10000000) p) ∧
    Real.log (Spec.clip (1 / 10000000) p) ≤ 0 ∧
    Real.log (1 / 10000000) ≤ Real.log (1 - Spec.clip (1 / 10000000) p) ∧
    Real.log (1 - Spec.clip (1 / 10000000) p) ≤ 0 := by
  obtain ⟨h1, h2⟩ := clip_mem p
  refine ⟨Real.log_le_log (by norm_num) h1, Real.log_nonpos (by linarith) (by linarith),
    Real.log_le_log (by norm_num) (by linarith), Real.log_nonpos (by linarith) (by linarith)⟩

/-- **C23** For targets in `[0, 1]` and arbitrary predictions the crossentropies lie between 0 and
`-log 1e-7`. -/
theorem C23_crossentropy (m : Metric) (hm : m = .bce ∨ m = .cce) (n : ℕ) (hn : 1 ≤ n)
    (p y : View ℝ) (hp : n ≤ p.data.length) (hy : n ≤ y.data.length)
    (ht : ∀ k < n, 0 ≤ at_ y.data k ∧ at_ y.data k ≤ 1) :
    ∃ r : ℝ, runMetric m n p y = .ok r ∧ 0 ≤ r ∧ r ≤ -Real.log (1 / 10000000) := by
  refine ⟨_, runMetric_real m n hn p y hp hy, ?_⟩
  have hn0 : (0:ℝ) < n := by exact_mod_cast hn
  have key : ∀ φ : ℕ → ℝ, (∀ k < n, φ k ≤ 0 ∧ Real.log (1 / 10000000) ≤ φ k) →
      0 ≤ -(∑ k ∈ Finset.range n, φ k) / n ∧
      -(∑ k ∈ Finset.range n, φ k) / n ≤ -Real.log (1 / 10000000) := by
    intro φ h
    have h1 : ∑ k ∈ Finset.range n, φ k ≤ 0 :=
      Finset.sum_nonpos fun k hk => (h k (by simpa using hk)).1
    have h2 : n * Real.log (1 / 10000000) ≤ ∑ k ∈ Finset.range n, φ k := by
      have := Finset.card_nsmul_le_sum (Finset.range n) φ (Real.log (1 / 10000000))
        fun k hk => (h k (by simpa using hk)).2
      simpa using this
    refine ⟨div_nonneg (by linarith) hn0.le, ?_⟩
    rw [div_le_iff₀ hn0]
    linarith
  rcases hm with rfl | rfl
  · refine key _ fun k hk => ?_
    rw [at_map _ (by omega)]
    obtain ⟨a, b, c, d⟩ := log_clip (at_ p.data k)
    obtain ⟨t0, t1⟩ := ht k hk
    generalize Real.log (Spec.clip (1 / 10000000) (at_ p.data k)) = u at *
    generalize Real.log (1 - Spec.clip (1 / 10000000) (at_ p.data k)) = w at *
    generalize at_ y.data k = s at *
    constructor <;> nlinarith
  · refine key _ fun k hk => ?_
    rw [at_map _ (by omega)]
    obtain ⟨a, b, c, d⟩ := log_clip (at_ p.data k)
    obtain ⟨t0, t1⟩ := ht k hk
    generalize Real.log (Spec.clip (1 / 10000000) (at_ p.data k)) = u at *
    generalize at_ y.data k = s at *
    constructor <;> nlinarith

/-- **C23** Even if predictions are NaN, the crossentropies are numbers: `fmaxf` in the clipping
replaces NaN by the lower bound. -/
theorem C23_never_nan (m : Metric) (hm : m = .bce ∨ m = .cce) (n : ℕ) (hn : 1 ≤ n)
    (p y : View NanReal) (hp : n ≤ p.data.length) (hy : n ≤ y.data.length)
    (ht : ∀ k < n, ∃ r : ℝ, y.data[k]? = some (some r)) :
    ∃ r : ℝ, runMetric m n p y = .ok (some r) := by
  have hclip : ∀ a : NanReal, ∃ r : ℝ, NN.clip a = some r ∧ 0 < r ∧ r < 1 := by
    intro a
    cases a with
    | none =>
      refine ⟨min ((1 : ℝ) / 10000000) (1 - 1 / 10000000), ?_, by norm_num, by norm_num⟩
      simp [NN.clip, FloatOps.fmin, FloatOps.fmax, FloatOps.sub, FloatOps.one, epsilon, FloatOps.lit]
    | some x =>
      refine ⟨min (max x ((1 : ℝ) / 10000000)) (1 - 1 / 10000000), ?_, ?_, ?_⟩
      · simp [NN.clip, FloatOps.fmin, FloatOps.fmax, FloatOps.sub, FloatOps.one, epsilon, FloatOps.lit]
      · exact lt_min (lt_of_lt_of_le (by norm_num) (le_max_right _ _)) (by norm_num)
      · exact lt_of_le_of_lt (min_le_right _ _) (by norm_num)
  have hsum : ∀ f : NanReal → NanReal → NanReal, (∀ a (r : ℝ), ∃ s : ℝ, f a (some r) = some s) →
      ∀ k ≤ n, ∃ s : ℝ, sumF f k p.data y.data = some s := by
    intro f hf k
    induction k with
    | zero => intro _; exact ⟨0, rfl⟩
    | succ k ih =>
      intro hk
      obtain ⟨s, hs⟩ := ih (by omega)
      obtain ⟨r, hr⟩ := ht k (by omega)
      rw [List.getElem?_eq_getElem (show k < y.data.length by omega)] at hr
      obtain ⟨u, hu⟩ := hf (p.data[k]) r
      refine ⟨s + u, ?_⟩
      simp only [sumF] at hs ⊢
      rw [List.take_succ_eq_append_getElem (show k < p.data.length by omega),
        List.take_succ_eq_append_getElem (show k < y.data.length by omega),
        List.zip_append (by simp; omega), List.foldl_append, hs]
      simp only [Option.some.injEq] at hr
      simp only [List.zip_cons_cons, List.zip_nil_right, List.foldl_cons, List.foldl_nil, hr, hu]
      rfl
  have hn0 : (n : ℝ) ≠ 0 := by exact_mod_cast (by omega : n ≠ 0)
  rcases hm with rfl | rfl
  · obtain ⟨s, hs⟩ := hsum (fun p y => add (mul y (log (NN.clip p)))
      (mul (sub one y) (log (sub one (NN.clip p))))) (by
        intro a r
        obtain ⟨q, h1, h2, h3⟩ := hclip a
        refine ⟨r * Real.log q + (1 - r) * Real.log (1 - q), ?_⟩
        have h4 : ¬ (1 - q ≤ 0) := by linarith
        simp [h1, FloatOps.add, FloatOps.mul, FloatOps.log, FloatOps.sub, FloatOps.one, not_le.mpr h2, h4]) n le_rfl
    refine ⟨-s / n, ?_⟩
    simp only [runMetric, bind, Except.bind, pure, Except.pure, sumLoop_eq _ n p y hp hy, hs]
    simp [FloatOps.div, FloatOps.neg, FloatOps.ofNat, hn0]
  · obtain ⟨s, hs⟩ := hsum (fun p y => mul y (log (NN.clip p))) (by
        intro a r
        obtain ⟨q, h1, h2, h3⟩ := hclip a
        refine ⟨r * Real.log q, ?_⟩
        simp [h1, FloatOps.mul, FloatOps.log, not_le.mpr h2]) n le_rfl
    refine ⟨-s / n, ?_⟩
    simp only [runMetric, bind, Except.bind, pure, Except.pure, sumLoop_eq _ n p y hp hy, hs]
    simp [FloatOps.div, FloatOps.neg, FloatOps.ofNat, hn0]

/-- **C23** The accuracies lie in `[0, 1]`, and are 1 on perfect predictions (targets of
`binary_accuracy` in `[0, 1]`). -/
theorem C23_accuracy (m : Metric) (hm : m = .binaryAccuracy ∨ m = .categoricalAccuracy) (n : ℕ)
    (hn : 1 ≤ n) (p y : View ℝ) (hp : n ≤ p.data.length) (hy : n ≤ y.data.length) :
    ∃ r : ℝ, runMetric m n p y = .ok r ∧ 0 ≤ r ∧ r ≤ 1 ∧
      ((∀ k < n, at_ p.data k = at_ y.data k) →
        (m = .binaryAccuracy → ∀ k < n, 0 ≤ at_ y.data k ∧ at_ y.data k ≤ 1) → r = 1) := by
  refine ⟨_, runMetric_real m n hn p y hp hy, ?_⟩
  have hn0 : (0:ℝ) < n := by exact_mod_cast hn
  rcases hm with rfl | rfl
  · simp only [metricSpec]
    refine ⟨div_nonneg (Finset.sum_nonneg fun k _ => by split <;> norm_num) hn0.le, ?_, ?_⟩
    · rw [div_le_one hn0]
      have := Finset.sum_le_card_nsmul (Finset.range n) (fun k => if roundAway (min (max (at_ y.data k) 0) 1) =
        roundAway (at_ p.data k) then (1:ℝ) else 0) 1 (fun k _ => by split <;> norm_num)
      simpa using this
    · intro h1 h2
      have : ∀ k ∈ Finset.range n, (if roundAway (min (max (at_ y.data k) 0) 1) =
          roundAway (at_ p.data k) then (1:ℝ) else 0) = 1 := by
        intro k hk
        have hk' : k < n := by simpa using hk
        obtain ⟨a, b⟩ := h2 trivial k hk'
        rw [max_eq_left a, min_eq_left b, h1 k hk', if_pos rfl]
      rw [Finset.sum_congr rfl this]
      simp [hn0.ne']
  · simp only [metricSpec]
    refine ⟨by split <;> norm_num, by split <;> norm_num, ?_⟩
    intro h1 _
    rw [if_pos]
    obtain ⟨j, rfl⟩ : ∃ j, n = j + 1 := ⟨n - 1, by omega⟩
    simp only [Nat.add_sub_cancel]
    have a := (argmaxF_real p.data j).1
    have b := (argmaxF_real y.data j).1
    refine firstMax_unique (n := j + 1) (l := y.data) ⟨a.1, ?_, ?_⟩ b
    · intro i hi
      rw [← h1 i hi, ← h1 _ a.1]; exact a.2.1 i hi
    · intro i hi
      have hi' : i < j + 1 := lt_trans hi a.1
      rw [← h1 i hi', ← h1 _ a.1]; exact a.2.2 i hi

/-- **C23** The restriction on the targets is needed: `binary_accuracy` of the perfect prediction of
target 2 is 0. -/
theorem C23_binary_false : runMetric .binaryAccuracy 1 ⟨0, [(2:ℝ)]⟩ ⟨0, [2]⟩ = .ok 0 := by
  rw [runMetric_real .binaryAccuracy 1 le_rfl _ _ (by simp) (by simp)]
  have h1 : roundAway 1 = 1 := by
    rw [roundAway, if_pos (by norm_num)]
    have : ⌊(1:ℝ) + 1 / 2⌋ = 1 := by rw [Int.floor_eq_iff]; norm_num
    rw [this]; norm_num
  have h2 : roundAway 2 = 2 := by
    rw [roundAway, if_pos (by norm_num)]
    have : ⌊(2:ℝ) + 1 / 2⌋ = 2 := by rw [Int.floor_eq_iff]; norm_num
    rw [this]; norm_num
  simp [metricSpec, at_, h1, h2]

theorem roundAway_unit {x : ℝ} (h0 : 0 ≤ x) (h1 : x ≤ 1) : roundAway x = if 1 / 2 ≤ x then 1 else 0 := by
  rw [roundAway, if_pos h0]
  split
  · have : ⌊x + 1 / 2⌋ = 1 := by rw [Int.floor_eq_iff]; push_cast; constructor <;> linarith
    rw [this]; norm_num
  · have : ⌊x + 1 / 2⌋ = 0 := by rw [Int.floor_eq_iff]; push_cast; constructor <;> linarith
    rw [this]; norm_num

/-- **C23** For targets 0 or 1 and predictions in `[0, 1]`, `binary_accuracy` is the fraction of the
outputs on the right side of `1/2` (where `1/2` counts as 1). -/
theorem C23_binary_fraction (n : ℕ) (hn : 1 ≤ n) (p y : View ℝ) (hp : n ≤ p.data.length)
    (hy : n ≤ y.data.length) (ht : ∀ k < n, at_ y.data k = 0 ∨ at_ y.data k = 1)
    (hq : ∀ k < n, 0 ≤ at_ p.data k ∧ at_ p.data k ≤ 1) :
    runMetric .binaryAccuracy n p y =
      .ok ((((Finset.range n).filter fun k => (1 / 2 ≤ at_ p.data k ↔ at_ y.data k = 1)).card : ℝ) / n) := by
  rw [runMetric_real .binaryAccuracy n hn p y hp hy, metricSpec, Finset.card_filter]
  congr 2
  push_cast
  refine Finset.sum_congr rfl fun k hk => ?_
  have hk' : k < n := by simpa using hk
  rw [roundAway_unit (hq k hk').1 (hq k hk').2]
  have r0 : roundAway 0 = 0 := by rw [roundAway_unit le_rfl zero_le_one, if_neg (by norm_num)]
  have r1 : roundAway 1 = 1 := by rw [roundAway_unit zero_le_one le_rfl, if_pos (by norm_num)]
  rcases ht k hk' with h | h <;> rw [h] <;> by_cases h2 : 1 / 2 ≤ at_ p.data k <;> simp [r0, r1, h2]

/-- **C23** `categorical_accuracy` is 1 exactly when the first maxima of prediction and target are at the
same position, and 0 otherwise. -/
theorem C23_categorical (n : ℕ) (hn : 1 ≤ n) (p y : View ℝ) (hp : n ≤ p.data.length)
    (hy : n ≤ y.data.length) :
    (runMetric .categoricalAccuracy n p y = .ok 1 ↔ ∃ i, FirstMax n p.data i ∧ FirstMax n y.data i) ∧
    (runMetric .categoricalAccuracy n p y = .ok 0 ↔ ¬ ∃ i, FirstMax n p.data i ∧ FirstMax n y.data i) := by
  rw [runMetric_real .categoricalAccuracy n hn p y hp hy]
  obtain ⟨j, rfl⟩ : ∃ j, n = j + 1 := ⟨n - 1, by omega⟩
  have a := (argmaxF_real p.data j).1
  have b := (argmaxF_real y.data j).1
  have key : (argmaxF p.data j).2 = (argmaxF y.data j).2 ↔
      ∃ i, FirstMax (j + 1) p.data i ∧ FirstMax (j + 1) y.data i := by
    constructor
    · intro h; exact ⟨_, a, h ▸ b⟩
    · rintro ⟨i, h1, h2⟩
      rw [firstMax_unique a h1, firstMax_unique b h2]
  simp only [metricSpec, Nat.add_sub_cancel, ← key]
  split <;> simp_all

/-! ### Examples -/

/-- mse of `[1, 4]` against `[0, 2]` is `(1 + 4) / 2`. -/
example : runMetric .mse 2 ⟨0, [(1:ℝ), 4]⟩ ⟨0, [0, 2]⟩ = .ok (5 / 2) := by
  rw [runMetric_real .mse 2 (by decide) _ _ (by simp) (by simp)]
  simp [metricSpec, Spec.mse, at_, Finset.sum_range_succ]
  norm_num

/-- The loss functions are gradients at a concrete point. -/
example : GradientOfMetric .mape .mape id 2 [1, 4] [0, 2] :=
  C21_gradient .mape .mape (by decide) (by simp) 2 (by decide) _ _ rfl rfl
    (by intro _ k hk; interval_cases k <;> norm_num [at_])

/-- Predictions 1/2 are inside the clipping range. -/
example : GradientOfMetric .bce .bce (List.map Spec.sigmoid) 2 [0, 0] [1, 0] :=
  C21_bce 2 (by decide) _ _ rfl rfl (by
    intro k hk
    have : Spec.sigmoid 0 = 1 / 2 := by simp [Spec.sigmoid]; norm_num
    interval_cases k <;> simp [at_, this] <;> norm_num)

/-- Ties are decided for the first position: `[1, 1]` and `[1, 0]` agree, `[1, 1]` and `[0, 1]` do not. -/
example : runMetric .categoricalAccuracy 2 ⟨0, [(1:ℝ), 1]⟩ ⟨0, [1, 0]⟩ = .ok 1 ∧
    runMetric .categoricalAccuracy 2 ⟨0, [(1:ℝ), 1]⟩ ⟨0, [0, 1]⟩ = .ok 0 := by
  have f1 : FirstMax 2 [1, 1] 0 := ⟨by decide, by intro j hj; interval_cases j <;> simp [at_], by simp⟩
  have f2 : FirstMax 2 [1, 0] 0 := ⟨by decide, by intro j hj; interval_cases j <;> simp [at_], by simp⟩
  have f3 : FirstMax 2 [0, 1] 1 := ⟨by decide, by intro j hj; interval_cases j <;> simp [at_],
    by intro j hj; interval_cases j; simp [at_]⟩
  refine ⟨(C23_categorical 2 (by decide) _ _ (by simp) (by simp)).1.mpr ⟨0, f1, f2⟩,
    (C23_categorical 2 (by decide) _ _ (by simp) (by simp)).2.mpr ?_⟩
  rintro ⟨i, h1, h2⟩
  have e1 := firstMax_unique h1 f1
  have e2 := firstMax_unique h2 f3
  omega

/-- NaN prediction, target 1: crossentropy is a number. -/
example : ∃ r : ℝ, runMetric .bce 1 ⟨0, [(none : NanReal)]⟩ ⟨0, [some 1]⟩ = .ok (some r) :=
  C23_never_nan .bce (by simp) 1 le_rfl _ _ (by simp) (by simp)
    (by intro k hk; interval_cases k; exact ⟨1, rfl⟩)

end NN
