import Verif.Properties.Gradient
import Verif.Properties.Evaluate
import Verif.Proofs.OptRun
/-
Lemmas for C66: the mean metric along a line of parameters.
-/
set_option linter.unusedSimpArgs false

namespace NN
open FloatOps Spec Filter

theorem regular_congr (env : CustomEnv ℝ) (loss : Loss) (y : List ℝ) : ∀ (ls ls' : List (Layer ℝ)) (x : List ℝ),
    (ls.map fun l => ({ l with deriv := none } : Layer ℝ)) = (ls'.map fun l => { l with deriv := none }) →
    Regular env loss y ls x → Regular env loss y ls' x
  | [], [], _, _, h => h
  | [], _ :: _, _, h, _ => by simp at h
  | _ :: _, [], _, h, _ => by simp at h
  | [_], _ :: _ :: _, _, h, _ => by simp at h
  | _ :: _ :: _, [_], _, h, _ => by simp at h
  | [a], [a'], x, h, hr => by
    simp only [List.map_cons, List.map_nil, List.cons.injEq, and_true, Layer.mk.injEq] at h
    obtain ⟨h1, h2, h3, h4, h5⟩ := h
    simp only [Regular] at hr ⊢
    rw [← h1, ← h2, ← h3, ← h4, ← h5]; exact hr
  | a :: b :: ls, a' :: b' :: ls', x, h, hr => by
    rw [List.map_cons, List.map_cons (l := b' :: ls')] at h
    obtain ⟨h0, h⟩ := List.cons.inj h
    simp only [Layer.mk.injEq, and_true] at h0
    obtain ⟨h1, h2, h3, h4, h5⟩ := h0
    obtain ⟨r1, r2⟩ := hr
    have e : (a'.toSpec env) = a.toSpec env := by simp only [Layer.toSpec, h1, h2, h3, h4, h5]
    refine ⟨?_, ?_⟩
    · rw [← h1, ← h2, ← h3, ← h4, ← h5]; exact r1
    · rw [e]; exact regular_congr env loss y (b :: ls) (b' :: ls') _ h r2

theorem setLoss_nParams (recs : List ActRecord) (nn : Net ℝ) (name : String) :
    nParams (setLoss recs nn name).layers = nParams nn.layers ∧ (setLoss recs nn name).nInput = nn.nInput ∧
      (setLoss recs nn name).nOutput = nn.nOutput := by
  have he := setLoss_erase recs nn name
  have h2 : ∀ m : Net ℝ, nParams m.layers = nParams (eraseDeriv m) ∧
      m.nInput = (⟨eraseDeriv m, none⟩ : Net ℝ).nInput ∧ m.nOutput = (⟨eraseDeriv m, none⟩ : Net ℝ).nOutput := by
    intro m
    refine ⟨by simp [nParams, eraseDeriv, Function.comp_def], ?_, ?_⟩
    · rcases m with ⟨_ | ⟨a, b⟩, _⟩ <;> simp [Net.nInput, eraseDeriv]
    · rcases hm : m.layers.getLast? with _ | a <;> simp [Net.nOutput, eraseDeriv, hm]
  obtain ⟨a1, a2, a3⟩ := h2 (setLoss recs nn name)
  obtain ⟨b1, b2, b3⟩ := h2 nn
  rw [he] at a1 a2 a3
  exact ⟨a1.trans b1.symm, a2.trans b2.symm, a3.trans b3.symm⟩

/-- The prediction for sample `p` with the parameters shifted by `t d`. -/
noncomputable def linePred (env : CustomEnv ℝ) (nn : Net ℝ) (X : View ℝ) (d : List ℝ) (p : ℕ) (t : ℝ) : List ℝ :=
  Spec.network ((shift nn.layers d t).map (Layer.toSpec env)) (slice X.data (p * nn.nInput) nn.nInput)

theorem sampleSlice_length {l : List ℝ} {n p k : ℕ} (hp : p < n) (h : n * k ≤ l.length) : (slice l (p * k) k).length = k := by
  have : (p + 1) * k ≤ n * k := Nat.mul_le_mul_right _ hp
  rw [Nat.succ_mul] at this
  simp [slice]; omega

/-- The derivative of the objective of a sample along a line of parameters: C07. -/
theorem sample_hasDeriv (env : CustomEnv ℝ) (c : Cfg) (recs : List ActRecord) (nn0 nn : Net ℝ) (name : String) (loss : Loss)
    (X Y : View ℝ) (n p : ℕ) (hnn : nn = setLoss recs nn0 name) (hw0 : nn0.WF c) (hname : getLossFunc name = some loss)
    (hT : Trainable c loss n X Y nn) (hp : p < n)
    (hreg : Regular env loss (slice Y.data (p * nn.nOutput) nn.nOutput) nn.layers (slice X.data (p * nn.nInput) nn.nInput))
    (d : List ℝ) (hd : d.length = nParams nn.layers) :
    HasDerivAt (fun t => objective loss nn.nOutput (linePred env nn X d p t) (slice Y.data (p * nn.nOutput) nn.nOutput))
      (dot (nParams nn.layers) (sampleGrad env c loss X Y nn p) d) 0 := by
  obtain ⟨e1, e2, e3⟩ := setLoss_nParams recs nn0 name
  rw [← hnn] at e1 e2 e3
  have hxl := sampleSlice_length hp hT.xlen
  have hyl := sampleSlice_length hp hT.ylen
  have hreg0 := regular_congr env loss _ nn.layers nn0.layers _ (by
    have := setLoss_erase recs nn0 name
    rw [← hnn] at this
    exact this) hreg
  have hal := hT.aligned 0 (Nat.zero_mod _)
  obtain ⟨g, hg, hgrad⟩ := C07_gradient env c recs 0 (fun _ => 0) nn0 name loss
    ⟨0, slice X.data (p * nn.nInput) nn.nInput⟩ ⟨0, slice Y.data (p * nn.nOutput) nn.nOutput⟩
    ⟨0, List.replicate (nParams nn0.layers) 0⟩ hw0 hname (Nat.zero_mod _) (Nat.zero_mod _) (by simp only; omega)
    (by simp only; omega) (by simp) (by rw [← hnn]; exact hal)
    (by rw [List.take_of_length_le (by simp only; omega)]; exact hreg0)
  rw [← hnn] at hg hgrad
  have hbp := backpropagation_eq env c 0 (fun _ => 0) nn ⟨0, slice X.data (p * nn.nInput) nn.nInput⟩
    ⟨0, slice Y.data (p * nn.nOutput) nn.nOutput⟩ ⟨0, List.replicate (nParams nn0.layers) 0⟩ loss hT.wf (Nat.zero_mod _)
    (Nat.zero_mod _) hT.loss_eq hT.deriv hxl.ge hyl.ge (by simp [e1]) hal
  rw [hg] at hbp
  have hgs : g = sampleGrad env c loss X Y nn p := by
    simp only [Except.ok.injEq, View.mk.injEq, true_and] at hbp
    rw [hbp, List.drop_of_length_le (by simp [e1]), List.append_nil, List.take_of_length_le hxl.le,
      List.take_of_length_le hyl.le]
    rfl
  obtain ⟨pr, hpr, hder⟩ := hgrad d hd 0 0 (fun _ => 0) ⟨0, List.replicate nn.nOutput 0⟩ (Nat.zero_mod _) (Nat.zero_mod _)
    (by simp)
  have hpt : pr = linePred env nn X d p := by
    funext t
    obtain ⟨n1, u1, p1⟩ := hpr t
    obtain ⟨n2, u2, p2⟩ := update_predict env c nn ⟨0, slice X.data (p * nn.nInput) nn.nInput⟩ hT.wf hxl.ge d hd 0 0
      (fun _ => 0) ⟨0, List.replicate nn.nOutput 0⟩ (Nat.zero_mod _) (Nat.zero_mod _) (by simp) t
    rw [u1] at u2
    cases u2
    rw [p1] at p2
    simp only [Except.ok.injEq, View.mk.injEq, true_and] at p2
    rw [p2, linePred, List.take_of_length_le hxl.le]
  rw [hpt, hgs, ← e3] at hder
  exact hder

theorem network_cons (l : Spec.Layer) (ls : List Spec.Layer) (x : List ℝ) :
    Spec.network (l :: ls) x = Spec.network ls (l.apply x) := rfl

/-- Along a line of parameters the predictions of a sigmoid or softmax output layer are continuous at 0. -/
theorem line_continuous (env : CustomEnv ℝ) (c : Cfg) (loss : Loss) (hl : loss = .bce ∨ loss = .cce) (y : List ℝ) :
    ∀ (ls : List (Layer ℝ)) (d : List ℝ) (x : ℝ → List ℝ) (xd : ℕ → ℝ) (l0 last : Layer ℝ),
      ls.head? = some l0 → ls.getLast? = some last →
      (∀ l ∈ ls, l.WF c) → Chained ls → d.length = nParams ls → Tangent l0.nIn x xd → Regular env loss y ls (x 0) →
      (∀ t, (Spec.network ((shift ls d t).map (Layer.toSpec env)) (x t)).length = last.nOut) ∧
      ∀ k < last.nOut, ContinuousAt (fun t => at_ (Spec.network ((shift ls d t).map (Layer.toSpec env)) (x t)) k) 0
  | [], _, _, _, _, _, h, _, _, _, _, _, _ => by simp at h
  | l :: ls, d, x, xd, l0, last, h0, hlast, hw, hc, hd, hx, hr => by
    simp at h0; subst h0
    have hwl := hw l (by simp)
    have hd' : d.length = l.nOut + l.nIn * l.nOut + nParams ls := by rw [hd, nParams_cons]
    have hb := tangent_line l.nOut l.bias.data d hwl.bias_len (by omega)
    have hW := tangent_line (l.nIn * l.nOut) l.weight.data (d.drop l.nOut) hwl.weight_len (by simp; omega)
    have hz := tangent_affine l.nIn l.nOut _ _ x _ _ xd hW hb hx
    have h00 : ∀ (n : ℕ) (a b : List ℝ), a.length = n → n ≤ b.length →
        List.zipWith (fun x y => x + 0 * y) a (b.take n) = a := by
      intro n a b h1 h2
      apply List.ext_getElem
      · simp; omega
      · intro i h3 h4; simp
    have e1 := h00 l.nOut l.bias.data d hwl.bias_len (by omega)
    have e2 := h00 (l.nIn * l.nOut) l.weight.data (d.drop l.nOut) hwl.weight_len (by simp; omega)
    cases ls with
    | nil =>
      simp at hlast; subst hlast
      have hap : ∀ t, Spec.network ((shift [l] d t).map (Layer.toSpec env)) (x t) = actSpec env l.act
          (affine l.nIn l.nOut (List.zipWith (fun x y => x + t * y) l.weight.data ((d.drop l.nOut).take (l.nIn * l.nOut)))
            (List.zipWith (fun x y => x + t * y) l.bias.data (d.take l.nOut)) (x t)) := fun t => rfl
      simp only [hap]
      refine ⟨fun t => by rw [actSpec_length]; simp [affine], fun k hk => ?_⟩
      have hzl := hz.1
      have hzc : ∀ k < l.nOut, ContinuousAt (fun t => at_ (affine l.nIn l.nOut
          (List.zipWith (fun x y => x + t * y) l.weight.data ((d.drop l.nOut).take (l.nIn * l.nOut)))
          (List.zipWith (fun x y => x + t * y) l.bias.data (d.take l.nOut)) (x t)) k) 0 := fun k hk => (hz.2 k hk).continuousAt
      clear hap hz
      generalize hzd : (fun t => affine l.nIn l.nOut
        (List.zipWith (fun x y => x + t * y) l.weight.data ((d.drop l.nOut).take (l.nIn * l.nOut)))
            (List.zipWith (fun x y => x + t * y) l.bias.data (d.take l.nOut)) (x t)) = z at hzl
      have hze : ∀ t, affine l.nIn l.nOut
        (List.zipWith (fun x y => x + t * y) l.weight.data ((d.drop l.nOut).take (l.nIn * l.nOut)))
            (List.zipWith (fun x y => x + t * y) l.bias.data (d.take l.nOut)) (x t) = z t := fun t => by rw [← hzd]
      simp only [hze] at hzc ⊢
      simp only [Regular, OutputRegular] at hr
      rcases hl with rfl | rfl
      · simp only [actSpec, hr]
        have e : (fun t => at_ ((z t).map Spec.sigmoid) k) = fun t => Spec.sigmoid (at_ (z t) k) := by
          funext t; rw [at_map _ (by rw [hzl]; exact hk)]
        rw [e]
        exact ContinuousAt.comp (g := Spec.sigmoid) (hasDerivAt_sigmoid _).continuousAt (hzc k hk)
      · simp only [actSpec, hr.1]
        have e : (fun t => at_ (Spec.softmax (z t)) k) = fun t => Real.exp (at_ (z t) k) /
            ∑ j ∈ Finset.range l.nOut, Real.exp (at_ (z t) j) := by
          funext t; rw [at_softmax _ _ (by rw [hzl]; exact hk), hzl]
        rw [e]
        refine ContinuousAt.div (hzc k hk).rexp ?_ ?_
        · exact tendsto_finsetSum _ fun j hj => (hzc j (by simpa using hj)).rexp
        · exact (Finset.sum_pos (fun j _ => Real.exp_pos _) ⟨k, by simpa using hk⟩).ne'
    | cons b ls =>
      obtain ⟨⟨r1, r2⟩, r3⟩ := hr
      obtain ⟨f, hf⟩ := Option.ne_none_iff_exists'.mp r1
      have ht := tangent_textbook env l.act f hf l.nOut _ _ hz (by simp only [e1, e2]; exact r2)
      have hbn : l.nOut = b.nIn := by
        have := hc; simp only [Chained] at this; exact this.1
      have := line_continuous env c loss hl y (b :: ls) (d.drop (l.nOut + l.nIn * l.nOut)) _ _ b last rfl
        (by simpa using hlast) (fun m hm => hw m (by simp [hm])) (by simp only [Chained] at hc; exact hc.2) (by simp [hd'])
        (ht.cast hbn) (by simp only [e1, e2]; exact r3)
      exact this

/-- The parameters `w + t d`. -/
noncomputable def lineParams (w d : List ℝ) (t : ℝ) : List ℝ := List.zipWith FloatOps.add w (d.map (t * ·))

theorem meanMetric_line (env : CustomEnv ℝ) (c : Cfg) (nn : Net ℝ) (hw : nn.WF c) (n : ℕ) (X Y : View ℝ) (m : Metric) (d : List ℝ)
    (hd : d.length = nParams nn.layers) (t : ℝ) :
    meanMetric env (nn.setParams (lineParams (params nn.layers) d t)) n X Y m =
      (∑ p ∈ Finset.range n, metricSpec m nn.nOutput (linePred env nn X d p t) (slice Y.data (p * nn.nOutput) nn.nOutput)) / n := by
  have hi : (nn.setParams (lineParams (params nn.layers) d t)).nInput = nn.nInput := withParams_nInput nn.layers _ _ _
  have ho : (nn.setParams (lineParams (params nn.layers) d t)).nOutput = nn.nOutput := withParams_nOutput nn.layers _ _ _
  simp only [meanMetric, hi, ho, linePred]
  rw [← withParams_shift c t nn.layers d hw.layer hd]
  rfl

theorem linePred_zero (env : CustomEnv ℝ) (c : Cfg) (nn : Net ℝ) (hw : nn.WF c) (X : View ℝ) (d : List ℝ)
    (hd : d.length = nParams nn.layers) (p : ℕ) :
    linePred env nn X d p 0 =
      Spec.network (nn.layers.map (Layer.toSpec env)) (slice X.data (p * nn.nInput) nn.nInput) := by
  have : shift nn.layers d 0 = nn.layers := by
    rw [← withParams_shift c 0 nn.layers d hw.layer hd]
    have hp := params_length c _ hw.layer
    have : List.zipWith FloatOps.add (params nn.layers) (d.map (0 * ·)) = params nn.layers := by
      apply List.ext_getElem
      · simp [hp, hd]
      · intro i h1 h2; simp
    rw [this, withParams_params c nn.layers hw.layer]
  rw [linePred, this]

theorem linePred_continuous (env : CustomEnv ℝ) (c : Cfg) (loss : Loss) (hl : loss = .bce ∨ loss = .cce) (nn : Net ℝ)
    (hw : nn.WF c) (X : View ℝ) (n p : ℕ) (hp : p < n) (hX : n * nn.nInput ≤ X.data.length) (y d : List ℝ)
    (hd : d.length = nParams nn.layers)
    (hreg : Regular env loss y nn.layers (slice X.data (p * nn.nInput) nn.nInput)) :
    (∀ t, (linePred env nn X d p t).length = nn.nOutput) ∧
      ∀ k < nn.nOutput, ContinuousAt (fun t => at_ (linePred env nn X d p t) k) 0 := by
  obtain ⟨last, hlast, hno, -⟩ := exists_last hw
  obtain ⟨l0, h0⟩ : ∃ l0, nn.layers.head? = some l0 := by
    cases h : nn.layers with
    | nil => exact absurd h hw.ne
    | cons a b => exact ⟨a, rfl⟩
  have hxl := sampleSlice_length hp hX
  rw [hno]
  exact line_continuous env c loss hl y nn.layers d (fun _ => slice X.data (p * nn.nInput) nn.nInput) (fun _ => 0) l0 last h0
    hlast hw.layer hw.chain hd ⟨fun _ => by rw [hxl, Net.nInput_eq h0], fun k _ => hasDerivAt_const _ _⟩ hreg

/-- The factor between the derivative of the metric and of the objective. -/
noncomputable def metricFactor (loss : Loss) (m : ℕ) : ℝ := if loss = .cce then 1 / m else 1

theorem metric_hasDeriv (env : CustomEnv ℝ) (c : Cfg) (recs : List ActRecord) (nn0 nn : Net ℝ) (name : String) (loss : Loss)
    (metric : Metric) (hm : getMetricFunc (getLossName (some loss)) = some metric)
    (X Y : View ℝ) (n p : ℕ) (hnn : nn = setLoss recs nn0 name) (hw0 : nn0.WF c) (hname : getLossFunc name = some loss)
    (hT : Trainable c loss n X Y nn) (hp : p < n)
    (hreg : Regular env loss (slice Y.data (p * nn.nOutput) nn.nOutput) nn.layers (slice X.data (p * nn.nInput) nn.nInput))
    (hcl : loss = .bce ∨ loss = .cce → ∀ k < nn.nOutput,
      1 / 10000000 < at_ (Spec.network (nn.layers.map (Layer.toSpec env)) (slice X.data (p * nn.nInput) nn.nInput)) k ∧
      at_ (Spec.network (nn.layers.map (Layer.toSpec env)) (slice X.data (p * nn.nInput) nn.nInput)) k < 1 - 1 / 10000000)
    (d : List ℝ) (hd : d.length = nParams nn.layers) :
    HasDerivAt (fun t => metricSpec metric nn.nOutput (linePred env nn X d p t) (slice Y.data (p * nn.nOutput) nn.nOutput))
      (metricFactor loss nn.nOutput * dot (nParams nn.layers) (sampleGrad env c loss X Y nn p) d) 0 := by
  have h := sample_hasDeriv env c recs nn0 nn name loss X Y n p hnn hw0 hname hT hp hreg d hd
  have hclip : loss = .bce ∨ loss = .cce → ∀ᶠ t in nhds (0 : ℝ),
      (linePred env nn X d p t).map (Spec.clip (1 / 10000000)) = linePred env nn X d p t := by
    intro hl
    obtain ⟨c1, c2⟩ := linePred_continuous env c loss hl nn hT.wf X n p hp hT.xlen _ d hd hreg
    exact clip_list_eventually nn.nOutput _ c1 c2 (by rw [linePred_zero env c nn hT.wf X d hd]; exact hcl hl)
  cases loss <;> simp only [getLossName, getMetricFunc] at hm <;> simp at hm <;> subst hm <;>
    simp only [metricFactor, reduceCtorEq, if_false, if_true, one_mul]
  · exact h
  · exact h
  · exact h
  · refine HasDerivAt.congr_deriv (HasDerivAt.congr_of_eventuallyEq (h.div_const (nn.nOutput : ℝ)) ?_) (by ring)
    filter_upwards [hclip (by simp)] with t ht
    simp only [metricSpec, objective, ht]
  · refine HasDerivAt.congr_of_eventuallyEq h ?_
    filter_upwards [hclip (by simp)] with t ht
    simp only [metricSpec, objective, ht]

theorem decrease_of_deriv {f : ℝ → ℝ} {D : ℝ} (h : HasDerivAt f D 0) (hD : D < 0) :
    ∃ ε > 0, ∀ t, 0 < t → t < ε → f t < f 0 := by
  rw [hasDerivAt_iff_tendsto_slope] at h
  have h1 := h.eventually (gt_mem_nhds hD)
  rw [eventually_nhdsWithin_iff, Metric.eventually_nhds_iff] at h1
  obtain ⟨ε, hε, h1⟩ := h1
  refine ⟨ε, hε, fun t h0 ht => ?_⟩
  have := h1 (by rw [Real.dist_eq, sub_zero, abs_of_pos h0]; exact ht) (by simp; exact h0.ne')
  rw [slope_def_field, sub_zero, div_lt_iff₀ h0, zero_mul] at this
  linarith

/-- A step against the mean gradient, scaled by positive factors `C`, lowers the mean metric if it is short. -/
theorem mean_decrease (env : CustomEnv ℝ) (c : Cfg) (recs : List ActRecord) (nn0 nn : Net ℝ) (name : String) (loss : Loss)
    (metric : Metric) (hm : getMetricFunc (getLossName (some loss)) = some metric)
    (X Y : View ℝ) (n : ℕ) (hn : 1 ≤ n) (hnn : nn = setLoss recs nn0 name) (hw0 : nn0.WF c)
    (hname : getLossFunc name = some loss) (hT : Trainable c loss n X Y nn)
    (hreg : ∀ p < n, Regular env loss (slice Y.data (p * nn.nOutput) nn.nOutput) nn.layers
      (slice X.data (p * nn.nInput) nn.nInput))
    (hcl : loss = .bce ∨ loss = .cce → ∀ p < n, ∀ k < nn.nOutput,
      1 / 10000000 < at_ (Spec.network (nn.layers.map (Layer.toSpec env)) (slice X.data (p * nn.nInput) nn.nInput)) k ∧
      at_ (Spec.network (nn.layers.map (Layer.toSpec env)) (slice X.data (p * nn.nInput) nn.nInput)) k < 1 - 1 / 10000000)
    (G C : ℕ → ℝ) (hG : ∀ i < nParams nn.layers, G i = (∑ p ∈ Finset.range n, at_ (sampleGrad env c loss X Y nn p) i) / n)
    (hC : ∀ i < nParams nn.layers, 0 < C i) (h0 : ∃ i < nParams nn.layers, G i ≠ 0) :
    ∃ ε > 0, ∀ lr, 0 < lr → lr < ε → ∀ w : List ℝ, w.length = nParams nn.layers →
      (∀ i < nParams nn.layers, at_ w i = at_ (params nn.layers) i - lr * (C i * G i)) →
      meanMetric env (nn.setParams w) n X Y metric < meanMetric env nn n X Y metric := by
  set k := nParams nn.layers with hk
  let d : List ℝ := (List.range k).map fun i => -(C i * G i)
  have hd : d.length = k := by simp [d]
  have hdi : ∀ i < k, at_ d i = -(C i * G i) := by
    intro i hi
    simp [d, at_, List.getD, hi]
  have hw := hT.wf
  have hpl := params_length c _ hw.layer
  have hn0 : (0 : ℝ) < n := by exact_mod_cast hn
  have hmo : (0 : ℝ) < nn.nOutput := by
    obtain ⟨last, -, hno, hlw⟩ := exists_last hw
    rw [hno]; exact_mod_cast hlw.out_pos
  have hfac : 0 < metricFactor loss nn.nOutput := by unfold metricFactor; split <;> positivity
  have hder : HasDerivAt (fun t => meanMetric env (nn.setParams (lineParams (params nn.layers) d t)) n X Y metric)
      (-(metricFactor loss nn.nOutput * ∑ i ∈ Finset.range k, C i * G i ^ 2)) 0 := by
    simp only [meanMetric_line env c nn hw n X Y metric d hd]
    refine HasDerivAt.congr_deriv (HasDerivAt.div_const (HasDerivAt.fun_sum fun p hp =>
      metric_hasDeriv env c recs nn0 nn name loss metric hm X Y n p hnn hw0 hname hT (by simpa using hp)
        (hreg p (by simpa using hp)) (fun h => hcl h p (by simpa using hp)) d hd) (n : ℝ)) ?_
    rw [← Finset.mul_sum, mul_div_assoc, ← mul_neg]
    congr 1
    simp only [dot]
    rw [Finset.sum_comm, Finset.sum_div, ← Finset.sum_neg_distrib]
    refine Finset.sum_congr rfl fun i hi => ?_
    have hi' : i < k := by simpa using hi
    rw [← Finset.sum_mul, hdi i hi', mul_div_right_comm, ← hG i hi']
    ring
  have hneg : -(metricFactor loss nn.nOutput * ∑ i ∈ Finset.range k, C i * G i ^ 2) < 0 := by
    obtain ⟨i, hi, hGi⟩ := h0
    have : 0 < ∑ i ∈ Finset.range k, C i * G i ^ 2 := by
      refine Finset.sum_pos' (fun j hj => ?_) ⟨i, by simpa using hi, ?_⟩
      · have := hC j (by simpa using hj); positivity
      · have := hC i hi; positivity
    have := mul_pos hfac this
    linarith
  obtain ⟨ε, hε, h⟩ := decrease_of_deriv hder hneg
  have hself : meanMetric env (nn.setParams (lineParams (params nn.layers) d 0)) n X Y metric = meanMetric env nn n X Y metric := by
    have : lineParams (params nn.layers) d 0 = params nn.layers := by
      apply List.ext_getElem
      · simp [lineParams, hpl, hd, ← hk]
      · intro i h1 h2; simp [lineParams]
    rw [this, setParams_self c nn hw]
  refine ⟨ε, hε, fun lr h1 h2 w hwl hwi => ?_⟩
  have hwd : w = lineParams (params nn.layers) d lr := by
    apply List.ext_getElem
    · simp [lineParams, hpl, hd, hwl, ← hk]
    · intro i h1 h2
      have hi : i < k := by omega
      have := hwi i hi
      rw [at_eq h1] at this
      rw [this]
      have e : d[i]'(by omega) = -(C i * G i) := by rw [← hdi i hi, at_eq (by omega)]
      simp only [lineParams, List.getElem_zipWith, List.getElem_map, RealOps.add_def, e]
      rw [at_eq (by omega)]
      ring
  rw [hwd, ← hself]
  exact h lr h1 h2

end NN
