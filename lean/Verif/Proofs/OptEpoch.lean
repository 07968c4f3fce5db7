import Verif.Proofs.OptReal
/-
Whole epochs: the training loop is a fold of the specification's step over the batches.
-/
set_option linter.unusedSimpArgs false

namespace NN
open FloatOps Spec

/-- Number of batches of an epoch. -/
theorem batches_length (bs : ℕ) (l : List ℕ) : (batches bs l).length = (l.length + bs - 1) / bs := by
  simp [batches]

theorem batches_take_succ (bs j : ℕ) (l : List ℕ) (h : j < (l.length + bs - 1) / bs) :
    (batches bs l).take (j + 1) = (batches bs l).take j ++ [(l.drop (j * bs)).take bs] := by
  rw [List.take_add_one]
  congr 1
  simp [batches, h]

theorem ceil_le_iff (n bs j : ℕ) (hbs : 1 ≤ bs) : (n + bs - 1) / bs ≤ j ↔ n ≤ j * bs := by
  rw [Nat.div_le_iff_le_mul_add_pred hbs, Nat.mul_comm]
  omega

theorem lt_ceil_iff (n bs j : ℕ) (hbs : 1 ≤ bs) : j < (n + bs - 1) / bs ↔ j * bs < n := by
  have := ceil_le_iff n bs j hbs
  omega

/-- The batches put together are the samples in their order. -/
theorem batches_flatten (bs : ℕ) (hbs : 1 ≤ bs) (l : List ℕ) : (batches bs l).flatten = l := by
  have h : ∀ j, j ≤ (l.length + bs - 1) / bs → ((batches bs l).take j).flatten = l.take (j * bs) := by
    intro j
    induction j with
    | zero => simp
    | succ j ih =>
      intro hj
      rw [batches_take_succ _ _ _ (by omega), List.flatten_append, ih (by omega)]
      simp only [List.flatten_cons, List.flatten_nil, List.append_nil]
      rw [Nat.succ_mul, List.take_add]
  have := h _ le_rfl
  rw [← batches_length, List.take_length, batches_length] at this
  rw [this, List.take_of_length_le ((ceil_le_iff _ _ _ hbs).mp le_rfl)]

theorem trainLoop_fold {σ τ : Type} (n bs : ℕ) (hbs : 1 ≤ bs) (step : ℕ → σ → M (ℕ × σ)) (order : List ℕ)
    (hlen : order.length = n) (T : τ → List ℕ → τ) (R : ℕ → σ → τ → Prop)
    (hstep : ∀ j s t, j * bs < n → R j s t → ∃ s',
      step (j * bs) s = .ok (j * bs + batchLen n bs (j * bs), s') ∧
        R (j + 1) s' (T t ((order.drop (j * bs)).take bs)))
    (s : σ) (t : τ) (hR : R 0 s t) :
    (∀ fuel, (n + bs - 1) / bs ≤ fuel → ∃ s', trainLoop n step fuel 0 s = .ok s' ∧
      R ((n + bs - 1) / bs) s' ((batches bs order).foldl T t)) ∧
    (∀ fuel, fuel < (n + bs - 1) / bs → trainLoop n step fuel 0 s = .error .diverge) := by
  let I : ℕ → σ → Prop := fun i s => ∃ j, j ≤ (n + bs - 1) / bs ∧ i = min (j * bs) n ∧
    R j s (((batches bs order).take j).foldl T t)
  have hI : ∀ i s, i < n → I i s → ∃ s', step i s = .ok (i + batchLen n bs i, s') ∧ I (i + batchLen n bs i) s' := by
    rintro i s hi ⟨j, hj, rfl, hr⟩
    have hjn : j * bs < n := by omega
    obtain ⟨s', h1, h2⟩ := hstep j s _ hjn hr
    rw [Nat.min_eq_left hjn.le]
    have hjc := (lt_ceil_iff n bs j hbs).mpr hjn
    refine ⟨s', h1, j + 1, hjc, ?_, ?_⟩
    · unfold batchLen
      rw [Nat.succ_mul]
      split <;> omega
    · rw [batches_take_succ _ _ _ (by rw [hlen]; exact hjc), List.foldl_append]
      exact h2
  have hI0 : I 0 s := ⟨0, Nat.zero_le _, by simp, by simpa using hR⟩
  constructor
  · intro fuel hf
    obtain ⟨s', h1, j, hj, hjn, hr⟩ := trainLoop_inv n bs hbs step I hI fuel 0 s hI0 (Nat.zero_le _) (by simpa using hf)
    refine ⟨s', h1, ?_⟩
    have : (n + bs - 1) / bs ≤ j := (ceil_le_iff n bs j hbs).mpr (by omega)
    have hje : j = (n + bs - 1) / bs := by omega
    subst hje
    rwa [List.take_of_length_le (by rw [batches_length, hlen])] at hr
  · intro fuel hf
    exact trainLoop_short n bs hbs step I hI fuel 0 s hI0 (Nat.zero_le _) (by simpa using hf)

/-- `g w p` is what `neuralnet_backpropagation` computes for training sample `p` when the network's
parameters are `w` (C07: the gradient of the loss). -/
def SampleGrads {F : Type} [FloatOps F] (env : CustomEnv F) (c : Cfg) (n : ℕ) (X Y : View F) (nn0 : Net F)
    (g : List F → ℕ → List F) : Prop :=
  ∀ w p, w.length = nParams nn0.layers → p < n → ∀ workAddr gradAddr junk junk',
    workAddr % c.alignSize = 0 → gradAddr % c.alignSize = 0 →
    backpropagation env c workAddr junk (nn0.setParams w) (X.offset (p * nn0.nInput)) (Y.offset (p * nn0.nOutput))
      (stackArray gradAddr (nParams nn0.layers) junk') = .ok ⟨gradAddr, g w p⟩

theorem sampleGrads_sampleGrad {F : Type} [FloatOps F] (env : CustomEnv F) (c : Cfg) (loss : Loss) (n : ℕ)
    (X Y : View F) (nn0 : Net F) (h : Trainable c loss n X Y nn0) :
    SampleGrads env c n X Y nn0 (fun w p => sampleGrad env c loss X Y (nn0.setParams w) p) := by
  intro w p hw hp wa ga j j' hwa hga
  have h' := h.setParams w hw
  have hi : (nn0.setParams w).nInput = nn0.nInput := withParams_nInput nn0.layers w _ _
  have ho : (nn0.setParams w).nOutput = nn0.nOutput := withParams_nOutput nn0.layers w _ _
  have e1 : (p + 1) * nn0.nInput ≤ n * nn0.nInput := Nat.mul_le_mul_right _ hp
  have e2 : (p + 1) * nn0.nOutput ≤ n * nn0.nOutput := Nat.mul_le_mul_right _ hp
  rw [Nat.succ_mul] at e1 e2
  have h1 := h.xlen
  have h2 := h.ylen
  have hgl := sampleGrad_length env c loss n X Y _ h' p hp
  rw [backpropagation_eq env c wa j _ _ _ _ loss h'.wf hwa hga h'.loss_eq h'.deriv
    (by rw [hi]; simp [View.offset]; omega) (by rw [ho]; simp [View.offset]; omega)
    (by rw [stackArray_length', setParams_nParams]) (h'.aligned _ hga)]
  rw [List.drop_of_length_le (by rw [stackArray_length', setParams_nParams]), List.append_nil, hi, ho]
  simp only [sampleGrad, hi, ho]
  rfl

/-- There is only one such function (on parameter lists of the right length). -/
theorem SampleGrads.unique {F : Type} [FloatOps F] {env : CustomEnv F} {c : Cfg} {loss : Loss} {n : ℕ}
    {X Y : View F} {nn0 : Net F} (h : Trainable c loss n X Y nn0) {g : List F → ℕ → List F}
    (hg : SampleGrads env c n X Y nn0 g) {w : List F} (hw : w.length = nParams nn0.layers) {p : ℕ} (hp : p < n) :
    sampleGrad env c loss X Y (nn0.setParams w) p = g w p := by
  have h1 := sampleGrads_sampleGrad env c loss n X Y nn0 h w p hw hp 0 0 (fun _ => zero) (fun _ => zero)
    (Nat.zero_mod _) (Nat.zero_mod _)
  have h2 := hg w p hw hp 0 0 (fun _ => zero) (fun _ => zero) (Nat.zero_mod _) (Nat.zero_mod _)
  rw [h1] at h2
  simpa using h2

theorem meanGrad_congr (k : ℕ) (g g' : ℕ → List ℝ) (b : List ℕ) (h : ∀ p ∈ b, g p = g' p) :
    meanGrad k g b = meanGrad k g' b := by
  simp only [meanGrad]
  refine List.map_congr_left fun j _ => ?_
  congr 2
  exact List.map_congr_left fun p hp => by rw [h p hp]

theorem meanGrad_length (k : ℕ) (g : ℕ → List ℝ) (b : List ℕ) : (meanGrad k g b).length = k := by simp [meanGrad]

/-- The gradient the code uses is the mean of the sample gradients of the batch. -/
theorem gradAt_real (env : CustomEnv ℝ) (c : Cfg) (sched : Sched) (loss : Loss) (n : ℕ) (X Y : View ℝ)
    (nn0 : Net ℝ) (h : Trainable c loss n X Y nn0) (order : List ℕ) (hlen : order.length = n)
    (hlt : ∀ p ∈ order, p < n) (bs i : ℕ) (hi : i < n) (hc : sched.Covers (batchLen n bs i))
    (g : List ℝ → ℕ → List ℝ) (hg : SampleGrads env c n X Y nn0 g) (w : List ℝ)
    (hw : w.length = nParams nn0.layers) :
    gradAt env c sched loss X Y nn0 order i (batchLen n bs i) w =
      meanGrad (nParams nn0.layers) (g w) ((order.drop i).take bs) := by
  have hb := batchLen_le n bs i
  rw [gradAt, batchGradF_real env c sched loss X Y _ order i _ hc (by omega), setParams_nParams]
  · have : (order.drop i).take (batchLen n bs i) = (order.drop i).take bs := by
      unfold batchLen
      split
      · rw [List.take_of_length_le (by simp; omega), List.take_of_length_le (by simp; omega)]
      · rfl
    rw [this]
    refine meanGrad_congr _ _ _ _ fun p hp => ?_
    exact hg.unique h hw (hlt p (List.mem_of_mem_drop (List.mem_of_mem_take hp)))
  · intro b hb'
    apply sampleGrad_length env c loss n X Y _ (h.setParams w hw)
    have : i + b < order.length := by omega
    simp only [List.getD_eq_getElem?_getD, List.getElem?_eq_getElem this, Option.getD_some]
    exact hlt _ (List.getElem_mem this)

/-! ### The state of an optimizer agrees with a state of the specification -/

section
variable (c : Cfg) (loss : Loss) (n : ℕ) (X Y : View ℝ) (nn0 : Net ℝ) (order : List ℕ) (bs : ℕ)

/-- `SGD_t` with hyperparameters `m` (momentum), `d` (decay), `nest`, in state `σ`. -/
structure SgdAt (m d : ℝ) (nest : Bool) (s : Sgd ℝ) (σ : SgdState) : Prop where
  opt : OptAt c loss n X Y nn0 order s.opt σ.w
  vel : WorkVec c (nParams nn0.layers) s.velocity σ.v
  lr : s.lr = σ.lr
  t : s.nIter = σ.t
  m : s.momentum = m
  d : s.decay = d
  nest : s.nesterov = nest
  bs : s.opt.batchsize = bs

/-- `adagrad_t` with decay `d` in state `σ`. -/
structure AdagradAt (d : ℝ) (s : Adagrad ℝ) (σ : AdagradState) : Prop where
  opt : OptAt c loss n X Y nn0 order s.opt σ.w
  r : WorkVec c (nParams nn0.layers) s.r σ.r
  lr : s.lr = σ.lr
  t : s.nIter = σ.t
  d : s.decay = d
  bs : s.opt.batchsize = bs

/-- `RMSprop_t` in state `σ`. -/
structure RmsPropAt (rho m d : ℝ) (nest : Bool) (s : RmsProp ℝ) (σ : RmsPropState) : Prop where
  opt : OptAt c loss n X Y nn0 order s.opt σ.w
  vel : WorkVec c (nParams nn0.layers) s.velocity σ.v
  r : WorkVec c (nParams nn0.layers) s.r σ.r
  lr : s.lr = σ.lr
  t : s.nIter = σ.t
  rho : s.rho = rho
  m : s.momentum = m
  d : s.decay = d
  nest : s.nesterov = nest
  bs : s.opt.batchsize = bs

/-- `adam_t` and the static correction factors in state `σ`. -/
structure AdamAt (lr b1 b2 wd : ℝ) (s : (ℝ × ℝ) × Adam ℝ) (σ : AdamState) : Prop where
  opt : OptAt c loss n X Y nn0 order s.2.opt σ.w
  m : WorkVec c (nParams nn0.layers) s.2.s σ.m
  v : WorkVec c (nParams nn0.layers) s.2.r σ.v
  p1 : s.1.1 = b1 ^ σ.t
  p2 : s.1.2 = b2 ^ σ.t
  lr : s.2.lr = lr
  b1 : s.2.beta1 = b1
  b2 : s.2.beta2 = b2
  wd : s.2.weightDecay = wd
  bs : s.2.opt.batchsize = bs

end

theorem sgdEpoch_real (env : CustomEnv ℝ) (c : Cfg) (mem : ℕ → BatchMem ℝ) (loss : Loss) (n : ℕ) (X Y : View ℝ)
    (nn0 : Net ℝ) (order : List ℕ) (bs : ℕ) (hbs : 1 ≤ bs) (m d : ℝ) (nest : Bool)
    (g : List ℝ → ℕ → List ℝ) (hg : SampleGrads env c n X Y nn0 g)
    (hm : ∀ i, (mem i).OK c (nParams nn0.layers) (batchLen n bs i)) (s : Sgd ℝ) (σ : SgdState)
    (hs : SgdAt c loss n X Y nn0 order bs m d nest s σ) (ht : σ.t + (n + bs - 1) / bs ≤ 2 ^ 32 - 1) :
    (∀ fuel, (n + bs - 1) / bs ≤ fuel → ∃ s', sgdEpoch env c mem fuel n X Y s = .ok s' ∧
      SgdAt c loss n X Y nn0 order bs m d nest s'
        ((epochGrads (nParams nn0.layers) bs g order).foldl (Spec.sgdStep m d nest) σ)) ∧
    (∀ fuel, fuel < (n + bs - 1) / bs → sgdEpoch env c mem fuel n X Y s = .error .diverge) := by
  have := trainLoop_fold n bs hbs (sgdStep env c mem n X Y) order hs.opt.plen
    (fun σ b => Spec.sgdStep m d nest σ fun w => meanGrad (nParams nn0.layers) (g w) b)
    (fun j s τ => SgdAt c loss n X Y nn0 order bs m d nest s τ ∧ τ.t = σ.t + j) ?_ s σ ⟨hs, rfl⟩
  · refine ⟨fun fuel hf => ?_, this.2⟩
    obtain ⟨s', h1, h2, -⟩ := this.1 fuel hf
    refine ⟨s', h1, ?_⟩
    rw [epochGrads, List.foldl_map]
    exact h2
  · rintro j s τ hj ⟨hs, htj⟩
    obtain ⟨s', h1, h2⟩ := sgdStep_eq env c mem loss n X Y nn0 (j * bs) s order τ.w τ.v hs.opt hs.vel
      (by rw [hs.bs]; exact hm _)
    rw [hs.bs] at h1
    refine ⟨s', h1, ?_⟩
    simp only [hs.bs, hs.lr, hs.d, hs.t, hs.m, hs.nest] at h2
    have hlt := (lt_ceil_iff n bs j hbs).mpr hj
    have hG := fun w hw => gradAt_real env c (mem (j * bs)).sched loss n X Y nn0 hs.opt.ok order hs.opt.plen hs.opt.plt
      bs (j * bs) hj (hm _).covers g hg w hw
    have e : sgdF m nest (decayLr τ.lr d τ.t) (gradAt env c (mem (j * bs)).sched loss X Y nn0 order (j * bs)
        (batchLen n bs (j * bs))) τ.w τ.v = sgdF m nest (decayLr τ.lr d τ.t)
        (fun w => meanGrad (nParams nn0.layers) (g w) ((order.drop (j * bs)).take bs)) τ.w τ.v := by
      have k1 := hG τ.w hs.opt.wlen
      have k2 := hG (List.zipWith add τ.w (τ.v.map (fun x => mul x m)))
        (by simp [hs.opt.wlen, hs.vel.len])
      simp only [sgdF]
      by_cases hm' : lt zero m = true
      · cases nest <;> simp only [hm', k1, k2, if_true, Bool.and_self, Bool.and_false, Bool.false_eq_true, if_false]
      · simp only [hm', k1, if_false, Bool.false_and, Bool.false_eq_true]
    obtain ⟨r1, r2⟩ := sgdF_real m d τ.lr nest τ.t
      (fun w => meanGrad (nParams nn0.layers) (g w) ((order.drop (j * bs)).take bs)) τ.w τ.v
      (nParams nn0.layers) hs.opt.wlen hs.vel.len (fun w _ => meanGrad_length _ _ _)
    rw [e, r1, r2] at h2
    obtain ⟨a1, a2, a3, a4, a5, a6, a7, a8⟩ := h2
    have hts : ∀ G, (Spec.sgdStep m d nest τ G).t = τ.t + 1 := by
      intro G; simp only [Spec.sgdStep]; split <;> rfl
    refine ⟨⟨a1, a2, a3, ?_, a5, a7, a6, a8⟩, ?_⟩
    · rw [a4, hts, Nat.mod_eq_of_lt (by omega)]
    · rw [hts, htj]; omega

theorem adagradEpoch_real (env : CustomEnv ℝ) (c : Cfg) (mem : ℕ → BatchMem ℝ) (loss : Loss) (n : ℕ) (X Y : View ℝ)
    (nn0 : Net ℝ) (order : List ℕ) (bs : ℕ) (hbs : 1 ≤ bs) (d : ℝ)
    (g : List ℝ → ℕ → List ℝ) (hg : SampleGrads env c n X Y nn0 g)
    (hm : ∀ i, (mem i).OK c (nParams nn0.layers) (batchLen n bs i)) (s : Adagrad ℝ) (σ : AdagradState)
    (hs : AdagradAt c loss n X Y nn0 order bs d s σ) (ht : σ.t + (n + bs - 1) / bs ≤ 2 ^ 32 - 1) :
    (∀ fuel, (n + bs - 1) / bs ≤ fuel → ∃ s', adagradEpoch env c mem fuel n X Y s = .ok s' ∧
      AdagradAt c loss n X Y nn0 order bs d s'
        ((epochGrads (nParams nn0.layers) bs g order).foldl (Spec.adagradStep d) σ)) ∧
    (∀ fuel, fuel < (n + bs - 1) / bs → adagradEpoch env c mem fuel n X Y s = .error .diverge) := by
  have := trainLoop_fold n bs hbs (adagradStep env c mem n X Y) order hs.opt.plen
    (fun σ b => Spec.adagradStep d σ fun w => meanGrad (nParams nn0.layers) (g w) b)
    (fun j s τ => AdagradAt c loss n X Y nn0 order bs d s τ ∧ τ.t = σ.t + j) ?_ s σ ⟨hs, rfl⟩
  · refine ⟨fun fuel hf => ?_, this.2⟩
    obtain ⟨s', h1, h2, -⟩ := this.1 fuel hf
    refine ⟨s', h1, ?_⟩
    rw [epochGrads, List.foldl_map]
    exact h2
  · rintro j s τ hj ⟨hs, htj⟩
    obtain ⟨s', h1, h2⟩ := adagradStep_eq env c mem loss n X Y nn0 (j * bs) s order τ.w τ.r hs.opt hs.r
      (by rw [hs.bs]; exact hm _)
    rw [hs.bs] at h1
    refine ⟨s', h1, ?_⟩
    simp only [hs.bs, hs.lr, hs.d, hs.t] at h2
    have hlt := (lt_ceil_iff n bs j hbs).mpr hj
    rw [gradAt_real env c (mem (j * bs)).sched loss n X Y nn0 hs.opt.ok order hs.opt.plen hs.opt.plt
      bs (j * bs) hj (hm _).covers g hg _ hs.opt.wlen] at h2
    obtain ⟨r1, r2, r3⟩ := adagrad_real d τ.lr τ.t
      (fun w => meanGrad (nParams nn0.layers) (g w) ((order.drop (j * bs)).take bs)) τ.w τ.r
    rw [r1, r2, r3] at h2
    obtain ⟨a1, a2, a3, a4, a5, a6⟩ := h2
    have hts : ∀ G, (Spec.adagradStep d τ G).t = τ.t + 1 := fun G => rfl
    refine ⟨⟨a1, a2, a3, ?_, a5, a6⟩, ?_⟩
    · rw [a4, hts, Nat.mod_eq_of_lt (by omega)]
    · rw [hts, htj]; omega

theorem rmspropEpoch_real (env : CustomEnv ℝ) (c : Cfg) (mem : ℕ → BatchMem ℝ) (loss : Loss) (n : ℕ) (X Y : View ℝ)
    (nn0 : Net ℝ) (order : List ℕ) (bs : ℕ) (hbs : 1 ≤ bs) (rho m d : ℝ) (nest : Bool)
    (g : List ℝ → ℕ → List ℝ) (hg : SampleGrads env c n X Y nn0 g)
    (hm : ∀ i, (mem i).OK c (nParams nn0.layers) (batchLen n bs i)) (s : RmsProp ℝ) (σ : RmsPropState)
    (hs : RmsPropAt c loss n X Y nn0 order bs rho m d nest s σ) (ht : σ.t + (n + bs - 1) / bs ≤ 2 ^ 32 - 1) :
    (∀ fuel, (n + bs - 1) / bs ≤ fuel → ∃ s', rmspropEpoch env c mem fuel n X Y s = .ok s' ∧
      RmsPropAt c loss n X Y nn0 order bs rho m d nest s'
        ((epochGrads (nParams nn0.layers) bs g order).foldl (Spec.rmspropStep rho m d nest) σ)) ∧
    (∀ fuel, fuel < (n + bs - 1) / bs → rmspropEpoch env c mem fuel n X Y s = .error .diverge) := by
  have := trainLoop_fold n bs hbs (rmspropStep env c mem n X Y) order hs.opt.plen
    (fun σ b => Spec.rmspropStep rho m d nest σ fun w => meanGrad (nParams nn0.layers) (g w) b)
    (fun j s τ => RmsPropAt c loss n X Y nn0 order bs rho m d nest s τ ∧ τ.t = σ.t + j) ?_ s σ ⟨hs, rfl⟩
  · refine ⟨fun fuel hf => ?_, this.2⟩
    obtain ⟨s', h1, h2, -⟩ := this.1 fuel hf
    refine ⟨s', h1, ?_⟩
    rw [epochGrads, List.foldl_map]
    exact h2
  · rintro j s τ hj ⟨hs, htj⟩
    obtain ⟨s', h1, h2⟩ := rmspropStep_eq env c mem loss n X Y nn0 (j * bs) s order τ.w τ.v τ.r hs.opt hs.vel hs.r
      (by rw [hs.bs]; exact hm _)
    rw [hs.bs] at h1
    refine ⟨s', h1, ?_⟩
    simp only [hs.bs, hs.lr, hs.d, hs.t, hs.m, hs.nest, hs.rho] at h2
    have hlt := (lt_ceil_iff n bs j hbs).mpr hj
    have hG := fun w hw => gradAt_real env c (mem (j * bs)).sched loss n X Y nn0 hs.opt.ok order hs.opt.plen hs.opt.plt
      bs (j * bs) hj (hm _).covers g hg w hw
    have e : rmspropF c m rho nest (decayLr τ.lr d τ.t) (gradAt env c (mem (j * bs)).sched loss X Y nn0 order (j * bs)
        (batchLen n bs (j * bs))) τ.w τ.v τ.r = rmspropF c m rho nest (decayLr τ.lr d τ.t)
        (fun w => meanGrad (nParams nn0.layers) (g w) ((order.drop (j * bs)).take bs)) τ.w τ.v τ.r := by
      have k1 := hG τ.w hs.opt.wlen
      have k2 := hG (List.zipWith add τ.w (τ.v.map (fun x => mul x m)))
        (by simp [hs.opt.wlen, hs.vel.len])
      simp only [rmspropF]
      by_cases hm' : lt zero m = true
      · cases nest <;> simp only [hm', k1, k2, if_true, Bool.and_self, Bool.and_false, Bool.false_eq_true, if_false]
      · simp only [hm', k1, if_false, Bool.false_and, Bool.false_eq_true]
    obtain ⟨r1, r2⟩ := rmsprop_real c rho m d τ.lr nest τ.t
      (fun w => meanGrad (nParams nn0.layers) (g w) ((order.drop (j * bs)).take bs)) τ.w τ.v τ.r
      (nParams nn0.layers) hs.opt.wlen hs.vel.len hs.r.len (fun w _ => meanGrad_length _ _ _)
    rw [e, r1, r2] at h2
    obtain ⟨a1, a2, a2', a3, a4, a5, a6, a7, a7', a8⟩ := h2
    have hts : ∀ G, (Spec.rmspropStep rho m d nest τ G).t = τ.t + 1 := by
      intro G; simp only [Spec.rmspropStep]; split <;> rfl
    refine ⟨⟨a1, a2, a2', a3, ?_, a7', a5, a7, a6, a8⟩, ?_⟩
    · rw [a4, hts, Nat.mod_eq_of_lt (by omega)]
    · rw [hts, htj]; omega

theorem adamEpoch_real (env : CustomEnv ℝ) (c : Cfg) (mem : ℕ → BatchMem ℝ) (loss : Loss) (n : ℕ) (X Y : View ℝ)
    (nn0 : Net ℝ) (order : List ℕ) (bs : ℕ) (hbs : 1 ≤ bs) (lr b1 b2 wd : ℝ)
    (g : List ℝ → ℕ → List ℝ) (hg : SampleGrads env c n X Y nn0 g)
    (hm : ∀ i, (mem i).OK c (nParams nn0.layers) (batchLen n bs i)) (s : (ℝ × ℝ) × Adam ℝ) (σ : AdamState)
    (hs : AdamAt c loss n X Y nn0 order bs lr b1 b2 wd s σ) :
    (∀ fuel, (n + bs - 1) / bs ≤ fuel → ∃ s', adamEpoch env c mem fuel n X Y s = .ok s' ∧
      AdamAt c loss n X Y nn0 order bs lr b1 b2 wd s'
        ((epochGrads (nParams nn0.layers) bs g order).foldl (Spec.adamStep lr b1 b2 wd) σ)) ∧
    (∀ fuel, fuel < (n + bs - 1) / bs → adamEpoch env c mem fuel n X Y s = .error .diverge) := by
  have := trainLoop_fold n bs hbs (adamStep env c mem n X Y) order hs.opt.plen
    (fun σ b => Spec.adamStep lr b1 b2 wd σ fun w => meanGrad (nParams nn0.layers) (g w) b)
    (fun j s τ => AdamAt c loss n X Y nn0 order bs lr b1 b2 wd s τ) ?_ s σ hs
  · refine ⟨fun fuel hf => ?_, this.2⟩
    obtain ⟨s', h1, h2⟩ := this.1 fuel hf
    refine ⟨s', h1, ?_⟩
    rw [epochGrads, List.foldl_map]
    exact h2
  · rintro j ⟨⟨p1, p2⟩, a⟩ τ hj hs
    obtain ⟨a', h1, h2⟩ := adamStep_eq env c mem loss n X Y nn0 (j * bs) p1 p2 a order τ.w τ.m τ.v hs.opt hs.m hs.v
      (by rw [hs.bs]; exact hm _)
    have hp1 := hs.p1
    have hp2 := hs.p2
    have hb := hs.bs
    have hb1 := hs.b1
    have hb2 := hs.b2
    have hlr := hs.lr
    have hwd := hs.wd
    simp only at hp1 hp2 hb hb1 hb2 hlr hwd
    rw [hb] at h1
    refine ⟨_, h1, ?_⟩
    simp only [hb, hlr, hb1, hb2, hwd, hp1, hp2] at h2
    rw [gradAt_real env c (mem (j * bs)).sched loss n X Y nn0 hs.opt.ok order hs.opt.plen hs.opt.plt
      bs (j * bs) hj (hm _).covers g hg _ hs.opt.wlen] at h2
    have r1 := adam_real c b1 b2 lr wd τ.t
      (fun w => meanGrad (nParams nn0.layers) (g w) ((order.drop (j * bs)).take bs)) τ.w τ.m τ.v
      (nParams nn0.layers) hs.opt.wlen hs.m.len hs.v.len (meanGrad_length _ _ _)
    simp only at r1
    rw [r1] at h2
    obtain ⟨a1, a2, a3, a4, a5, a6, a7, a8⟩ := h2
    refine ⟨a1, a2, a3, ?_, ?_, a4, a5, a6, a7, a8⟩
    · simp [hp1, hb1, Spec.adamStep, pow_succ]
    · simp [hp2, hb2, Spec.adamStep, pow_succ]

end NN
