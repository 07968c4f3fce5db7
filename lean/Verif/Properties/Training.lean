import Verif.Proofs.OptEpoch
import Verif.Properties.Gradient
/-
C28 (number of batches), C29 (mean gradient), C30 (bounds of the reduction).

In AVX builds the reduction accesses up to 16 floats behind the gradient buffer (C30).  The theorems of C28, C29,
C31-C38 are about what happens if this memory is accessible (`BatchMem.OK.room`; no assumption in SSE builds).
-/
set_option linter.unusedSimpArgs false

namespace NN
open FloatOps Spec

/-! ### C28 -/

/-- There are `ceil(n/bs)` batches; all have `bs` samples, except that the last one has the (at least one)
remaining samples. -/
theorem batches_sizes (bs n : ℕ) (hbs : 1 ≤ bs) (order : List ℕ) (hlen : order.length = n) :
    (batches bs order).length = (n + bs - 1) / bs ∧
    ∀ (j : ℕ) (h : j < (batches bs order).length),
      (j + 1 < (batches bs order).length → (batches bs order)[j].length = bs) ∧
      (j + 1 = (batches bs order).length →
        (batches bs order)[j].length = n - j * bs ∧ 1 ≤ n - j * bs ∧ n - j * bs ≤ bs) := by
  subst hlen
  refine ⟨batches_length bs order, fun j h => ?_⟩
  rw [batches_length] at h ⊢
  have hj := (lt_ceil_iff order.length bs j hbs).mp h
  have e : (batches bs order)[j].length = min bs (order.length - j * bs) := by
    simp [batches]
  constructor
  · intro h'
    have := (lt_ceil_iff order.length bs (j + 1) hbs).mp h'
    rw [Nat.succ_mul] at this
    omega
  · intro h'
    have := (ceil_le_iff order.length bs (j + 1) hbs).mp h'.ge
    rw [Nat.succ_mul] at this
    omega

section
variable {F : Type} [FloatOps F]

/-- **C28** Any float operations: an epoch of SGD succeeds, and its loop body runs exactly `ceil(n/bs)` times (with
fewer iterations allowed, the loop does not end). -/
theorem C28_sgd (env : CustomEnv F) (c : Cfg) (mem : ℕ → BatchMem F) (loss : Loss) (n : ℕ) (X Y : View F)
    (nn0 : Net F) (order : List ℕ) (bs : ℕ) (hbs : 1 ≤ bs)
    (hm : ∀ i, (mem i).OK c (nParams nn0.layers) (batchLen n bs i)) (s : Sgd F) (w v : List F)
    (hb : s.opt.batchsize = bs) (hs : OptAt c loss n X Y nn0 order s.opt w)
    (hv : WorkVec c (nParams nn0.layers) s.velocity v) :
    (∀ fuel, (n + bs - 1) / bs ≤ fuel → ∃ s' w' v', sgdEpoch env c mem fuel n X Y s = .ok s' ∧
      OptAt c loss n X Y nn0 order s'.opt w' ∧ WorkVec c (nParams nn0.layers) s'.velocity v') ∧
    (∀ fuel, fuel < (n + bs - 1) / bs → sgdEpoch env c mem fuel n X Y s = .error .diverge) := by
  have := trainLoop_fold n bs hbs (sgdStep env c mem n X Y) order hs.plen (fun (_ : Unit) _ => ())
    (fun _ s _ => s.opt.batchsize = bs ∧ ∃ w v, OptAt c loss n X Y nn0 order s.opt w ∧
      WorkVec c (nParams nn0.layers) s.velocity v) ?_ s () ⟨hb, w, v, hs, hv⟩
  · refine ⟨fun fuel hf => ?_, this.2⟩
    obtain ⟨s', h1, -, w', v', h2, h3⟩ := this.1 fuel hf
    exact ⟨s', w', v', h1, h2, h3⟩
  · rintro j s - - ⟨hb, w, v, h1, h2⟩
    obtain ⟨s', h3, h4, h5, -, -, -, -, -, h6⟩ := sgdStep_eq env c mem loss n X Y nn0 (j * bs) s order w v h1 h2
      (by rw [hb]; exact hm _)
    exact ⟨s', by rw [hb] at h3; exact h3, h6.trans hb, _, _, h4, h5⟩

/-- **C28** Adagrad. -/
theorem C28_adagrad (env : CustomEnv F) (c : Cfg) (mem : ℕ → BatchMem F) (loss : Loss) (n : ℕ) (X Y : View F)
    (nn0 : Net F) (order : List ℕ) (bs : ℕ) (hbs : 1 ≤ bs)
    (hm : ∀ i, (mem i).OK c (nParams nn0.layers) (batchLen n bs i)) (s : Adagrad F) (w r : List F)
    (hb : s.opt.batchsize = bs) (hs : OptAt c loss n X Y nn0 order s.opt w)
    (hr : WorkVec c (nParams nn0.layers) s.r r) :
    (∀ fuel, (n + bs - 1) / bs ≤ fuel → ∃ s' w' r', adagradEpoch env c mem fuel n X Y s = .ok s' ∧
      OptAt c loss n X Y nn0 order s'.opt w' ∧ WorkVec c (nParams nn0.layers) s'.r r') ∧
    (∀ fuel, fuel < (n + bs - 1) / bs → adagradEpoch env c mem fuel n X Y s = .error .diverge) := by
  have := trainLoop_fold n bs hbs (adagradStep env c mem n X Y) order hs.plen (fun (_ : Unit) _ => ())
    (fun _ s _ => s.opt.batchsize = bs ∧ ∃ w r, OptAt c loss n X Y nn0 order s.opt w ∧
      WorkVec c (nParams nn0.layers) s.r r) ?_ s () ⟨hb, w, r, hs, hr⟩
  · refine ⟨fun fuel hf => ?_, this.2⟩
    obtain ⟨s', h1, -, w', v', h2, h3⟩ := this.1 fuel hf
    exact ⟨s', w', v', h1, h2, h3⟩
  · rintro j s - - ⟨hb, w, v, h1, h2⟩
    obtain ⟨s', h3, h4, h5, -, -, -, h6⟩ := adagradStep_eq env c mem loss n X Y nn0 (j * bs) s order w v h1 h2
      (by rw [hb]; exact hm _)
    exact ⟨s', by rw [hb] at h3; exact h3, h6.trans hb, _, _, h4, h5⟩

/-- **C28** RMSprop. -/
theorem C28_rmsprop (env : CustomEnv F) (c : Cfg) (mem : ℕ → BatchMem F) (loss : Loss) (n : ℕ) (X Y : View F)
    (nn0 : Net F) (order : List ℕ) (bs : ℕ) (hbs : 1 ≤ bs)
    (hm : ∀ i, (mem i).OK c (nParams nn0.layers) (batchLen n bs i)) (s : RmsProp F) (w v r : List F)
    (hb : s.opt.batchsize = bs) (hs : OptAt c loss n X Y nn0 order s.opt w)
    (hv : WorkVec c (nParams nn0.layers) s.velocity v) (hr : WorkVec c (nParams nn0.layers) s.r r) :
    (∀ fuel, (n + bs - 1) / bs ≤ fuel → ∃ s' w' v' r', rmspropEpoch env c mem fuel n X Y s = .ok s' ∧
      OptAt c loss n X Y nn0 order s'.opt w' ∧ WorkVec c (nParams nn0.layers) s'.velocity v' ∧
      WorkVec c (nParams nn0.layers) s'.r r') ∧
    (∀ fuel, fuel < (n + bs - 1) / bs → rmspropEpoch env c mem fuel n X Y s = .error .diverge) := by
  have := trainLoop_fold n bs hbs (rmspropStep env c mem n X Y) order hs.plen (fun (_ : Unit) _ => ())
    (fun _ s _ => s.opt.batchsize = bs ∧ ∃ w v r, OptAt c loss n X Y nn0 order s.opt w ∧
      WorkVec c (nParams nn0.layers) s.velocity v ∧ WorkVec c (nParams nn0.layers) s.r r) ?_ s ()
    ⟨hb, w, v, r, hs, hv, hr⟩
  · refine ⟨fun fuel hf => ?_, this.2⟩
    obtain ⟨s', h1, -, w', v', r', h2, h3, h4⟩ := this.1 fuel hf
    exact ⟨s', w', v', r', h1, h2, h3, h4⟩
  · rintro j s - - ⟨hb, w, v, r, h1, h2, h2'⟩
    obtain ⟨s', h3, h4, h5, h5', -, -, -, -, -, -, h6⟩ := rmspropStep_eq env c mem loss n X Y nn0 (j * bs) s order
      w v r h1 h2 h2' (by rw [hb]; exact hm _)
    exact ⟨s', by rw [hb] at h3; exact h3, h6.trans hb, _, _, _, h4, h5, h5'⟩

/-- **C28** Adam. -/
theorem C28_adam (env : CustomEnv F) (c : Cfg) (mem : ℕ → BatchMem F) (loss : Loss) (n : ℕ) (X Y : View F)
    (nn0 : Net F) (order : List ℕ) (bs : ℕ) (hbs : 1 ≤ bs)
    (hm : ∀ i, (mem i).OK c (nParams nn0.layers) (batchLen n bs i)) (p : F × F) (s : Adam F) (w v r : List F)
    (hb : s.opt.batchsize = bs) (hs : OptAt c loss n X Y nn0 order s.opt w)
    (hv : WorkVec c (nParams nn0.layers) s.s v) (hr : WorkVec c (nParams nn0.layers) s.r r) :
    (∀ fuel, (n + bs - 1) / bs ≤ fuel → ∃ p' s' w' v' r', adamEpoch env c mem fuel n X Y (p, s) = .ok (p', s') ∧
      OptAt c loss n X Y nn0 order s'.opt w' ∧ WorkVec c (nParams nn0.layers) s'.s v' ∧
      WorkVec c (nParams nn0.layers) s'.r r') ∧
    (∀ fuel, fuel < (n + bs - 1) / bs → adamEpoch env c mem fuel n X Y (p, s) = .error .diverge) := by
  have := trainLoop_fold n bs hbs (adamStep env c mem n X Y) order hs.plen (fun (_ : Unit) _ => ())
    (fun _ s _ => s.2.opt.batchsize = bs ∧ ∃ w v r, OptAt c loss n X Y nn0 order s.2.opt w ∧
      WorkVec c (nParams nn0.layers) s.2.s v ∧ WorkVec c (nParams nn0.layers) s.2.r r) ?_ (p, s) ()
    ⟨hb, w, v, r, hs, hv, hr⟩
  · refine ⟨fun fuel hf => ?_, this.2⟩
    obtain ⟨⟨p', s'⟩, h1, -, w', v', r', h2, h3, h4⟩ := this.1 fuel hf
    exact ⟨p', s', w', v', r', h1, h2, h3, h4⟩
  · rintro j ⟨⟨p1, p2⟩, s⟩ - - ⟨hb, w, v, r, h1, h2, h2'⟩
    simp only at hb h1 h2 h2'
    obtain ⟨s', h3, h4, h5, h5', -, -, -, -, h6⟩ := adamStep_eq env c mem loss n X Y nn0 (j * bs) p1 p2 s order
      w v r h1 h2 h2' (by rw [hb]; exact hm _)
    exact ⟨_, by rw [hb] at h3; exact h3, h6.trans hb, _, _, _, h4, h5, h5'⟩

end

/-! ### C29 -/

/-- **C29** `batchgrad` gets the mean of the sample gradients of the batch `order[i .. i+batch)`, for every schedule
`mem.sched` of the samples on threads, all stack contents and any previous contents of the buffer; `*i` advances
by the batch size. -/
theorem C29_mean (env : CustomEnv ℝ) (c : Cfg) (mem : BatchMem ℝ) (loss : Loss) (n : ℕ) (X Y : View ℝ) (nn : Net ℝ)
    (h : Trainable c loss n X Y nn) (bs i : ℕ) (hi : i < n)
    (hm : mem.OK c (nParams nn.layers) (batchLen n bs i)) (order : List ℕ) (hlen : order.length = n)
    (hlt : ∀ p ∈ order, p < n) (buf : View ℝ) (hbuf : buf.addr % c.alignSize = 0)
    (hroom : nParamPadding c (nParams nn.layers) ≤ buf.data.length)
    (g : ℕ → List ℝ) (hg : ∀ p < n, ∀ workAddr gradAddr junk junk',
      workAddr % c.alignSize = 0 → gradAddr % c.alignSize = 0 →
      backpropagation env c workAddr junk nn (X.offset (p * nn.nInput)) (Y.offset (p * nn.nOutput))
        (stackArray gradAddr (nParams nn.layers) junk') = .ok ⟨gradAddr, g p⟩) :
    ∃ tail, calcBatchGradient env c mem.thread mem.sched nn (some order) bs n X Y i buf =
      .ok (min (i + bs) n, ⟨buf.addr, meanGrad (nParams nn.layers) g ((order.drop i).take bs) ++ tail⟩) := by
  obtain ⟨tail, h1, -, -⟩ := calcBatchGradient_eq env c mem loss n X Y nn h bs i hm order hlen hlt buf hbuf hroom
  have hself := setParams_self c nn h.wf
  have hpl : (params nn.layers).length = nParams nn.layers := params_length c _ h.wf.layer
  have e := sampleGrads_sampleGrad env c loss n X Y nn h (params nn.layers)
  rw [hself] at e
  have hgg : ∀ p < n, sampleGrad env c loss X Y nn p = g p := by
    intro p hp
    have h1 := e p hpl hp 0 0 (fun _ => 0) (fun _ => 0) (Nat.zero_mod _) (Nat.zero_mod _)
    rw [hg p hp 0 0 (fun _ => 0) (fun _ => 0) (Nat.zero_mod _) (Nat.zero_mod _)] at h1
    simp only [hself] at h1
    simpa using h1.symm
  have hb := batchLen_le n bs i
  have hG : batchGradF env c mem.sched loss X Y nn order i (batchLen n bs i) =
      meanGrad (nParams nn.layers) g ((order.drop i).take bs) := by
    rw [batchGradF_real env c mem.sched loss X Y nn order i _ hm.covers (by omega)]
    · have : (order.drop i).take (batchLen n bs i) = (order.drop i).take bs := by
        unfold batchLen
        split
        · rw [List.take_of_length_le (by simp; omega), List.take_of_length_le (by simp; omega)]
        · rfl
      rw [this]
      exact meanGrad_congr _ _ _ _ fun p hp => hgg p (hlt p (List.mem_of_mem_drop (List.mem_of_mem_take hp)))
    · intro b hb'
      apply sampleGrad_length env c loss n X Y _ h
      have : i + b < order.length := by omega
      simp only [List.getD_eq_getElem?_getD, List.getElem?_eq_getElem this, Option.getD_some]
      exact hlt _ (List.getElem_mem this)
  refine ⟨tail, ?_⟩
  rw [h1, hG]
  have : i + batchLen n bs i = min (i + bs) n := by unfold batchLen; split <;> omega
  rw [this]

/-- **C29** Two runs with different schedules, stacks and previous buffer contents leave the same gradient. -/
theorem C29_schedule_independent (env : CustomEnv ℝ) (c : Cfg) (mem mem' : BatchMem ℝ) (loss : Loss) (n : ℕ)
    (X Y : View ℝ) (nn : Net ℝ) (h : Trainable c loss n X Y nn) (bs i : ℕ) (hi : i < n)
    (hm : mem.OK c (nParams nn.layers) (batchLen n bs i)) (hm' : mem'.OK c (nParams nn.layers) (batchLen n bs i))
    (order : List ℕ) (hlen : order.length = n) (hlt : ∀ p ∈ order, p < n) (buf buf' : View ℝ)
    (hbuf : buf.addr % c.alignSize = 0) (hbuf' : buf'.addr % c.alignSize = 0)
    (hroom : nParamPadding c (nParams nn.layers) ≤ buf.data.length)
    (hroom' : nParamPadding c (nParams nn.layers) ≤ buf'.data.length) :
    ∃ i' g tail tail', g.length = nParams nn.layers ∧
      calcBatchGradient env c mem.thread mem.sched nn (some order) bs n X Y i buf = .ok (i', ⟨buf.addr, g ++ tail⟩) ∧
      calcBatchGradient env c mem'.thread mem'.sched nn (some order) bs n X Y i buf' =
        .ok (i', ⟨buf'.addr, g ++ tail'⟩) := by
  have hself := setParams_self c nn h.wf
  have hpl : (params nn.layers).length = nParams nn.layers := params_length c _ h.wf.layer
  have e := sampleGrads_sampleGrad env c loss n X Y nn h (params nn.layers)
  rw [hself] at e
  have hg := fun p hp => e p hpl hp
  obtain ⟨t, h1⟩ := C29_mean env c mem loss n X Y nn h bs i hi hm order hlen hlt buf hbuf hroom _ hg
  obtain ⟨t', h2⟩ := C29_mean env c mem' loss n X Y nn h bs i hi hm' order hlen hlt buf' hbuf' hroom' _ hg
  exact ⟨_, _, t, t', meanGrad_length _ _ _, h1, h2⟩

/-! ### C30 -/

/-- **C30 is false**: in every AVX build the reduction accesses memory behind the gradient buffer — for every network,
batch, schedule and data. -/
theorem C30_false {F : Type} [FloatOps F] (env : CustomEnv F) (c : Cfg) (havx : c.avx = true) (mem : ℕ → ThreadGrad F)
    (sched : Sched) (nn : Net F) (pivot : Option (List ℕ)) (bs n : ℕ) (hn : n < 2 ^ 31) (X Y : View F) (i : ℕ)
    (buf : View F) (hbuf : buf.data.length = nParams nn.layers) :
    calcBatchGradient env c mem sched nn pivot bs n X Y i buf = .error .oob := by
  have hp : ¬ nParamPadding c (nParams nn.layers) ≤ nParams nn.layers := by
    simp only [nParamPadding, havx, if_true]; omega
  have hm : memsetZero buf (nParams nn.layers) = .ok ⟨buf.addr, List.replicate (nParams nn.layers) zero⟩ := by
    rw [memsetZero, if_pos hbuf.ge, List.drop_of_length_le hbuf.le, List.append_nil]
  simp only [calcBatchGradient, if_pos hn, hm, bind, Except.bind, List.length_replicate, if_neg hp]

/-- **C30** In builds without AVX the call stays inside the buffer of `n_parameters` floats.  (Missing: the AVX builds,
where the claim is false.) -/
theorem C30_sse_partial {F : Type} [FloatOps F] (env : CustomEnv F) (c : Cfg) (hsse : c.avx = false) (mem : BatchMem F)
    (loss : Loss) (n : ℕ) (X Y : View F) (nn : Net F) (h : Trainable c loss n X Y nn) (bs i : ℕ)
    (hm : mem.OK c (nParams nn.layers) (batchLen n bs i)) (order : List ℕ) (hlen : order.length = n)
    (hlt : ∀ p ∈ order, p < n) (buf : View F) (hbuf : buf.addr % c.alignSize = 0)
    (hlenb : buf.data.length = nParams nn.layers) :
    ∃ g, calcBatchGradient env c mem.thread mem.sched nn (some order) bs n X Y i buf =
      .ok (i + batchLen n bs i, ⟨buf.addr, g⟩) ∧ g.length = nParams nn.layers := by
  obtain ⟨tail, h1, h2, -⟩ := calcBatchGradient_eq env c mem loss n X Y nn h bs i hm order hlen hlt buf hbuf
    (by simp [nParamPadding, hsse, hlenb])
  refine ⟨_, h1, ?_⟩
  rw [List.length_append, batchGradF_length env c mem loss n X Y nn h bs i hm order hlen hlt]
  omega

/-- **C30** In AVX builds the call accesses at most 16 floats behind the buffer: if they are accessible, everything
further behind is unchanged. -/
theorem C30_room_partial {F : Type} [FloatOps F] (env : CustomEnv F) (c : Cfg) (mem : BatchMem F)
    (loss : Loss) (n : ℕ) (X Y : View F) (nn : Net F) (h : Trainable c loss n X Y nn) (bs i : ℕ)
    (hm : mem.OK c (nParams nn.layers) (batchLen n bs i)) (order : List ℕ) (hlen : order.length = n)
    (hlt : ∀ p ∈ order, p < n) (addr : ℕ) (data behind : List F) (hbuf : addr % c.alignSize = 0)
    (hlenb : data.length = nParams nn.layers + 16) :
    ∃ g, calcBatchGradient env c mem.thread mem.sched nn (some order) bs n X Y i ⟨addr, data ++ behind⟩ =
      .ok (i + batchLen n bs i, ⟨addr, g ++ behind⟩) ∧ g.length = nParams nn.layers + 16 := by
  have hpad : nParamPadding c (nParams nn.layers) ≤ nParams nn.layers + 16 := by
    unfold nParamPadding; split <;> omega
  have hle := le_padding c (nParams nn.layers)
  obtain ⟨tail, h1, h2, h3⟩ := calcBatchGradient_eq env c mem loss n X Y nn h bs i hm order hlen hlt
    ⟨addr, data ++ behind⟩ hbuf (by simp only [List.length_append]; omega)
  have hgl := batchGradF_length env c mem loss n X Y nn h bs i hm order hlen hlt (batchLen n bs i)
  generalize batchGradF env c mem.sched loss X Y nn order i (batchLen n bs i) = G at h1 hgl
  simp only [List.length_append] at h2 h3
  have h4 : tail.drop 16 = behind := by
    have := congrArg (List.drop (nParams nn.layers + 16 - nParamPadding c (nParams nn.layers))) h3
    rw [List.drop_drop, List.drop_drop] at this
    rw [show nParamPadding c (nParams nn.layers) - nParams nn.layers +
      (nParams nn.layers + 16 - nParamPadding c (nParams nn.layers)) = 16 by omega,
      show nParamPadding c (nParams nn.layers) +
      (nParams nn.layers + 16 - nParamPadding c (nParams nn.layers)) = nParams nn.layers + 16 by omega,
      List.drop_left' hlenb] at this
    exact this
  refine ⟨G ++ tail.take 16, ?_, ?_⟩
  · rw [h1, ← h4, List.append_assoc, List.take_append_drop]
  · simp only [List.length_append, List.length_take, hgl]
    omega

/-! ### Example: three samples in batches of two -/

/-- The example network with mean squared error. -/
noncomputable def exTrain : Net ℝ := setLoss [] exNet "mean_squared_error"

theorem exTrain_eq : exTrain = ⟨[⟨2, 3, ⟨64, [1, 2, 3, -1, 0, 1]⟩, ⟨128, [0, 1, -1]⟩, .relu, some .relu⟩,
    ⟨3, 1, ⟨192, [1, 2, 3]⟩, ⟨256, [10]⟩, .linear, some .linear⟩], some .mse⟩ := by
  have : getLossFunc "mean_squared_error" = some .mse := by decide
  simp [exTrain, setLoss, this, matchPair, exNet, resetDeriv, getActivationDerivative]

theorem align64 (c : Cfg) (n : ℕ) (hn : n % 64 = 0) : n % c.alignSize = 0 := by
  rcases c with ⟨s, _, _⟩
  cases s <;> simp [Cfg.alignSize] <;> omega

/-- Three samples for it. -/
theorem exTrainable (c : Cfg) :
    Trainable c .mse 3 ⟨20, [1, 2, 0, 0, 0, 1]⟩ ⟨52, [27, 14, 0]⟩ exTrain := by
  have hw : exTrain.WF c := by
    rw [exTrain_eq]
    have := exNet_wf c
    refine ⟨by simp, fun l hl => ?_, ⟨rfl, trivial⟩⟩
    simp only [List.mem_cons, List.not_mem_nil, or_false] at hl
    rcases hl with rfl | rfl
    · have h := this.layer _ (by simp [exNet]; exact .inl rfl)
      exact ⟨h.in_pos, h.out_pos, h.weight_len, h.bias_len, h.weight_al, h.bias_al⟩
    · have h := this.layer _ (by simp [exNet]; exact .inr rfl)
      exact ⟨h.in_pos, h.out_pos, h.weight_len, h.bias_len, h.weight_al, h.bias_al⟩
  refine ⟨hw, by rw [exTrain_eq], ?_, fun ga _ => ?_, by norm_num, ?_, ?_, ?_, ?_⟩
  · rw [exTrain_eq]; simp
  · rw [exTrain_eq]; apply backAligned_of_small; simp
  all_goals rw [exTrain_eq]; simp [Net.nInput, Net.nOutput]

/-- Memory for its batches: the second thread starts first. -/
def exMem (c : Cfg) (jk : ℕ → ℝ) (i : ℕ) : BatchMem ℝ :=
  ⟨.combine (.thread ((List.range (batchLen 3 2 i)).reverse)) (.thread []), fun _ => ⟨4096, jk, 8192, jk, 12⟩, 16384, jk,
    if c.avx then 16 else 0, 32768, jk⟩

theorem exMem_ok (c : Cfg) (jk : ℕ → ℝ) (i : ℕ) :
    (exMem c jk i).OK c (nParams exTrain.layers) (batchLen 3 2 i) := by
  refine ⟨?_, fun _ => align64 c 4096 rfl, fun _ => align64 c 8192 rfl, align64 c 16384 rfl, align64 c 32768 rfl, ?_⟩
  · simp only [Sched.Covers, exMem, Sched.iters, List.append_nil]
    exact List.reverse_perm _
  · simp only [exMem, nParamPadding]
    split <;> simp [*]

/-- The second batch (the last sample in the order 2, 0, 1), all builds. -/
example (c : Cfg) (jk : ℕ → ℝ) : ∃ g tail,
    calcBatchGradient (noCustom ℝ) c (exMem c jk 2).thread (exMem c jk 2).sched exTrain (some [2, 0, 1]) 2 3
      ⟨20, [1, 2, 0, 0, 0, 1]⟩ ⟨52, [27, 14, 0]⟩ 2 ⟨64, List.replicate 29 7⟩ = .ok (3, ⟨64, g ++ tail⟩) ∧
    g.length = 13 := by
  have hk : nParams exTrain.layers = 13 := by rw [exTrain_eq]; simp [nParams]
  have hr : nParamPadding c (nParams exTrain.layers) ≤ 29 := by
    rw [hk, nParamPadding]; split <;> omega
  obtain ⟨g, h1, h2⟩ := C30_room_partial (noCustom ℝ) c (exMem c jk 2) .mse 3 _ _ exTrain (exTrainable c) 2 2
    (exMem_ok c jk 2) [2, 0, 1] rfl (by decide) 64 (List.replicate 29 7) [] (align64 c _ rfl) (by simp [hk])
  refine ⟨g.take 13, g.drop 13, ?_, by rw [List.length_take, h2, hk]; rfl⟩
  rw [List.take_append_drop]
  simpa [batchLen] using h1

/-- One epoch of SGD: two iterations are enough, one is not. -/
example (c : Cfg) (jk : ℕ → ℝ) :
    let s : Sgd ℝ := ⟨⟨exTrain, true, 2, .static, some [2, 0, 1]⟩, 1 / 10, 0, 9 / 10, true, 0, ⟨128, List.replicate 13 0⟩⟩
    (∃ s', sgdEpoch (noCustom ℝ) c (exMem c jk) 2 3 ⟨20, [1, 2, 0, 0, 0, 1]⟩ ⟨52, [27, 14, 0]⟩ s = .ok s') ∧
    sgdEpoch (noCustom ℝ) c (exMem c jk) 1 3 ⟨20, [1, 2, 0, 0, 0, 1]⟩ ⟨52, [27, 14, 0]⟩ s = .error .diverge := by
  intro s
  have hk : nParams exTrain.layers = 13 := by rw [exTrain_eq]; simp [nParams]
  have h := C28_sgd (noCustom ℝ) c (exMem c jk) .mse 3 _ _ exTrain [2, 0, 1] 2 (by norm_num) (exMem_ok c jk) s
    (params exTrain.layers) (List.replicate 13 0) rfl
    ⟨exTrainable c, (setParams_self c _ (exTrainable c).wf).symm, params_length c _ (exTrainable c).wf.layer, rfl,
      by decide, rfl⟩ ⟨align64 c 128 rfl, rfl, by simp [hk]⟩
  obtain ⟨s', _, _, h1, -, -⟩ := h.1 2 (by norm_num)
  exact ⟨⟨s', h1⟩, h.2 1 (by norm_num)⟩

end NN
