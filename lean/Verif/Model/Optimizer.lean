import Verif.Model.Batch
/-
Model of src/optimizer.c, src/optimizer.h, src/SGD.c, src/adam.c, src/adagrad.c, src/RMSprop.c.

The progress callback only prints and is not modelled here (src/progress.c is in `Progress.lean`).
`unsigned` counts of samples are natural numbers; the model is for fewer than 2^31 samples (from there
on `(int) n_train_samples` is negative), other counts give `Fault.overflow`.
-/
namespace NN
open FloatOps
variable {F : Type}

/-! ### Shuffling -/

/-- `prepare_shuffle_pivot`, src/optimizer.c:16-31, with the static `_n_sample`: the new static and the
new `opt->pivot`.  `allocOk`: does `realloc` succeed?  (`srand` restarts the stream of `rand()`, which is
arbitrary anyway.) -/
def preparePivot (nSample : Nat) (pivot : Option (List Nat)) (n : Nat) (allocOk : Bool) :
    Nat × Option (List Nat) :=
  if n ≠ nSample then
    (n, if allocOk then some (List.range n) else none)
  else (nSample, pivot)

/-- The loop of `fisher_yates_shuffle`, src/optimizer.c:35-40, with the loop variable `i` counting
down; `r k` is the `k`-th value of `rand()`. -/
def fisherYatesLoop (r : Nat → Nat) : Nat → Nat → List Nat → M (List Nat × Nat)
  | 0, k, arr => pure (arr, k)
  | i + 1, k, arr =>
    let j := r k % (i + 2)
    match arr[j]?, arr[i + 1]? with
    | some x, some y => fisherYatesLoop r i (k + 1) ((arr.set j y).set (i + 1) x)
    | _, _ => .error .oob

/-- `fisher_yates_shuffle`, src/optimizer.c:33-41.  `n-1` is computed in `unsigned int`. -/
def fisherYates (r : Nat → Nat) (k : Nat) (arr : Option (List Nat)) (n : Nat) :
    M (Option (List Nat) × Nat) :=
  let i := if n = 0 then 2 ^ 32 - 1 else n - 1
  if i = 0 then pure (arr, k)
  else match arr with
    | none => .error .nullDeref
    | some arr => do
      let (arr, k) ← fisherYatesLoop r i k arr
      pure (some arr, k)

/-! ### The batch gradient -/

/-- What a thread needs for one sample: stack of `neuralnet_backpropagation`, address and previous contents of
`grad`, address of its private copy of `batchgrad`. -/
structure ThreadGrad (F : Type) where
  workAddr : Nat
  junk : Nat → F
  gradAddr : Nat
  gradJunk : Nat → F
  privAddr : Nat

/-- `n_param_padding`, src/optimizer.c:72-80. -/
def nParamPadding (c : Cfg) (n : Nat) : Nat := if c.avx then n + (16 - n % 16) else n

/-- `pivot[idx]` -/
def readPivot (pivot : Option (List Nat)) (idx : Nat) : M Nat :=
  match pivot with
  | none => .error .nullDeref
  | some p => match p[idx]? with
    | some x => .ok x
    | none => .error .oob

section
variable [FloatOps F]

/-- One iteration of the parallel loop, src/optimizer.c:90-95; `acc` is the thread's private copy of
`batchgrad[0:n_param_padding]`.  The product `pivot[idx] * n_input` is computed in `unsigned int`. -/
def batchBody (env : CustomEnv F) (c : Cfg) (mem : Nat → ThreadGrad F) (nn : Net F)
    (pivot : Option (List Nat)) (X Y : View F) (i b : Nat) (acc : List F) : M (List F) := do
  let p ← readPivot pivot (i + b)
  let g ← backpropagation env c (mem b).workAddr (mem b).junk nn
    (X.offset (p * nn.nInput % 2 ^ 32)) (Y.offset (p * nn.nOutput % 2 ^ 32))
    (stackArray (mem b).gradAddr (nParams nn.layers) (mem b).gradJunk)
  let v ← vectorAccumulateUnaligned c (nParams nn.layers) ⟨(mem b).privAddr, acc⟩ g
  pure v.data

/-- Size of the next batch, src/optimizer.c:86-87 (`*i <= n_train_samples` for all callers). -/
def batchLen (n batchsize i : Nat) : Nat := if n - i < batchsize then n - i else batchsize

/-- `optimizer_calc_batch_gradient`, src/optimizer.c:61-99.  The reduction clause works on
`n_param_padding` floats of `batchgrad`.  Result: the new `*i` and `batchgrad`. -/
def calcBatchGradient (env : CustomEnv F) (c : Cfg) (mem : Nat → ThreadGrad F) (sched : Sched)
    (nn : Net F) (pivot : Option (List Nat)) (batchsize n : Nat) (X Y : View F) (i : Nat)
    (batchgrad : View F) : M (Nat × View F) :=
  if n < 2 ^ 31 then do
    let k := nParams nn.layers
    let pad := nParamPadding c k
    let g ← memsetZero batchgrad k
    let batch := batchLen n batchsize i
    if pad ≤ g.data.length then do
      let total ← sched.reduce (List.replicate pad zero) (batchBody env c mem nn pivot X Y i)
        (List.zipWith add)
      let g : View F := ⟨g.addr, List.zipWith add (g.data.take pad) total ++ g.data.drop pad⟩
      let g ← vectorDivideByScalar c k g (ofNat batch)
      pure (i + batch, g)
    else .error .oob
  else .error .overflow

/-- The environment of one batch: schedule, threads, address and previous contents of the array
`batchgrad` (`g`) of the caller, and of its other arrays (`g2` of RMSprop, `weights` of Adam).  The C code
declares `batchgrad[n_parameters]`, i.e. `slack = 0`; `slack` floats of accessible memory behind it are a
way to say what the code does if the stray accesses of the reduction hit harmless memory. -/
structure BatchMem (F : Type) where
  sched : Sched
  thread : Nat → ThreadGrad F
  gradAddr : Nat
  gradJunk : Nat → F
  slack : Nat
  tmpAddr : Nat
  tmpJunk : Nat → F

/-- `for ( unsigned int i = 0; i < n_train_samples ; ) { ... }` with the counter updated by the body,
src/SGD.c:61 etc.  `fuel` bounds the number of iterations. -/
def trainLoop {σ : Type} (n : Nat) (step : Nat → σ → M (Nat × σ)) : Nat → Nat → σ → M σ
  | 0, i, s => if i < n then .error .diverge else pure s
  | fuel + 1, i, s =>
    if i < n then do
      let (i, s) ← step i s
      trainLoop n step fuel i s
    else pure s

/-- A `metric_func *`: the user's NULL terminated array or the address of `static_metrics`
(src/optimizer.c:52). -/
inductive MetricsRef where
  | own (ms : List (Option Metric))
  | static

/-- `optimizer_t`, src/optimizer.h:22-34. -/
structure Opt (F : Type) where
  nn : Net F
  shuffle : Bool
  batchsize : Nat
  metrics : MetricsRef
  pivot : Option (List Nat)

/-- The `static` variables of the library that matter here: `_n_sample` (src/optimizer.c:18),
`static_metrics[0]` (src/optimizer.c:52), `beta_1_corrected`, `beta_2_corrected` (src/adam.c:158-159). -/
structure Statics (F : Type) where
  nSample : Nat
  metric : Option Metric
  beta1 : F
  beta2 : F

/-- The process starts with these. -/
def Statics.initial : Statics F := ⟨0, none, one, one⟩

/-- The batch gradient of an optimizer with a fresh stack array. -/
def Opt.batchGradient (env : CustomEnv F) (c : Cfg) (mem : BatchMem F) (o : Opt F) (n : Nat)
    (X Y : View F) (i : Nat) : M (Nat × View F) :=
  calcBatchGradient env c mem.thread mem.sched o.nn o.pivot o.batchsize n X Y i
    (stackArray mem.gradAddr (nParams o.nn.layers + mem.slack) mem.gradJunk)

/-! ### SGD -/

/-- `SGD_t`, src/SGD.c:10-22. -/
structure Sgd (F : Type) where
  opt : Opt F
  lr : F
  decay : F
  momentum : F
  nesterov : Bool
  nIter : Nat
  velocity : View F

/-- Learning rate update, src/SGD.c:76-79, src/RMSprop.c:110-112, src/adagrad.c:107-109. -/
def decayLr (lr decay : F) (nIter : Nat) : F :=
  if lt zero decay then mul lr (div one (add one (mul decay (ofNat nIter)))) else lr

/-- `if( momentum > 0.0f ) { vector_scale(); if( nesterov ) neuralnet_update(); }`, src/SGD.c:64-68,
src/RMSprop.c:99-103. -/
def applyMomentum (c : Cfg) (k : Nat) (m : F) (nesterov : Bool) (vel : View F) (nn : Net F) :
    M (View F × Net F) :=
  if lt zero m then do
    let vel ← vectorScale c k vel m
    let nn ← if nesterov then update c nn vel else pure nn
    pure (vel, nn)
  else pure (vel, nn)

/-- The loop body of `SGD_run_epoch`, src/SGD.c:63-94. -/
def sgdStep (env : CustomEnv F) (c : Cfg) (mem : Nat → BatchMem F) (n : Nat) (X Y : View F) (i : Nat)
    (s : Sgd F) : M (Nat × Sgd F) := do
  let k := nParams s.opt.nn.layers
  let (vel, nn) ← applyMomentum c k s.momentum s.nesterov s.velocity s.opt.nn
  let (i', g) ← Opt.batchGradient env c (mem i) { s.opt with nn := nn } n X Y i
  let lr := decayLr s.lr s.decay s.nIter
  let g ← vectorScale c k g (neg lr)
  let vel ← if lt zero s.momentum then vectorAccumulate c k vel g else pure vel
  let nn ← if lt zero s.momentum && !s.nesterov then update c nn vel else update c nn g
  pure (i', { s with opt := { s.opt with nn := nn }, lr := lr, nIter := (s.nIter + 1) % 2 ^ 32,
                     velocity := vel })

/-- `SGD_run_epoch`, src/SGD.c:54-96. -/
def sgdEpoch (env : CustomEnv F) (c : Cfg) (mem : Nat → BatchMem F) (fuel n : Nat) (X Y : View F)
    (s : Sgd F) : M (Sgd F) :=
  trainLoop n (sgdStep env c mem n X Y) fuel 0 s

/-! ### Adagrad, RMSprop, Adam -/

/-- Loops with an AVX part of width 8 (also in AVX512 builds) and a scalar tail, src/adam.c:68-85 etc. -/
def ladder8 {σ : Type} (c : Cfg) (n : Nat) (b8 b1 : Nat → σ → M σ) (s : σ) : M σ := do
  let (j, s) ← if c.avx then stripLe 8 n b8 0 s else pure (0, s)
  let (_, s) ← stripLe 1 n b1 j s
  pure s

/-- `accumulate_squared_gradient`, src/adagrad.c:57-72. -/
def accumulateSquaredGradient (c : Cfg) (n : Nat) (r g : View F) : M (View F) :=
  ladder8 c n (fun j r => do
    let gv ← g.loada 8 j
    let rv ← r.loada 8 j
    r.storea 8 j (vop2 add rv (vop2 mul gv gv))) (fun j r => do
    let gval ← g.load j
    let r0 ← r.load j
    r.store j (add r0 (mul gval gval))) r

/-- The literal `1.0e-7f`, src/adagrad.c:79, src/RMSprop.c:72. -/
def epsUpdate : F := lit 1 10000000

/-- `compute_update`, src/adagrad.c:77-92 and src/RMSprop.c:70-85 (identical). -/
def computeUpdate (c : Cfg) (n : Nat) (delta r : View F) (lr : F) : M (View F) :=
  ladder8 c n (fun j d => do
    let dv ← d.loada 8 j
    let rv ← r.loada 8 j
    d.storea 8 j (vop2 mul dv (vop2 div (set1 8 (neg lr))
      (vop2 add (set1 8 epsUpdate) (rv.map FloatOps.sqrt))))) (fun j d => do
    let d0 ← d.load j
    let r0 ← r.load j
    d.store j (mul d0 (div (neg lr) (add epsUpdate (FloatOps.sqrt r0))))) delta

/-- `adagrad_t`, src/adagrad.c:15-25. -/
structure Adagrad (F : Type) where
  opt : Opt F
  lr : F
  decay : F
  nIter : Nat
  r : View F

/-- The loop body of `adagrad_run_epoch`, src/adagrad.c:102-117. -/
def adagradStep (env : CustomEnv F) (c : Cfg) (mem : Nat → BatchMem F) (n : Nat) (X Y : View F)
    (i : Nat) (s : Adagrad F) : M (Nat × Adagrad F) := do
  let k := nParams s.opt.nn.layers
  let (i', g) ← Opt.batchGradient env c (mem i) s.opt n X Y i
  let lr := decayLr s.lr s.decay s.nIter
  let r ← accumulateSquaredGradient c k s.r g
  let delta ← computeUpdate c k g r lr
  let nn ← update c s.opt.nn delta
  pure (i', { s with opt := { s.opt with nn := nn }, lr := lr, nIter := (s.nIter + 1) % 2 ^ 32, r := r })

/-- `adagrad_run_epoch`, src/adagrad.c:94-119. -/
def adagradEpoch (env : CustomEnv F) (c : Cfg) (mem : Nat → BatchMem F) (fuel n : Nat) (X Y : View F)
    (s : Adagrad F) : M (Adagrad F) :=
  trainLoop n (adagradStep env c mem n X Y) fuel 0 s

/-- `RMSprop_t`, src/RMSprop.c:16-30. -/
structure RmsProp (F : Type) where
  opt : Opt F
  lr : F
  decay : F
  rho : F
  momentum : F
  nesterov : Bool
  nIter : Nat
  velocity : View F
  r : View F

/-- The loop body of `RMSprop_run_epoch`, src/RMSprop.c:98-128. -/
def rmspropStep (env : CustomEnv F) (c : Cfg) (mem : Nat → BatchMem F) (n : Nat) (X Y : View F)
    (i : Nat) (s : RmsProp F) : M (Nat × RmsProp F) := do
  let k := nParams s.opt.nn.layers
  let (vel, nn) ← applyMomentum c k s.momentum s.nesterov s.velocity s.opt.nn
  let (i', g) ← Opt.batchGradient env c (mem i) { s.opt with nn := nn } n X Y i
  let lr := decayLr s.lr s.decay s.nIter
  let g2 ← vectorSquareElements c k (stackArray (mem i).tmpAddr k (mem i).tmpJunk) g
  let r ← vectorSaxpby c k s.r (sub one s.rho) g2 s.rho
  let delta ← computeUpdate c k g r lr
  let vel ← if lt zero s.momentum then vectorAccumulate c k vel delta else pure vel
  let nn ← if lt zero s.momentum && !s.nesterov then update c nn vel else update c nn delta
  pure (i', { s with opt := { s.opt with nn := nn }, lr := lr, nIter := (s.nIter + 1) % 2 ^ 32,
                     velocity := vel, r := r })

/-- `RMSprop_run_epoch`, src/RMSprop.c:87-130. -/
def rmspropEpoch (env : CustomEnv F) (c : Cfg) (mem : Nat → BatchMem F) (fuel n : Nat) (X Y : View F)
    (s : RmsProp F) : M (RmsProp F) :=
  trainLoop n (rmspropStep env c mem n X Y) fuel 0 s

/-- `update_biased_first_moment`, src/adam.c:64-86. -/
def updateFirstMoment (c : Cfg) (n : Nat) (s g : View F) (rho : F) : M (View F) :=
  ladder8 c n (fun j s => do
    let gv ← g.loada 8 j
    let sv ← s.loada 8 j
    s.storea 8 j (vop2 add (vop2 mul sv (set1 8 rho)) (vop2 mul gv (set1 8 (sub one rho)))))
    (fun j s => do
    let gval ← g.load j
    let s0 ← s.load j
    s.store j (add (mul rho s0) (mul (sub one rho) gval))) s

/-- `update_biased_second_moment`, src/adam.c:93-115. -/
def updateSecondMoment (c : Cfg) (n : Nat) (r g : View F) (rho : F) : M (View F) :=
  ladder8 c n (fun j r => do
    let gv ← g.loada 8 j
    let rv ← r.loada 8 j
    r.storea 8 j (vop2 add (vop2 mul rv (set1 8 rho))
      (vop2 mul (vop2 mul gv gv) (set1 8 (sub one rho)))))
    (fun j r => do
    let gval ← g.load j
    let r0 ← r.load j
    r.store j (add (mul rho r0) (mul (mul (sub one rho) gval) gval))) r

/-- The literal `1.0e-8f`, src/adam.c:120. -/
def epsAdam : F := lit 1 100000000

/-- `compute_update_adam`, src/adam.c:118-145. -/
def computeUpdateAdam (c : Cfg) (n : Nat) (delta s r : View F) (rho1 rho2 lr : F) : M (View F) :=
  ladder8 c n (fun j d => do
    let sv ← s.loada 8 j
    let rv ← r.loada 8 j
    let sHat := vop2 div sv (set1 8 (sub one rho1))
    let rHat := vop2 div rv (set1 8 (sub one rho2))
    d.storea 8 j (vop2 div (vop2 mul (set1 8 (neg lr)) sHat)
      (vop2 add (rHat.map FloatOps.sqrt) (set1 8 epsAdam)))) (fun j d => do
    let s0 ← s.load j
    let r0 ← r.load j
    d.store j (div (mul (neg lr) (div s0 (sub one rho1)))
      (add (FloatOps.sqrt (div r0 (sub one rho2))) epsAdam))) delta

/-- `adam_t`, src/adam.c:16-28. -/
structure Adam (F : Type) where
  opt : Opt F
  lr : F
  beta1 : F
  beta2 : F
  weightDecay : F
  r : View F
  s : View F

/-- The loop body of `adam_run_epoch`, src/adam.c:164-187.  The state includes the two static
correction factors (first the one for `beta_1`).  The two parallel sections write different arrays, so
their order does not matter. -/
def adamStep (env : CustomEnv F) (c : Cfg) (mem : Nat → BatchMem F) (n : Nat) (X Y : View F)
    (i : Nat) (st : (F × F) × Adam F) : M (Nat × ((F × F) × Adam F)) := do
  let ((b1, b2), a) := st
  let k := nParams a.opt.nn.layers
  let (i', g) ← Opt.batchGradient env c (mem i) a.opt n X Y i
  let b1 := mul b1 a.beta1
  let b2 := mul b2 a.beta2
  let s ← updateFirstMoment c k a.s g a.beta1
  let r ← updateSecondMoment c k a.r g a.beta2
  let d ← computeUpdateAdam c k g s r b1 b2 a.lr
  let d ←
    if lt zero a.weightDecay then do
      let w ← getParameters a.opt.nn (stackArray (mem i).tmpAddr k (mem i).tmpJunk)
      vectorSaxpy c k d (neg a.weightDecay) w
    else pure d
  let nn ← update c a.opt.nn d
  pure (i', ((b1, b2), { a with opt := { a.opt with nn := nn }, s := s, r := r }))

/-- `adam_run_epoch`, src/adam.c:149-189. -/
def adamEpoch (env : CustomEnv F) (c : Cfg) (mem : Nat → BatchMem F) (fuel n : Nat) (X Y : View F)
    (st : (F × F) × Adam F) : M ((F × F) × Adam F) :=
  trainLoop n (adamStep env c mem n X Y) fuel 0 st

/-! ### Construction and `optimizer_run_epoch` -/

/-- The common part of the constructors, src/optimizer.h:48-75, and `optimizer_check_sanity`,
src/optimizer.c:44-59: the assertions, `static_metrics` and the default metrics. -/
def newOpt (st : Statics F) (nn : Net F) (shuffle : Bool) (batchsize : Int)
    (metrics : Option (List (Option Metric))) : M (Statics F × Opt F) :=
  match nn.loss with
  | none => .error .assertFail
  | some loss =>
    if 0 < batchsize then
      pure ({ st with metric := getMetricFunc (getLossName (some loss)) },
        ⟨nn, shuffle, batchsize.toNat,
          match metrics with
          | none => .static
          | some ms => .own ms, none⟩)
    else .error .assertFail

/-- `simd_malloc` and `memset` of one work vector in the `*_optimizer_init` functions; `none`: out of
memory (`assert`). -/
def zeroVec (addr : Option Nat) (k : Nat) : M (View F) :=
  match addr with
  | none => .error .assertFail
  | some a => pure ⟨a, List.replicate k zero⟩

/-- `SGD_new`, src/optimizer.h:48-75 with src/SGD.c:24-40 (the `malloc` of the struct succeeds). -/
def newSgd (st : Statics F) (nn : Net F) (shuffle : Bool) (batchsize : Int)
    (metrics : Option (List (Option Metric))) (lr decay momentum : F) (nesterov : Bool) (addr : Option Nat) :
    M (Statics F × Sgd F) := do
  let v ← zeroVec addr (nParams nn.layers)
  let (st, o) ← newOpt st nn shuffle batchsize metrics
  pure (st, ⟨o, lr, decay, momentum, nesterov, 0, v⟩)

/-- `adagrad_new`, src/adagrad.c:27-41. -/
def newAdagrad (st : Statics F) (nn : Net F) (shuffle : Bool) (batchsize : Int)
    (metrics : Option (List (Option Metric))) (lr decay : F) (addr : Option Nat) :
    M (Statics F × Adagrad F) := do
  let r ← zeroVec addr (nParams nn.layers)
  let (st, o) ← newOpt st nn shuffle batchsize metrics
  pure (st, ⟨o, lr, decay, 0, r⟩)

/-- `RMSprop_new`, src/RMSprop.c:32-53. -/
def newRmsProp (st : Statics F) (nn : Net F) (shuffle : Bool) (batchsize : Int)
    (metrics : Option (List (Option Metric))) (lr decay rho momentum : F) (nesterov : Bool)
    (addr addr' : Option Nat) : M (Statics F × RmsProp F) := do
  let v ← zeroVec addr (nParams nn.layers)
  let r ← zeroVec addr' (nParams nn.layers)
  let (st, o) ← newOpt st nn shuffle batchsize metrics
  pure (st, ⟨o, lr, decay, rho, momentum, nesterov, 0, v, r⟩)

/-- `adam_new`, src/adam.c:30-47. -/
def newAdam (st : Statics F) (nn : Net F) (shuffle : Bool) (batchsize : Int)
    (metrics : Option (List (Option Metric))) (lr beta1 beta2 weightDecay : F)
    (addr addr' : Option Nat) : M (Statics F × Adam F) := do
  let r ← zeroVec addr (nParams nn.layers)
  let s ← zeroVec addr' (nParams nn.layers)
  let (st, o) ← newOpt st nn shuffle batchsize metrics
  pure (st, ⟨o, lr, beta1, beta2, weightDecay, r, s⟩)

/-- The array behind `opt->metrics`. -/
def metricsArray (st : Statics F) : MetricsRef → List (Option Metric)
  | .own ms => ms
  | .static => [st.metric, none]

/-- Lines 105-108 of src/optimizer.c: prepare and shuffle the pivot; `k` counts the calls of `rand()`. -/
def setupPivot (r : Nat → Nat) (allocOk : Bool) (n : Nat) (nSample k : Nat) (shuffle : Bool)
    (pivot : Option (List Nat)) : M (Nat × Option (List Nat) × Nat) := do
  let (nSample, pivot) := preparePivot nSample pivot n allocOk
  let (pivot, k) ← if shuffle then fisherYates r k pivot n else pure (pivot, k)
  pure (nSample, pivot, k)

/-- Lines 115-123 of src/optimizer.c: metrics of the training data to `results`, and, if validation
data is given, its metrics behind them.  `valid` is `none` if one of the pointers is NULL. -/
def report (env : CustomEnv F) (c : Cfg) (mem memV : Nat → ThreadMem F) (sched schedV : Sched)
    (nn : Net F) (ms : List (Option Metric)) (n : Nat) (X Y : View F) (nValid : Nat)
    (valid : Option (View F × View F)) (results : View F) : M (View F) := do
  let k ← metricList ms
  let results ← evaluate env c mem sched nn n X Y ms results
  match valid with
  | some (vX, vY) =>
    if 0 < nValid then do
      let tail ← evaluate env c memV schedV nn nValid vX vY ms (results.offset k.length)
      pure (putGrad results k.length tail)
    else pure results
  | none => pure results

/-- An optimizer type: how to get at the `optimizer_t` inside, and its `run_epoch` method (which may
use the statics). -/
structure OptKind (F S : Type) where
  opt : S → Opt F
  setPivot : S → Option (List Nat) → S
  epoch : Statics F → S → M (Statics F × S)

/-- `optimizer_run_epoch`, src/optimizer.c:101-133. -/
def runEpoch {S : Type} (kind : OptKind F S) (env : CustomEnv F) (c : Cfg)
    (mem memV : Nat → ThreadMem F) (sched schedV : Sched) (r : Nat → Nat) (k : Nat) (allocOk : Bool)
    (n : Nat) (X Y : View F) (nValid : Nat) (valid : Option (View F × View F)) (results : View F)
    (st : Statics F) (s : S) : M (Statics F × S × Nat × View F) := do
  let (nSample, pivot, k) ← setupPivot r allocOk n st.nSample k (kind.opt s).shuffle (kind.opt s).pivot
  let (st, s) ← kind.epoch { st with nSample := nSample } (kind.setPivot s pivot)
  let results ← report env c mem memV sched schedV (kind.opt s).nn
    (metricsArray st (kind.opt s).metrics) n X Y nValid valid results
  pure (st, s, k, results)

/-- `SGD` as an optimizer type. -/
def sgdKind (env : CustomEnv F) (c : Cfg) (mem : Nat → BatchMem F) (fuel n : Nat) (X Y : View F) :
    OptKind F (Sgd F) where
  opt s := s.opt
  setPivot s p := { s with opt := { s.opt with pivot := p } }
  epoch st s := do
    let s ← sgdEpoch env c mem fuel n X Y s
    pure (st, s)

/-- `adagrad` as an optimizer type. -/
def adagradKind (env : CustomEnv F) (c : Cfg) (mem : Nat → BatchMem F) (fuel n : Nat) (X Y : View F) :
    OptKind F (Adagrad F) where
  opt s := s.opt
  setPivot s p := { s with opt := { s.opt with pivot := p } }
  epoch st s := do
    let s ← adagradEpoch env c mem fuel n X Y s
    pure (st, s)

/-- `RMSprop` as an optimizer type. -/
def rmspropKind (env : CustomEnv F) (c : Cfg) (mem : Nat → BatchMem F) (fuel n : Nat) (X Y : View F) :
    OptKind F (RmsProp F) where
  opt s := s.opt
  setPivot s p := { s with opt := { s.opt with pivot := p } }
  epoch st s := do
    let s ← rmspropEpoch env c mem fuel n X Y s
    pure (st, s)

/-- `adam` as an optimizer type. -/
def adamKind (env : CustomEnv F) (c : Cfg) (mem : Nat → BatchMem F) (fuel n : Nat) (X Y : View F) :
    OptKind F (Adam F) where
  opt s := s.opt
  setPivot s p := { s with opt := { s.opt with pivot := p } }
  epoch st s := do
    let (b, s) ← adamEpoch env c mem fuel n X Y ((st.beta1, st.beta2), s)
    pure ({ st with beta1 := b.1, beta2 := b.2 }, s)

end
end NN
