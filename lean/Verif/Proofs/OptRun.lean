import Verif.Proofs.OptEpoch
import Verif.Properties.Shuffle
import Verif.Properties.Evaluate
/-
`optimizer_run_epoch` and histories of calls.
-/
set_option linter.unusedSimpArgs false

namespace NN
open FloatOps Spec

/-! ### What an epoch does not change -/

section
variable {F : Type} [FloatOps F]

theorem trainLoop_preserve {σ : Type} (n : ℕ) (step : ℕ → σ → M (ℕ × σ)) (Q : σ → Prop)
    (h : ∀ i s i' s', step i s = .ok (i', s') → Q s → Q s') :
    ∀ fuel i s s', trainLoop n step fuel i s = .ok s' → Q s → Q s' := by
  intro fuel
  induction fuel with
  | zero =>
    intro i s s' hr hq
    simp only [trainLoop] at hr
    split at hr
    · simp at hr
    · simp only [pure, Except.pure, Except.ok.injEq] at hr; exact hr ▸ hq
  | succ fuel ih =>
    intro i s s' hr hq
    simp only [trainLoop] at hr
    split at hr
    · cases hst : step i s with
      | error e => simp [hst, bind, Except.bind] at hr
      | ok r =>
        simp only [hst, bind, Except.bind] at hr
        exact ih r.1 r.2 s' hr (h i s r.1 r.2 hst hq)
    · simp only [pure, Except.pure, Except.ok.injEq] at hr; exact hr ▸ hq

theorem bind_ok {α β : Type} {x : M α} {f : α → M β} {b : β} (h : (x >>= f) = .ok b) :
    ∃ a, x = .ok a ∧ f a = .ok b := by
  cases x with
  | error e => simp [bind, Except.bind] at h
  | ok a => exact ⟨a, rfl, h⟩

/-- The parts of `optimizer_t` that only the user sets. -/
def Opt.same (o o' : Opt F) : Prop := o'.shuffle = o.shuffle ∧ o'.metrics = o.metrics ∧ o'.batchsize = o.batchsize

theorem sgdStep_same (env : CustomEnv F) (c : Cfg) (mem : ℕ → BatchMem F) (n : ℕ) (X Y : View F) (i : ℕ) (s : Sgd F)
    (i' : ℕ) (s' : Sgd F) (h : sgdStep env c mem n X Y i s = .ok (i', s')) : s.opt.same s'.opt := by
  unfold sgdStep at h
  obtain ⟨⟨vel, nn⟩, -, h⟩ := bind_ok h
  obtain ⟨⟨i1, g⟩, -, h⟩ := bind_ok h
  obtain ⟨g', -, h⟩ := bind_ok h
  simp only at h
  repeat' (first | split at h | (obtain ⟨_, _, h⟩ := bind_ok h))
  all_goals
    simp only [pure, Except.pure, Except.ok.injEq, Prod.mk.injEq] at h
    rw [← h.2]
    exact ⟨rfl, rfl, rfl⟩

theorem adagradStep_same (env : CustomEnv F) (c : Cfg) (mem : ℕ → BatchMem F) (n : ℕ) (X Y : View F) (i : ℕ)
    (s : Adagrad F) (i' : ℕ) (s' : Adagrad F) (h : adagradStep env c mem n X Y i s = .ok (i', s')) :
    s.opt.same s'.opt := by
  unfold adagradStep at h
  obtain ⟨⟨i1, g⟩, -, h⟩ := bind_ok h
  obtain ⟨r, -, h⟩ := bind_ok h
  obtain ⟨d, -, h⟩ := bind_ok h
  obtain ⟨nn', -, h⟩ := bind_ok h
  simp only [pure, Except.pure, Except.ok.injEq, Prod.mk.injEq] at h
  rw [← h.2]
  exact ⟨rfl, rfl, rfl⟩

theorem rmspropStep_same (env : CustomEnv F) (c : Cfg) (mem : ℕ → BatchMem F) (n : ℕ) (X Y : View F) (i : ℕ)
    (s : RmsProp F) (i' : ℕ) (s' : RmsProp F) (h : rmspropStep env c mem n X Y i s = .ok (i', s')) :
    s.opt.same s'.opt := by
  unfold rmspropStep at h
  obtain ⟨⟨vel, nn⟩, -, h⟩ := bind_ok h
  obtain ⟨⟨i1, g⟩, -, h⟩ := bind_ok h
  obtain ⟨g2, -, h⟩ := bind_ok h
  obtain ⟨r, -, h⟩ := bind_ok h
  obtain ⟨d, -, h⟩ := bind_ok h
  simp only at h
  repeat' (first | split at h | (obtain ⟨_, _, h⟩ := bind_ok h))
  all_goals
    simp only [pure, Except.pure, Except.ok.injEq, Prod.mk.injEq] at h
    rw [← h.2]
    exact ⟨rfl, rfl, rfl⟩

theorem adamStep_same (env : CustomEnv F) (c : Cfg) (mem : ℕ → BatchMem F) (n : ℕ) (X Y : View F) (i : ℕ)
    (s : (F × F) × Adam F) (i' : ℕ) (s' : (F × F) × Adam F) (h : adamStep env c mem n X Y i s = .ok (i', s')) :
    s.2.opt.same s'.2.opt := by
  unfold adamStep at h
  obtain ⟨⟨i1, g⟩, -, h⟩ := bind_ok h
  obtain ⟨a1, -, h⟩ := bind_ok h
  obtain ⟨a2, -, h⟩ := bind_ok h
  obtain ⟨a3, -, h⟩ := bind_ok h
  simp only at h
  repeat' (first | split at h | (obtain ⟨_, _, h⟩ := bind_ok h))
  all_goals
    simp only [pure, Except.pure, Except.ok.injEq, Prod.mk.injEq] at h
    rw [← h.2]
    exact ⟨rfl, rfl, rfl⟩

omit [FloatOps F] in
theorem Opt.same.trans {a b c : Opt F} (h : a.same b) (h' : b.same c) : a.same c :=
  ⟨h'.1.trans h.1, h'.2.1.trans h.2.1, h'.2.2.trans h.2.2⟩

end

/-! ### The state of an optimizer between epochs -/

section
variable (c : Cfg) (nn0 : Net ℝ) (bs : ℕ)

/-- The network has parameters `w` (and is otherwise `nn0`). -/
structure OptIn (o : Opt ℝ) (w : List ℝ) : Prop where
  nn : o.nn = nn0.setParams w
  wlen : w.length = nParams nn0.layers
  bs : o.batchsize = bs

/-- `SGD_t` with momentum `m`, decay `d` is in state `σ`. -/
structure SgdIn (m d : ℝ) (nest : Bool) (st : Statics ℝ) (s : Sgd ℝ) (σ : SgdState) : Prop where
  opt : OptIn nn0 bs s.opt σ.w
  vel : WorkVec c (nParams nn0.layers) s.velocity σ.v
  lr : s.lr = σ.lr
  t : s.nIter = σ.t
  m : s.momentum = m
  d : s.decay = d
  nest : s.nesterov = nest

/-- `adagrad_t` is in state `σ`. -/
structure AdagradIn (d : ℝ) (st : Statics ℝ) (s : Adagrad ℝ) (σ : AdagradState) : Prop where
  opt : OptIn nn0 bs s.opt σ.w
  r : WorkVec c (nParams nn0.layers) s.r σ.r
  lr : s.lr = σ.lr
  t : s.nIter = σ.t
  d : s.decay = d

/-- `RMSprop_t` is in state `σ`. -/
structure RmsPropIn (rho m d : ℝ) (nest : Bool) (st : Statics ℝ) (s : RmsProp ℝ) (σ : RmsPropState) : Prop where
  opt : OptIn nn0 bs s.opt σ.w
  vel : WorkVec c (nParams nn0.layers) s.velocity σ.v
  r : WorkVec c (nParams nn0.layers) s.r σ.r
  lr : s.lr = σ.lr
  t : s.nIter = σ.t
  rho : s.rho = rho
  m : s.momentum = m
  d : s.decay = d
  nest : s.nesterov = nest

/-- `adam_t` and the static correction factors are in state `σ`. -/
structure AdamIn (lr b1 b2 wd : ℝ) (st : Statics ℝ) (s : Adam ℝ) (σ : AdamState) : Prop where
  opt : OptIn nn0 bs s.opt σ.w
  m : WorkVec c (nParams nn0.layers) s.s σ.m
  v : WorkVec c (nParams nn0.layers) s.r σ.v
  p1 : st.beta1 = b1 ^ σ.t
  p2 : st.beta2 = b2 ^ σ.t
  lr : s.lr = lr
  b1 : s.beta1 = b1
  b2 : s.beta2 = b2
  wd : s.weightDecay = wd

end

theorem OptIn.at {c : Cfg} {loss : Loss} {n : ℕ} {X Y : View ℝ} {nn0 : Net ℝ} {bs : ℕ} {o : Opt ℝ} {w : List ℝ}
    (h : OptIn nn0 bs o w) (ht : Trainable c loss n X Y nn0) {order : List ℕ} (ho : order.Perm (List.range n))
    (hp : o.pivot = some order) : OptAt c loss n X Y nn0 order o w :=
  ⟨ht, h.nn, h.wlen, by simpa using ho.length_eq, fun p hp => List.mem_range.mp (ho.mem_iff.mp hp), hp⟩

/-! ### One call -/

/-- The arguments and the environment of one call of `optimizer_run_epoch`. -/
structure Call where
  n : ℕ
  X : View ℝ
  Y : View ℝ
  nValid : ℕ
  valid : Option (View ℝ × View ℝ)
  results : View ℝ
  mem : ℕ → BatchMem ℝ
  fuel : ℕ
  evalMem : ℕ → ThreadMem ℝ
  evalMemV : ℕ → ThreadMem ℝ
  sched : Sched
  schedV : Sched

/-- The validation data, if it is used. -/
def Call.validation (k : Call) : Option (ℕ × View ℝ × View ℝ) :=
  match k.valid with
  | some (vX, vY) => if 0 < k.nValid then some (k.nValid, vX, vY) else none
  | none => none

/-- A call the documentation allows: data of the right size, room for the results, memory as the compiler and the
allocator provide it. -/
structure Call.OK (c : Cfg) (loss : Loss) (nn0 : Net ℝ) (bs : ℕ) (ms : List Metric) (k : Call) : Prop where
  pos : 1 ≤ k.n
  train : Trainable c loss k.n k.X k.Y nn0
  mem : ∀ i, (k.mem i).OK c (nParams nn0.layers) (batchLen k.n bs i)
  fuel : (k.n + bs - 1) / bs ≤ k.fuel
  evalMem : ∀ i, (k.evalMem i).workAddr % c.alignSize = 0 ∧ (k.evalMem i).predAddr % c.alignSize = 0
  sched : k.sched.Covers k.n
  room : ms.length ≤ k.results.data.length
  valid : ∀ nV vX vY, k.validation = some (nV, vX, vY) →
    nV * nn0.nInput ≤ vX.data.length ∧ nV * nn0.nOutput ≤ vY.data.length ∧ k.schedV.Covers nV ∧
    (∀ i, (k.evalMemV i).workAddr % c.alignSize = 0 ∧ (k.evalMemV i).predAddr % c.alignSize = 0) ∧
    2 * ms.length ≤ k.results.data.length

/-- The mean of metric `m` over `n` samples. -/
noncomputable def meanMetric (env : CustomEnv ℝ) (nn : Net ℝ) (n : ℕ) (X Y : View ℝ) (m : Metric) : ℝ :=
  (∑ i ∈ Finset.range n, metricSpec m nn.nOutput
    (Spec.network (nn.layers.map (Layer.toSpec env)) (slice X.data (i * nn.nInput) nn.nInput))
    (slice Y.data (i * nn.nOutput) nn.nOutput)) / n

/-- What a call leaves in `results`. -/
noncomputable def Call.report (env : CustomEnv ℝ) (k : Call) (nn : Net ℝ) (ms : List Metric) : List ℝ :=
  (ms.map fun m => meanMetric env nn k.n k.X k.Y m) ++
  match k.validation with
  | some (nV, vX, vY) => (ms.map fun m => meanMetric env nn nV vX vY m) ++ k.results.data.drop (2 * ms.length)
  | none => k.results.data.drop ms.length

theorem report_eq (env : CustomEnv ℝ) (c : Cfg) (loss : Loss) (nn0 nn : Net ℝ) (bs : ℕ) (ms : List Metric)
    (rest : List (Option Metric)) (k : Call) (h : k.OK c loss nn0 bs ms) (hw : nn.WF c) (hi : nn.nInput = nn0.nInput)
    (ho : nn.nOutput = nn0.nOutput) :
    NN.report env c k.evalMem k.evalMemV k.sched k.schedV nn (ms.map some ++ none :: rest) k.n k.X k.Y k.nValid
      k.valid k.results = .ok ⟨k.results.addr, k.report env nn ms⟩ := by
  have h1 := C24_mean env c k.evalMem k.sched nn k.n h.sched k.X k.Y ms rest k.results hw h.evalMem
    (by rw [hi]; exact h.train.xlen) (by rw [ho]; exact h.train.ylen) h.room
  have hv := h.valid
  simp only [NN.report, metricList_eq, h1, bind, Except.bind, Call.report, Call.validation] at hv ⊢
  cases hval : k.valid with
  | none => simp [pure, Except.pure, meanMetric]
  | some p =>
    obtain ⟨vX, vY⟩ := p
    simp only [hval] at hv ⊢
    by_cases hpos : 0 < k.nValid
    · simp only [if_pos hpos] at hv ⊢
      obtain ⟨hx, hy, hc, hm, hr⟩ := hv _ _ _ rfl
      have hlen : (ms.map fun m => meanMetric env nn k.n k.X k.Y m).length = ms.length := by simp
      have h2 := C24_mean env c k.evalMemV k.schedV nn k.nValid hc vX vY ms rest
        ((⟨k.results.addr, (ms.map fun m => meanMetric env nn k.n k.X k.Y m) ++ k.results.data.drop ms.length⟩ :
          View ℝ).offset ms.length) hw hm
        (by rw [hi]; exact hx) (by rw [ho]; exact hy) (by simp [View.offset]; omega)
      simp only [meanMetric] at h2 hlen
      rw [h2]
      simp only [pure, Except.pure, putGrad, View.offset]
      rw [List.take_left' (by simp), List.drop_left' (by simp), List.drop_drop, two_mul]
      simp only [meanMetric]
    · simp only [if_neg hpos, pure, Except.pure, meanMetric]

/-- One call, for any kind of optimizer whose epoch function is a fold of `T`. -/
theorem runEpoch_eq {S τ : Type} (kind : OptKind ℝ S) (env : CustomEnv ℝ) (c : Cfg) (loss : Loss) (nn0 : Net ℝ) (bs : ℕ)
    (ms : List Metric) (rest : List (Option Metric)) (k : Call) (h : k.OK c loss nn0 bs ms) (r : ℕ → ℕ) (q : ℕ)
    (In : Statics ℝ → S → τ → Prop) (w : τ → List ℝ) (T : τ → (List ℝ → List ℝ) → τ) (g : List ℝ → ℕ → List ℝ)
    (st : Statics ℝ) (s : S) (σ : τ)
    (hwl : ∀ st s σ, In st s σ → OptIn nn0 bs (kind.opt s) (w σ))
    (hset : ∀ p, (kind.opt (kind.setPivot s p)) = { kind.opt s with pivot := p })
    (hinset : ∀ p nS, In { st with nSample := nS } (kind.setPivot s p) σ)
    (hE : ∀ st s order, In st s σ → order.Perm (List.range k.n) → (kind.opt s).pivot = some order →
      ∃ st' s', kind.epoch st s = .ok (st', s') ∧
        In st' s' ((epochGrads (nParams nn0.layers) bs g order).foldl T σ) ∧ (kind.opt s').pivot = some order ∧
        (kind.opt s).same (kind.opt s') ∧ st'.nSample = st.nSample ∧ st'.metric = st.metric)
    (hp : PivotInv st.nSample (kind.opt s).pivot)
    (hms : metricsArray st (kind.opt s).metrics = ms.map some ++ none :: rest) :
    ∃ order st' s' q', order.Perm (List.range k.n) ∧
      runEpoch kind env c k.evalMem k.evalMemV k.sched k.schedV r q true k.n k.X k.Y k.nValid k.valid k.results st s =
        .ok (st', s', q', ⟨k.results.addr, k.report env (kind.opt s').nn ms⟩) ∧
      In st' s' ((epochGrads (nParams nn0.layers) bs g order).foldl T σ) ∧
      (kind.opt s').pivot = some order ∧ st'.nSample = k.n ∧
      (kind.opt s).same (kind.opt s') ∧ st'.metric = st.metric := by
  obtain ⟨order, q', h1, h2⟩ := C25_order r k.n st.nSample q (kind.opt s).shuffle (kind.opt s).pivot h.pos
    (by have := h.train.nlt; omega) hp
  obtain ⟨st', s', h3, h4, h5, h6, h7, h8⟩ := hE { st with nSample := k.n } (kind.setPivot s (some order)) order
    (hinset _ _) h2 (by rw [hset])
  rw [hset] at h6
  have hopt := hwl _ _ _ h4
  have hwf := (h.train.setParams _ hopt.wlen).wf
  rw [← hopt.nn] at hwf
  have hrep := report_eq env c loss nn0 (kind.opt s').nn bs ms rest k h hwf
    (by rw [hopt.nn]; exact withParams_nInput nn0.layers _ _ _)
    (by rw [hopt.nn]; exact withParams_nOutput nn0.layers _ _ _)
  have hma : metricsArray st' (kind.opt s').metrics = ms.map some ++ none :: rest := by
    rw [h6.2.1, ← hms]
    simp only at h8
    simp only
    cases (kind.opt s).metrics <;> simp [metricsArray, h8]
  refine ⟨order, st', s', q', h2, ?_, h4, h5, by rw [h7], h6, h8⟩
  simp only [runEpoch, h1, bind, Except.bind, h3, hma, hrep, pure, Except.pure]

/-! ### The four optimizers -/

section
variable (env : CustomEnv ℝ) (c : Cfg) (loss : Loss) (nn0 : Net ℝ) (bs : ℕ) (hbs : 1 ≤ bs) (ms : List Metric)
  (rest : List (Option Metric)) (k : Call) (h : k.OK c loss nn0 bs ms) (r : ℕ → ℕ) (q : ℕ)
  (g : List ℝ → ℕ → List ℝ) (hg : SampleGrads env c k.n k.X k.Y nn0 g)
include hbs h hg

theorem runEpoch_sgd (m d : ℝ) (nest : Bool) (st : Statics ℝ) (s : Sgd ℝ) (σ : SgdState)
    (hin : SgdIn c nn0 bs m d nest st s σ) (hp : PivotInv st.nSample s.opt.pivot)
    (hms : metricsArray st s.opt.metrics = ms.map some ++ none :: rest)
    (ht : σ.t + (k.n + bs - 1) / bs ≤ 2 ^ 32 - 1) :
    ∃ order st' s' q', order.Perm (List.range k.n) ∧
      runEpoch (sgdKind env c k.mem k.fuel k.n k.X k.Y) env c k.evalMem k.evalMemV k.sched k.schedV r q true k.n k.X k.Y
        k.nValid k.valid k.results st s = .ok (st', s', q', ⟨k.results.addr, k.report env s'.opt.nn ms⟩) ∧
      SgdIn c nn0 bs m d nest st' s'
        ((epochGrads (nParams nn0.layers) bs g order).foldl (Spec.sgdStep m d nest) σ) ∧
      s'.opt.pivot = some order ∧ st'.nSample = k.n ∧ s.opt.same s'.opt ∧ st'.metric = st.metric := by
  refine runEpoch_eq (sgdKind env c k.mem k.fuel k.n k.X k.Y) env c loss nn0 bs ms rest k h r q
    (SgdIn c nn0 bs m d nest) SgdState.w (Spec.sgdStep m d nest) g st s σ (fun _ _ _ hi => hi.opt) (fun p => rfl)
    (fun p nS => ⟨⟨hin.opt.nn, hin.opt.wlen, hin.opt.bs⟩, hin.vel, hin.lr, hin.t, hin.m, hin.d, hin.nest⟩) ?_ hp hms
  intro st s order hin ho hpv
  obtain ⟨s', h1, h2⟩ := (sgdEpoch_real env c k.mem loss k.n k.X k.Y nn0 order bs hbs m d nest g hg h.mem s σ
    ⟨hin.opt.at h.train ho hpv, hin.vel, hin.lr, hin.t, hin.m, hin.d, hin.nest, hin.opt.bs⟩ ht).1 k.fuel h.fuel
  have hsame := trainLoop_preserve k.n (sgdStep env c k.mem k.n k.X k.Y) (fun x => s.opt.same x.opt)
    (fun i a i' a' hst hq => hq.trans (sgdStep_same env c k.mem k.n k.X k.Y i a i' a' hst)) k.fuel 0 s s' h1
    ⟨rfl, rfl, rfl⟩
  exact ⟨st, s', by simp [sgdKind, h1, bind, Except.bind, pure, Except.pure],
    ⟨⟨h2.opt.nn, h2.opt.wlen, h2.bs⟩, h2.vel, h2.lr, h2.t, h2.m, h2.d, h2.nest⟩, h2.opt.pv, hsame, rfl, rfl⟩

theorem runEpoch_adagrad (d : ℝ) (st : Statics ℝ) (s : Adagrad ℝ) (σ : AdagradState)
    (hin : AdagradIn c nn0 bs d st s σ) (hp : PivotInv st.nSample s.opt.pivot)
    (hms : metricsArray st s.opt.metrics = ms.map some ++ none :: rest)
    (ht : σ.t + (k.n + bs - 1) / bs ≤ 2 ^ 32 - 1) :
    ∃ order st' s' q', order.Perm (List.range k.n) ∧
      runEpoch (adagradKind env c k.mem k.fuel k.n k.X k.Y) env c k.evalMem k.evalMemV k.sched k.schedV r q true k.n k.X
        k.Y k.nValid k.valid k.results st s = .ok (st', s', q', ⟨k.results.addr, k.report env s'.opt.nn ms⟩) ∧
      AdagradIn c nn0 bs d st' s'
        ((epochGrads (nParams nn0.layers) bs g order).foldl (Spec.adagradStep d) σ) ∧
      s'.opt.pivot = some order ∧ st'.nSample = k.n ∧ s.opt.same s'.opt ∧ st'.metric = st.metric := by
  refine runEpoch_eq (adagradKind env c k.mem k.fuel k.n k.X k.Y) env c loss nn0 bs ms rest k h r q
    (AdagradIn c nn0 bs d) AdagradState.w (Spec.adagradStep d) g st s σ (fun _ _ _ hi => hi.opt) (fun p => rfl)
    (fun p nS => ⟨⟨hin.opt.nn, hin.opt.wlen, hin.opt.bs⟩, hin.r, hin.lr, hin.t, hin.d⟩) ?_ hp hms
  intro st s order hin ho hpv
  obtain ⟨s', h1, h2⟩ := (adagradEpoch_real env c k.mem loss k.n k.X k.Y nn0 order bs hbs d g hg h.mem s σ
    ⟨hin.opt.at h.train ho hpv, hin.r, hin.lr, hin.t, hin.d, hin.opt.bs⟩ ht).1 k.fuel h.fuel
  have hsame := trainLoop_preserve k.n (adagradStep env c k.mem k.n k.X k.Y) (fun x => s.opt.same x.opt)
    (fun i a i' a' hst hq => hq.trans (adagradStep_same env c k.mem k.n k.X k.Y i a i' a' hst)) k.fuel 0 s s' h1
    ⟨rfl, rfl, rfl⟩
  exact ⟨st, s', by simp [adagradKind, h1, bind, Except.bind, pure, Except.pure],
    ⟨⟨h2.opt.nn, h2.opt.wlen, h2.bs⟩, h2.r, h2.lr, h2.t, h2.d⟩, h2.opt.pv, hsame, rfl, rfl⟩

theorem runEpoch_rmsprop (rho m d : ℝ) (nest : Bool) (st : Statics ℝ) (s : RmsProp ℝ) (σ : RmsPropState)
    (hin : RmsPropIn c nn0 bs rho m d nest st s σ) (hp : PivotInv st.nSample s.opt.pivot)
    (hms : metricsArray st s.opt.metrics = ms.map some ++ none :: rest)
    (ht : σ.t + (k.n + bs - 1) / bs ≤ 2 ^ 32 - 1) :
    ∃ order st' s' q', order.Perm (List.range k.n) ∧
      runEpoch (rmspropKind env c k.mem k.fuel k.n k.X k.Y) env c k.evalMem k.evalMemV k.sched k.schedV r q true k.n k.X
        k.Y k.nValid k.valid k.results st s = .ok (st', s', q', ⟨k.results.addr, k.report env s'.opt.nn ms⟩) ∧
      RmsPropIn c nn0 bs rho m d nest st' s'
        ((epochGrads (nParams nn0.layers) bs g order).foldl (Spec.rmspropStep rho m d nest) σ) ∧
      s'.opt.pivot = some order ∧ st'.nSample = k.n ∧ s.opt.same s'.opt ∧ st'.metric = st.metric := by
  refine runEpoch_eq (rmspropKind env c k.mem k.fuel k.n k.X k.Y) env c loss nn0 bs ms rest k h r q
    (RmsPropIn c nn0 bs rho m d nest) RmsPropState.w (Spec.rmspropStep rho m d nest) g st s σ (fun _ _ _ hi => hi.opt)
    (fun p => rfl)
    (fun p nS => ⟨⟨hin.opt.nn, hin.opt.wlen, hin.opt.bs⟩, hin.vel, hin.r, hin.lr, hin.t, hin.rho, hin.m, hin.d,
      hin.nest⟩) ?_ hp hms
  intro st s order hin ho hpv
  obtain ⟨s', h1, h2⟩ := (rmspropEpoch_real env c k.mem loss k.n k.X k.Y nn0 order bs hbs rho m d nest g hg h.mem s σ
    ⟨hin.opt.at h.train ho hpv, hin.vel, hin.r, hin.lr, hin.t, hin.rho, hin.m, hin.d, hin.nest, hin.opt.bs⟩ ht).1
    k.fuel h.fuel
  have hsame := trainLoop_preserve k.n (rmspropStep env c k.mem k.n k.X k.Y) (fun x => s.opt.same x.opt)
    (fun i a i' a' hst hq => hq.trans (rmspropStep_same env c k.mem k.n k.X k.Y i a i' a' hst)) k.fuel 0 s s' h1
    ⟨rfl, rfl, rfl⟩
  exact ⟨st, s', by simp [rmspropKind, h1, bind, Except.bind, pure, Except.pure],
    ⟨⟨h2.opt.nn, h2.opt.wlen, h2.bs⟩, h2.vel, h2.r, h2.lr, h2.t, h2.rho, h2.m, h2.d, h2.nest⟩, h2.opt.pv, hsame, rfl,
      rfl⟩

theorem runEpoch_adam (lr b1 b2 wd : ℝ) (st : Statics ℝ) (s : Adam ℝ) (σ : AdamState)
    (hin : AdamIn c nn0 bs lr b1 b2 wd st s σ) (hp : PivotInv st.nSample s.opt.pivot)
    (hms : metricsArray st s.opt.metrics = ms.map some ++ none :: rest) :
    ∃ order st' s' q', order.Perm (List.range k.n) ∧
      runEpoch (adamKind env c k.mem k.fuel k.n k.X k.Y) env c k.evalMem k.evalMemV k.sched k.schedV r q true k.n k.X
        k.Y k.nValid k.valid k.results st s = .ok (st', s', q', ⟨k.results.addr, k.report env s'.opt.nn ms⟩) ∧
      AdamIn c nn0 bs lr b1 b2 wd st' s'
        ((epochGrads (nParams nn0.layers) bs g order).foldl (Spec.adamStep lr b1 b2 wd) σ) ∧
      s'.opt.pivot = some order ∧ st'.nSample = k.n ∧ s.opt.same s'.opt ∧ st'.metric = st.metric := by
  refine runEpoch_eq (adamKind env c k.mem k.fuel k.n k.X k.Y) env c loss nn0 bs ms rest k h r q
    (AdamIn c nn0 bs lr b1 b2 wd) AdamState.w (Spec.adamStep lr b1 b2 wd) g st s σ (fun _ _ _ hi => hi.opt)
    (fun p => rfl)
    (fun p nS => ⟨⟨hin.opt.nn, hin.opt.wlen, hin.opt.bs⟩, hin.m, hin.v, hin.p1, hin.p2, hin.lr, hin.b1, hin.b2,
      hin.wd⟩) ?_ hp hms
  intro st s order hin ho hpv
  obtain ⟨⟨b, s'⟩, h1, h2⟩ := (adamEpoch_real env c k.mem loss k.n k.X k.Y nn0 order bs hbs lr b1 b2 wd g hg h.mem
    ((st.beta1, st.beta2), s) σ
    ⟨hin.opt.at h.train ho hpv, hin.m, hin.v, hin.p1, hin.p2, hin.lr, hin.b1, hin.b2, hin.wd, hin.opt.bs⟩).1
    k.fuel h.fuel
  have hsame := trainLoop_preserve k.n (adamStep env c k.mem k.n k.X k.Y) (fun x => s.opt.same x.2.opt)
    (fun i a i' a' hst hq => hq.trans (adamStep_same env c k.mem k.n k.X k.Y i a i' a' hst)) k.fuel 0
    ((st.beta1, st.beta2), s) (b, s') h1 ⟨rfl, rfl, rfl⟩
  exact ⟨{ st with beta1 := b.1, beta2 := b.2 }, s', by simp [adamKind, h1, bind, Except.bind, pure, Except.pure],
    ⟨⟨h2.opt.nn, h2.opt.wlen, h2.bs⟩, h2.m, h2.v, h2.p1, h2.p2, h2.lr, h2.b1, h2.b2, h2.wd⟩, h2.opt.pv, hsame, rfl,
      rfl⟩

end

/-! ### Histories -/

/-- A sequence of calls with the same optimizer. -/
noncomputable def runCalls {S : Type} (kind : Call → OptKind ℝ S) (env : CustomEnv ℝ) (c : Cfg) (r : ℕ → ℕ) :
    List Call → Statics ℝ × S × ℕ → M (Statics ℝ × S × ℕ)
  | [], s => pure s
  | k :: ks, (st, s, q) => do
    let (st, s, q, _) ← runEpoch (kind k) env c k.evalMem k.evalMemV k.sched k.schedV r q true k.n k.X k.Y k.nValid
      k.valid k.results st s
    runCalls kind env c r ks (st, s, q)

/-- The gradient functions of all batches of a history in which call `k` uses its samples in the order `o`. -/
noncomputable def historyGrads (k bs : ℕ) (g : Call → List ℝ → ℕ → List ℝ) (orders : List (List ℕ))
    (calls : List Call) : List (List ℝ → List ℝ) :=
  (List.zipWith (fun o call => epochGrads k bs (g call) o) orders calls).flatten

/-- Total number of batches. -/
def totalBatches (bs : ℕ) (calls : List Call) : ℕ := (calls.map fun k => (k.n + bs - 1) / bs).sum

theorem runCalls_eq {S τ : Type} (kind : Call → OptKind ℝ S) (opt : S → Opt ℝ)
    (env : CustomEnv ℝ) (c : Cfg) (nn0 : Net ℝ) (bs : ℕ)
    (r : ℕ → ℕ) (In : Statics ℝ → S → τ → Prop) (B : τ → ℕ → Prop) (T : τ → (List ℝ → List ℝ) → τ)
    (g : Call → List ℝ → ℕ → List ℝ) (Good : Call → Prop) (A : MetricsRef → Option Metric → Prop)
    (hstep : ∀ k st s σ q b, Good k → In st s σ → B σ ((k.n + bs - 1) / bs + b) → A (opt s).metrics st.metric →
      PivotInv st.nSample (opt s).pivot →
      ∃ order st' s' q' res, order.Perm (List.range k.n) ∧
      runEpoch (kind k) env c k.evalMem k.evalMemV k.sched k.schedV r q true k.n k.X k.Y k.nValid k.valid k.results st
        s = .ok (st', s', q', res) ∧
      In st' s' ((epochGrads (nParams nn0.layers) bs (g k) order).foldl T σ) ∧
      B ((epochGrads (nParams nn0.layers) bs (g k) order).foldl T σ) b ∧
      (opt s').pivot = some order ∧ st'.nSample = k.n ∧ (opt s).same (opt s') ∧ st'.metric = st.metric) :
    ∀ (calls : List Call) (st : Statics ℝ) (s : S) (σ : τ) (q : ℕ), (∀ k ∈ calls, Good k) → In st s σ →
      B σ (totalBatches bs calls) → A (opt s).metrics st.metric → PivotInv st.nSample (opt s).pivot →
      ∃ orders st' s' q', List.Forall₂ (fun o k => o.Perm (List.range k.n)) orders calls ∧
        runCalls kind env c r calls (st, s, q) = .ok (st', s', q') ∧
        In st' s' ((historyGrads (nParams nn0.layers) bs g orders calls).foldl T σ) ∧
        PivotInv st'.nSample (opt s').pivot ∧ (opt s).same (opt s') ∧ st'.metric = st.metric := by
  intro calls
  induction calls with
  | nil =>
    intro st s σ q _ hin _ _ hp
    exact ⟨[], st, s, q, .nil, rfl, hin, hp, ⟨rfl, rfl, rfl⟩, rfl⟩
  | cons k ks ih =>
    intro st s σ q hg hin hb ha hp
    obtain ⟨order, s1, s2, q1, res, h1, h2, h3, h4, h5, h6, h7, h8⟩ := hstep k st s σ q (totalBatches bs ks)
      (hg k (by simp)) hin (by simpa [totalBatches] using hb) ha hp
    obtain ⟨orders, t1, t2, q2, k1, k2, k3, k4, k5, k6⟩ := ih s1 s2 _ q1 (fun k hk => hg k (by simp [hk])) h3 h4
      (by rw [h7.2.1, h8]; exact ha) (.inr ⟨order, h5, by rw [h6]; exact h1⟩)
    refine ⟨order :: orders, t1, t2, q2, .cons h1 k1, ?_, ?_, k4, h7.trans k5, k6.trans h8⟩
    · simp only [runCalls, h2, bind, Except.bind]
      exact k2
    · simp only [historyGrads, List.zipWith_cons_cons, List.flatten_cons, List.foldl_append]
      exact k3

end NN
