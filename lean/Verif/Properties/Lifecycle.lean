import Verif.Proofs.OptAny
import Verif.Properties.InitFloat
import Verif.Properties.Create
import Verif.Properties.Initialize
import Verif.Properties.SaveLoad
import Verif.Properties.Widths
import Verif.Model.B32
/-
C63: whole training programs, in any float arithmetic.
-/
set_option linter.unusedSimpArgs false
set_option linter.unusedSectionVars false

namespace NN
open FloatOps

section
variable {F : Type} [FloatOps F]

/-! ### Training never faults -/

theorem runEpochs_ok (env : CustomEnv F) (c : Cfg) (loss : Loss) (nn0 : Net F) (bs : ℕ) (hbs : 1 ≤ bs) (ms : List Metric)
    (rest : List (Option Metric)) (r : ℕ → ℕ) (calls : List (EpochCall F)) :
    ∀ (st : Statics F) (s : AnyOpt F) (q : ℕ), (∀ k ∈ calls, k.OK c loss nn0 bs ms) → s.Ready c nn0 bs →
      PivotInv st.nSample s.opt.pivot → metricsArray st s.opt.metrics = ms.map some ++ none :: rest →
      ∃ st' s' q', runEpochs env c r calls (st, s, q) = .ok (st', s', q') ∧ s'.Ready c nn0 bs := by
  induction calls with
  | nil => intro st s q _ hs _ _; exact ⟨st, s, q, rfl, hs⟩
  | cons k ks ih =>
    intro st s q hk hs hp hm
    obtain ⟨st1, s1, q1, train, val, h1, -, -, h2, h3, h4⟩ := epochCall_ok env c loss nn0 bs hbs ms rest k
      (hk k (by simp)) r q st s hs hp hm
    obtain ⟨st', s', q', h5, h6⟩ := ih st1 s1 q1 (fun k' hk' => hk k' (List.mem_cons_of_mem _ hk')) h2 h3 h4
    refine ⟨st', s', q', ?_, h6⟩
    simp only [runEpochs, h1, bind, Except.bind]
    exact h5

/-- The metrics the optimizer reports: those given, NULL-terminated, or, for NULL, the metric of the loss. -/
def MetricsChoice (loss : Loss) (metrics : Option (List (Option Metric))) (ms : List Metric) : Prop :=
  match metrics with
  | some l => ∃ rest, l = ms.map some ++ none :: rest
  | none => ∃ m, getMetricName (some m) = getLossName (some loss) ∧ ms = [m]

theorem metric_of_loss (loss : Loss) (m : Metric) (h : getMetricName (some m) = getLossName (some loss)) :
    getMetricFunc (getLossName (some loss)) = some m := by
  cases loss <;> cases m <;> first | decide | (revert h; decide)

/-- The constructors: with a loss, a positive batch size and memory they succeed. -/
theorem newAny_ok (c : Cfg) (loss : Loss) (nn : Net F) (hw : nn.WF c) (hl : nn.loss = some loss) (st0 : Statics F)
    (h0 : st0.nSample = 0) (shuffle : Bool) (bs : ℤ) (hbs : 0 < bs) (metrics : Option (List (Option Metric)))
    (ms : List Metric) (hm : MetricsChoice loss metrics ms) (a a' : ℕ) (ha : a % c.alignSize = 0)
    (ha' : a' % c.alignSize = 0) (settings : Settings F) :
    ∃ st s rest, newAny st0 nn shuffle bs metrics (some a) (some a') settings = .ok (st, s) ∧
      s.Ready c nn bs.toNat ∧ s.opt.nn = nn ∧ PivotInv st.nSample s.opt.pivot ∧
      metricsArray st s.opt.metrics = ms.map some ++ none :: rest := by
  have hnn : ∃ w : List F, w.length = nParams nn.layers ∧ nn = nn.setParams w :=
    ⟨params nn.layers, params_length c _ hw.layer, (setParams_self c nn hw).symm⟩
  have hv : ∀ b, b % c.alignSize = 0 → VecOK c (nParams nn.layers) (⟨b, List.replicate (nParams nn.layers) zero⟩ : View F) :=
    fun b hb => ⟨hb, by simp⟩
  obtain ⟨rest, hrest⟩ : ∃ rest, metricsArray ({ st0 with metric := getMetricFunc (getLossName (some loss)) })
      (match metrics with
          | none => .static
          | some ms => .own ms) = ms.map some ++ none :: rest := by
    cases metrics with
    | none =>
      obtain ⟨m, h1, rfl⟩ := hm
      exact ⟨[], by simp [metricsArray, metric_of_loss loss m h1]⟩
    | some l => obtain ⟨rest, rfl⟩ := hm; exact ⟨rest, rfl⟩
  cases settings <;>
  · simp only [newAny, newSgd, newAdagrad, newRmsProp, newAdam, zeroVec, newOpt, hl, if_pos hbs, bind, Except.bind, pure,
      Except.pure]
    refine ⟨_, _, rest, rfl, ⟨hnn, rfl, ?_⟩, rfl, .inl ⟨h0, rfl⟩, hrest⟩
    first
    | exact hv a ha
    | exact ⟨hv a ha, hv a' ha'⟩
    | exact ⟨hv a' ha', hv a ha⟩

/-- The settings stored in an optimizer. -/
def AnyOpt.settings : AnyOpt F → Settings F
  | .sgd s => .sgd s.lr s.decay s.momentum s.nesterov
  | .adagrad s => .adagrad s.lr s.decay
  | .rmsprop s => .rmsprop s.lr s.decay s.rho s.momentum s.nesterov
  | .adam s => .adam s.lr s.beta1 s.beta2 s.weightDecay

/-- Its work vectors and counter. -/
def AnyOpt.work : AnyOpt F → List (View F) × Option ℕ
  | .sgd s => ([s.velocity], some s.nIter)
  | .adagrad s => ([s.r], some s.nIter)
  | .rmsprop s => ([s.velocity, s.r], some s.nIter)
  | .adam s => ([s.r, s.s], none)

/-- **C63** A new optimizer has the settings it was asked for, the network, batch size and order of the samples it was given; its work
vectors are zero, its counter is 0, and no samples have been prepared. -/
theorem C63_new (st0 st : Statics F) (nn : Net F) (shuffle : Bool) (bs : ℤ) (metrics : Option (List (Option Metric)))
    (a a' : Option ℕ) (settings : Settings F) (s : AnyOpt F) (h : newAny st0 nn shuffle bs metrics a a' settings = .ok (st, s)) :
    s.settings = settings ∧ s.opt.nn = nn ∧ s.opt.shuffle = shuffle ∧ (s.opt.batchsize : ℤ) = bs ∧ s.opt.pivot = none ∧
    (∀ v ∈ s.work.1, v.data = List.replicate (nParams nn.layers) zero) ∧ (∀ k, s.work.2 = some k → k = 0) ∧
    st.nSample = st0.nSample ∧ st.beta1 = st0.beta1 ∧ st.beta2 = st0.beta2 := by
  cases settings <;>
  · simp only [newAny, newSgd, newAdagrad, newRmsProp, newAdam, zeroVec, newOpt] at h
    cases a <;> cases a' <;> simp only [bind, Except.bind, pure, Except.pure, reduceCtorEq] at h <;>
    · cases hl : nn.loss with
      | none => rw [hl] at h; simp at h
      | some loss =>
        rw [hl] at h
        by_cases hb : 0 < bs
        · simp only [hb, if_true, Except.ok.injEq, Prod.mk.injEq] at h
          obtain ⟨rfl, rfl⟩ := h
          refine ⟨rfl, rfl, rfl, ?_, rfl, by simp [AnyOpt.work], by simp [AnyOpt.work], rfl, rfl, rfl⟩
          simp only [AnyOpt.opt]
          omega
        · simp [hb] at h

/-- **C63** Training with any of the four optimizers never faults, in any float arithmetic (rounding, infinities and NaN
included): after the constructor every sequence of valid calls of `optimizer_run_epoch` succeeds — whatever the settings, the
data, the random numbers, the schedules of the threads, and old memory contents are — and all that changes in the network are
the values of its parameters. -/
theorem C63_training (env : CustomEnv F) (c : Cfg) (loss : Loss) (nn : Net F) (hw : nn.WF c) (hl : nn.loss = some loss)
    (st0 : Statics F) (h0 : st0.nSample = 0) (shuffle : Bool) (bs : ℤ) (hbs : 0 < bs)
    (metrics : Option (List (Option Metric))) (ms : List Metric) (hm : MetricsChoice loss metrics ms) (a a' : ℕ)
    (ha : a % c.alignSize = 0) (ha' : a' % c.alignSize = 0) (settings : Settings F) (r : ℕ → ℕ) (q : ℕ)
    (calls : List (EpochCall F)) (hok : ∀ k ∈ calls, k.OK c loss nn bs.toNat ms) :
    ∃ st s st' s' q' w, newAny st0 nn shuffle bs metrics (some a) (some a') settings = .ok (st, s) ∧
      runEpochs env c r calls (st, s, q) = .ok (st', s', q') ∧
      w.length = nParams nn.layers ∧ s'.opt.nn = nn.setParams w := by
  obtain ⟨st, s, rest, h1, h2, -, h3, h4⟩ := newAny_ok c loss nn hw hl st0 h0 shuffle bs hbs metrics ms hm a a' ha ha' settings
  obtain ⟨st', s', q', h5, h6⟩ := runEpochs_ok env c loss nn bs.toNat (by omega) ms rest r calls st s q hok h2 h3 h4
  obtain ⟨w, h7, h8⟩ := h6.nn
  exact ⟨st, s, st', s', q', w, h1, h5, h7, h8⟩

/-- **C63** A single call: it writes the metrics to their documented places, nothing else, and the optimizer is ready for the
next call. -/
theorem C63_call (env : CustomEnv F) (c : Cfg) (loss : Loss) (nn0 : Net F) (bs : ℕ) (hbs : 1 ≤ bs) (ms : List Metric)
    (rest : List (Option Metric)) (k : EpochCall F) (h : k.OK c loss nn0 bs ms) (r : ℕ → ℕ) (q : ℕ) (st : Statics F)
    (s : AnyOpt F) (hs : s.Ready c nn0 bs) (hp : PivotInv st.nSample s.opt.pivot)
    (hms : metricsArray st s.opt.metrics = ms.map some ++ none :: rest) :
    ∃ st' s' q' train val, k.run env c r q st s = .ok (st', s', q', ⟨k.results.addr, train ++
        if k.valid.isSome ∧ 0 < k.nValid then val ++ k.results.data.drop (2 * ms.length)
        else k.results.data.drop ms.length⟩) ∧ train.length = ms.length ∧ val.length = ms.length ∧
      s'.Ready c nn0 bs ∧ PivotInv st'.nSample s'.opt.pivot ∧
      metricsArray st' s'.opt.metrics = ms.map some ++ none :: rest :=
  epochCall_ok env c loss nn0 bs hbs ms rest k h r q st s hs hp hms

/-! ### From sizes to networks -/

/-- Number of parameters of a network with these layer sizes. -/
def paramCount : List ℕ → ℕ
  | a :: b :: s => (a + 1) * b + paramCount (b :: s)
  | _ => 0

/-- Sizes for which the aligned accesses of the AVX builds are right (C09). -/
def SafeWidths (c : Cfg) (sizes : List ℕ) : Prop :=
  c.avx = false ∨ (∀ s ∈ sizes.tail, s < 8) ∨
  ((∀ s ∈ sizes.tail.dropLast, s % c.lanes = 0) ∧ ∀ s, sizes.getLast? = some s → s % c.lanes = 0 ∨ s < 8)

/-- The layers have these sizes. -/
def HasSizes (ls : List (Layer F)) (sizes : List ℕ) : Prop :=
  ls.map (fun l => (l.nIn, l.nOut)) = sizes.zip sizes.tail

theorem HasSizes.nParams {sizes : List ℕ} : ∀ {ls : List (Layer F)}, HasSizes ls sizes → nParams ls = paramCount sizes := by
  induction sizes with
  | nil => intro ls h; have : ls = [] := by simpa [HasSizes] using h
           subst this; rfl
  | cons a s ih =>
    intro ls h
    match s, ls, h with
    | [], ls, h => have : ls = [] := by simpa [HasSizes] using h
                   subst this; rfl
    | b :: s, [], h => simp [HasSizes] at h
    | b :: s, l :: ls, h =>
      simp only [HasSizes, List.tail_cons, List.zip_cons_cons, List.map_cons, List.cons.injEq, Prod.mk.injEq] at h
      have := ih (ls := ls) h.2
      simp only [NN.nParams, List.map_cons, List.sum_cons, paramCount] at this ⊢
      rw [this, h.1.1, h.1.2]

theorem HasSizes.nInput {sizes : List ℕ} {nn : Net F} (h : HasSizes nn.layers sizes) (hne : nn.layers ≠ []) :
    sizes.head? = some nn.nInput := by
  obtain ⟨ls, loss⟩ := nn
  match sizes, ls, h, hne with
  | [], _ :: _, h, _ => simp [HasSizes] at h
  | [_], _ :: _, h, _ => simp [HasSizes] at h
  | a :: b :: s, l :: ls, h, _ =>
    simp only [HasSizes, List.tail_cons, List.zip_cons_cons, List.map_cons, List.cons.injEq, Prod.mk.injEq] at h
    simp [Net.nInput, h.1.1]

theorem HasSizes.last {sizes : List ℕ} : ∀ {ls : List (Layer F)}, HasSizes ls sizes → ls ≠ [] →
    sizes.getLast? = ls.getLast?.map Layer.nOut := by
  induction sizes with
  | nil => intro ls h hne; exact absurd (by simpa [HasSizes] using h) hne
  | cons a s ih =>
    intro ls h hne
    match s, ls, h with
    | [], _ :: _, h => simp [HasSizes] at h
    | b :: s, l :: ls, h =>
      simp only [HasSizes, List.tail_cons, List.zip_cons_cons, List.map_cons, List.cons.injEq, Prod.mk.injEq] at h
      rw [List.getLast?_cons_cons]
      cases ls with
      | nil =>
        have hs : s = [] := by
          cases s with
          | nil => rfl
          | cons x s => simp at h
        subst hs
        simp [h.1.2]
      | cons l' ls =>
        rw [List.getLast?_cons_cons]
        exact ih (ls := l' :: ls) h.2 (by simp)

theorem HasSizes.nOutput {sizes : List ℕ} {nn : Net F} (h : HasSizes nn.layers sizes) (hne : nn.layers ≠ []) :
    sizes.getLast? = some nn.nOutput := by
  rw [h.last hne, Net.nOutput]
  cases hl : nn.layers.getLast? with
  | none => exact absurd (List.getLast?_eq_none_iff.1 hl) hne
  | some l => rfl

theorem HasSizes.safe {c : Cfg} {sizes : List ℕ} (hs : SafeWidths c sizes) {ls : List (Layer F)} (h : HasSizes ls sizes) :
    c.avx = false ∨ SafeSizes c ls ∨ ∀ l ∈ ls, l.nOut < 8 := by
  rcases hs with hs | hs | ⟨hs, hl⟩
  · exact .inl hs
  · refine .inr (.inr fun l hl => hs _ ?_)
    have : (l.nIn, l.nOut) ∈ sizes.zip sizes.tail := by
      rw [← h]; exact List.mem_map_of_mem (f := fun l : Layer F => (l.nIn, l.nOut)) hl
    exact (List.of_mem_zip this).2
  · refine .inr (.inl ?_)
    induction sizes generalizing ls with
    | nil => have : ls = [] := by simpa [HasSizes] using h
             subst this; trivial
    | cons a s ih =>
      match s, ls, h with
      | _, [], h => trivial
      | [], _ :: _, h => simp [HasSizes] at h
      | [b], [l], h =>
        simp only [HasSizes, List.tail_cons, List.zip_cons_cons, List.map_cons, List.cons.injEq, Prod.mk.injEq] at h
        have := hl b (by simp)
        simpa only [SafeSizes, h.1.2] using this
      | [b], l :: l' :: ls, h => simp [HasSizes] at h
      | b :: b' :: s, [l], h => simp [HasSizes] at h
      | b :: b' :: s, l :: l' :: ls, h =>
        simp only [HasSizes, List.tail_cons, List.zip_cons_cons, List.map_cons, List.cons.injEq, Prod.mk.injEq] at h
        refine ⟨by rw [h.1.2]; exact hs b (by simp), ih ?_ ?_ ?_⟩
        · simp only [HasSizes, List.tail_cons, List.zip_cons_cons, List.map_cons, List.cons.injEq, Prod.mk.injEq]
          exact h.2
        · intro x hx
          refine hs x ?_
          simp only [List.tail_cons, List.dropLast_cons_cons] at hx ⊢
          exact List.mem_cons_of_mem _ hx
        · intro x hx
          exact hl x (by rw [List.getLast?_cons_cons]; exact hx)

/-- A call that fits a network with `nIn` inputs, `nOut` outputs and `k` parameters, batches of `bs`, and `m` metrics. -/
structure EpochCall.Fits (c : Cfg) (nIn nOut k bs m : ℕ) (e : EpochCall F) : Prop where
  pos : 1 ≤ e.n
  nlt : e.n < 2 ^ 31
  xlen : e.n * nIn ≤ e.X.data.length
  ylen : e.n * nOut ≤ e.Y.data.length
  xfit : e.n * nIn ≤ 2 ^ 32
  yfit : e.n * nOut ≤ 2 ^ 32
  mem : ∀ i, (e.mem i).OK c k (batchLen e.n bs i)
  fuel : (e.n + bs - 1) / bs ≤ e.fuel
  evalMem : ∀ i, (e.evalMem i).workAddr % c.alignSize = 0 ∧ (e.evalMem i).predAddr % c.alignSize = 0
  evalMemV : ∀ i, (e.evalMemV i).workAddr % c.alignSize = 0 ∧ (e.evalMemV i).predAddr % c.alignSize = 0
  sched : e.sched.Covers e.n
  room : 2 * m ≤ e.results.data.length
  valid : ∀ vX vY, e.valid = some (vX, vY) → e.schedV.Covers e.nValid ∧ e.nValid * nIn ≤ vX.data.length ∧
    e.nValid * nOut ≤ vY.data.length

theorem EpochCall.Fits.ok' {c : Cfg} {loss : Loss} {nn : Net F} {bs : ℕ} {ms : List Metric} {e : EpochCall F}
    (h : e.Fits c nn.nInput nn.nOutput (nParams nn.layers) bs ms.length) (hw : nn.WF c) (hl : nn.loss = some loss)
    (hd : ∀ l ∈ nn.layers, l.deriv ≠ none) (ha : ∀ ga, ga % c.alignSize = 0 → BackAligned c ga 0 nn.layers) :
    e.OK c loss nn bs ms :=
  ⟨h.pos, ⟨hw, hl, hd, ha, h.nlt, h.xlen, h.ylen, h.xfit, h.yfit⟩, h.mem, h.fuel, h.evalMem, h.evalMemV, h.sched, h.room, h.valid⟩

theorem EpochCall.Fits.ok {c : Cfg} {loss : Loss} {nn : Net F} {bs : ℕ} {ms : List Metric} {e : EpochCall F}
    (h : e.Fits c nn.nInput nn.nOutput (nParams nn.layers) bs ms.length) (hw : nn.WF c) (hl : nn.loss = some loss)
    (hd : ∀ l ∈ nn.layers, l.deriv ≠ none) (hs : c.avx = false ∨ SafeSizes c nn.layers ∨ ∀ l ∈ nn.layers, l.nOut < 8) :
    e.OK c loss nn bs ms :=
  h.ok' hw hl hd fun ga hga => C09_safe_sizes c nn ga hga hw hs

/-! ### The whole program -/

/-- What the job has to satisfy, apart from the layer widths.  `nIn`, `nOut`: sizes of the first and the last layer. -/
structure Job.Fine (j : Job F) (c : Cfg) (loss : Loss) (ms : List Metric) (nIn nOut : ℕ) : Prop where
  layers : 2 ≤ j.sizes.length
  few : 12 * j.sizes.length < 2 ^ 31
  pos : ∀ s ∈ j.sizes, 1 ≤ s
  first : j.sizes.head? = some nIn
  last : j.sizes.getLast? = some nOut
  small : ∀ p ∈ j.sizes.zip j.sizes.tail, p.1 * p.2 < 2 ^ 31 ∧ p.1 + p.2 < 2 ^ 31
  names : j.funcs.length + 1 = j.sizes.length
  builtin : ∀ s, some s ∈ j.funcs → ∃ b ∈ builtins, s = b.1
  inits : ∀ l, j.inits = some l → j.sizes.length ≤ l.length + 1 ∧ none ∉ l
  lossName : getLossFunc j.loss = some loss
  batch : 0 < j.batchsize
  metrics : MetricsChoice loss j.metrics ms
  mem : ∀ i, j.ok i = true
  addr : ∀ i, j.addr i % c.alignSize = 0
  vec1 : ∃ a, j.vec1 = some a ∧ a % c.alignSize = 0
  vec2 : ∃ a, j.vec2 = some a ∧ a % c.alignSize = 0
  rand : Accepting F j.rand j.fuel
  calls : ∀ e ∈ j.calls, e.Fits c nIn nOut (paramCount j.sizes) j.batchsize.toNat ms.length
  file : (str j.file).length ≤ 128

/-- The layer widths suit the build too. -/
structure Job.Good (j : Job F) (c : Cfg) (loss : Loss) (ms : List Metric) (nIn nOut : ℕ) : Prop extends
    Job.Fine j c loss ms nIn nOut where
  widths : Spec.VectorWidths c true 0 (Spec.describeLayers j.sizes loss j.funcs)

theorem builtin_nameOk {n : String} (h : ∃ b ∈ builtins, n = b.1) : NameOk n := by
  intro symbol lib _ e
  obtain ⟨b, hb, rfl⟩ := h
  have := (builtin_names b hb).2.2.2.2
  rw [e] at this
  simp at this

theorem chosen_builtin {dl : DynLinker} {name : Option String} {a : Act} (h : Chosen dl name a)
    (hb : ∀ s, name = some s → ∃ b ∈ builtins, s = b.1) : ∃ b ∈ builtins, a = b.2.1 := by
  cases name with
  | none => exact ⟨("linear", .linear, .linear), by simp [builtins], h⟩
  | some n =>
    rcases h with ⟨b, hb', -, h2⟩ | ⟨h1, -⟩
    · exact ⟨b, hb', h2⟩
    · obtain ⟨b, hb', e⟩ := hb n rfl
      exact absurd e (h1 b hb')

theorem builtin_deriv (recs : List ActRecord) {a : Act} (h : ∃ b ∈ builtins, a = b.2.1) :
    getActivationDerivative recs a ≠ none := by
  obtain ⟨b, hb, rfl⟩ := h
  simp only [builtins, List.mem_cons, List.not_mem_nil, or_false] at hb
  rcases hb with rfl | rfl | rfl | rfl | rfl | rfl | rfl | rfl | rfl <;> simp [getActivationDerivative]

/-- Creation and built-in names do not load anything. -/
theorem setActivations_recs (dl : DynLinker) (fs : List (Option String)) (hb : ∀ s, some s ∈ fs → ∃ b ∈ builtins, s = b.1) :
    ∀ (ls : List CLayer) (i : ℕ) (recs : List ActRecord) (ls' : List CLayer) (recs' : List ActRecord),
    setActivations dl (some fs) i ls recs = .ok (ls', recs') → recs' = recs := by
  intro ls
  induction ls with
  | nil =>
    intro i recs ls' recs' h
    simp only [setActivations, pure, Except.pure, Except.ok.injEq, Prod.mk.injEq] at h
    exact h.2.symm
  | cons l ls ih =>
    intro i recs ls' recs' h
    rw [setActivations] at h
    obtain ⟨name, h1, h⟩ := bind_ok h
    have hname : ∃ b ∈ builtins, name.getD "linear" = b.1 := by
      cases name with
      | none => exact ⟨("linear", .linear, .linear), by simp [builtins], rfl⟩
      | some n =>
        refine hb n ?_
        simp only [readName] at h1
        cases hg : fs[i]? with
        | none => simp [hg] at h1
        | some x =>
          simp only [hg, pure, Except.pure, Except.ok.injEq] at h1
          exact h1 ▸ List.mem_of_getElem? hg
    obtain ⟨b, hbm, hn⟩ := hname
    rw [hn, (C14_builtin dl recs b hbm).1] at h
    obtain ⟨⟨a, recs0⟩, ha, h⟩ := bind_ok h
    simp only [Except.ok.injEq, Prod.mk.injEq] at ha
    obtain ⟨rfl, rfl⟩ := ha
    obtain ⟨⟨a, recs0⟩, ha, h⟩ := bind_ok h
    simp only [pure, Except.pure, Except.ok.injEq, Prod.mk.injEq] at ha
    obtain ⟨rfl, rfl⟩ := ha
    obtain ⟨⟨ls1, recs1⟩, h2, h3⟩ := bind_ok h
    simp only [pure, Except.pure, Except.ok.injEq, Prod.mk.injEq] at h3
    obtain ⟨-, rfl⟩ := h3
    exact ih _ _ _ _ h2

theorem createNN_recs {ok : ℕ → Bool} {dl : DynLinker} {n : ℤ} {sizes : List ℤ} {fs : List (Option String)}
    {recs : List ActRecord} {h : Heap} (hb : ∀ s, some s ∈ fs → ∃ b ∈ builtins, s = b.1) {net : CNet}
    {recs' : List ActRecord} {h' : Heap} (he : createNN ok dl n sizes (some fs) recs h = .ok (some net, recs', h')) :
    recs' = recs := by
  unfold createNN at he
  split at he
  · simp [pure, Except.pure] at he
  obtain ⟨good, -, he⟩ := bind_ok he
  split at he
  · simp [pure, Except.pure] at he
  split at he
  · simp [pure, Except.pure] at he
  split at he
  · obtain ⟨_, -, he⟩ := bind_ok he
    simp [pure, Except.pure] at he
  obtain ⟨ls, -, he⟩ := bind_ok he
  obtain ⟨⟨b, ls1, h1⟩, -, he⟩ := bind_ok he
  simp only at he
  split at he
  · obtain ⟨⟨ls2, recs2⟩, h2, he⟩ := bind_ok he
    simp only [pure, Except.pure, Except.ok.injEq, Prod.mk.injEq] at he
    rw [← he.2.1]
    exact setActivations_recs dl fs hb _ _ _ _ _ h2
  · obtain ⟨_, -, he⟩ := bind_ok he
    obtain ⟨_, -, he⟩ := bind_ok he
    simp [pure, Except.pure] at he

/-- Layers that differ at most in the values of their parameters and the derivative. -/
def Layer.Alike (l l' : Layer F) : Prop :=
  (l'.nIn = l.nIn ∧ l'.nOut = l.nOut ∧ l'.act = l.act) ∧ l'.weight.addr = l.weight.addr ∧ l'.bias.addr = l.bias.addr ∧
  l'.weight.data.length = l.weight.data.length ∧ l'.bias.data.length = l.bias.data.length

theorem forall₂_of_getElem {α β : Type} {R : α → β → Prop} : ∀ {xs : List α} {ys : List β}, ys.length = xs.length →
    (∀ (i : ℕ) (x : α), xs[i]? = some x → ∃ y, ys[i]? = some y ∧ R x y) → List.Forall₂ R xs ys
  | [], [], _, _ => .nil
  | x :: xs, y :: ys, hl, h => by
    obtain ⟨y', h1, h2⟩ := h 0 x rfl
    simp only [List.getElem?_cons_zero, Option.some.injEq] at h1
    subst h1
    exact .cons h2 (forall₂_of_getElem (by simpa using hl) fun i x hx => h (i + 1) x hx)

theorem Alike.chained : ∀ {ls ls' : List (Layer F)}, List.Forall₂ Layer.Alike ls ls' → Chained ls → Chained ls'
  | _, _, .nil, _ => trivial
  | _, _, .cons _ .nil, _ => trivial
  | _, _, .cons h1 (.cons h2 h3), h => ⟨by rw [h1.1.2.1, h2.1.1]; exact h.1, Alike.chained (.cons h2 h3) h.2⟩

theorem Alike.mem : ∀ {ls ls' : List (Layer F)}, List.Forall₂ Layer.Alike ls ls' → ∀ l' ∈ ls', ∃ l ∈ ls, l.Alike l'
  | _, _, .cons h1 h2, l', hl => by
    rcases List.mem_cons.1 hl with rfl | hl
    · exact ⟨_, by simp, h1⟩
    · obtain ⟨l, hm, h⟩ := Alike.mem h2 l' hl
      exact ⟨l, List.mem_cons_of_mem _ hm, h⟩

theorem Alike.wf {c : Cfg} {nn nn' : Net F} (h : List.Forall₂ Layer.Alike nn.layers nn'.layers) (hw : nn.WF c) : nn'.WF c where
  ne := by
    intro he
    rw [he] at h
    exact hw.ne (List.forall₂_nil_right_iff.1 h)
  layer := by
    intro l' hl
    obtain ⟨l, hm, ⟨h1, h2, -⟩, h4, h5, h6, h7⟩ := Alike.mem h l' hl
    have := hw.layer l hm
    exact ⟨by rw [h1]; exact this.in_pos, by rw [h2]; exact this.out_pos, by rw [h6, h1, h2]; exact this.weight_len,
      by rw [h7, h2]; exact this.bias_len, by rw [h4]; exact this.weight_al, by rw [h5]; exact this.bias_al⟩
  chain := Alike.chained h hw.chain

theorem Alike.shape : ∀ {ls ls' : List (Layer F)}, List.Forall₂ Layer.Alike ls ls' →
    ls'.map (fun l => (l.nIn, l.nOut, l.act)) = ls.map (fun l => (l.nIn, l.nOut, l.act))
  | _, _, .nil => rfl
  | _, _, .cons h1 h2 => by
    simp only [List.map_cons, Alike.shape h2, h1.1.1, h1.1.2.1, h1.1.2.2]

theorem alike_initialize {g : Rand} {fuel : ℕ} {recs : List ActRecord} (hr : RecsNamed recs)
    {inits : Option (List (Option String))} {nn nn' : Net F} (hn : nn.Sized) {s s' : RandState F}
    (h : initializeNN g fuel recs inits (some nn) s = .ok (some nn', s')) :
    List.Forall₂ Layer.Alike nn.layers nn'.layers := by
  obtain ⟨-, h2, h3⟩ := C54_values hr hn h
  refine forall₂_of_getElem h2 fun i l hl => ?_
  obtain ⟨l', ini, xs, s1, s2, e1, -, -, e4, rfl⟩ := h3 i l hl
  have hs := (hn l (List.mem_of_getElem? hl)).1
  exact ⟨_, e1, ⟨rfl, rfl, rfl⟩, rfl, rfl, by rw [hs.1]; exact e4, by rw [hs.2]; simp⟩

theorem alike_setLoss {recs : List ActRecord} {nn : Net F} {name : String} {loss : Loss} (h : getLossFunc name = some loss) :
    List.Forall₂ Layer.Alike nn.layers (setLoss recs nn name).layers := by
  obtain ⟨-, h2, h3⟩ := C11_sets recs nn name loss h
  exact forall₂_of_getElem h2 fun i l hl => ⟨_, h3 i l hl, ⟨rfl, rfl, rfl⟩, rfl, rfl, rfl, rfl⟩

theorem alike_withParams {c : Cfg} : ∀ {ls : List (Layer F)} {w : List F}, (∀ l ∈ ls, l.WF c) → w.length = nParams ls →
    List.Forall₂ Layer.Alike ls (withParams ls w)
  | [], _, _, _ => .nil
  | l :: ls, w, hl, hw => by
    have h := hl l (by simp)
    have e : nParams (l :: ls) = (l.nIn + 1) * l.nOut + nParams ls := by simp [nParams]
    rw [e] at hw
    have e2 : (l.nIn + 1) * l.nOut = l.nOut + l.nIn * l.nOut := by ring
    refine .cons ⟨⟨rfl, rfl, rfl⟩, rfl, rfl, ?_, ?_⟩ (alike_withParams (fun l' h' => hl l' (List.mem_cons_of_mem _ h')) ?_)
    · rw [h.weight_len]; simp; omega
    · rw [h.bias_len]; simp; omega
    · rw [List.length_drop]; omega

theorem chosen_shape {dl : DynLinker} {fs : List (Option String)} {ls ls' : List (Layer F)}
    (hf : List.Forall₂ (fun name (l : Layer F) => Chosen dl name l.act) fs ls)
    (h : ls'.map (fun l => (l.nIn, l.nOut, l.act)) = ls.map (fun l => (l.nIn, l.nOut, l.act))) :
    List.Forall₂ (fun name (l : Layer F) => Chosen dl name l.act) fs ls' := by
  induction hf generalizing ls' with
  | nil => have : ls' = [] := by simpa using h
           subst this; exact .nil
  | cons h1 _ ih =>
    match ls', h with
    | l :: ls', h =>
      simp only [List.map_cons, List.cons.injEq, Prod.mk.injEq] at h
      exact .cons (by rw [h.1.2.2]; exact h1) (ih h.2)

theorem chosen_fast {dl : DynLinker} {name : Option String} {a : Act} (h : Chosen dl name a)
    (hb : ∀ s, name = some s → ∃ b ∈ builtins, s = b.1) (recs : List ActRecord) :
    ((getActivationDerivative recs a).getD .linear).vectorised = Spec.fastDerivative name ∧
      (a = .sigmoid ↔ name = some "sigmoid") := by
  cases name with
  | none => rw [show a = .linear from h]; simp [getActivationDerivative, ActDeriv.vectorised, Spec.fastDerivative]
  | some n =>
    rcases h with ⟨b, hb', rfl, rfl⟩ | ⟨h1, -⟩
    · simp only [builtins, List.mem_cons, List.not_mem_nil, or_false] at hb'
      rcases hb' with rfl | rfl | rfl | rfl | rfl | rfl | rfl | rfl | rfl <;>
        simp [getActivationDerivative, ActDeriv.vectorised, Spec.fastDerivative]
    · obtain ⟨b, hb', e⟩ := hb n rfl
      exact absurd e (h1 b hb')

theorem fast_described {loss : Loss} {recs : List ActRecord} {dl : DynLinker} {fs : List (Option String)} {ls : List (Layer F)}
    (hb : ∀ s, some s ∈ fs → ∃ b ∈ builtins, s = b.1)
    (hf : List.Forall₂ (fun name (l : Layer F) => Chosen dl name l.act) fs ls)
    (hd : ∀ (i : ℕ) (l : Layer F), ls[i]? = some l → l.deriv =
      if i + 1 = ls.length ∧ ((loss = .bce ∧ l.act = .sigmoid) ∨ (loss = .cce ∧ l.act = .softmax)) then some .linear
      else getActivationDerivative recs l.act) :
    ls.map (fun l => (l.deriv.getD .linear).vectorised) = Spec.fastDerivatives loss fs := by
  induction hf with
  | nil => rfl
  | @cons f l fs ls h1 hf ih =>
    have hfast := chosen_fast h1 (fun s hs => hb s (by rw [hs]; simp)) recs
    have h0 := hd 0 l rfl
    cases hf with
    | nil =>
      simp only [List.length_cons, List.length_nil, true_and] at h0
      simp only [List.map_cons, List.map_nil, Spec.fastDerivatives, ← hfast.1, h0, List.cons.injEq, and_true]
      by_cases hs : loss = .bce ∧ f = some "sigmoid"
      · rw [if_pos (.inl ⟨hs.1, hfast.2.2 hs.2⟩)]
        simp [hs.1, hs.2, ActDeriv.vectorised]
      · have e1 : (loss == .bce && f == some "sigmoid") = false := by
          rw [Bool.eq_false_iff]
          simpa using hs
        rw [e1]
        by_cases hm : loss = .cce ∧ l.act = .softmax
        · rw [if_pos (.inr hm), hm.2]
          simp [getActivationDerivative, ActDeriv.vectorised]
        · rw [if_neg (by rintro (⟨a, b⟩ | b); exacts [hs ⟨a, hfast.2.1 b⟩, hm b])]
          simp
    | @cons f' l' fs ls h2 hf =>
      rw [if_neg (by simp)] at h0
      rw [List.map_cons, Spec.fastDerivatives, h0, hfast.1, ih (fun s hs => hb s (List.mem_cons_of_mem _ hs)) ?_]
      intro i l hl
      have := hd (i + 1) l (by simpa using hl)
      simpa using this

/-- The program up to the training: the network that is trained. -/
theorem Job.steps_sized (j : Job F) (c : Cfg) (loss : Loss) (ms : List Metric) (nIn nOut : ℕ)
    (hj : j.Fine c loss ms nIn nOut) (recs : List ActRecord) (hrecs : RecsNamed recs) (h : Heap) (hh : h.WF) (rs : RandState F) :
    ∃ (nn : Net F) (k : ℕ), nn.WF c ∧ nn.loss = some loss ∧ HasSizes nn.layers j.sizes ∧
      List.Forall₂ (fun name (l : Layer F) => Chosen j.dl name l.act) j.funcs nn.layers ∧
      (∀ l ∈ nn.layers, l.deriv ≠ none) ∧ nn.nInput = nIn ∧ nn.nOutput = nOut ∧ (∀ l ∈ nn.layers, ∃ b ∈ builtins, l.act = b.2.1) ∧
      nn.described = Spec.describeLayers j.sizes loss j.funcs ∧
      ∃ net h1 nn1 rs1, createNN j.ok j.dl (j.sizes.length - 1) (j.sizes.map Int.ofNat) (some j.funcs) recs h =
          .ok (some net, recs, h1) ∧
        initializeNN j.rand j.fuel recs j.inits (some (net.toNet j.addr j.junk)) rs = .ok (some nn1, rs1) ∧
        nn = setLoss recs nn1 j.loss ∧ k = rs1.k ∧ (net.toNet j.addr j.junk : Net F).Sized ∧
        List.Forall₂ (fun name (l : Layer F) => Chosen j.dl name l.act) j.funcs (net.toNet j.addr j.junk).layers ∧
        HasSizes (net.toNet j.addr j.junk : Net F).layers j.sizes ∧ h1.WF ∧ h1.live.Perm (net.blocks ++ h.live) ∧
        (∀ l ∈ net.layers, (∃ i, l.weight = .blk i) ∧ ∃ i, l.bias = .blk i) ∧ (net.toNet j.addr j.junk : Net F).WF c ∧
        nn1.WF c ∧ List.Forall₂ Layer.Alike nn1.layers nn.layers := by
  obtain ⟨n, hlen⟩ : ∃ n, j.sizes.length = n + 1 := ⟨j.sizes.length - 1, by have := hj.layers; omega⟩
  have hn : 1 ≤ n := by have := hj.layers; omega
  have hzip : ((j.sizes.map Int.ofNat).zip (j.sizes.map Int.ofNat).tail) =
      (j.sizes.zip j.sizes.tail).map fun p => (Int.ofNat p.1, Int.ofNat p.2) := by
    rw [← List.map_tail, List.zip_map]; rfl
  have hpos : ∀ s ∈ j.sizes.map Int.ofNat, 1 ≤ s := by
    intro s hs
    obtain ⟨m, hm, rfl⟩ := List.mem_map.1 hs
    have := hj.pos m hm
    simp only [Int.ofNat_eq_natCast]; omega
  have hargs : CreateArgs n (j.sizes.map Int.ofNat) j.funcs := by
    refine ⟨by simp [hlen], ?_, by have := hj.names; omega, fun s hs => builtin_nameOk (hj.builtin s hs)⟩
    intro l hl
    rw [← List.map_uncurry_zip_eq_zipWith, hzip, List.map_map] at hl
    obtain ⟨p, hp, rfl⟩ := List.mem_map.1 hl
    have := (hj.small p hp).1
    simp only [Function.comp_apply, Function.uncurry_apply_pair, freshLayer, Int.ofNat_eq_natCast]
    exact_mod_cast this
  -- creation
  obtain ⟨net, recs1, h1, hcreate, hhw, hhp, hs, hc, hb⟩ := create_ok (ok := j.ok) (dl := j.dl) (recs := recs) hn hargs hpos hh
    (fun i _ => hj.mem _)
  obtain rfl := createNN_recs hj.builtin hcreate
  obtain ⟨nn0, hnn0⟩ : ∃ nn0, nn0 = net.toNet j.addr j.junk := ⟨_, rfl⟩
  have w0 : nn0.WF c := hnn0 ▸ toNet_wf hn hargs.len hpos hs hb c j.addr hj.addr j.junk
  have hz0 : HasSizes nn0.layers j.sizes := by
    have := congrArg (List.map fun p : ℤ × ℤ => (p.1.toNat, p.2.toNat)) hs
    rw [hzip, List.map_map, List.map_map] at this
    rw [hnn0]
    simpa [HasSizes, CNet.toNet, Function.comp_def] using this
  have hc0 : List.Forall₂ (fun name (l : Layer F) => Chosen j.dl name l.act) j.funcs nn0.layers := by
    rw [hnn0]
    simp only [CNet.toNet, List.forall₂_map_right_iff]
    exact hc
  have hmem0 : ∀ l ∈ nn0.layers, (l.nIn, l.nOut) ∈ j.sizes.zip j.sizes.tail := by
    intro l hl
    rw [← hz0]; exact List.mem_map_of_mem (f := fun l : Layer F => (l.nIn, l.nOut)) hl
  have hlen0 : nn0.layers.length = n := by
    have := congrArg List.length hz0
    rw [List.length_map, List.length_zip, List.length_tail, hlen] at this
    omega
  have hsized : nn0.Sized := fun l hl =>
    ⟨⟨(w0.layer l hl).weight_len, (w0.layer l hl).bias_len⟩, (hj.small _ (hmem0 l hl)).1⟩
  -- initialisation
  obtain ⟨nn1, rs1, hinit⟩ := C54_defined (g := j.rand) (fuel := j.fuel) hrecs (inits := j.inits) hsized
    (fun l hl => (hj.small _ (hmem0 l hl)).2) (fun l hl => ⟨by have := (hj.inits l hl).1; omega, (hj.inits l hl).2⟩) hj.rand rs
  have a1 := alike_initialize hrecs hsized hinit
  have w1 := Alike.wf a1 w0
  -- the loss
  obtain ⟨nn2, hnn2⟩ : ∃ nn2, nn2 = setLoss recs1 nn1 j.loss := ⟨_, rfl⟩
  have a2 : List.Forall₂ Layer.Alike nn1.layers nn2.layers := hnn2 ▸ alike_setLoss hj.lossName
  have w2 := Alike.wf a2 w1
  have hl2 : nn2.loss = some loss := hnn2 ▸ (C11_sets recs1 nn1 j.loss loss hj.lossName).1
  have hshape2 := (Alike.shape a2).trans (Alike.shape a1)
  have hz2 : HasSizes nn2.layers j.sizes := by
    have := congrArg (List.map fun p : ℕ × ℕ × Act => (p.1, p.2.1)) hshape2
    rw [List.map_map, List.map_map] at this
    exact this.trans hz0
  have hact0 : ∀ l ∈ nn0.layers, ∃ b ∈ builtins, l.act = b.2.1 := by
    have key : ∀ (fs : List (Option String)) (ls : List (Layer F)),
        List.Forall₂ (fun name (l : Layer F) => Chosen j.dl name l.act) fs ls →
        (∀ s, some s ∈ fs → ∃ b ∈ builtins, s = b.1) → ∀ l ∈ ls, ∃ b ∈ builtins, l.act = b.2.1 := by
      intro fs ls hf
      induction hf with
      | nil => intro _ l hl; simp at hl
      | cons h1 _ ih =>
        intro hb l hl
        rcases List.mem_cons.1 hl with rfl | hl
        · exact chosen_builtin h1 fun s hs => hb s (by rw [hs]; simp)
        · exact ih (fun s hs => hb s (List.mem_cons_of_mem _ hs)) l hl
    exact key _ _ hc0 hj.builtin
  have hact_of : ∀ (ls ls' : List (Layer F)), List.Forall₂ Layer.Alike ls ls' → (∀ l ∈ ls, ∃ b ∈ builtins, l.act = b.2.1) →
      ∀ l ∈ ls', ∃ b ∈ builtins, l.act = b.2.1 := by
    intro ls ls' ha hb l hl
    obtain ⟨l0, h1, h2, -⟩ := Alike.mem ha l hl
    rw [h2.2.2]; exact hb l0 h1
  have hact1 := hact_of _ _ a1 hact0
  have hact2 := hact_of _ _ a2 hact1
  have hderiv2 : ∀ l ∈ nn2.layers, l.deriv ≠ none := by
    intro l hl
    obtain ⟨i, hi⟩ := List.mem_iff_getElem?.1 hl
    obtain ⟨-, k2, k3⟩ := C11_sets recs1 nn1 j.loss loss hj.lossName
    rw [← hnn2] at k2 k3
    have hlt : i < nn1.layers.length := by
      rw [← k2]
      exact (List.getElem?_eq_some_iff.1 hi).1
    have := k3 i _ (List.getElem?_eq_getElem hlt)
    rw [hi] at this
    simp only [Option.some.injEq] at this
    rw [this]
    simp only
    split_ifs
    · simp
    · exact builtin_deriv recs1 (hact1 _ (List.getElem_mem hlt))
  have hin2 : nn2.nInput = nIn := by
    have := hz2.nInput w2.ne
    rw [hj.first] at this
    exact (Option.some.inj this).symm
  have hout2 : nn2.nOutput = nOut := by
    have := hz2.nOutput w2.ne
    rw [hj.last] at this
    exact (Option.some.inj this).symm
  have hchosen : List.Forall₂ (fun name (l : Layer F) => Chosen j.dl name l.act) j.funcs nn2.layers := chosen_shape hc0 hshape2
  refine ⟨nn2, rs1.k, w2, hl2, hz2, hchosen, hderiv2, hin2, hout2, hact2, ?_, ?_⟩
  · rw [Net.described, Spec.describeLayers, ← hz2,
      ← fast_described (loss := loss) (recs := recs1) (dl := j.dl) hj.builtin hchosen (by
        intro i l hl
        obtain ⟨-, k2, k3⟩ := C11_sets recs1 nn1 j.loss loss hj.lossName
        rw [← hnn2] at k2 k3
        have hlt : i < nn1.layers.length := by
          rw [← k2]
          exact (List.getElem?_eq_some_iff.1 hl).1
        have := k3 i _ (List.getElem?_eq_getElem hlt)
        rw [hl, Option.some.injEq] at this
        subst this
        rw [k2])]
    rw [List.zip_map', List.map_map]
    rfl
  · have e1 : ((j.sizes.length : ℤ) - 1) = (n : ℤ) := by rw [hlen]; push_cast; ring
    exact ⟨net, h1, nn1, rs1, by rw [e1]; exact hcreate, by rw [← hnn0]; exact hinit, hnn2, rfl, hnn0 ▸ hsized, hnn0 ▸ hc0, hnn0 ▸ hz0,
      hhw, hhp, hb, hnn0 ▸ w0, w1, a2⟩

/-- The same without the sizes of the arrays. -/
theorem Job.steps (j : Job F) (c : Cfg) (loss : Loss) (ms : List Metric) (nIn nOut : ℕ)
    (hj : j.Fine c loss ms nIn nOut) (recs : List ActRecord) (hrecs : RecsNamed recs) (h : Heap) (hh : h.WF) (rs : RandState F) :
    ∃ (nn : Net F) (k : ℕ), nn.WF c ∧ nn.loss = some loss ∧ HasSizes nn.layers j.sizes ∧
      List.Forall₂ (fun name (l : Layer F) => Chosen j.dl name l.act) j.funcs nn.layers ∧
      (∀ l ∈ nn.layers, l.deriv ≠ none) ∧ nn.nInput = nIn ∧ nn.nOutput = nOut ∧ (∀ l ∈ nn.layers, ∃ b ∈ builtins, l.act = b.2.1) ∧
      nn.described = Spec.describeLayers j.sizes loss j.funcs ∧
      ∃ net h1 nn1 rs1, createNN j.ok j.dl (j.sizes.length - 1) (j.sizes.map Int.ofNat) (some j.funcs) recs h =
          .ok (some net, recs, h1) ∧
        initializeNN j.rand j.fuel recs j.inits (some (net.toNet j.addr j.junk)) rs = .ok (some nn1, rs1) ∧
        nn = setLoss recs nn1 j.loss ∧ k = rs1.k := by
  obtain ⟨nn, k, h1, h2, h3, h4, h5, h6, h7, h8, h9, net, hp, nn1, rs1, e1, e2, e3, e4, -⟩ := Job.steps_sized j c loss ms nIn nOut hj recs
    hrecs h hh rs
  exact ⟨nn, k, h1, h2, h3, h4, h5, h6, h7, h8, h9, net, hp, nn1, rs1, e1, e2, e3, e4⟩

/-- What a job does before the training, in one equation. -/
theorem Job.prepared (j : Job F) (c : Cfg) (loss : Loss) (ms : List Metric) (nIn nOut : ℕ)
    (hj : j.Fine c loss ms nIn nOut) (recs : List ActRecord) (hrecs : RecsNamed recs) (h : Heap) (hh : h.WF) (rs : RandState F) :
    ∃ (nn : Net F) (k : ℕ), nn.WF c ∧ nn.loss = some loss ∧ HasSizes nn.layers j.sizes ∧
      List.Forall₂ (fun name (l : Layer F) => Chosen j.dl name l.act) j.funcs nn.layers ∧
      (∀ l ∈ nn.layers, l.deriv ≠ none) ∧ nn.nInput = nIn ∧ nn.nOutput = nOut ∧ (∀ l ∈ nn.layers, ∃ b ∈ builtins, l.act = b.2.1) ∧
      nn.described = Spec.describeLayers j.sizes loss j.funcs ∧
      ∀ (env : CustomEnv F) (lib : ZipLib) (bits : FloatBits F) (st : Statics F) (d : Disk),
        j.run env c lib bits recs h rs st d = (do
          let (st, o) ← newAny st nn j.shuffle j.batchsize j.metrics j.vec1 j.vec2 j.settings
          let (_, o, _) ← runEpochs env c j.rand.r j.calls (st, o, k)
          let d ← saveNN lib bits recs d (some o.opt.nn) (some j.file)
          pure (o.opt.nn, d)) := by
  obtain ⟨nn, k, h1, h2, h3, h4, h5, h6, h7, h8, h9, net, hp, nn1, rs1, e1, e2, e3, e4⟩ := Job.steps j c loss ms nIn nOut hj recs hrecs h
    hh rs
  refine ⟨nn, k, h1, h2, h3, h4, h5, h6, h7, h8, h9, fun env lib bits st d => ?_⟩
  simp only [Job.run, e1, bind, Except.bind, e2, ← e3, e4]

/-- **C63** A whole training program: for every job within the limits, in any float arithmetic, it runs to its end without any
fault; the trained network has the requested sizes, activation functions and loss; the file it writes is the only one that
changes; and a later program that loads the file makes the same predictions, bit by bit, as the trained network. -/
theorem C63_program (j : Job F) (env : CustomEnv F) (c : Cfg) (loss : Loss) (ms : List Metric) (nIn nOut : ℕ)
    (hj : j.Good c loss ms nIn nOut) {bits : FloatBits F} (hbits : bits.Lawful) {lib : ZipLib} (hlib : lib.Lawful)
    (recs : List ActRecord) (hrecs : RecsNamed recs) (h : Heap) (hh : h.WF) (rs : RandState F) (st : Statics F)
    (hst : st.nSample = 0) (d : Disk) (hdw : d.writable j.file = true) (hdr : d.readable j.file = true) :
    ∃ nn d', j.run env c lib bits recs h rs st d = .ok (nn, d') ∧
      nn.layers.map (fun l => (l.nIn, l.nOut)) = j.sizes.zip j.sizes.tail ∧
      List.Forall₂ (fun name (l : Layer F) => Chosen j.dl name l.act) j.funcs nn.layers ∧
      nn.loss = some loss ∧ (∀ g, g ≠ j.file → d'.content g = d.content g) ∧
      ∀ (mem ok : ℕ → Bool) (dl : DynLinker) (addr : ℕ → ℕ) (junk : ℕ → ℕ → F) (recs2 : List ActRecord) (h2 : Heap),
        (∀ n, mem n = true) → (∀ n, ok n = true) → h2.WF → (∀ i, addr i % c.alignSize = 0) →
        ∃ nn2 recs' h', loadNN lib bits d' mem ok dl addr junk j.file recs2 h2 = .ok (some nn2, recs', h') ∧
          ∀ (wa wa' : ℕ) (jk jk' : ℕ → F) (input out : View F), wa % c.alignSize = 0 → wa' % c.alignSize = 0 →
            nIn ≤ input.data.length → nOut ≤ out.data.length → AlignedFor c nOut out.addr →
            ∃ y : List F, y.length = out.data.length ∧ predict env c wa jk nn input out = .ok ⟨out.addr, y⟩ ∧
              predict env c wa' jk' nn2 input out = .ok ⟨out.addr, y⟩ := by
  obtain ⟨nn2, rk, w2, hl2, hz2, hc2, hderiv2, hin2, hout2, hact2, hdesc, hjob⟩ := Job.prepared j c loss ms nIn nOut hj.toFine recs
    hrecs h hh rs
  have halign : ∀ ga, ga % c.alignSize = 0 → BackAligned c ga 0 nn2.layers := fun ga hga =>
    (backAligned_iff hga nn2.layers 0 w2.layer).2 (by have := hj.widths; rwa [← hdesc] at this)
  -- training
  obtain ⟨v1, hv1, hv1'⟩ := hj.vec1
  obtain ⟨v2, hv2, hv2'⟩ := hj.vec2
  obtain ⟨st1, o, st2, o2, q2, w, hnew, hrun, hwl, hfinal⟩ := C63_training env c loss nn2 w2 hl2 st hst j.shuffle j.batchsize
    hj.batch j.metrics ms hj.metrics v1 v2 hv1' hv2' j.settings j.rand.r rk j.calls (by
      intro e he
      have := hj.calls e he
      rw [← hz2.nParams, ← hin2, ← hout2] at this
      exact this.ok' w2 hl2 hderiv2 halign)
  obtain ⟨nn, hnn⟩ : ∃ nn, nn = nn2.setParams w := ⟨_, rfl⟩
  have a3 : List.Forall₂ Layer.Alike nn2.layers nn.layers := hnn ▸ alike_withParams (c := c) w2.layer hwl
  have w3 := Alike.wf a3 w2
  have hshape3 := Alike.shape a3
  have hz3 : HasSizes nn.layers j.sizes := by
    have := congrArg (List.map fun p : ℕ × ℕ × Act => (p.1, p.2.1)) hshape3
    rw [List.map_map, List.map_map] at this
    exact this.trans hz2
  have hin3 : nn.nInput = nIn := by
    have := hz3.nInput w3.ne
    rw [hj.first] at this
    exact (Option.some.inj this).symm
  have hout3 : nn.nOutput = nOut := by
    have := hz3.nOutput w3.ne
    rw [hj.last] at this
    exact (Option.some.inj this).symm
  have hlen3 : nn.layers.length ≤ j.sizes.length := by
    have := congrArg List.length hz3
    rw [List.length_map, List.length_zip] at this
    omega
  -- saving
  have hstor : Storable c nn := by
    refine ⟨w3, ?_, ?_, fun l hl => ?_⟩
    rotate_right
    · obtain ⟨l0, h1, h2, -⟩ := Alike.mem a3 l hl
      rw [h2.2.2]; exact hact2 l0 h1
    · intro l hl
      have : (l.nIn, l.nOut) ∈ j.sizes.zip j.sizes.tail := by
        rw [← hz3]; exact List.mem_map_of_mem (f := fun l : Layer F => (l.nIn, l.nOut)) hl
      exact (hj.small _ this).1
    · have := hj.few
      omega
  obtain ⟨d', hsave, hother, hload⟩ := C49_roundtrip hbits hlib hdw hdr hj.file hstor recs
  refine ⟨nn, d', ?_, hz3, ?_, by rw [hnn]; exact hl2, hother, ?_⟩
  · simp only [hjob, bind, Except.bind, hv1, hv2, hnew, hrun, hfinal, ← hnn, hsave, pure,
      Except.pure]
  · exact chosen_shape hc2 hshape3
  · intro mem ok dl addr junk recs2 h2 hm hok hw2' haddr
    obtain ⟨nnL, recs', h', g1, g2, -, g4⟩ := hload mem ok dl addr junk recs2 h2 hm hw2' (fun i _ => hok _)
    refine ⟨nnL, recs', h', g1, ?_⟩
    intro wa wa' jk jk' input out hwa hwa' hi ho hal
    have e := predict_netF env c wa jk nn input out w3 hwa (by omega) (by omega) (by rw [hout3]; exact hal)
    have hsame := C49_predict env c w3 (g4 c haddr) g2 wa wa' jk jk' input out hwa hwa' (by omega) (by omega)
      (by rw [hout3]; exact hal)
    refine ⟨_, ?_, e, hsame.trans e⟩
    obtain ⟨last, hlast, hno, -⟩ := exists_last w3
    rw [List.length_append, netF_length env c out.addr nn.layers _ last hlast w3.layer, List.length_drop]
    omega

/-! ### Other layer widths -/

omit [FloatOps F] in
theorem reduce_error {α : Type} (init : α) (body : ℕ → α → M α) (comb : α → α → α) (e : Fault) :
    ∀ s : Sched, s.iters ≠ [] → (∀ i ∈ s.iters, ∀ x, body i x = .error e) → s.reduce init body comb = .error e
  | .thread [], h, _ => absurd rfl h
  | .thread (i :: is), _, hb => by
    simp only [Sched.reduce, List.foldlM_cons, hb i (by simp [Sched.iters]), bind, Except.bind]
  | .combine a b, h, hb => by
    have hb1 : ∀ i ∈ a.iters, ∀ x, body i x = .error e := fun i hi => hb i (by simp [Sched.iters, hi])
    have hb2 : ∀ i ∈ b.iters, ∀ x, body i x = .error e := fun i hi => hb i (by simp [Sched.iters, hi])
    by_cases ha : a.iters = []
    · have hne : b.iters ≠ [] := by simpa [Sched.iters, ha] using h
      obtain ⟨x, hx⟩ := reduce_nil init body comb a ha
      simp only [Sched.reduce, hx, reduce_error init body comb e b hne hb2, bind, Except.bind]
    · simp only [Sched.reduce, reduce_error init body comb e a ha hb1, bind, Except.bind]
where
  reduce_nil {α : Type} (init : α) (body : ℕ → α → M α) (comb : α → α → α) : ∀ s : Sched, s.iters = [] →
      ∃ x, s.reduce init body comb = .ok x
    | .thread [], _ => ⟨init, rfl⟩
    | .thread (_ :: _), h => by simp [Sched.iters] at h
    | .combine a b, h => by
      simp only [Sched.iters, List.append_eq_nil_iff] at h
      obtain ⟨x, hx⟩ := reduce_nil init body comb a h.1
      obtain ⟨y, hy⟩ := reduce_nil init body comb b h.2
      exact ⟨comb x y, by simp only [Sched.reduce, hx, hy, bind, Except.bind, pure, Except.pure]⟩

/-- The batch gradient of a network with other widths. -/
theorem batchGradient_misaligned (env : CustomEnv F) {c : Cfg} {loss : Loss} {nn0 : Net F} (hw : nn0.WF c) (hl : nn0.loss = some loss)
    (hd : ∀ l ∈ nn0.layers, l.deriv ≠ none) (hno : ∀ ga, ga % c.alignSize = 0 → ¬ BackAligned c ga 0 nn0.layers) {e : EpochCall F}
    {bs m : ℕ} (hbs : 1 ≤ bs) (he : e.Fits c nn0.nInput nn0.nOutput (nParams nn0.layers) bs m) (o : Opt F) (w : List F)
    (hwl : w.length = nParams nn0.layers) (hnn : o.nn = nn0.setParams w) (order : List ℕ)
    (ho : order.Perm (List.range e.n)) (hp : o.pivot = some order) :
    Opt.batchGradient env c (e.mem 0) o e.n e.X e.Y 0 = .error .misaligned := by
  have hk : nParams o.nn.layers = nParams nn0.layers := by rw [hnn, setParams_nParams]
  have hi : o.nn.nInput = nn0.nInput := by rw [hnn]; exact withParams_nInput nn0.layers _ _ _
  have hout : o.nn.nOutput = nn0.nOutput := by rw [hnn]; exact withParams_nOutput nn0.layers _ _ _
  have hwf : o.nn.WF c := by
    rw [hnn]
    refine ⟨?_, withParams_wf c _ _ hwl hw.layer, withParams_chained _ _ hw.chain⟩
    have := hw.ne
    simp only [Net.setParams]
    cases hl : nn0.layers with
    | nil => exact absurd hl this
    | cons a b => simp [withParams]
  have hloss : o.nn.loss = some loss := by rw [hnn]; exact hl
  have hderiv : ∀ l ∈ o.nn.layers, l.deriv ≠ none := by rw [hnn]; exact withParams_deriv _ _ hd
  have hal : ∀ ga, ga % c.alignSize = 0 → ¬ BackAligned c ga 0 o.nn.layers := by
    intro ga hga hba
    refine hno ga hga ?_
    have := withParams_backAligned c ga 0 o.nn.layers (params nn0.layers) hba
    rw [hnn] at this
    simp only [Net.setParams, withParams_withParams] at this
    rwa [withParams_params c nn0.layers hw.layer] at this
  have hm := he.mem 0
  have hcov : (e.mem 0).sched.iters.Perm (List.range (batchLen e.n bs 0)) := hm.covers
  have hpos := batchLen_pos e.n bs 0 (by have := he.pos; omega) hbs
  have hle := batchLen_le e.n bs 0
  have hred := reduce_error (List.replicate (nParamPadding c (nParams nn0.layers)) (zero : F))
    (batchBody env c (e.mem 0).thread o.nn o.pivot e.X e.Y 0) (List.zipWith add) .misaligned (e.mem 0).sched
    (by intro h0; rw [h0] at hcov; have := hcov.length_eq; simp at this; omega) (by
      intro b hbm acc
      have hb' : b < batchLen e.n bs 0 := List.mem_range.1 (hcov.mem_iff.1 hbm)
      have hlen : order.length = e.n := by simpa using ho.length_eq
      have hidx : 0 + b < order.length := by omega
      have hpn : order[0 + b] < e.n := List.mem_range.1 (ho.mem_iff.1 (List.getElem_mem hidx))
      have hpe : order[0 + b]? = some order[0 + b] := List.getElem?_eq_getElem hidx
      generalize order[0 + b] = p at hpn hpe
      have e1 : (p + 1) * nn0.nInput ≤ e.n * nn0.nInput := Nat.mul_le_mul_right _ hpn
      have e2 : (p + 1) * nn0.nOutput ≤ e.n * nn0.nOutput := Nat.mul_le_mul_right _ hpn
      rw [Nat.succ_mul] at e1 e2
      have h1 := he.xlen
      have h2 := he.ylen
      have h3 := he.xfit
      have h4 := he.yfit
      have p1 := nInput_pos hw
      have p2 := nOutput_pos hw
      simp only [batchBody, readPivot, hp, hpe, bind, Except.bind, hi, hout]
      rw [Nat.mod_eq_of_lt (by omega), Nat.mod_eq_of_lt (by omega),
        C09_misaligned env c _ _ o.nn _ _ _ loss hwf (hm.work b) (hm.grad b) hloss hderiv (by simp [View.offset]; omega)
          (by simp [View.offset]; omega) (by rw [stackArray_length']) (hal _ (hm.grad b))])
  have hroom := hm.room
  have hms : ∃ g : View F, memsetZero (stackArray (e.mem 0).gradAddr (nParams nn0.layers + (e.mem 0).slack) (e.mem 0).gradJunk)
      (nParams nn0.layers) = .ok g ∧ g.data.length = nParams nn0.layers + (e.mem 0).slack := by
    refine ⟨_, by rw [memsetZero, if_pos (by rw [stackArray_length']; omega)], ?_⟩
    simp [stackArray]
  obtain ⟨g, hg, hgl⟩ := hms
  have hnlt := he.nlt
  simp only [Opt.batchGradient, calcBatchGradient, hk, hg, hred, bind, Except.bind]
  rw [if_pos hnlt, if_pos (by rw [hgl]; exact hroom)]

/-- One call. -/
theorem epochCall_misaligned (env : CustomEnv F) {c : Cfg} {loss : Loss} {nn0 : Net F} (hw : nn0.WF c) (hl : nn0.loss = some loss)
    (hd : ∀ l ∈ nn0.layers, l.deriv ≠ none) (hno : ∀ ga, ga % c.alignSize = 0 → ¬ BackAligned c ga 0 nn0.layers) {e : EpochCall F}
    {bs m : ℕ} (hbs : 1 ≤ bs) (he : e.Fits c nn0.nInput nn0.nOutput (nParams nn0.layers) bs m) (r : ℕ → ℕ) (q : ℕ) (st : Statics F)
    (s : AnyOpt F) (hs : s.Ready c nn0 bs) (hp : PivotInv st.nSample s.opt.pivot) :
    e.run env c r q st s = .error .misaligned := by
  obtain ⟨order, q', h1, h2⟩ := C25_order r e.n st.nSample q s.opt.shuffle s.opt.pivot he.pos (by have := he.nlt; omega) hp
  have hkey : ∀ (st : Statics F) (s : AnyOpt F), s.Ready c nn0 bs → s.opt.pivot = some order →
      (anyKind env c e.mem e.fuel e.n e.X e.Y).epoch st s = .error .misaligned := by
    intro st s hs hp
    obtain ⟨w, hwl, hnn⟩ := hs.nn
    have hv := hs.vecs
    have hn0 : 0 < e.n := he.pos
    obtain ⟨fuel, hfuel⟩ : ∃ fuel, e.fuel = fuel + 1 := by
      have := he.fuel
      have : 1 ≤ (e.n + bs - 1) / bs := (Nat.one_le_div_iff (by omega)).2 (by omega)
      exact ⟨e.fuel - 1, by omega⟩
    have hbad := fun (o : Opt F) w hwl hnn hp => batchGradient_misaligned env hw hl hd hno hbs he o w hwl hnn order h2 hp
    cases s with
    | sgd s =>
      have hm := momentum_prefix c nn0 s.velocity s.momentum s.nesterov w _ hw hwl (VecOK.work hv)
      have hk : nParams s.opt.nn.layers = nParams nn0.layers := by
        rw [show s.opt.nn = _ from hnn, setParams_nParams]
      have hvl : s.velocity.data.length = nParams nn0.layers := hv.2
      simp only [anyKind, sgdKind, sgdEpoch, hfuel, trainLoop, hn0, if_true, sgdStep, hk]
      rw [show s.opt.nn = _ from hnn, hm]
      simp only [bind, Except.bind]
      generalize hw1 : (if (lt zero s.momentum && s.nesterov) = true then List.zipWith add w (s.velocity.data.map fun x => mul x s.momentum)
        else w) = w1
      have hw1l : w1.length = nParams nn0.layers := by rw [← hw1]; split <;> simp [hwl, hvl]
      have hbad' := hbad { s.opt with nn := nn0.setParams w1 } w1 hw1l rfl hp
      simp only [hbad']
    | adagrad s =>
      simp only [anyKind, adagradKind, adagradEpoch, hfuel, trainLoop, hn0, if_true, adagradStep]
      rw [hbad s.opt w hwl hnn hp]
      rfl
    | rmsprop s =>
      have hm := momentum_prefix c nn0 s.velocity s.momentum s.nesterov w _ hw hwl (VecOK.work hv.1)
      have hk : nParams s.opt.nn.layers = nParams nn0.layers := by
        rw [show s.opt.nn = _ from hnn, setParams_nParams]
      have hvl : s.velocity.data.length = nParams nn0.layers := hv.1.2
      simp only [anyKind, rmspropKind, rmspropEpoch, hfuel, trainLoop, hn0, if_true, rmspropStep, hk]
      rw [show s.opt.nn = _ from hnn, hm]
      simp only [bind, Except.bind]
      generalize hw1 : (if (lt zero s.momentum && s.nesterov) = true then List.zipWith add w (s.velocity.data.map fun x => mul x s.momentum)
        else w) = w1
      have hw1l : w1.length = nParams nn0.layers := by rw [← hw1]; split <;> simp [hwl, hvl]
      have hbad' := hbad { s.opt with nn := nn0.setParams w1 } w1 hw1l rfl hp
      simp only [hbad']
    | adam s =>
      simp only [anyKind, adamKind, adamEpoch, hfuel, trainLoop, hn0, if_true, adamStep]
      rw [hbad s.opt w hwl hnn hp]
      rfl
  have hs' := hkey { st with nSample := e.n } (s.setPivot (some order)) (hs.setPivot _) (by rw [AnyOpt.setPivot_opt])
  simp only [EpochCall.run, runEpoch]
  rw [show (anyKind env c e.mem e.fuel e.n e.X e.Y).opt = AnyOpt.opt from rfl, h1]
  simp only [bind, Except.bind]
  rw [show (anyKind env c e.mem e.fuel e.n e.X e.Y).setPivot s (some order) = s.setPivot (some order) from rfl, hs']

/-- **C63** Which programs run to their end, exactly: a job within the other limits that trains at least once succeeds if and only if
its layer sizes and activation functions suit the vector instructions of the build; otherwise it makes a misaligned vector access in
the first epoch, whatever the data. -/
theorem C63_exact (j : Job F) (env : CustomEnv F) (c : Cfg) (loss : Loss) (ms : List Metric) (nIn nOut : ℕ)
    (hj : j.Fine c loss ms nIn nOut) (hcalls : j.calls ≠ []) {bits : FloatBits F} (hbits : bits.Lawful) {lib : ZipLib}
    (hlib : lib.Lawful) (recs : List ActRecord) (hrecs : RecsNamed recs) (h : Heap) (hh : h.WF) (rs : RandState F) (st : Statics F)
    (hst : st.nSample = 0) (d : Disk) (hdw : d.writable j.file = true) (hdr : d.readable j.file = true) :
    ((∃ r, j.run env c lib bits recs h rs st d = .ok r) ↔
      Spec.VectorWidths c true 0 (Spec.describeLayers j.sizes loss j.funcs)) ∧
    (¬ Spec.VectorWidths c true 0 (Spec.describeLayers j.sizes loss j.funcs) →
      j.run env c lib bits recs h rs st d = .error .misaligned) := by
  have hno : ¬ Spec.VectorWidths c true 0 (Spec.describeLayers j.sizes loss j.funcs) →
      j.run env c lib bits recs h rs st d = .error .misaligned := by
    intro hv
    obtain ⟨nn, rk, w2, hl2, hz2, -, hderiv2, hin2, hout2, -, hdesc, hjob⟩ := Job.prepared j c loss ms nIn nOut hj recs
      hrecs h hh rs
    have hal : ∀ ga, ga % c.alignSize = 0 → ¬ BackAligned c ga 0 nn.layers := fun ga hga hb =>
      hv (by have := (backAligned_iff hga nn.layers 0 w2.layer).1 hb; rwa [← hdesc])
    obtain ⟨v1, hv1, hv1'⟩ := hj.vec1
    obtain ⟨v2, hv2, hv2'⟩ := hj.vec2
    have hb := hj.batch
    obtain ⟨st1, o, rest, h1, h2, -, h3, -⟩ := newAny_ok c loss nn w2 hl2 st hst j.shuffle j.batchsize hb j.metrics ms hj.metrics v1
      v2 hv1' hv2' j.settings
    obtain ⟨e, es, hes⟩ : ∃ e es, j.calls = e :: es := List.exists_cons_of_ne_nil hcalls
    have he := hj.calls e (by rw [hes]; simp)
    rw [← hz2.nParams, ← hin2, ← hout2] at he
    have hrun := epochCall_misaligned env w2 hl2 hderiv2 hal (by omega) he j.rand.r rk st1 o h2 h3
    simp only [hjob, hv1, hv2, h1, hes, runEpochs, hrun, bind, Except.bind]
  refine ⟨⟨fun ⟨r, hr⟩ => ?_, fun hv => ?_⟩, hno⟩
  · by_contra hv
    rw [hno hv] at hr
    simp at hr
  · obtain ⟨nn, d', h1, -⟩ := C63_program j env c loss ms nIn nOut ⟨hj, hv⟩ hbits hlib recs hrecs h hh rs st hst d hdw hdr
    exact ⟨_, h1⟩

end
/-! ### Example: a program in IEEE arithmetic -/

/-- Three samples with two inputs and one output, a validation set of one. -/
def exEpoch [FloatOps F] (c : Cfg) (jk : ℕ → F) : EpochCall F :=
  ⟨3, ⟨20, [one, lit 2 1, zero, zero, lit (-1) 3, one]⟩, ⟨52, [one, zero, one]⟩, 1, some (⟨120, [one, one]⟩, ⟨152, [zero]⟩),
    ⟨200, List.replicate 5 zero⟩,
    fun i => ⟨.combine (.thread ((List.range (batchLen 3 2 i)).reverse)) (.thread []), fun _ => ⟨4096, jk, 8192, jk, 12⟩, 16384, jk,
      if c.avx then 16 else 0, 32768, jk⟩, 2,
    fun _ => ⟨4096, jk, 8192, jk⟩, fun _ => ⟨4096, jk, 8192, jk⟩, .thread [0, 1, 2], .thread [0]⟩

/-- A network 2-3-1, Adam, ten epochs with shuffling and two metrics. -/
def exJob [FloatOps F] (c : Cfg) (jk : ℕ → F) (dl : DynLinker) : Job F where
  sizes := [2, 3, 1]
  funcs := [some "tanh", some "sigmoid"]
  inits := some [some "kaiming", some "xavier"]
  loss := "binary_crossentropy"
  shuffle := true
  batchsize := 2
  metrics := some [some .mse, some .mae, none]
  settings := .adam (lit 1 1000) (lit 9 10) (lit 999 1000) zero
  calls := List.replicate 10 (exEpoch c jk)
  file := "net.npz"
  ok _ := true
  addr i := 64 * i
  junk _ := jk
  vec1 := some 640
  vec2 := some 1280
  dl := dl
  rand := B32.exRand31
  fuel := 1

theorem exEpoch_fits [FloatOps F] (c : Cfg) (jk : ℕ → F) (k : ℕ) : (exEpoch c jk).Fits c 2 1 k 2 2 where
  pos := by simp [exEpoch]
  nlt := by simp [exEpoch]
  xlen := by simp [exEpoch]
  ylen := by simp [exEpoch]
  xfit := by simp [exEpoch]
  yfit := by simp [exEpoch]
  mem i := by
    refine ⟨?_, fun _ => align64 c 4096 rfl, fun _ => align64 c 8192 rfl, align64 c 16384 rfl, align64 c 32768 rfl, ?_⟩
    · simp only [Sched.Covers, exEpoch, Sched.iters, List.append_nil]
      exact List.reverse_perm _
    · simp only [exEpoch, nParamPadding]
      split <;> omega
  fuel := by simp [exEpoch]
  evalMem _ := ⟨align64 c 4096 rfl, align64 c 8192 rfl⟩
  evalMemV _ := ⟨align64 c 4096 rfl, align64 c 8192 rfl⟩
  sched := List.Perm.refl _
  room := by simp [exEpoch]
  valid vX vY h := by
    simp only [exEpoch, Option.some.injEq, Prod.mk.injEq] at h
    obtain ⟨rfl, rfl⟩ := h
    exact ⟨List.Perm.refl _, by simp [exEpoch], by simp [exEpoch]⟩

theorem exJob_good (L : B32.Libm) (c : Cfg) (jk : ℕ → B32) (dl : DynLinker) :
    @Job.Good B32 (B32.ops L) (@exJob B32 (B32.ops L) c jk dl) c .bce [.mse, .mae] 2 1 := by
  let _ := B32.ops L
  refine ⟨⟨by simp [exJob], by simp [exJob], by simp [exJob], rfl, rfl, by simp [exJob], rfl, ?_, ?_, show getLossFunc "binary_crossentropy" = some Loss.bce by decide, by simp [exJob], ?_,
    fun _ => rfl, fun i => align64 c _ (by simp [exJob]), ⟨640, rfl, align64 c _ rfl⟩, ⟨1280, rfl, align64 c _ rfl⟩, B32.exRand31_accepting L, ?_, show (str "net.npz").length ≤ 128 by decide⟩, by
      simp [exJob, Spec.describeLayers, Spec.fastDerivatives, Spec.fastDerivative, Spec.VectorWidths]⟩
  · intro s hs
    simp only [exJob, List.mem_cons, Option.some.injEq, List.not_mem_nil, or_false] at hs
    rcases hs with rfl | rfl <;> simp [builtins]
  · intro l hl
    simp only [exJob, Option.some.injEq] at hl
    subst hl
    simp [exJob]
  · exact ⟨[], rfl⟩
  · intro e he
    rw [List.eq_of_mem_replicate he]
    exact exEpoch_fits c jk _

/-- The bytes of the floats. -/
def b32Bits : FloatBits B32 := ⟨fun a => exBits.toBytes a.bits, fun b => ⟨exBits.ofBytes b⟩⟩

theorem b32Bits_lawful : b32Bits.Lawful where
  len _ := rfl
  left_inv a := by
    have := exBits_lawful.left_inv a.bits
    exact congrArg B32.mk this

/-- In every build the program trains the network, saves it, and the saved network computes the same bits. -/
example (L : B32.Libm) (env : CustomEnv B32) (c : Cfg) (jk : ℕ → B32) (dl : DynLinker) : ∃ lib nn d',
    @Job.run B32 (B32.ops L) (@exJob B32 (B32.ops L) c jk dl) env c lib b32Bits [] ⟨0, []⟩ ⟨0, B32.qnan, B32.qnan, false⟩
      (@Statics.initial B32 (B32.ops L)) ⟨fun _ => none, fun _ => true, fun _ => true⟩ = .ok (nn, d') ∧
    nn.layers.map (fun l => (l.nIn, l.nOut)) = [(2, 3), (3, 1)] := by
  let _ := B32.ops L
  obtain ⟨lib, hlib⟩ := exists_lawful
  obtain ⟨nn, d', h1, h2, -⟩ := C63_program (exJob c jk dl) env c .bce [.mse, .mae] 2 1 (exJob_good L c jk dl) b32Bits_lawful hlib []
    (by intro r hr; cases hr) ⟨0, []⟩ ⟨by simp, by simp⟩ ⟨0, B32.qnan, B32.qnan, false⟩ Statics.initial rfl
    ⟨fun _ => none, fun _ => true, fun _ => true⟩ rfl rfl
  exact ⟨lib, nn, d', h1, h2⟩

/-- The same program with the layer sizes 2, 3, 9, 1. -/
def wideJob [FloatOps F] (c : Cfg) (jk : ℕ → F) (dl : DynLinker) : Job F :=
  { exJob c jk dl with sizes := [2, 3, 9, 1], funcs := [some "tanh", some "tanh", some "sigmoid"]
                       inits := some [some "kaiming", some "xavier", some "xavier"] }

/-- In every build with AVX it faults, whatever is in memory. -/
example (L : B32.Libm) (env : CustomEnv B32) (c : Cfg) (hx : c.avx = true) (jk : ℕ → B32) (dl : DynLinker) : ∃ lib,
    @Job.run B32 (B32.ops L) (@wideJob B32 (B32.ops L) c jk dl) env c lib b32Bits [] ⟨0, []⟩ ⟨0, B32.qnan, B32.qnan, false⟩
      (@Statics.initial B32 (B32.ops L)) ⟨fun _ => none, fun _ => true, fun _ => true⟩ = .error .misaligned := by
  let _ := B32.ops L
  obtain ⟨lib, hlib⟩ := exists_lawful
  have hg := exJob_good L c jk dl
  have hf : (wideJob c jk dl).Fine c .bce [.mse, .mae] 2 1 := by
    refine ⟨by simp [wideJob], by simp [wideJob], by simp [wideJob], rfl, rfl, by simp [wideJob], rfl, ?_, ?_, hg.lossName, hg.batch,
      hg.metrics, hg.mem, hg.addr, hg.vec1, hg.vec2, hg.rand, ?_, hg.file⟩
    · intro s hs
      simp only [wideJob, List.mem_cons, Option.some.injEq, List.not_mem_nil, or_false] at hs
      rcases hs with rfl | rfl | rfl <;> simp [builtins]
    · intro l hl
      simp only [wideJob, Option.some.injEq] at hl
      subst hl
      simp [wideJob]
    · intro e he
      rw [List.eq_of_mem_replicate he]
      exact exEpoch_fits c jk _
  exact ⟨lib, (C63_exact (wideJob c jk dl) env c .bce [.mse, .mae] 2 1 hf (by simp [wideJob, exJob]) b32Bits_lawful hlib []
    (by intro r hr; cases hr) ⟨0, []⟩ ⟨by simp, by simp⟩ ⟨0, B32.qnan, B32.qnan, false⟩ Statics.initial rfl
    ⟨fun _ => none, fun _ => true, fun _ => true⟩ rfl rfl).2 (by
      simp [wideJob, Spec.describeLayers, Spec.fastDerivatives, Spec.fastDerivative, Spec.VectorWidths, hx])⟩

/-- Training with any of the optimizers, in exact arithmetic. -/
example (c : Cfg) (jk : ℕ → ℝ) (settings : Settings ℝ) (r : ℕ → ℕ) (q : ℕ) : ∃ st s st' s' q' w,
    newAny Statics.initial exTrain true 2 (some [some .mse, some .mae, none]) (some 640) (some 1280) settings = .ok (st, s) ∧
    runEpochs (noCustom ℝ) c r (List.replicate 10 (exEpoch c jk)) (st, s, q) = .ok (st', s', q') ∧
    w.length = nParams exTrain.layers ∧ s'.opt.nn = exTrain.setParams w := by
  have hT := exTrainable c
  refine C63_training (noCustom ℝ) c .mse exTrain hT.wf hT.loss_eq Statics.initial rfl true 2 (by norm_num) (some [some .mse, some .mae, none])
    [.mse, .mae] ⟨[], rfl⟩ 640 1280
    (align64 c _ rfl) (align64 c _ rfl) settings r q _ ?_
  intro e he
  rw [List.eq_of_mem_replicate he]
  refine EpochCall.Fits.ok ?_ hT.wf hT.loss_eq hT.deriv (.inr (.inr ?_))
  · rw [exTrain_eq]
    have := exEpoch_fits c jk 13
    simpa [Net.nInput, Net.nOutput, nParams] using this
  · rw [exTrain_eq]; simp

end NN
