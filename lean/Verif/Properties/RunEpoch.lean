import Verif.Proofs.OptRun
import Verif.Proofs.OptRules
import Verif.Properties.Training
import Verif.Properties.Names
/-
C25, C31-C38 for `optimizer_run_epoch`: whole training histories, from the construction of the optimizer.

`SampleGrads env c n X Y nn g`: `g w p` is what `neuralnet_backpropagation` delivers for sample `p` when the parameters
are `w` (C07: the gradient of the loss).  `Call.OK`: the hypotheses on a call.  The `Spec` steps are in
`Verif/Spec/Optimizer.lean`; `historyGrads` lists the gradient functions of all batches.
-/
set_option linter.unusedSimpArgs false

namespace NN
open FloatOps Spec

/-- The optimizer's metrics array is `ms`. -/
def MetricsAre (ms : List Metric) (rest : List (Option Metric)) (ref : MetricsRef) (m : Option Metric) : Prop :=
  (match ref with
  | .own l => l
  | .static => [m, none]) = ms.map some ++ none :: rest

theorem MetricsAre.array {ms : List Metric} {rest : List (Option Metric)} {ref : MetricsRef} {st : Statics ℝ}
    (h : MetricsAre ms rest ref st.metric) : metricsArray st ref = ms.map some ++ none :: rest := by
  cases ref <;> exact h

/-! ### Histories -/

section
variable (env : CustomEnv ℝ) (c : Cfg) (loss : Loss) (nn : Net ℝ) (hw : nn.WF c) (ms : List Metric)
  (rest : List (Option Metric)) (r : ℕ → ℕ) (g : Call → List ℝ → ℕ → List ℝ)

theorem newOpt_eq {st0 st : Statics ℝ} {shuffle : Bool} {bs : ℤ} {metrics : Option (List (Option Metric))} {o : Opt ℝ}
    (h : newOpt st0 nn shuffle bs metrics = .ok (st, o)) :
    1 ≤ bs.toNat ∧ o.nn = nn ∧ o.batchsize = bs.toNat ∧ o.pivot = none ∧ st.nSample = st0.nSample ∧
    st.beta1 = st0.beta1 ∧ st.beta2 = st0.beta2 := by
  unfold newOpt at h
  split at h
  · simp at h
  · split at h
    · simp only [pure, Except.pure, Except.ok.injEq, Prod.mk.injEq] at h
      obtain ⟨rfl, rfl⟩ := h
      refine ⟨by omega, rfl, rfl, rfl, rfl, rfl, rfl⟩
    · simp at h

include hw

/-- **C32** (and C31, C25): a new SGD optimizer in a process without other optimizers.  After any sequence of valid calls
of `optimizer_run_epoch` — with shuffling or not, for all random numbers, schedules, and changing data sets — the
parameters, the velocity, and the learning rate are those of the textbook recurrence run over the batches, each epoch using
every sample once. -/
theorem C32_history (st0 : Statics ℝ) (h0 : st0.nSample = 0) (shuffle : Bool) (bs : ℤ)
    (metrics : Option (List (Option Metric))) (lr d m : ℝ) (nest : Bool) (addr : ℕ) (ha : addr % c.alignSize = 0)
    (st : Statics ℝ) (s : Sgd ℝ)
    (hnew : newSgd st0 nn shuffle bs metrics lr d m nest (some addr) = .ok (st, s))
    (hms : MetricsAre ms rest s.opt.metrics st.metric) (calls : List Call)
    (hok : ∀ k ∈ calls, k.OK c loss nn bs.toNat ms)
    (hg : ∀ k ∈ calls, SampleGrads env c k.n k.X k.Y nn (g k))
    (ht : totalBatches bs.toNat calls ≤ 2 ^ 32 - 1) (q : ℕ) :
    ∃ orders st' s' q', List.Forall₂ (fun o (k : Call) => o.Perm (List.range k.n)) orders calls ∧
      runCalls (fun k => sgdKind env c k.mem k.fuel k.n k.X k.Y) env c r calls (st, s, q) = .ok (st', s', q') ∧
      SgdIn c nn bs.toNat m d nest st' s'
        ((historyGrads (nParams nn.layers) bs.toNat g orders calls).foldl (Spec.sgdStep m d nest)
          ⟨params nn.layers, List.replicate (nParams nn.layers) 0, lr, 0⟩) ∧
      MetricsAre ms rest s'.opt.metrics st'.metric := by
  simp only [newSgd, zeroVec, bind, Except.bind, pure, Except.pure] at hnew
  cases ho : newOpt st0 nn shuffle bs metrics with
  | error e => simp [ho] at hnew
  | ok p =>
    obtain ⟨st1, o⟩ := p
    simp only [ho, Except.ok.injEq, Prod.mk.injEq] at hnew
    obtain ⟨rfl, rfl⟩ := hnew
    obtain ⟨hbs, e1, e2, e3, e4, -, -⟩ := newOpt_eq nn ho
    have hin : SgdIn c nn bs.toNat m d nest st1
        ⟨o, lr, d, m, nest, 0, ⟨addr, List.replicate (nParams nn.layers) zero⟩⟩
        ⟨params nn.layers, List.replicate (nParams nn.layers) 0, lr, 0⟩ :=
      ⟨⟨by rw [e1, setParams_self c nn hw], params_length c _ hw.layer, e2⟩, ⟨ha, by simp, by simp⟩, rfl, rfl, rfl,
        rfl, rfl⟩
    have := runCalls_eq (fun k => sgdKind env c k.mem k.fuel k.n k.X k.Y) (fun s : Sgd ℝ => s.opt) env c nn bs.toNat r
      (SgdIn c nn bs.toNat m d nest) (fun σ b => σ.t + b ≤ 2 ^ 32 - 1) (Spec.sgdStep m d nest) g
      (fun k => k.OK c loss nn bs.toNat ms ∧ SampleGrads env c k.n k.X k.Y nn (g k)) (MetricsAre ms rest)
      (by
        intro k st s σ q b hk hin hb hms hp
        obtain ⟨o, st', s', q', k1, k2, k3, k4, k5, k6, k7⟩ := runEpoch_sgd env c loss nn bs.toNat hbs ms rest k hk.1 r q
          (g k) hk.2 m d nest st s σ hin hp hms.array (by omega)
        refine ⟨o, st', s', q', _, k1, k2, k3, ?_, k4, k5, k6, k7⟩
        have hcount : ((epochGrads (nParams nn.layers) bs.toNat (g k) o).foldl (Spec.sgdStep m d nest) σ).t =
            σ.t + (k.n + bs.toNat - 1) / bs.toNat := by
          have : ∀ (Gs : List (List ℝ → List ℝ)) (σ : SgdState),
              (Gs.foldl (Spec.sgdStep m d nest) σ).t = σ.t + Gs.length := by
            intro Gs
            induction Gs with
            | nil => intro σ; rfl
            | cons G Gs ih =>
              intro σ
              rw [List.foldl_cons, ih]
              have : (Spec.sgdStep m d nest σ G).t = σ.t + 1 := by simp only [Spec.sgdStep]; split <;> rfl
              rw [this, List.length_cons]; omega
          rw [this, epochGrads, List.length_map, batches_length, k1.length_eq, List.length_range]
        rw [hcount]; omega)
      calls st1 _ _ q (fun k hk => ⟨hok k hk, hg k hk⟩) hin (by simpa using ht) hms (.inl ⟨by rw [e4, h0], e3⟩)
    obtain ⟨orders, st', s', q', k1, k2, k3, -, k5, k6⟩ := this
    exact ⟨orders, st', s', q', k1, k2, k3, by rw [k5.2.1, k6]; exact hms⟩

/-- **C36** (and C25): a new Adagrad optimizer, any sequence of valid calls. -/
theorem C36_adagrad_history (st0 : Statics ℝ) (h0 : st0.nSample = 0) (shuffle : Bool) (bs : ℤ)
    (metrics : Option (List (Option Metric))) (lr d : ℝ) (addr : ℕ) (ha : addr % c.alignSize = 0)
    (st : Statics ℝ) (s : Adagrad ℝ)
    (hnew : newAdagrad st0 nn shuffle bs metrics lr d (some addr) = .ok (st, s))
    (hms : MetricsAre ms rest s.opt.metrics st.metric) (calls : List Call)
    (hok : ∀ k ∈ calls, k.OK c loss nn bs.toNat ms)
    (hg : ∀ k ∈ calls, SampleGrads env c k.n k.X k.Y nn (g k))
    (ht : totalBatches bs.toNat calls ≤ 2 ^ 32 - 1) (q : ℕ) :
    ∃ orders st' s' q', List.Forall₂ (fun o (k : Call) => o.Perm (List.range k.n)) orders calls ∧
      runCalls (fun k => adagradKind env c k.mem k.fuel k.n k.X k.Y) env c r calls (st, s, q) = .ok (st', s', q') ∧
      AdagradIn c nn bs.toNat d st' s'
        ((historyGrads (nParams nn.layers) bs.toNat g orders calls).foldl (Spec.adagradStep d)
          ⟨params nn.layers, List.replicate (nParams nn.layers) 0, lr, 0⟩) ∧
      MetricsAre ms rest s'.opt.metrics st'.metric := by
  simp only [newAdagrad, zeroVec, bind, Except.bind, pure, Except.pure] at hnew
  cases ho : newOpt st0 nn shuffle bs metrics with
  | error e => simp [ho] at hnew
  | ok p =>
    obtain ⟨st1, o⟩ := p
    simp only [ho, Except.ok.injEq, Prod.mk.injEq] at hnew
    obtain ⟨rfl, rfl⟩ := hnew
    obtain ⟨hbs, e1, e2, e3, e4, -, -⟩ := newOpt_eq nn ho
    have hin : AdagradIn c nn bs.toNat d st1
        ⟨o, lr, d, 0, ⟨addr, List.replicate (nParams nn.layers) zero⟩⟩
        ⟨params nn.layers, List.replicate (nParams nn.layers) 0, lr, 0⟩ :=
      ⟨⟨by rw [e1, setParams_self c nn hw], params_length c _ hw.layer, e2⟩, ⟨ha, by simp, by simp⟩, rfl, rfl, rfl⟩
    have := runCalls_eq (fun k => adagradKind env c k.mem k.fuel k.n k.X k.Y) (fun s : Adagrad ℝ => s.opt) env c nn
      bs.toNat r
      (AdagradIn c nn bs.toNat d) (fun σ b => σ.t + b ≤ 2 ^ 32 - 1) (Spec.adagradStep d) g
      (fun k => k.OK c loss nn bs.toNat ms ∧ SampleGrads env c k.n k.X k.Y nn (g k)) (MetricsAre ms rest)
      (by
        intro k st s σ q b hk hin hb hms hp
        obtain ⟨o, st', s', q', k1, k2, k3, k4, k5, k6, k7⟩ := runEpoch_adagrad env c loss nn bs.toNat hbs ms rest k
          hk.1 r q (g k) hk.2 d st s σ hin hp hms.array (by omega)
        refine ⟨o, st', s', q', _, k1, k2, k3, ?_, k4, k5, k6, k7⟩
        have hcount : ((epochGrads (nParams nn.layers) bs.toNat (g k) o).foldl (Spec.adagradStep d) σ).t =
            σ.t + (k.n + bs.toNat - 1) / bs.toNat := by
          have : ∀ (Gs : List (List ℝ → List ℝ)) (σ : AdagradState),
              (Gs.foldl (Spec.adagradStep d) σ).t = σ.t + Gs.length := by
            intro Gs
            induction Gs with
            | nil => intro σ; rfl
            | cons G Gs ih =>
              intro σ
              rw [List.foldl_cons, ih]
              have : (Spec.adagradStep d σ G).t = σ.t + 1 := rfl
              rw [this, List.length_cons]; omega
          rw [this, epochGrads, List.length_map, batches_length, k1.length_eq, List.length_range]
        rw [hcount]; omega)
      calls st1 _ _ q (fun k hk => ⟨hok k hk, hg k hk⟩) hin (by simpa using ht) hms (.inl ⟨by rw [e4, h0], e3⟩)
    obtain ⟨orders, st', s', q', k1, k2, k3, -, k5, k6⟩ := this
    exact ⟨orders, st', s', q', k1, k2, k3, by rw [k5.2.1, k6]; exact hms⟩

/-- **C36** (and C25): a new RMSprop optimizer, any sequence of valid calls. -/
theorem C36_rmsprop_history (st0 : Statics ℝ) (h0 : st0.nSample = 0) (shuffle : Bool) (bs : ℤ)
    (metrics : Option (List (Option Metric))) (lr d rho m : ℝ) (nest : Bool) (addr addr' : ℕ)
    (ha : addr % c.alignSize = 0) (ha' : addr' % c.alignSize = 0)
    (st : Statics ℝ) (s : RmsProp ℝ)
    (hnew : newRmsProp st0 nn shuffle bs metrics lr d rho m nest (some addr) (some addr') = .ok (st, s))
    (hms : MetricsAre ms rest s.opt.metrics st.metric) (calls : List Call)
    (hok : ∀ k ∈ calls, k.OK c loss nn bs.toNat ms)
    (hg : ∀ k ∈ calls, SampleGrads env c k.n k.X k.Y nn (g k))
    (ht : totalBatches bs.toNat calls ≤ 2 ^ 32 - 1) (q : ℕ) :
    ∃ orders st' s' q', List.Forall₂ (fun o (k : Call) => o.Perm (List.range k.n)) orders calls ∧
      runCalls (fun k => rmspropKind env c k.mem k.fuel k.n k.X k.Y) env c r calls (st, s, q) = .ok (st', s', q') ∧
      RmsPropIn c nn bs.toNat rho m d nest st' s'
        ((historyGrads (nParams nn.layers) bs.toNat g orders calls).foldl (Spec.rmspropStep rho m d nest)
          ⟨params nn.layers, List.replicate (nParams nn.layers) 0, List.replicate (nParams nn.layers) 0, lr, 0⟩) ∧
      MetricsAre ms rest s'.opt.metrics st'.metric := by
  simp only [newRmsProp, zeroVec, bind, Except.bind, pure, Except.pure] at hnew
  cases ho : newOpt st0 nn shuffle bs metrics with
  | error e => simp [ho] at hnew
  | ok p =>
    obtain ⟨st1, o⟩ := p
    simp only [ho, Except.ok.injEq, Prod.mk.injEq] at hnew
    obtain ⟨rfl, rfl⟩ := hnew
    obtain ⟨hbs, e1, e2, e3, e4, -, -⟩ := newOpt_eq nn ho
    have hin : RmsPropIn c nn bs.toNat rho m d nest st1
        ⟨o, lr, d, rho, m, nest, 0, ⟨addr, List.replicate (nParams nn.layers) zero⟩,
          ⟨addr', List.replicate (nParams nn.layers) zero⟩⟩
        ⟨params nn.layers, List.replicate (nParams nn.layers) 0, List.replicate (nParams nn.layers) 0, lr, 0⟩ :=
      ⟨⟨by rw [e1, setParams_self c nn hw], params_length c _ hw.layer, e2⟩, ⟨ha, by simp, by simp⟩,
        ⟨ha', by simp, by simp⟩, rfl, rfl, rfl, rfl, rfl, rfl⟩
    have := runCalls_eq (fun k => rmspropKind env c k.mem k.fuel k.n k.X k.Y) (fun s : RmsProp ℝ => s.opt) env c nn
      bs.toNat r
      (RmsPropIn c nn bs.toNat rho m d nest) (fun σ b => σ.t + b ≤ 2 ^ 32 - 1) (Spec.rmspropStep rho m d nest) g
      (fun k => k.OK c loss nn bs.toNat ms ∧ SampleGrads env c k.n k.X k.Y nn (g k)) (MetricsAre ms rest)
      (by
        intro k st s σ q b hk hin hb hms hp
        obtain ⟨o, st', s', q', k1, k2, k3, k4, k5, k6, k7⟩ := runEpoch_rmsprop env c loss nn bs.toNat hbs ms rest k
          hk.1 r q (g k) hk.2 rho m d nest st s σ hin hp hms.array (by omega)
        refine ⟨o, st', s', q', _, k1, k2, k3, ?_, k4, k5, k6, k7⟩
        have hcount : ((epochGrads (nParams nn.layers) bs.toNat (g k) o).foldl (Spec.rmspropStep rho m d nest) σ).t =
            σ.t + (k.n + bs.toNat - 1) / bs.toNat := by
          have : ∀ (Gs : List (List ℝ → List ℝ)) (σ : RmsPropState),
              (Gs.foldl (Spec.rmspropStep rho m d nest) σ).t = σ.t + Gs.length := by
            intro Gs
            induction Gs with
            | nil => intro σ; rfl
            | cons G Gs ih =>
              intro σ
              rw [List.foldl_cons, ih]
              have : (Spec.rmspropStep rho m d nest σ G).t = σ.t + 1 := by simp only [Spec.rmspropStep]; split <;> rfl
              rw [this, List.length_cons]; omega
          rw [this, epochGrads, List.length_map, batches_length, k1.length_eq, List.length_range]
        rw [hcount]; omega)
      calls st1 _ _ q (fun k hk => ⟨hok k hk, hg k hk⟩) hin (by simpa using ht) hms (.inl ⟨by rw [e4, h0], e3⟩)
    obtain ⟨orders, st', s', q', k1, k2, k3, -, k5, k6⟩ := this
    exact ⟨orders, st', s', q', k1, k2, k3, by rw [k5.2.1, k6]; exact hms⟩

/-- **C34** (and C25): the first Adam optimizer of a process, any sequence of valid calls. -/
theorem C34_history (st0 : Statics ℝ) (h0 : st0.nSample = 0) (hb1 : st0.beta1 = 1) (hb2 : st0.beta2 = 1) (shuffle : Bool) (bs : ℤ)
    (metrics : Option (List (Option Metric))) (lr b1 b2 wd : ℝ) (addr addr' : ℕ)
    (ha : addr % c.alignSize = 0) (ha' : addr' % c.alignSize = 0)
    (st : Statics ℝ) (s : Adam ℝ)
    (hnew : newAdam st0 nn shuffle bs metrics lr b1 b2 wd (some addr) (some addr') = .ok (st, s))
    (hms : MetricsAre ms rest s.opt.metrics st.metric) (calls : List Call)
    (hok : ∀ k ∈ calls, k.OK c loss nn bs.toNat ms)
    (hg : ∀ k ∈ calls, SampleGrads env c k.n k.X k.Y nn (g k)) (q : ℕ) :
    ∃ orders st' s' q', List.Forall₂ (fun o (k : Call) => o.Perm (List.range k.n)) orders calls ∧
      runCalls (fun k => adamKind env c k.mem k.fuel k.n k.X k.Y) env c r calls (st, s, q) = .ok (st', s', q') ∧
      AdamIn c nn bs.toNat lr b1 b2 wd st' s'
        ((historyGrads (nParams nn.layers) bs.toNat g orders calls).foldl (Spec.adamStep lr b1 b2 wd)
          ⟨params nn.layers, List.replicate (nParams nn.layers) 0, List.replicate (nParams nn.layers) 0, 0⟩) ∧
      MetricsAre ms rest s'.opt.metrics st'.metric := by
  simp only [newAdam, zeroVec, bind, Except.bind, pure, Except.pure] at hnew
  cases ho : newOpt st0 nn shuffle bs metrics with
  | error e => simp [ho] at hnew
  | ok p =>
    obtain ⟨st1, o⟩ := p
    simp only [ho, Except.ok.injEq, Prod.mk.injEq] at hnew
    obtain ⟨rfl, rfl⟩ := hnew
    obtain ⟨hbs, e1, e2, e3, e4, e5, e6⟩ := newOpt_eq nn ho
    have hin : AdamIn c nn bs.toNat lr b1 b2 wd st1
        ⟨o, lr, b1, b2, wd, ⟨addr, List.replicate (nParams nn.layers) zero⟩,
          ⟨addr', List.replicate (nParams nn.layers) zero⟩⟩
        ⟨params nn.layers, List.replicate (nParams nn.layers) 0, List.replicate (nParams nn.layers) 0, 0⟩ :=
      ⟨⟨by rw [e1, setParams_self c nn hw], params_length c _ hw.layer, e2⟩, ⟨ha', by simp, by simp⟩,
        ⟨ha, by simp, by simp⟩, by rw [e5, hb1]; simp, by rw [e6, hb2]; simp, rfl, rfl,
        rfl, rfl⟩
    have := runCalls_eq (fun k => adamKind env c k.mem k.fuel k.n k.X k.Y) (fun s : Adam ℝ => s.opt) env c nn
      bs.toNat r
      (AdamIn c nn bs.toNat lr b1 b2 wd) (fun _ _ => True) (Spec.adamStep lr b1 b2 wd) g
      (fun k => k.OK c loss nn bs.toNat ms ∧ SampleGrads env c k.n k.X k.Y nn (g k)) (MetricsAre ms rest)
      (by
        intro k st s σ q b hk hin hb hms hp
        obtain ⟨o, st', s', q', k1, k2, k3, k4, k5, k6, k7⟩ := runEpoch_adam env c loss nn bs.toNat hbs ms rest k
          hk.1 r q (g k) hk.2 lr b1 b2 wd st s σ hin hp hms.array
        exact ⟨o, st', s', q', _, k1, k2, k3, trivial, k4, k5, k6, k7⟩)
      calls st1 _ _ q (fun k hk => ⟨hok k hk, hg k hk⟩) hin trivial hms
      (.inl ⟨by rw [e4, h0], e3⟩)
    obtain ⟨orders, st', s', q', k1, k2, k3, -, k5, k6⟩ := this
    exact ⟨orders, st', s', q', k1, k2, k3, by rw [k5.2.1, k6]; exact hms⟩

end

/-! ### C35 -/

/-- The update of a component by the first batch of an Adam optimizer when the static factors have seen no batch and one
batch. -/
theorem adam_first_steps_ne (lr g : ℝ) (hlr : lr ≠ 0) (hg : g ≠ 0) (b1 b2 : ℝ) (hb1 : b1 = 9 / 10)
    (hb2 : b2 = 999 / 1000) :
    -lr * ((b1 * 0 + (1 - b1) * g) / (1 - b1 ^ 1)) / (√((b2 * 0 + (1 - b2) * g ^ 2) / (1 - b2 ^ 1)) + 1 / 100000000) ≠
    -lr * ((b1 * 0 + (1 - b1) * g) / (1 - b1 ^ 2)) /
      (√((b2 * 0 + (1 - b2) * g ^ 2) / (1 - b2 ^ 2)) + 1 / 100000000) := by
  intro h
  have e1 : (b2 * 0 + (1 - b2) * g ^ 2) / (1 - b2 ^ 1) = g ^ 2 := by rw [hb2]; norm_num
  have e2 : (b2 * 0 + (1 - b2) * g ^ 2) / (1 - b2 ^ 2) = g ^ 2 / (1999 / 1000) := by rw [hb2]; norm_num; ring
  have e3 : (b1 * 0 + (1 - b1) * g) / (1 - b1 ^ 1) = g := by rw [hb1]; norm_num
  have e4 : (b1 * 0 + (1 - b1) * g) / (1 - b1 ^ 2) = g / (19 / 10) := by rw [hb1]; norm_num; ring
  rw [e1, e2, e3, e4, Real.sqrt_sq_eq_abs] at h
  have ha : 0 < |g| := abs_pos.mpr hg
  have hs : |g| / (3 / 2) ≤ √(g ^ 2 / (1999 / 1000)) := by
    rw [Real.le_sqrt' (by positivity), div_pow, sq_abs]
    exact div_le_div_of_nonneg_left (sq_nonneg g) (by norm_num) (by norm_num)
  set r := √(g ^ 2 / (1999 / 1000)) with hr
  have h1 : |g| + 1 / 100000000 ≠ 0 := by positivity
  have h2 : r + 1 / 100000000 ≠ 0 := by positivity
  rw [div_eq_div_iff h1 h2] at h
  have h3 : (-lr * g) * (r + 1 / 100000000) = (-lr * g) * ((|g| + 1 / 100000000) / (19 / 10)) := by
    rw [h]; ring
  have h4 := mul_left_cancel₀ (mul_ne_zero (neg_ne_zero.mpr hlr) hg) h3
  linarith [hs, h4, ha]

/-- **C35 is false**: `s` is a newly created Adam optimizer with the default factors 0.9 and 0.999 (moments zero) for any
network and one sample with a gradient that is not zero.  The first run of such an optimizer in a process leaves the static
correction factors `(b1, b2)`; with these, an identical new optimizer computes other parameters from the same data. -/
theorem C35_false (env : CustomEnv ℝ) (c : Cfg) (mem : ℕ → BatchMem ℝ) (loss : Loss) (X Y : View ℝ) (nn0 : Net ℝ)
    (bs : ℕ) (hbs : 1 ≤ bs) (lr wd : ℝ) (hlr : lr ≠ 0) (hwd : wd ≤ 0) (g : List ℝ → ℕ → List ℝ)
    (hg : SampleGrads env c 1 X Y nn0 g) (hm : ∀ i, (mem i).OK c (nParams nn0.layers) (batchLen 1 bs i)) (s : Adam ℝ)
    (w : List ℝ)
    (hs : AdamAt c loss 1 X Y nn0 [0] bs lr (9 / 10) (999 / 1000) wd ((1, 1), s)
      ⟨w, List.replicate (nParams nn0.layers) 0, List.replicate (nParams nn0.layers) 0, 0⟩)
    (i : ℕ) (hi : i < nParams nn0.layers) (hne : at_ (g w 0) i ≠ 0) :
    ∃ s1 s2 p, adamEpoch env c mem 1 1 X Y ((1, 1), s) = .ok ((9 / 10, 999 / 1000), s1) ∧
      adamEpoch env c mem 1 1 X Y ((9 / 10, 999 / 1000), s) = .ok (p, s2) ∧
      params s1.opt.nn.layers ≠ params s2.opt.nn.layers := by
  have hs2 : AdamAt c loss 1 X Y nn0 [0] bs lr (9 / 10) (999 / 1000) wd ((9 / 10, 999 / 1000), s)
      ⟨w, List.replicate (nParams nn0.layers) 0, List.replicate (nParams nn0.layers) 0, 1⟩ :=
    ⟨hs.opt, hs.m, hs.v, by simp, by simp, hs.lr, hs.b1, hs.b2, hs.wd, hs.bs⟩
  have hb : (1 + bs - 1) / bs ≤ 1 := by
    rw [Nat.add_sub_cancel_left, Nat.div_self (by omega)]
  obtain ⟨⟨p1, s1⟩, k1, k2⟩ := (adamEpoch_real env c mem loss 1 X Y nn0 [0] bs hbs lr _ _ wd g hg hm _ _ hs).1 1 hb
  obtain ⟨⟨p2, s2⟩, k3, k4⟩ := (adamEpoch_real env c mem loss 1 X Y nn0 [0] bs hbs lr _ _ wd g hg hm _ _ hs2).1 1 hb
  have he : epochGrads (nParams nn0.layers) bs g [0] = [fun w => meanGrad (nParams nn0.layers) (g w) [0]] := by
    have h1 : (([0] : List ℕ).length + bs - 1) / bs = 1 := by
      rw [List.length_singleton, Nat.add_sub_cancel_left, Nat.div_self (by omega)]
    have h2 : ([0] : List ℕ).take bs = [0] := List.take_of_length_le (by simpa using hbs)
    simp only [epochGrads, batches, h1, List.range_one, List.map_cons, List.map_nil, Nat.zero_mul, List.drop_zero, h2]
  rw [he, List.foldl_cons, List.foldl_nil] at k2 k4
  have hw : w.length = nParams nn0.layers := hs.opt.wlen
  refine ⟨s1, s2, p2, ?_, k3, ?_⟩
  · rw [k1]
    have e1 := k2.p1
    have e2 := k2.p2
    simp only [Spec.adamStep, zero_add, pow_one] at e1 e2
    rw [← e1, ← e2]
  · have q1 := k2.opt.nn
    have q2 := k4.opt.nn
    have l1 := k2.opt.wlen
    have l2 := k4.opt.wlen
    rw [q1, q2, setParams_params _ _ l1, setParams_params _ _ l2]
    intro h
    have hgi : at_ (meanGrad (nParams nn0.layers) (g w) [0]) i = at_ (g w 0) i := by
      simp [meanGrad, at_, List.getD, hi]
    have h0 : at_ (List.replicate (nParams nn0.layers) (0 : ℝ)) i = 0 := by
      simp [at_, List.getD, List.getElem?_replicate, hi]
    have hml := meanGrad_length (nParams nn0.layers) (g w) [0]
    have := congrArg (fun l => at_ l i) h
    simp only [Spec.adamStep, not_lt.mpr hwd, if_false] at this
    have hlt : i < (meanGrad (nParams nn0.layers) (g w) [0]).length := by rw [hml]; exact hi
    have hz : i < (List.replicate (nParams nn0.layers) (0 : ℝ)).length := by simpa using hi
    have hzw : ∀ (f : ℝ → ℝ → ℝ) (a b : List ℝ), i < a.length → i < b.length → i < (List.zipWith f a b).length := by
      intro f a b h1 h2
      rw [List.length_zipWith]
      exact lt_min h1 h2
    rw [at_vadd _ _ _ (by omega) (hzw _ _ _ (hzw _ _ _ hz hlt) (hzw _ _ _ hz hlt)),
      at_vadd _ _ _ (by omega) (hzw _ _ _ (hzw _ _ _ hz hlt) (hzw _ _ _ hz hlt)),
      at_zw _ _ _ _ (hzw _ _ _ hz hlt) (hzw _ _ _ hz hlt), at_zw _ _ _ _ (hzw _ _ _ hz hlt) (hzw _ _ _ hz hlt),
      at_zw _ _ _ _ hz hlt, at_zw _ _ _ _ hz hlt, h0, hgi] at this
    have h2 := add_left_cancel this
    simp only [zero_add, one_add_one_eq_two] at h2
    exact adam_first_steps_ne lr _ hlr hne _ _ rfl rfl h2

/-- A 1→1 linear network with parameters 0. -/
def exTiny : Net ℝ := ⟨[⟨1, 1, ⟨64, [0]⟩, ⟨128, [0]⟩, .linear, some .linear⟩], some .mse⟩

theorem exTiny_trainable (c : Cfg) : Trainable c .mse 1 ⟨20, [1]⟩ ⟨52, [1]⟩ exTiny := by
  refine ⟨⟨by simp [exTiny], fun l hl => ?_, trivial⟩, rfl, by simp [exTiny], fun ga _ => ?_, by norm_num,
    by simp [exTiny, Net.nInput], by simp [exTiny, Net.nOutput], by simp [exTiny, Net.nInput],
    by simp [exTiny, Net.nOutput]⟩
  · simp only [exTiny, List.mem_cons, List.not_mem_nil, or_false] at hl
    subst hl
    exact ⟨le_rfl, le_rfl, rfl, rfl, align64 c 64 rfl, align64 c 128 rfl⟩
  · apply backAligned_of_small
    simp [exTiny]

/-- The hypotheses of `C35_false` are met in every build. -/
example (c : Cfg) (jk : ℕ → ℝ) :
    let s : Adam ℝ := ⟨⟨exTiny, false, 1, .static, some [0]⟩, 1 / 1000, 9 / 10, 999 / 1000, 0, ⟨192, [0, 0]⟩,
      ⟨256, [0, 0]⟩⟩
    let mem : ℕ → BatchMem ℝ := fun i => ⟨.thread (List.range (batchLen 1 1 i)), fun _ => ⟨4096, jk, 8192, jk, 12⟩, 16384,
      jk, if c.avx then 16 else 0, 32768, jk⟩
    ∃ s1 s2 p, adamEpoch (noCustom ℝ) c mem 1 1 ⟨20, [1]⟩ ⟨52, [1]⟩ ((1, 1), s) = .ok ((9 / 10, 999 / 1000), s1) ∧
      adamEpoch (noCustom ℝ) c mem 1 1 ⟨20, [1]⟩ ⟨52, [1]⟩ ((9 / 10, 999 / 1000), s) = .ok (p, s2) ∧
      params s1.opt.nn.layers ≠ params s2.opt.nn.layers := by
  intro s mem
  have hT := exTiny_trainable c
  have hk : nParams exTiny.layers = 2 := by simp [exTiny, nParams]
  have hp : params exTiny.layers = [0, 0] := by simp [exTiny, params]
  have hself := setParams_self c exTiny hT.wf
  rw [hp] at hself
  refine C35_false (noCustom ℝ) c mem .mse _ _ exTiny 1 le_rfl (1 / 1000) 0 (by norm_num) le_rfl _
    (sampleGrads_sampleGrad _ _ .mse _ _ _ _ hT) ?_ s [0, 0] ?_ 0 (by rw [hk]; norm_num) ?_
  · intro i
    refine ⟨List.Perm.refl _, fun _ => align64 c 4096 rfl, fun _ => align64 c 8192 rfl, align64 c 16384 rfl,
      align64 c 32768 rfl, ?_⟩
    simp only [mem, nParamPadding]
    split <;> simp [*]
  · rw [hk]
    exact ⟨⟨hT, hself.symm, by rw [hk]; rfl, rfl, by simp, rfl⟩, ⟨align64 c 256 rfl, rfl, rfl⟩,
      ⟨align64 c 192 rfl, rfl, rfl⟩, by simp, by simp, rfl, rfl, rfl, rfl, rfl⟩
  · rw [hself]
    have hl : ∀ l ∈ exTiny.layers, layerF (noCustom ℝ) c l 0 [1] = [0] := by
      intro l hl
      rw [layerF_real _ _ _ (hT.wf.layer l hl) _ _ (by simp [exTiny] at hl; simp [hl])]
      simp [exTiny] at hl
      simp [hl, Layer.toSpec, Spec.Layer.apply, actSpec, affine, at_]
    have h1 := hl _ (List.mem_cons_self ..)
    simp only [sampleGrad, gradF, exTiny, Net.nInput, Net.nOutput, slice, backF, traceF, lossF, netF] at h1 ⊢
    simp [h1, lossElem, derivF, activateDerivF, at_]

/-- **C35** holds as long as no Adam optimizer has run before (the static factors are 1 and the count is 0), also if others
have been created: the optimizer is the textbook one.  (Missing: the claim after a run of another one, where it is
false.) -/
theorem C35_partial (env : CustomEnv ℝ) (c : Cfg) (loss : Loss) (nn : Net ℝ) (hw : nn.WF c) (ms : List Metric)
    (rest : List (Option Metric)) (r : ℕ → ℕ) (g : Call → List ℝ → ℕ → List ℝ)
    (stA st0 : Statics ℝ) (hA : stA.nSample = 0) (hb1 : stA.beta1 = 1) (hb2 : stA.beta2 = 1)
    (nnA : Net ℝ) (shA : Bool) (bsA : ℤ) (msA : Option (List (Option Metric))) (lrA b1A b2A wdA : ℝ) (aA aA' : Option ℕ)
    (sA : Adam ℝ) (hnewA : newAdam stA nnA shA bsA msA lrA b1A b2A wdA aA aA' = .ok (st0, sA))
    (shuffle : Bool) (bs : ℤ)
    (metrics : Option (List (Option Metric))) (lr b1 b2 wd : ℝ) (addr addr' : ℕ)
    (ha : addr % c.alignSize = 0) (ha' : addr' % c.alignSize = 0)
    (st : Statics ℝ) (s : Adam ℝ)
    (hnew : newAdam st0 nn shuffle bs metrics lr b1 b2 wd (some addr) (some addr') = .ok (st, s))
    (hms : MetricsAre ms rest s.opt.metrics st.metric) (calls : List Call)
    (hok : ∀ k ∈ calls, k.OK c loss nn bs.toNat ms)
    (hg : ∀ k ∈ calls, SampleGrads env c k.n k.X k.Y nn (g k)) (q : ℕ) :
    ∃ orders st' s' q', List.Forall₂ (fun o (k : Call) => o.Perm (List.range k.n)) orders calls ∧
      runCalls (fun k => adamKind env c k.mem k.fuel k.n k.X k.Y) env c r calls (st, s, q) = .ok (st', s', q') ∧
      AdamIn c nn bs.toNat lr b1 b2 wd st' s'
        ((historyGrads (nParams nn.layers) bs.toNat g orders calls).foldl (Spec.adamStep lr b1 b2 wd)
          ⟨params nn.layers, List.replicate (nParams nn.layers) 0, List.replicate (nParams nn.layers) 0, 0⟩) := by
  have : st0.nSample = stA.nSample ∧ st0.beta1 = stA.beta1 ∧ st0.beta2 = stA.beta2 := by
    unfold newAdam at hnewA
    obtain ⟨_, -, hnewA⟩ := bind_ok hnewA
    obtain ⟨_, -, hnewA⟩ := bind_ok hnewA
    obtain ⟨⟨st1, o⟩, h, hnewA⟩ := bind_ok hnewA
    simp only [pure, Except.pure, Except.ok.injEq, Prod.mk.injEq] at hnewA
    obtain ⟨rfl, -⟩ := hnewA
    obtain ⟨-, -, -, -, e4, e5, e6⟩ := newOpt_eq nnA h
    exact ⟨e4, e5, e6⟩
  obtain ⟨o, st', s', q', k1, k2, k3, -⟩ := C34_history env c loss nn hw ms rest r g st0 (by rw [this.1, hA])
    (by rw [this.2.1, hb1]) (by rw [this.2.2, hb2]) shuffle bs metrics lr b1 b2 wd addr addr' ha ha' st s hnew hms calls
    hok hg q
  exact ⟨o, st', s', q', k1, k2, k3⟩

/-! ### C37 -/

/-- **C37** What `optimizer_run_epoch` leaves in `results`: the training metrics, then the validation metrics exactly if
validation data with a positive count is given; the rest is untouched. -/
theorem C37_layout (env : CustomEnv ℝ) (c : Cfg) (loss : Loss) (nn0 nn : Net ℝ) (bs : ℕ) (ms : List Metric)
    (rest : List (Option Metric)) (k : Call) (h : k.OK c loss nn0 bs ms) (hw : nn.WF c) (hi : nn.nInput = nn0.nInput)
    (ho : nn.nOutput = nn0.nOutput) :
    NN.report env c k.evalMem k.evalMemV k.sched k.schedV nn (ms.map some ++ none :: rest) k.n k.X k.Y k.nValid
      k.valid k.results = .ok ⟨k.results.addr, (ms.map fun m => meanMetric env nn k.n k.X k.Y m) ++
        match k.valid with
        | some (vX, vY) =>
          if 0 < k.nValid then
            (ms.map fun m => meanMetric env nn k.nValid vX vY m) ++ k.results.data.drop (2 * ms.length)
          else k.results.data.drop ms.length
        | none => k.results.data.drop ms.length⟩ := by
  rw [report_eq env c loss nn0 nn bs ms rest k h hw hi ho, Call.report, Call.validation]
  cases k.valid with
  | none => rfl
  | some p =>
    obtain ⟨vX, vY⟩ := p
    by_cases hp : 0 < k.nValid <;> simp [hp]

/-- **C37** For every optimizer type and any float operations, the metrics are evaluated with the network after the
epoch. -/
theorem C37_after_epoch {F S : Type} [FloatOps F] (kind : OptKind F S) (env : CustomEnv F) (c : Cfg)
    (mem memV : ℕ → ThreadMem F) (sched schedV : Sched) (r : ℕ → ℕ) (k : ℕ) (allocOk : Bool)
    (n : ℕ) (X Y : View F) (nValid : ℕ) (valid : Option (View F × View F)) (results : View F)
    (st st' : Statics F) (s s' : S) (k' : ℕ) (res : View F)
    (h : runEpoch kind env c mem memV sched schedV r k allocOk n X Y nValid valid results st s =
      .ok (st', s', k', res)) :
    report env c mem memV sched schedV (kind.opt s').nn (metricsArray st' (kind.opt s').metrics) n X Y nValid valid
      results = .ok res := by
  unfold runEpoch at h
  obtain ⟨⟨a, b, d⟩, -, h⟩ := bind_ok h
  obtain ⟨⟨e, f⟩, -, h⟩ := bind_ok h
  obtain ⟨v, hv, h⟩ := bind_ok h
  simp only [pure, Except.pure, Except.ok.injEq, Prod.mk.injEq] at h
  obtain ⟨rfl, rfl, -, rfl⟩ := h
  exact hv

/-- **C37** Any float operations: the report succeeds and writes only the documented places. -/
theorem C37_safe {F : Type} [FloatOps F] (env : CustomEnv F) (c : Cfg) (mem memV : ℕ → ThreadMem F) (sched schedV : Sched)
    (nn : Net F) (hw : nn.WF c) (ms : List Metric) (rest : List (Option Metric)) (n : ℕ) (X Y : View F) (nValid : ℕ)
    (valid : Option (View F × View F)) (results : View F) (hs : sched.Covers n)
    (hmem : ∀ i, (mem i).workAddr % c.alignSize = 0 ∧ (mem i).predAddr % c.alignSize = 0)
    (hX : n * nn.nInput ≤ X.data.length) (hY : n * nn.nOutput ≤ Y.data.length)
    (hr : 2 * ms.length ≤ results.data.length)
    (hmemV : ∀ i, (memV i).workAddr % c.alignSize = 0 ∧ (memV i).predAddr % c.alignSize = 0)
    (hv : ∀ vX vY, valid = some (vX, vY) → schedV.Covers nValid ∧ nValid * nn.nInput ≤ vX.data.length ∧
      nValid * nn.nOutput ≤ vY.data.length) :
    ∃ train val : List F, train.length = ms.length ∧ val.length = ms.length ∧
      report env c mem memV sched schedV nn (ms.map some ++ none :: rest) n X Y nValid valid results =
        .ok ⟨results.addr, train ++
          if valid.isSome ∧ 0 < nValid then val ++ results.data.drop (2 * ms.length)
          else results.data.drop ms.length⟩ := by
  obtain ⟨train, htl, h1⟩ := C24_safe env c mem sched nn n hs X Y ms rest results hw hmem hX hY (by omega)
  simp only [report, metricList_eq, h1, bind, Except.bind]
  cases valid with
  | none => exact ⟨train, train, htl, htl, by simp [pure, Except.pure]⟩
  | some p =>
    obtain ⟨vX, vY⟩ := p
    obtain ⟨k1, k2, k3⟩ := hv vX vY rfl
    by_cases hp : 0 < nValid
    · obtain ⟨val, hvl, h2⟩ := C24_safe env c memV schedV nn nValid k1 vX vY ms rest
        ((⟨results.addr, train ++ results.data.drop ms.length⟩ : View F).offset ms.length) hw hmemV k2 k3
        (by simp [View.offset, htl]; omega)
      refine ⟨train, val, htl, hvl, ?_⟩
      simp only [View.offset, List.drop_left' htl, List.drop_drop] at h2
      simp only [hp, if_true, pure, Except.pure, putGrad, View.offset, Option.isSome_some, true_and, and_true]
      rw [List.take_left' htl, List.drop_left' htl, h2, two_mul]
    · exact ⟨train, train, htl, htl, by simp [hp, pure, Except.pure]⟩

/-! ### C38 -/

/-- The metric with the name of the loss. -/
def lossMetric : Loss → Metric
  | .mse => .mse
  | .mae => .mae
  | .mape => .mape
  | .cce => .cce
  | .bce => .bce

/-- **C38** Without metrics argument, a new optimizer has the metric of its own loss; it stays so as long as no other
optimizer is created (epochs keep `static_metrics`: see the last conjunct of the history theorems).  (Missing: other
optimizers created later, for which the claim is false.) -/
theorem C38_partial {F : Type} (st st' : Statics F) (nn : Net F) (shuffle : Bool) (bs : ℤ) (loss : Loss)
    (hl : nn.loss = some loss) (o : Opt F) (h : newOpt st nn shuffle bs none = .ok (st', o)) :
    metricsArray st' o.metrics = [some (lossMetric loss), none] := by
  simp only [newOpt, hl] at h
  split at h
  · simp only [pure, Except.pure, Except.ok.injEq, Prod.mk.injEq] at h
    obtain ⟨rfl, rfl⟩ := h
    cases loss <;> simp only [metricsArray] <;> decide
  · simp at h

/-- **C38 is false**: the default metric is kept in one static array.  After the creation of another optimizer (with any
metrics), the first one reports the metric of the other's loss. -/
theorem C38_false {F : Type} (st st1 st2 : Statics F) (nn1 nn2 : Net F) (sh1 sh2 : Bool) (bs1 bs2 : ℤ)
    (metrics2 : Option (List (Option Metric))) (l1 l2 : Loss) (h1 : nn1.loss = some l1) (h2 : nn2.loss = some l2)
    (hne : l1 ≠ l2) (o1 o2 : Opt F)
    (k1 : newOpt st nn1 sh1 bs1 none = .ok (st1, o1)) (k2 : newOpt st1 nn2 sh2 bs2 metrics2 = .ok (st2, o2)) :
    metricsArray st1 o1.metrics = [some (lossMetric l1), none] ∧
    metricsArray st2 o1.metrics = [some (lossMetric l2), none] ∧ lossMetric l1 ≠ lossMetric l2 := by
  refine ⟨C38_partial st st1 nn1 sh1 bs1 l1 h1 o1 k1, ?_, by cases l1 <;> cases l2 <;> simp_all [lossMetric]⟩
  simp only [newOpt, h1, h2] at k1 k2
  split at k1
  · split at k2
    · simp only [pure, Except.pure, Except.ok.injEq, Prod.mk.injEq] at k1 k2
      obtain ⟨rfl, rfl⟩ := k1
      obtain ⟨rfl, rfl⟩ := k2
      cases l2 <;> simp only [metricsArray] <;> decide
    · simp at k2
  · simp at k1

/-- The hypotheses are met: an optimizer for mse, then one for mae. -/
example : ∃ st1 st2 : Statics ℝ, ∃ o1 o2, newOpt Statics.initial ⟨[], some .mse⟩ true 10 none = .ok (st1, o1) ∧
    newOpt st1 ⟨[], some .mae⟩ true 10 none = .ok (st2, o2) :=
  ⟨_, _, _, _, rfl, rfl⟩

/-! ### C58 -/

/-- **C58 is false**: the offset `pivot[idx] * n_input` is computed in `unsigned int`.  If both offsets of sample `p` agree
modulo 2^32 with those of sample `q`, training on `p` is training on `q`, whatever the data of `p`. -/
theorem C58_false {F : Type} [FloatOps F] (env : CustomEnv F) (c : Cfg) (mem : ℕ → ThreadGrad F) (nn : Net F)
    (X Y : View F) (p q : ℕ) (hX : p * nn.nInput % 2 ^ 32 = q * nn.nInput % 2 ^ 32)
    (hY : p * nn.nOutput % 2 ^ 32 = q * nn.nOutput % 2 ^ 32) (acc : List F) :
    batchBody env c mem nn (some [p]) X Y 0 0 acc = batchBody env c mem nn (some [q]) X Y 0 0 acc := by
  simp only [batchBody, readPivot, Nat.add_zero, List.getElem?_cons_zero, bind, Except.bind, hX, hY]

/-- An autoencoder for vectors of 1024 floats: sample 2^22 is taken to be sample 0. -/
example {F : Type} [FloatOps F] (env : CustomEnv F) (c : Cfg) (mem : ℕ → ThreadGrad F) (nn : Net F)
    (h1 : nn.nInput = 1024) (h2 : nn.nOutput = 1024) (X Y : View F) (acc : List F) :
    batchBody env c mem nn (some [4194304]) X Y 0 0 acc = batchBody env c mem nn (some [0]) X Y 0 0 acc :=
  C58_false env c mem nn X Y _ _ (by rw [h1]; norm_num) (by rw [h2]; norm_num) acc

/-- **C58** for data sets with at most 2^32 input and output values, every sample's own data are used.  (Missing: larger
data sets, where the claim is false.) -/
theorem C58_partial {F : Type} [FloatOps F] (env : CustomEnv F) (c : Cfg) (mem : ℕ → ThreadGrad F) (nn : Net F)
    (X Y : View F) (n p : ℕ) (hp : p < n) (hX : n * nn.nInput ≤ 2 ^ 32) (hY : n * nn.nOutput ≤ 2 ^ 32)
    (hi : 1 ≤ nn.nInput) (ho : 1 ≤ nn.nOutput) (acc : List F) :
    batchBody env c mem nn (some [p]) X Y 0 0 acc = (do
      let g ← backpropagation env c (mem 0).workAddr (mem 0).junk nn (X.offset (p * nn.nInput)) (Y.offset (p * nn.nOutput))
        (stackArray (mem 0).gradAddr (nParams nn.layers) (mem 0).gradJunk)
      let v ← vectorAccumulateUnaligned c (nParams nn.layers) ⟨(mem 0).privAddr, acc⟩ g
      pure v.data) := by
  have e : ∀ m, 1 ≤ m → n * m ≤ 2 ^ 32 → p * m % 2 ^ 32 = p * m := by
    intro m h1 h2
    refine Nat.mod_eq_of_lt (lt_of_lt_of_le ?_ h2)
    exact Nat.mul_lt_mul_of_pos_right hp h1
  simp only [batchBody, readPivot, Nat.add_zero, List.getElem?_cons_zero, bind, Except.bind, e _ hi hX, e _ ho hY]

/-! ### Examples -/

/-- A call with three training samples, one validation sample, and room for the results. -/
def exCall (c : Cfg) (jk : ℕ → ℝ) : Call :=
  ⟨3, ⟨20, [1, 2, 0, 0, 0, 1]⟩, ⟨52, [27, 14, 0]⟩, 1, some (⟨120, [1, 1]⟩, ⟨152, [3]⟩), ⟨200, [7, 7, 7]⟩, exMem c jk, 2,
    fun _ => ⟨4096, jk, 8192, jk⟩, fun _ => ⟨4096, jk, 8192, jk⟩, .thread [0, 1, 2], .thread [0]⟩

theorem exCall_ok (c : Cfg) (jk : ℕ → ℝ) : (exCall c jk).OK c .mse exTrain 2 [.mse] := by
  refine ⟨by simp [exCall], exTrainable c, exMem_ok c jk, by simp [exCall], fun i => ⟨align64 c 4096 rfl, align64 c 8192 rfl⟩,
    ?_, by simp [exCall], ?_⟩
  · exact List.Perm.refl _
  · intro nV vX vY h
    simp only [Call.validation, exCall, zero_lt_one, if_true, Option.some.injEq, Prod.mk.injEq] at h
    obtain ⟨rfl, rfl, rfl⟩ := h
    refine ⟨?_, ?_, List.Perm.refl _, fun i => ⟨align64 c 4096 rfl, align64 c 8192 rfl⟩, by simp [exCall]⟩
    · rw [exTrain_eq]; simp [Net.nInput]
    · rw [exTrain_eq]; simp [Net.nOutput]

/-- SGD with Nesterov momentum, decay, and shuffling: ten epochs run, in every build, for every random stream. -/
example (c : Cfg) (jk : ℕ → ℝ) (r : ℕ → ℕ) (q : ℕ) : ∃ st s st' s' q',
    newSgd Statics.initial exTrain true 2 none (1 / 100) (1 / 1000) (9 / 10) true (some 640) = .ok (st, s) ∧
    runCalls (fun k => sgdKind (noCustom ℝ) c k.mem k.fuel k.n k.X k.Y) (noCustom ℝ) c r
      (List.replicate 10 (exCall c jk)) (st, s, q) = .ok (st', s', q') := by
  have hT := exTrainable c
  have hloss : exTrain.loss = some .mse := hT.loss_eq
  have hnew : newSgd Statics.initial exTrain true 2 none (1 / 100) (1 / 1000) (9 / 10) true (some 640) =
      .ok (⟨0, some .mse, 1, 1⟩, ⟨⟨exTrain, true, 2, .static, none⟩, 1 / 100, 1 / 1000, 9 / 10, true, 0,
        ⟨640, List.replicate (nParams exTrain.layers) 0⟩⟩) := by
    have : getMetricFunc (getLossName (some Loss.mse)) = some .mse := by decide
    simp [newSgd, zeroVec, newOpt, hloss, bind, Except.bind, pure, Except.pure, Statics.initial, this]
  obtain ⟨orders, st', s', q', h1, h2, h3, -⟩ := C32_history (noCustom ℝ) c .mse exTrain hT.wf [.mse] [] r
    (fun k w p => sampleGrad (noCustom ℝ) c .mse k.X k.Y (exTrain.setParams w) p) Statics.initial rfl true 2 none (1 / 100)
    (1 / 1000) (9 / 10) true 640 (align64 c 640 rfl) _ _ hnew rfl (List.replicate 10 (exCall c jk))
    (fun k hk => by rw [List.eq_of_mem_replicate hk]; exact exCall_ok c jk)
    (fun k hk => by
      rw [List.eq_of_mem_replicate hk]
      exact sampleGrads_sampleGrad _ _ .mse _ _ _ _ hT)
    (by simp [totalBatches, exCall]) q
  exact ⟨_, _, st', s', q', hnew, h2⟩

end NN
