import Verif.Proofs.Descent
import Verif.Properties.TrainCode
/-
C66: with a small learning rate, the first epoch over one full batch lowers the loss reported by `neuralnet`'s `evaluate`.

This joins backpropagation (C07), the batch mean (C25), the optimizer steps (C31-C36), the pairing of losses and metrics
(C21, C22) and `evaluate` (C24).
-/
set_option linter.unusedSimpArgs false

namespace NN
open FloatOps Spec

/-! ### Specification -/

/-- At the current parameters every sample of the call is at a point where the loss is differentiable (C07), and with the
crossentropies no prediction is clipped by the metric (C21). -/
def SmoothAt (env : CustomEnv ℝ) (loss : Loss) (nn : Net ℝ) (k : Call) : Prop :=
  ∀ p < k.n, Regular env loss (slice k.Y.data (p * nn.nOutput) nn.nOutput) nn.layers
      (slice k.X.data (p * nn.nInput) nn.nInput) ∧
    (loss = .bce ∨ loss = .cce → ∀ i < nn.nOutput,
      1 / 10000000 < at_ (Spec.network (nn.layers.map (Layer.toSpec env)) (slice k.X.data (p * nn.nInput) nn.nInput)) i ∧
      at_ (Spec.network (nn.layers.map (Layer.toSpec env)) (slice k.X.data (p * nn.nInput) nn.nInput)) i < 1 - 1 / 10000000)

/-- `evaluate` on the training data of the call gives a smaller value of `metric` with the network `nn'` than with `nn`. -/
def Lowers (env : CustomEnv ℝ) (c : Cfg) (metric : Metric) (k : Call) (nn nn' : Net ℝ) : Prop :=
  ∀ (mem : ℕ → ThreadMem ℝ) (sched : Sched) (rest : List (Option Metric)) (addr : ℕ) (x : ℝ) (xs : List ℝ), sched.Covers k.n →
    (∀ i, (mem i).workAddr % c.alignSize = 0 ∧ (mem i).predAddr % c.alignSize = 0) →
    ∃ v v' : ℝ, evaluate env c mem sched nn k.n k.X k.Y (some metric :: none :: rest) ⟨addr, x :: xs⟩ = .ok ⟨addr, v :: xs⟩ ∧
      evaluate env c mem sched nn' k.n k.X k.Y (some metric :: none :: rest) ⟨addr, x :: xs⟩ = .ok ⟨addr, v' :: xs⟩ ∧ v' < v

/-! ### Proof -/

theorem lowers_of_mean (env : CustomEnv ℝ) (c : Cfg) (loss : Loss) (metric : Metric) (k : Call) (nn : Net ℝ) (w : List ℝ)
    (hT : Trainable c loss k.n k.X k.Y nn) (hw : w.length = nParams nn.layers)
    (h : meanMetric env (nn.setParams w) k.n k.X k.Y metric < meanMetric env nn k.n k.X k.Y metric) :
    Lowers env c metric k nn (nn.setParams w) := by
  intro mem sched rest addr x xs hs hm
  have hT' := hT.setParams w hw
  refine ⟨_, _, ?_, ?_, h⟩
  · have := C24_mean env c mem sched nn k.n hs k.X k.Y [metric] rest ⟨addr, x :: xs⟩ hT.wf hm hT.xlen hT.ylen (by simp)
    simpa [meanMetric] using this
  · have := C24_mean env c mem sched (nn.setParams w) k.n hs k.X k.Y [metric] rest ⟨addr, x :: xs⟩ hT'.wf hm hT'.xlen hT'.ylen
      (by simp)
    simpa [meanMetric] using this

theorem history_single {bs : ℕ} {k : Call} {b : List (Call × List ℕ)} (h : HistoryBatches bs [k] b) (hn : 1 ≤ k.n)
    (hb : k.n ≤ bs) : ∃ o : List ℕ, o.Perm (List.range k.n) ∧ b = [(k, o)] := by
  obtain ⟨parts, h1, rfl⟩ := h.split
  cases h1 with
  | cons h1 h2 =>
    cases h2
    rename_i p
    have hc := h1.count
    have : (k.n + bs - 1) / bs = 1 := Nat.div_eq_of_lt_le (by omega) (by omega)
    rw [this] at hc
    obtain ⟨o, rfl⟩ := List.length_eq_one_iff.1 hc
    refine ⟨o, ?_, by simp⟩
    rw [List.perm_iff_count]
    intro a
    have := h1.once a
    simp only [List.flatten_cons, List.flatten_nil, List.append_nil] at this
    rw [this]
    split
    · exact (List.count_eq_one_of_mem List.nodup_range (by simpa)).symm
    · exact (List.count_eq_zero_of_not_mem (by simp; omega)).symm

theorem batchMean_perm (g : ℕ → List ℝ) {n : ℕ} {o : List ℕ} (h : o.Perm (List.range n)) (i : ℕ) :
    batchMean g o i = (∑ p ∈ Finset.range n, at_ (g p) i) / n := by
  rw [batchMean, (h.map _).sum_eq, h.length_eq, List.length_range]
  congr 1

theorem vadd_zero_vec (w : List ℝ) (m : ℝ) (k : ℕ) (h : w.length = k) : vadd w (vscale m (List.replicate k 0)) = w := by
  apply List.ext_getElem
  · simp [vadd, vscale, h]
  · intro i h1 h2; simp [vadd, vscale]

theorem lrAfter_one (lr d : ℝ) : lrAfter lr d 1 = lr := by simp [lrAfter]

theorem totalBatches_single {bs : ℕ} {k : Call} (hn : 1 ≤ k.n) (hb : k.n ≤ bs) : totalBatches bs [k] ≤ 2 ^ 32 - 1 := by
  have : (k.n + bs - 1) / bs = 1 := Nat.div_eq_of_lt_le (by omega) (by omega)
  simp [totalBatches, this]

/-! ### Theorems -/

section
variable (env : CustomEnv ℝ) (c : Cfg) (recs : List ActRecord) (nn0 nn : Net ℝ) (name : String) (loss : Loss) (metric : Metric)
  (hw0 : nn0.WF c) (hname : getLossFunc name = some loss) (hnn : nn = setLoss recs nn0 name)
  (hmet : getMetricFunc (getLossName (some loss)) = some metric)
  (k : Call) (bs : ℤ) (hbs : k.n ≤ bs.toNat) (ms : List Metric) (rest : List (Option Metric)) (hok : k.OK c loss nn bs.toNat ms)
  (hdiff : SmoothAt env loss nn k)
  (g : List ℝ → ℕ → List ℝ) (hg : SampleGrads env c k.n k.X k.Y nn g)
  (hne : ∃ i < nParams nn.layers, ∑ p ∈ Finset.range k.n, at_ (g (params nn.layers) p) i ≠ 0)
include hw0 hname hnn hmet hbs hok hdiff hg hne

/-- **C66** SGD, with or without momentum of either kind and with any decay: after `neuralnet_set_loss`, if the batch holds all
samples and the mean gradient is not zero, there is a bound such that for every learning rate below it the first epoch lowers the
loss which `evaluate` reports for the training data. -/
theorem C66_sgd : ∃ ε > 0, ∀ lr, 0 < lr → lr < ε →
    ∀ (st0 : Statics ℝ) (shuffle : Bool) (metrics : Option (List (Option Metric))) (d m : ℝ) (nest : Bool)
      (addr : ℕ) (st : Statics ℝ) (s : Sgd ℝ) (r : ℕ → ℕ) (q : ℕ), st0.nSample = 0 → 0 ≤ d → addr % c.alignSize = 0 →
    newSgd st0 nn shuffle bs metrics lr d m nest (some addr) = .ok (st, s) → MetricsAre ms rest s.opt.metrics st.metric →
    ∃ st' s' q', runCalls (fun k => sgdKind env c k.mem k.fuel k.n k.X k.Y) env c r [k] (st, s, q) = .ok (st', s', q') ∧
      Lowers env c metric k nn s'.opt.nn := by
  have hT := hok.train
  have hw := hT.wf
  have hpl := params_length c _ hw.layer
  have hn := hok.pos
  have hG : ∀ p < k.n, g (params nn.layers) p = sampleGrad env c loss k.X k.Y nn p := by
    intro p hp
    rw [← hg.unique hT hpl hp, setParams_self c nn hw]
  have hn0 : (k.n : ℝ) ≠ 0 := by positivity
  obtain ⟨ε, hε, h⟩ := mean_decrease env c recs nn0 nn name loss metric hmet k.X k.Y k.n hn hnn hw0 hname hT
    (fun p hp => (hdiff p hp).1) (fun hl p hp => (hdiff p hp).2 hl)
    (fun i => (∑ p ∈ Finset.range k.n, at_ (g (params nn.layers) p) i) / k.n) (fun _ => 1)
    (fun i _ => by
      congr 1
      exact Finset.sum_congr rfl fun p hp => by rw [hG p (by simpa using hp)])
    (fun _ _ => one_pos) (by
      obtain ⟨i, hi, h⟩ := hne
      exact ⟨i, hi, div_ne_zero h hn0⟩)
  refine ⟨ε, hε, fun lr h1 h2 st0 shuffle metrics d m nest addr st s r q h0 hd ha hnew hms => ?_⟩
  obtain ⟨orders, st', s', q', k1, k2, k3, -⟩ := C32_history env c loss nn hw ms rest r (fun _ => g) st0 h0 shuffle bs metrics lr d m
    nest addr ha st s hnew hms [k] (by simpa using hok) (by simpa using hg) (totalBatches_single hn hbs) q
  refine ⟨st', s', q', k2, ?_⟩
  have hwl := k3.opt.wlen
  have hnn' := k3.opt.nn
  set w' := (List.foldl (Spec.sgdStep m d nest) ⟨params nn.layers, List.replicate (nParams nn.layers) 0, lr, 0⟩
    (historyGrads (nParams nn.layers) bs.toNat (fun _ => g) orders [k])).w with hw'
  have hp' : params s'.opt.nn.layers = w' := by rw [hnn', setParams_params _ _ hwl]
  rw [hnn']
  refine lowers_of_mean env c loss metric k nn w' hT hwl (h lr h1 h2 w' hwl fun i hi => ?_)
  rw [one_mul]
  rcases le_or_gt m 0 with hm | hm
  · obtain ⟨b, W, st1, s1, q1, e1, e2, e3, e4, e5, -⟩ := C31_history env c loss nn hw ms rest r (fun _ => g) st0 h0 shuffle bs
      metrics lr d m hm hd nest addr ha st s hnew hms [k] (by simpa using hok) (by simpa using hg) (totalBatches_single hn hbs) q
    rw [k2] at e2
    cases e2
    obtain ⟨o, ho, rfl⟩ := history_single e1 hn hbs
    have := e5 0 (by simp) i hi
    simp only [List.length_singleton] at e4
    rw [← hp', e4, this, e3, lrAfter_one]
    simp only [List.getElem_cons_zero]
    rw [batchMean_perm _ ho]
  · obtain ⟨b, W, V, st1, s1, q1, e1, e2, e3, e3', e4, e4', e5⟩ := C32_steps env c loss nn hw ms rest r (fun _ => g) st0 h0 shuffle
      bs metrics lr d m hm hd nest addr ha st s hnew hms [k] (by simpa using hok) (by simpa using hg)
      (totalBatches_single hn hbs) q
    rw [k2] at e2
    cases e2
    obtain ⟨o, ho, rfl⟩ := history_single e1 hn hbs
    obtain ⟨f1, f2⟩ := e5 0 (by simp) i hi
    simp only [List.length_singleton] at e4
    have hz : (if nest then vadd (W 0) (vscale m (V 0)) else W 0) = params nn.layers := by
      rw [e3, e3', vadd_zero_vec _ _ _ hpl]; split <;> rfl
    rw [hz, lrAfter_one, e3'] at f1
    simp only [List.getElem_cons_zero] at f1
    rw [batchMean_perm _ ho] at f1
    rw [← hp', e4, f2, f1, e3]
    have : at_ (List.replicate (nParams nn.layers) (0:ℝ)) i = 0 := by simp [at_, List.getD, List.getElem?_replicate, hi]
    rw [this]
    ring

/-- **C66** Adagrad. -/
theorem C66_adagrad : ∃ ε > 0, ∀ lr, 0 < lr → lr < ε →
    ∀ (st0 : Statics ℝ) (shuffle : Bool) (metrics : Option (List (Option Metric))) (d : ℝ)
      (addr : ℕ) (st : Statics ℝ) (s : Adagrad ℝ) (r : ℕ → ℕ) (q : ℕ), st0.nSample = 0 → 0 ≤ d → addr % c.alignSize = 0 →
    newAdagrad st0 nn shuffle bs metrics lr d (some addr) = .ok (st, s) → MetricsAre ms rest s.opt.metrics st.metric →
    ∃ st' s' q', runCalls (fun k => adagradKind env c k.mem k.fuel k.n k.X k.Y) env c r [k] (st, s, q) = .ok (st', s', q') ∧
      Lowers env c metric k nn s'.opt.nn := by
  have hT := hok.train
  have hw := hT.wf
  have hpl := params_length c _ hw.layer
  have hn := hok.pos
  have hG : ∀ p < k.n, g (params nn.layers) p = sampleGrad env c loss k.X k.Y nn p := by
    intro p hp
    rw [← hg.unique hT hpl hp, setParams_self c nn hw]
  have hn0 : (k.n : ℝ) ≠ 0 := by positivity
  obtain ⟨ε, hε, h⟩ := mean_decrease env c recs nn0 nn name loss metric hmet k.X k.Y k.n hn hnn hw0 hname hT
    (fun p hp => (hdiff p hp).1) (fun hl p hp => (hdiff p hp).2 hl)
    (fun i => (∑ p ∈ Finset.range k.n, at_ (g (params nn.layers) p) i) / k.n) (fun i => 1 / (1 / 10000000 + Real.sqrt (((∑ p ∈ Finset.range k.n, at_ (g (params nn.layers) p) i) / k.n) ^ 2)))
    (fun i _ => by
      congr 1
      exact Finset.sum_congr rfl fun p hp => by rw [hG p (by simpa using hp)])
    (fun _ _ => by positivity) (by
      obtain ⟨i, hi, h⟩ := hne
      exact ⟨i, hi, div_ne_zero h hn0⟩)
  refine ⟨ε, hε, fun lr h1 h2 st0 shuffle metrics d addr st s r q h0 hd ha hnew hms => ?_⟩
  obtain ⟨orders, st', s', q', k1, k2, k3, -⟩ := C36_adagrad_history env c loss nn hw ms rest r (fun _ => g) st0 h0 shuffle bs metrics
    lr d addr ha st s hnew hms [k] (by simpa using hok) (by simpa using hg) (totalBatches_single hn hbs) q
  refine ⟨st', s', q', k2, ?_⟩
  have hwl := k3.opt.wlen
  have hnn' := k3.opt.nn
  set w' := (List.foldl (Spec.adagradStep d) ⟨params nn.layers, List.replicate (nParams nn.layers) 0, lr, 0⟩
    (historyGrads (nParams nn.layers) bs.toNat (fun _ => g) orders [k])).w with hw'
  have hp' : params s'.opt.nn.layers = w' := by rw [hnn', setParams_params _ _ hwl]
  rw [hnn']
  refine lowers_of_mean env c loss metric k nn w' hT hwl (h lr h1 h2 w' hwl fun i hi => ?_)
  obtain ⟨b, W, R, st1, s1, q1, e1, e2, e3, e3', e4, -, e5⟩ := C36_adagrad_steps env c loss nn hw ms rest r (fun _ => g) st0 h0
    shuffle bs metrics lr d hd addr ha st s hnew hms [k] (by simpa using hok) (by simpa using hg) (totalBatches_single hn hbs) q
  rw [k2] at e2
  cases e2
  obtain ⟨o, ho, rfl⟩ := history_single e1 hn hbs
  obtain ⟨f1, f2, -⟩ := e5 0 (by simp) i hi
  simp only [List.length_singleton] at e4
  have hzero : at_ (List.replicate (nParams nn.layers) (0:ℝ)) i = 0 := by simp [at_, List.getD, List.getElem?_replicate, hi]
  simp only [List.getElem_cons_zero] at f1 f2
  rw [e3', hzero, zero_add, batchMean_perm _ ho, e3] at f1
  rw [f1, lrAfter_one, batchMean_perm _ ho, e3] at f2
  rw [← hp', e4, f2]
  ring_nf

/-- **C66** RMSprop, with or without momentum of either kind. -/
theorem C66_rmsprop (rho : ℝ) : ∃ ε > 0, ∀ lr, 0 < lr → lr < ε →
    ∀ (st0 : Statics ℝ) (shuffle : Bool) (metrics : Option (List (Option Metric))) (d m : ℝ) (nest : Bool)
      (addr addr' : ℕ) (st : Statics ℝ) (s : RmsProp ℝ) (r : ℕ → ℕ) (q : ℕ), st0.nSample = 0 → 0 ≤ d → addr % c.alignSize = 0 →
    addr' % c.alignSize = 0 → newRmsProp st0 nn shuffle bs metrics lr d rho m nest (some addr) (some addr') = .ok (st, s) →
    MetricsAre ms rest s.opt.metrics st.metric →
    ∃ st' s' q', runCalls (fun k => rmspropKind env c k.mem k.fuel k.n k.X k.Y) env c r [k] (st, s, q) = .ok (st', s', q') ∧
      Lowers env c metric k nn s'.opt.nn := by
  have hT := hok.train
  have hw := hT.wf
  have hpl := params_length c _ hw.layer
  have hn := hok.pos
  have hG : ∀ p < k.n, g (params nn.layers) p = sampleGrad env c loss k.X k.Y nn p := by
    intro p hp
    rw [← hg.unique hT hpl hp, setParams_self c nn hw]
  have hn0 : (k.n : ℝ) ≠ 0 := by positivity
  obtain ⟨ε, hε, h⟩ := mean_decrease env c recs nn0 nn name loss metric hmet k.X k.Y k.n hn hnn hw0 hname hT
    (fun p hp => (hdiff p hp).1) (fun hl p hp => (hdiff p hp).2 hl)
    (fun i => (∑ p ∈ Finset.range k.n, at_ (g (params nn.layers) p) i) / k.n) (fun i => 1 / (1 / 10000000 + Real.sqrt ((1 - rho) * ((∑ p ∈ Finset.range k.n, at_ (g (params nn.layers) p) i) / k.n) ^ 2)))
    (fun i _ => by
      congr 1
      exact Finset.sum_congr rfl fun p hp => by rw [hG p (by simpa using hp)])
    (fun _ _ => by positivity) (by
      obtain ⟨i, hi, h⟩ := hne
      exact ⟨i, hi, div_ne_zero h hn0⟩)
  refine ⟨ε, hε, fun lr h1 h2 st0 shuffle metrics d m nest addr addr' st s r q h0 hd ha ha' hnew hms => ?_⟩
  obtain ⟨orders, st', s', q', k1, k2, k3, -⟩ := C36_rmsprop_history env c loss nn hw ms rest r (fun _ => g) st0 h0 shuffle bs metrics
    lr d rho m nest addr addr' ha ha' st s hnew hms [k] (by simpa using hok) (by simpa using hg) (totalBatches_single hn hbs) q
  refine ⟨st', s', q', k2, ?_⟩
  have hwl := k3.opt.wlen
  have hnn' := k3.opt.nn
  set w' := (List.foldl (Spec.rmspropStep rho m d nest) ⟨params nn.layers, List.replicate (nParams nn.layers) 0,
    List.replicate (nParams nn.layers) 0, lr, 0⟩ (historyGrads (nParams nn.layers) bs.toNat (fun _ => g) orders [k])).w with hw'
  have hp' : params s'.opt.nn.layers = w' := by rw [hnn', setParams_params _ _ hwl]
  rw [hnn']
  refine lowers_of_mean env c loss metric k nn w' hT hwl (h lr h1 h2 w' hwl fun i hi => ?_)
  obtain ⟨b, W, V, R, st1, s1, q1, e1, e2, e3, eV, eR, e4, -, -, e5⟩ := C36_rmsprop_steps env c loss nn hw ms rest r (fun _ => g) st0
    h0 shuffle bs metrics lr d rho m hd nest addr addr' ha ha' st s hnew hms [k] (by simpa using hok) (by simpa using hg)
    (totalBatches_single hn hbs) q
  rw [k2] at e2
  cases e2
  obtain ⟨o, ho, rfl⟩ := history_single e1 hn hbs
  obtain ⟨f1, f2, f3⟩ := e5 0 (by simp) i hi
  simp only [List.length_singleton] at e4
  have hzero : at_ (List.replicate (nParams nn.layers) (0:ℝ)) i = 0 := by simp [at_, List.getD, List.getElem?_replicate, hi]
  have hz : (if 0 < m ∧ nest = true then vadd (W 0) (vscale m (V 0)) else W 0) = params nn.layers := by
    rw [e3, eV, vadd_zero_vec _ _ _ hpl]; split <;> rfl
  simp only [zero_add, List.getElem_cons_zero, hz, batchMean_perm _ ho, lrAfter_one] at f1 f2 f3
  rw [eR, hzero, mul_zero, zero_add] at f1
  rw [f1] at f2 f3
  rw [← hp', e4]
  rcases le_or_gt m 0 with hm | hm
  · rw [f2 hm, e3]; ring
  · rw [(f3 hm).2, (f3 hm).1, eV, hzero, e3]; ring

/-- **C66** Adam without weight decay, the first one of a process. -/
theorem C66_adam (b1 b2 : ℝ) (hb1 : b1 < 1) : ∃ ε > 0, ∀ lr, 0 < lr → lr < ε →
    ∀ (st0 : Statics ℝ) (shuffle : Bool) (metrics : Option (List (Option Metric))) (wd : ℝ)
      (addr addr' : ℕ) (st : Statics ℝ) (s : Adam ℝ) (r : ℕ → ℕ) (q : ℕ), st0.nSample = 0 → st0.beta1 = 1 → st0.beta2 = 1 →
    wd ≤ 0 → addr % c.alignSize = 0 → addr' % c.alignSize = 0 →
    newAdam st0 nn shuffle bs metrics lr b1 b2 wd (some addr) (some addr') = .ok (st, s) →
    MetricsAre ms rest s.opt.metrics st.metric →
    ∃ st' s' q', runCalls (fun k => adamKind env c k.mem k.fuel k.n k.X k.Y) env c r [k] (st, s, q) = .ok (st', s', q') ∧
      Lowers env c metric k nn s'.opt.nn := by
  have hT := hok.train
  have hw := hT.wf
  have hpl := params_length c _ hw.layer
  have hn := hok.pos
  have hG : ∀ p < k.n, g (params nn.layers) p = sampleGrad env c loss k.X k.Y nn p := by
    intro p hp
    rw [← hg.unique hT hpl hp, setParams_self c nn hw]
  have hn0 : (k.n : ℝ) ≠ 0 := by positivity
  obtain ⟨ε, hε, h⟩ := mean_decrease env c recs nn0 nn name loss metric hmet k.X k.Y k.n hn hnn hw0 hname hT
    (fun p hp => (hdiff p hp).1) (fun hl p hp => (hdiff p hp).2 hl)
    (fun i => (∑ p ∈ Finset.range k.n, at_ (g (params nn.layers) p) i) / k.n) (fun i => 1 / (Real.sqrt ((1 - b2) * ((∑ p ∈ Finset.range k.n, at_ (g (params nn.layers) p) i) / k.n) ^ 2 / (1 - b2)) + 1 / 100000000))
    (fun i _ => by
      congr 1
      exact Finset.sum_congr rfl fun p hp => by rw [hG p (by simpa using hp)])
    (fun _ _ => by positivity) (by
      obtain ⟨i, hi, h⟩ := hne
      exact ⟨i, hi, div_ne_zero h hn0⟩)
  refine ⟨ε, hε, fun lr h1 h2 st0 shuffle metrics wd addr addr' st s r q h0 hs1 hs2 hwd ha ha' hnew hms => ?_⟩
  obtain ⟨orders, st', s', q', k1, k2, k3, -⟩ := C34_history env c loss nn hw ms rest r (fun _ => g) st0 h0 hs1 hs2 shuffle bs metrics
    lr b1 b2 wd addr addr' ha ha' st s hnew hms [k] (by simpa using hok) (by simpa using hg) q
  refine ⟨st', s', q', k2, ?_⟩
  have hwl := k3.opt.wlen
  have hnn' := k3.opt.nn
  set w' := (List.foldl (Spec.adamStep lr b1 b2 wd) ⟨params nn.layers, List.replicate (nParams nn.layers) 0,
    List.replicate (nParams nn.layers) 0, 0⟩ (historyGrads (nParams nn.layers) bs.toNat (fun _ => g) orders [k])).w with hw'
  have hp' : params s'.opt.nn.layers = w' := by rw [hnn', setParams_params _ _ hwl]
  rw [hnn']
  refine lowers_of_mean env c loss metric k nn w' hT hwl (h lr h1 h2 w' hwl fun i hi => ?_)
  obtain ⟨b, W, M, V, st1, s1, q1, e1, e2, e3, e4, -, -, eM, e5⟩ := C34_steps env c loss nn hw ms rest r (fun _ => g) st0 h0 hs1 hs2
    shuffle bs metrics lr b1 b2 wd addr addr' ha ha' st s hnew hms [k] (by simpa using hok) (by simpa using hg) q
  rw [k2] at e2
  cases e2
  obtain ⟨o, ho, rfl⟩ := history_single e1 hn hbs
  obtain ⟨f1, f2⟩ := eM 1 (by simp) i hi
  have f3 := e5 0 (by simp) i hi
  simp only [List.length_singleton] at e4
  simp only [Finset.univ_unique, Fin.default_eq_zero, Finset.sum_singleton, Fin.val_zero, List.getElem?_cons_zero, Option.elim_some,
    e3, batchMean_perm _ ho, Nat.sub_zero, Nat.sub_self, pow_zero, one_mul] at f1 f2
  rw [zero_add, pow_one, pow_one, f1, f2, if_neg (not_lt.mpr hwd), sub_zero, e3] at f3
  have hb : (1 - b1) ≠ 0 := by linarith
  rw [mul_div_cancel_left₀ _ hb] at f3
  rw [← hp', e4, f3]
  ring

omit hw0 hname hnn hmet hdiff hne in
/-- **C66** The other case: where the mean gradient is zero, SGD leaves the network as it is, whatever the learning rate. -/
theorem C66_stationary (hz : ∀ i < nParams nn.layers, ∑ p ∈ Finset.range k.n, at_ (g (params nn.layers) p) i = 0)
    (st0 : Statics ℝ) (shuffle : Bool) (metrics : Option (List (Option Metric))) (lr d m : ℝ) (nest : Bool)
    (addr : ℕ) (st : Statics ℝ) (s : Sgd ℝ) (r : ℕ → ℕ) (q : ℕ) (h0 : st0.nSample = 0) (hd : 0 ≤ d) (ha : addr % c.alignSize = 0)
    (hnew : newSgd st0 nn shuffle bs metrics lr d m nest (some addr) = .ok (st, s))
    (hms : MetricsAre ms rest s.opt.metrics st.metric) :
    ∃ st' s' q', runCalls (fun k => sgdKind env c k.mem k.fuel k.n k.X k.Y) env c r [k] (st, s, q) = .ok (st', s', q') ∧
      s'.opt.nn = nn := by
  have hT := hok.train
  have hw := hT.wf
  have hpl := params_length c _ hw.layer
  have hn := hok.pos
  obtain ⟨orders, st', s', q', k1, k2, k3, -⟩ := C32_history env c loss nn hw ms rest r (fun _ => g) st0 h0 shuffle bs metrics lr d m
    nest addr ha st s hnew hms [k] (by simpa using hok) (by simpa using hg) (totalBatches_single hn hbs) q
  refine ⟨st', s', q', k2, ?_⟩
  have hwl := k3.opt.wlen
  have hnn' := k3.opt.nn
  set w' := (List.foldl (Spec.sgdStep m d nest) ⟨params nn.layers, List.replicate (nParams nn.layers) 0, lr, 0⟩
    (historyGrads (nParams nn.layers) bs.toNat (fun _ => g) orders [k])).w with hw'
  have hp' : params s'.opt.nn.layers = w' := by rw [hnn', setParams_params _ _ hwl]
  suffices hs : w' = params nn.layers by rw [hnn', hs, setParams_self c nn hw]
  apply List.ext_getElem (by rw [hwl, hpl])
  intro i hi1 hi2
  have hi : i < nParams nn.layers := by omega
  rw [← at_eq hi1, ← at_eq hi2, ← hp']
  rcases le_or_gt m 0 with hm | hm
  · obtain ⟨b, W, st1, s1, q1, e1, e2, e3, e4, e5, -⟩ := C31_history env c loss nn hw ms rest r (fun _ => g) st0 h0 shuffle bs
      metrics lr d m hm hd nest addr ha st s hnew hms [k] (by simpa using hok) (by simpa using hg) (totalBatches_single hn hbs) q
    rw [k2] at e2
    cases e2
    obtain ⟨o, ho, rfl⟩ := history_single e1 hn hbs
    have := e5 0 (by simp) i hi
    simp only [List.length_singleton] at e4
    rw [e4, this, e3]
    simp only [List.getElem_cons_zero]
    rw [batchMean_perm _ ho, hz i hi]
    simp
  · obtain ⟨b, W, V, st1, s1, q1, e1, e2, e3, e3', e4, e4', e5⟩ := C32_steps env c loss nn hw ms rest r (fun _ => g) st0 h0 shuffle
      bs metrics lr d m hm hd nest addr ha st s hnew hms [k] (by simpa using hok) (by simpa using hg)
      (totalBatches_single hn hbs) q
    rw [k2] at e2
    cases e2
    obtain ⟨o, ho, rfl⟩ := history_single e1 hn hbs
    obtain ⟨f1, f2⟩ := e5 0 (by simp) i hi
    simp only [List.length_singleton] at e4
    have hz' : (if nest then vadd (W 0) (vscale m (V 0)) else W 0) = params nn.layers := by
      rw [e3, e3', vadd_zero_vec _ _ _ hpl]; split <;> rfl
    rw [hz', e3'] at f1
    simp only [List.getElem_cons_zero] at f1
    rw [batchMean_perm _ ho, hz i hi] at f1
    rw [e4, f2, f1, e3]
    have : at_ (List.replicate (nParams nn.layers) (0:ℝ)) i = 0 := by simp [at_, List.getD, List.getElem?_replicate, hi]
    rw [this]
    simp

end

/-! ### Example -/

/-- The example network on one sample, in a batch of at most 2. -/
def exCall1 (c : Cfg) (jk : ℕ → ℝ) : Call :=
  ⟨1, ⟨20, [1, 2]⟩, ⟨52, [27]⟩, 0, none, ⟨200, [7]⟩,
    fun i => ⟨.thread (List.range (batchLen 1 2 i)), fun _ => ⟨4096, jk, 8192, jk, 12⟩, 16384, jk, if c.avx then 16 else 0, 32768, jk⟩,
    1, fun _ => ⟨4096, jk, 8192, jk⟩, fun _ => ⟨4096, jk, 8192, jk⟩, .thread [0], .thread []⟩

theorem exCall1_ok (c : Cfg) (jk : ℕ → ℝ) : (exCall1 c jk).OK c .mse exTrain 2 [.mse] := by
  have hT := exTrainable c
  refine ⟨by simp [exCall1], ⟨hT.wf, hT.loss_eq, hT.deriv, hT.aligned, by simp [exCall1], ?_, ?_, ?_, ?_⟩, ?_, by simp [exCall1],
    fun i => ⟨align64 c 4096 rfl, align64 c 8192 rfl⟩, List.Perm.refl _, by simp [exCall1], ?_⟩
  · rw [exTrain_eq]; simp [Net.nInput, exCall1]
  · rw [exTrain_eq]; simp [Net.nOutput, exCall1]
  · rw [exTrain_eq]; simp [Net.nInput, exCall1]
  · rw [exTrain_eq]; simp [Net.nOutput, exCall1]
  · intro i
    refine ⟨List.Perm.refl _, fun _ => align64 c 4096 rfl, fun _ => align64 c 8192 rfl, align64 c 16384 rfl, align64 c 32768 rfl, ?_⟩
    simp only [exCall1, nParamPadding]
    split <;> simp [*]
  · intro nV vX vY h
    simp [Call.validation, exCall1] at h

theorem exCall1_smooth (c : Cfg) (jk : ℕ → ℝ) : SmoothAt (noCustom ℝ) .mse exTrain (exCall1 c jk) := by
  intro p hp
  simp only [exCall1, Nat.lt_one_iff] at hp
  subst hp
  refine ⟨?_, by simp⟩
  rw [exTrain_eq]
  simp only [Regular, Net.nInput, OutputRegular, textbook, Smooth, exCall1]
  refine ⟨⟨by simp, ?_⟩, _, rfl, fun _ _ => trivial⟩
  intro k hk
  simp [affine, slice]
  interval_cases k <;> simp [at_, Finset.sum_range_succ] <;> norm_num

/-- The gradient of the last bias is 2: the prediction is 28, the target 27. -/
theorem exCall1_grad (c : Cfg) (jk : ℕ → ℝ) :
    at_ (sampleGrad (noCustom ℝ) c .mse (exCall1 c jk).X (exCall1 c jk).Y exTrain 0) 9 = 2 := by
  have hT := (exCall1_ok c jk).train
  have h := sample_hasDeriv (noCustom ℝ) c [] exNet exTrain "mean_squared_error" .mse _ _ _ 0 rfl (exNet_wf c) (by decide) hT
    (by simp [exCall1]) (exCall1_smooth c jk 0 (by simp [exCall1])).1 [0, 0, 0, 0, 0, 0, 0, 0, 0, 1, 0, 0, 0]
    (by rw [exTrain_eq]; simp [nParams])
  have e : (fun t => objective .mse exTrain.nOutput (linePred (noCustom ℝ) exTrain (exCall1 c jk).X
      [0, 0, 0, 0, 0, 0, 0, 0, 0, 1, 0, 0, 0] 0 t) (slice (exCall1 c jk).Y.data (0 * exTrain.nOutput) exTrain.nOutput)) =
      fun t : ℝ => (1 + t) ^ 2 := by
    funext t
    rw [exTrain_eq]
    simp [objective, linePred, shift, Spec.network, Layer.toSpec, Spec.Layer.apply, affine, actSpec, exCall1, Net.nInput,
      Net.nOutput, slice, Spec.mse, Finset.sum_range_succ, at_, List.range_succ, Spec.relu]
    norm_num
    ring
  rw [e] at h
  have h2 : HasDerivAt (fun t : ℝ => (1 + t) ^ 2) 2 0 := by
    have := ((hasDerivAt_id (0:ℝ)).const_add 1).fun_pow 2
    simpa using this
  have := h.unique h2
  rw [← this, exTrain_eq]
  simp [nParams, dot, Finset.sum_range_succ, at_]

/-- All hypotheses are met by the example network on the sample `(1, 2) -> 27`. -/
example (c : Cfg) (jk : ℕ → ℝ) (r : ℕ → ℕ) (q : ℕ) : ∃ ε > 0, ∀ lr, 0 < lr → lr < ε →
    ∃ (st : Statics ℝ) (s : Sgd ℝ) (st' : Statics ℝ) (s' : Sgd ℝ) (q' : ℕ),
      newSgd Statics.initial exTrain true 2 none lr 0 (9 / 10) true (some 640) = .ok (st, s) ∧
      runCalls (fun k => sgdKind (noCustom ℝ) c k.mem k.fuel k.n k.X k.Y) (noCustom ℝ) c r [exCall1 c jk] (st, s, q) =
        .ok (st', s', q') ∧
      Lowers (noCustom ℝ) c .mse (exCall1 c jk) exTrain s'.opt.nn := by
  have hT := (exCall1_ok c jk).train
  obtain ⟨ε, hε, h⟩ := C66_sgd (noCustom ℝ) c [] exNet exTrain "mean_squared_error" .mse .mse (exNet_wf c) (by decide) rfl
    (by decide) (exCall1 c jk) 2 (by simp [exCall1]) [.mse] [] (exCall1_ok c jk) (exCall1_smooth c jk) _
    (sampleGrads_sampleGrad _ _ .mse _ _ _ _ hT) ⟨9, by rw [exTrain_eq]; simp [nParams], by
      rw [setParams_self c _ hT.wf, show (exCall1 c jk).n = 1 from rfl, Finset.sum_range_one, exCall1_grad]
      norm_num⟩
  refine ⟨ε, hε, fun lr h1 h2 => ?_⟩
  have hnew : newSgd Statics.initial exTrain true 2 none lr 0 (9 / 10) true (some 640) =
      .ok (⟨0, some .mse, 1, 1⟩, ⟨⟨exTrain, true, 2, .static, none⟩, lr, 0, 9 / 10, true, 0,
        ⟨640, List.replicate (nParams exTrain.layers) 0⟩⟩) := by
    have : getMetricFunc (getLossName (some Loss.mse)) = some .mse := by decide
    simp [newSgd, zeroVec, newOpt, hT.loss_eq, bind, Except.bind, pure, Except.pure, Statics.initial, this]
  obtain ⟨st', s', q', e1, e2⟩ := h lr h1 h2 Statics.initial true none 0 (9 / 10) true 640 _ _ r q rfl le_rfl (align64 c 640 rfl)
    hnew rfl
  exact ⟨_, _, st', s', q', hnew, e1, e2⟩

/-! ### The bound is needed -/

/-- One input, one output, weight and bias 1, linear. -/
def tinyNet : Net ℝ := ⟨[⟨1, 1, ⟨64, [1]⟩, ⟨128, [1]⟩, .linear, none⟩], none⟩

noncomputable def tinyTrain : Net ℝ := setLoss [] tinyNet "mean_squared_error"

theorem tinyTrain_eq : tinyTrain = ⟨[⟨1, 1, ⟨64, [1]⟩, ⟨128, [1]⟩, .linear, some .linear⟩], some .mse⟩ := by
  have : getLossFunc "mean_squared_error" = some .mse := by decide
  simp [tinyTrain, setLoss, this, matchPair, tinyNet, resetDeriv, getActivationDerivative]

theorem tinyNet_wf (c : Cfg) : tinyNet.WF c := by
  refine ⟨by simp [tinyNet], fun l hl => ?_, trivial⟩
  simp [tinyNet] at hl; subst hl
  exact ⟨by simp, by simp, by simp, by simp, align64 c 64 rfl, align64 c 128 rfl⟩

/-- One sample: input 1, target 0. -/
def tinyCall (c : Cfg) (jk : ℕ → ℝ) : Call :=
  { exCall1 c jk with X := ⟨20, [1]⟩, Y := ⟨52, [0]⟩ }

theorem tinyCall_ok (c : Cfg) (jk : ℕ → ℝ) : (tinyCall c jk).OK c .mse tinyTrain 2 [.mse] := by
  have hw : tinyTrain.WF c := setLoss_wf [] c tinyNet _ (tinyNet_wf c)
  refine ⟨by simp [tinyCall, exCall1], ⟨hw, by rw [tinyTrain_eq], ?_, fun ga _ => ?_, by simp [tinyCall, exCall1], ?_, ?_, ?_, ?_⟩, ?_,
    by simp [tinyCall, exCall1], fun i => ⟨align64 c 4096 rfl, align64 c 8192 rfl⟩, List.Perm.refl _, by simp [tinyCall, exCall1], ?_⟩
  · rw [tinyTrain_eq]; simp
  · rw [tinyTrain_eq]; apply backAligned_of_small; simp
  · rw [tinyTrain_eq]; simp [Net.nInput, tinyCall, exCall1]
  · rw [tinyTrain_eq]; simp [Net.nOutput, tinyCall, exCall1]
  · rw [tinyTrain_eq]; simp [Net.nInput, tinyCall, exCall1]
  · rw [tinyTrain_eq]; simp [Net.nOutput, tinyCall, exCall1]
  · intro i
    refine ⟨List.Perm.refl _, fun _ => align64 c 4096 rfl, fun _ => align64 c 8192 rfl, align64 c 16384 rfl, align64 c 32768 rfl, ?_⟩
    simp only [tinyCall, exCall1, nParamPadding]
    split <;> simp [*]
  · intro nV vX vY h
    simp [Call.validation, tinyCall, exCall1] at h

theorem tinyCall_smooth (c : Cfg) (jk : ℕ → ℝ) : SmoothAt (noCustom ℝ) .mse tinyTrain (tinyCall c jk) := by
  intro p hp
  refine ⟨?_, by simp⟩
  rw [tinyTrain_eq]
  exact ⟨_, rfl, fun _ _ => trivial⟩

theorem tinyCall_grad (c : Cfg) (jk : ℕ → ℝ) (i : ℕ) (hi : i < 2) :
    at_ (sampleGrad (noCustom ℝ) c .mse (tinyCall c jk).X (tinyCall c jk).Y tinyTrain 0) i = 4 := by
  have hT := (tinyCall_ok c jk).train
  have h := fun d hd => sample_hasDeriv (noCustom ℝ) c [] tinyNet tinyTrain "mean_squared_error" .mse _ _ _ 0 rfl (tinyNet_wf c)
    (by decide) hT (by simp [tinyCall, exCall1]) (tinyCall_smooth c jk 0 (by simp [tinyCall, exCall1])).1 d hd
  have e : ∀ a b : ℝ, (fun t => objective .mse tinyTrain.nOutput (linePred (noCustom ℝ) tinyTrain (tinyCall c jk).X
      [a, b] 0 t) (slice (tinyCall c jk).Y.data (0 * tinyTrain.nOutput) tinyTrain.nOutput)) =
      fun t : ℝ => (2 + t * (a + b)) ^ 2 := by
    intro a b
    funext t
    rw [tinyTrain_eq]
    simp [objective, linePred, shift, Spec.network, Layer.toSpec, Spec.Layer.apply, affine, actSpec, tinyCall, exCall1, Net.nInput,
      Net.nOutput, slice, Spec.mse, Finset.sum_range_succ, at_, List.range_succ]
    ring
  have h2 : ∀ a : ℝ, HasDerivAt (fun t : ℝ => (2 + t * a) ^ 2) (4 * a) 0 := by
    intro a
    have := (((hasDerivAt_id (0:ℝ)).mul_const a).const_add 2).fun_pow 2
    refine HasDerivAt.congr_deriv this ?_
    simp only [id]; push_cast; ring
  have hk : nParams tinyTrain.layers = 2 := by rw [tinyTrain_eq]; simp [nParams]
  interval_cases i
  · have := h [1, 0] (by rw [hk]; rfl)
    rw [e] at this
    have := this.unique (h2 _)
    rw [hk] at this
    simp [dot, Finset.sum_range_succ, at_] at this
    simpa [at_] using this
  · have := h [0, 1] (by rw [hk]; rfl)
    rw [e] at this
    have := this.unique (h2 _)
    rw [hk] at this
    simp [dot, Finset.sum_range_succ, at_] at this
    simpa [at_] using this

/-- **C66** The bound on the learning rate cannot be dropped: with rate 1 the first epoch takes the loss of this network from 4 to
36. -/
theorem C66_large_rate (c : Cfg) (jk : ℕ → ℝ) (r : ℕ → ℕ) (q : ℕ) :
    ∃ (st : Statics ℝ) (s : Sgd ℝ) (st' : Statics ℝ) (s' : Sgd ℝ) (q' : ℕ),
      newSgd Statics.initial tinyTrain true 2 none 1 0 0 false (some 640) = .ok (st, s) ∧
      runCalls (fun k => sgdKind (noCustom ℝ) c k.mem k.fuel k.n k.X k.Y) (noCustom ℝ) c r [tinyCall c jk] (st, s, q) =
        .ok (st', s', q') ∧
      evaluate (noCustom ℝ) c (tinyCall c jk).evalMem (.thread [0]) tinyTrain 1 ⟨20, [1]⟩ ⟨52, [0]⟩ [some .mse, none] ⟨0, [7]⟩ =
        .ok ⟨0, [4]⟩ ∧
      evaluate (noCustom ℝ) c (tinyCall c jk).evalMem (.thread [0]) s'.opt.nn 1 ⟨20, [1]⟩ ⟨52, [0]⟩ [some .mse, none] ⟨0, [7]⟩ =
        .ok ⟨0, [36]⟩ := by
  have hok := tinyCall_ok c jk
  have hT := hok.train
  have hw := hT.wf
  have hk : nParams tinyTrain.layers = 2 := by rw [tinyTrain_eq]; simp [nParams]
  have hnew : newSgd Statics.initial tinyTrain true 2 none 1 0 0 false (some 640) =
      .ok (⟨0, some .mse, 1, 1⟩, ⟨⟨tinyTrain, true, 2, .static, none⟩, 1, 0, 0, false, 0,
        ⟨640, List.replicate (nParams tinyTrain.layers) 0⟩⟩) := by
    have : getMetricFunc (getLossName (some Loss.mse)) = some .mse := by decide
    simp [newSgd, zeroVec, newOpt, hT.loss_eq, bind, Except.bind, pure, Except.pure, Statics.initial, this]
  have hg := sampleGrads_sampleGrad (noCustom ℝ) c .mse _ _ _ _ hT
  obtain ⟨orders, st', s', q', k1, k2, k3, -⟩ := C32_history (noCustom ℝ) c .mse tinyTrain hw [.mse] [] r (fun _ w p =>
    sampleGrad (noCustom ℝ) c .mse (tinyCall c jk).X (tinyCall c jk).Y (tinyTrain.setParams w) p) Statics.initial rfl true 2 none 1 0 0
    false 640 (align64 c 640 rfl) _ _ hnew rfl [tinyCall c jk] (by simpa using hok) (by simpa using hg)
    (totalBatches_single hok.pos (by simp [tinyCall, exCall1])) q
  obtain ⟨b, W, st1, s1, q1, e1, e2, e3, e4, e5, -⟩ := C31_history (noCustom ℝ) c .mse tinyTrain hw [.mse] [] r (fun _ w p =>
    sampleGrad (noCustom ℝ) c .mse (tinyCall c jk).X (tinyCall c jk).Y (tinyTrain.setParams w) p) Statics.initial rfl true 2 none 1 0 0
    le_rfl le_rfl false 640 (align64 c 640 rfl) _ _ hnew rfl [tinyCall c jk] (by simpa using hok) (by simpa using hg)
    (totalBatches_single hok.pos (by simp [tinyCall, exCall1])) q
  rw [k2] at e2
  cases e2
  obtain ⟨o, ho, rfl⟩ := history_single e1 hok.pos (by simp [tinyCall, exCall1])
  have hwl := k3.opt.wlen
  have hnn' := k3.opt.nn
  rw [hnn', setParams_params _ _ hwl] at e4
  simp only [List.length_singleton] at e4
  rw [e4] at hnn'
  have hp0 : params tinyTrain.layers = [1, 1] := by rw [tinyTrain_eq]; simp [params]
  have hW : ∀ i < 2, at_ (W 1) i = -3 := by
    intro i hi
    have := e5 0 (by simp) i (by omega)
    simp only [List.getElem_cons_zero] at this
    rw [batchMean_perm _ ho, e3, setParams_self c _ hw, lrAfter_one, show (tinyCall c jk).n = 1 from rfl, Finset.sum_range_one,
      tinyCall_grad c jk i hi, hp0] at this
    rw [this]
    interval_cases i <;> norm_num [at_]
  have hW1 : W 1 = [-3, -3] := by
    have hl : (W 1).length = 2 := by rw [← e4, hwl, hk]
    apply List.ext_getElem (by simp [hl])
    intro i h1 h2
    rw [← at_eq h1, hW i (by omega)]
    have : i < 2 := by omega
    interval_cases i <;> rfl
  have hnew2 : s'.opt.nn = ⟨[⟨1, 1, ⟨64, [-3]⟩, ⟨128, [-3]⟩, .linear, some .linear⟩], some .mse⟩ := by
    rw [hnn', hW1, tinyTrain_eq]; simp [Net.setParams, withParams]
  have hT2 := hT.setParams (W 1) (by rw [hW1, hk]; rfl)
  rw [← hnn'] at hT2
  refine ⟨_, _, st', s', q', hnew, k2, ?_, ?_⟩
  · have := C24_mean (noCustom ℝ) c (tinyCall c jk).evalMem (.thread [0]) tinyTrain 1 (List.Perm.refl _) ⟨20, [1]⟩ ⟨52, [0]⟩ [.mse] []
      ⟨0, [7]⟩ hw hok.evalMem (by rw [tinyTrain_eq]; simp [Net.nInput]) (by rw [tinyTrain_eq]; simp [Net.nOutput]) (by simp)
    simp only [List.map_cons, List.map_nil, List.cons_append, List.nil_append] at this
    rw [this, tinyTrain_eq]
    simp [metricSpec, Spec.network, Layer.toSpec, Spec.Layer.apply, affine, actSpec, Net.nInput,
      Net.nOutput, slice, Spec.mse, Finset.sum_range_succ, at_, List.range_succ]
    norm_num
  · have := C24_mean (noCustom ℝ) c (tinyCall c jk).evalMem (.thread [0]) s'.opt.nn 1 (List.Perm.refl _) ⟨20, [1]⟩ ⟨52, [0]⟩ [.mse] []
      ⟨0, [7]⟩ hT2.wf hok.evalMem (by rw [hnew2]; simp [Net.nInput]) (by rw [hnew2]; simp [Net.nOutput]) (by simp)
    simp only [List.map_cons, List.map_nil, List.cons_append, List.nil_append] at this
    rw [this, hnew2]
    simp [metricSpec, Spec.network, Layer.toSpec, Spec.Layer.apply, affine, actSpec, Net.nInput,
      Net.nOutput, slice, Spec.mse, Finset.sum_range_succ, at_, List.range_succ]
    norm_num

end NN
