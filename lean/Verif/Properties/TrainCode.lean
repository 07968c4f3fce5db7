import Verif.Properties.RunEpoch
import Verif.Properties.Shuffle
/-
C25, C28, C31-C34, C36: what a sequence of calls of `optimizer_run_epoch` does to the parameters, step by step.

`b t` is batch number `t`, counted over all epochs, as a list of sample numbers; `W t` are the parameters before it.
-/
set_option linter.unusedSimpArgs false

namespace NN
open FloatOps Spec

/-! ### Specification -/

/-- The batches of an epoch over `n` samples: `ceil(n/bs)` batches of `bs` samples (the last one may be smaller, not
empty), and every sample in exactly one place. -/
structure EpochBatches (n bs : ℕ) (bss : List (List ℕ)) : Prop where
  count : bss.length = (n + bs - 1) / bs
  full : ∀ (j : ℕ) (b : List ℕ), bss[j]? = some b → j + 1 < bss.length → b.length = bs
  last : ∀ b, bss.getLast? = some b → 1 ≤ b.length ∧ b.length ≤ bs
  once : ∀ p, bss.flatten.count p = if p < n then 1 else 0

/-- The mean over the batch `b` of the gradients `g p`, component `i`. -/
noncomputable def batchMean (g : ℕ → List ℝ) (b : List ℕ) (i : ℕ) : ℝ := (b.map fun p => at_ (g p) i).sum / b.length

/-- The batches of a history of calls, each with the call it belongs to. -/
structure HistoryBatches (bs : ℕ) (calls : List Call) (bss : List (Call × List ℕ)) : Prop where
  split : ∃ parts : List (List (List ℕ)), List.Forall₂ (fun (k : Call) p => EpochBatches k.n bs p) calls parts ∧
    bss = (List.zipWith (fun k p => p.map fun b => (k, b)) calls parts).flatten

/-! ### Proof -/

theorem epochBatches_batches {n bs : ℕ} (hbs : 1 ≤ bs) {o : List ℕ} (h : o.Perm (List.range n)) :
    EpochBatches n bs (batches bs o) := by
  have hlen : o.length = n := by simpa using h.length_eq
  obtain ⟨h1, h2⟩ := batches_sizes bs n hbs o hlen
  refine ⟨h1, ?_, ?_, (batches_partition bs n hbs o h).2⟩
  · intro j b hb hj
    obtain ⟨hj', rfl⟩ := List.getElem?_eq_some_iff.1 hb
    exact (h2 j hj').1 hj
  · intro b hb
    rw [List.getLast?_eq_getElem?] at hb
    obtain ⟨hj, rfl⟩ := List.getElem?_eq_some_iff.1 hb
    obtain ⟨e1, e2, e3⟩ := (h2 _ hj).2 (by omega)
    rw [e1]; exact ⟨e2, e3⟩

/-- The list of batches of a history with their calls. -/
def historyList (bs : ℕ) (orders : List (List ℕ)) (calls : List Call) : List (Call × List ℕ) :=
  (List.zipWith (fun o k => (batches bs o).map fun b => (k, b)) orders calls).flatten

theorem historyGrads_list (k bs : ℕ) (g : Call → List ℝ → ℕ → List ℝ) (orders : List (List ℕ)) (calls : List Call) :
    historyGrads k bs g orders calls = (historyList bs orders calls).map fun x w => meanGrad k (g x.1 w) x.2 := by
  unfold historyGrads historyList
  induction orders generalizing calls with
  | nil => simp
  | cons o os ih =>
    cases calls with
    | nil => simp
    | cons call calls =>
      simp only [List.zipWith_cons_cons, List.flatten_cons, List.map_append, ih]
      congr 1
      simp [epochGrads]

theorem historyList_ok {bs : ℕ} (hbs : 1 ≤ bs) {orders : List (List ℕ)} {calls : List Call}
    (h : List.Forall₂ (fun o (k : Call) => o.Perm (List.range k.n)) orders calls) :
    HistoryBatches bs calls (historyList bs orders calls) := by
  refine ⟨orders.map (batches bs), ?_, ?_⟩
  · induction h with
    | nil => simp
    | cons h _ ih => exact .cons (epochBatches_batches hbs h) ih
  · unfold historyList
    congr 1
    induction h with
    | nil => simp
    | cons h _ ih => simp [ih]

theorem historyList_length {bs : ℕ} {orders : List (List ℕ)} {calls : List Call}
    (h : List.Forall₂ (fun o (k : Call) => o.Perm (List.range k.n)) orders calls) :
    (historyList bs orders calls).length = totalBatches bs calls := by
  unfold historyList totalBatches
  induction h with
  | nil => simp
  | cons h _ ih =>
    simp only [List.zipWith_cons_cons, List.flatten_cons, List.length_append, List.length_map, List.map_cons, List.sum_cons, ih,
      batches_length, h.length_eq, List.length_range]

theorem at_meanGrad {k : ℕ} (g : ℕ → List ℝ) (b : List ℕ) {i : ℕ} (hi : i < k) : at_ (meanGrad k g b) i = batchMean g b i := by
  simp [meanGrad, batchMean, at_, List.getD, hi]

theorem batchAt_map {α : Type} (l : List α) (f : α → List ℝ → List ℝ) {t : ℕ} (h : t < l.length) :
    batchAt (l.map f) t = f l[t] := by
  simp [batchAt, List.getD, h]

theorem newSgd_bs {nn : Net ℝ} {st0 st : Statics ℝ} {shuffle : Bool} {bs : ℤ} {metrics : Option (List (Option Metric))}
    {lr d m : ℝ} {nest : Bool} {addr : Option ℕ} {s : Sgd ℝ}
    (h : newSgd st0 nn shuffle bs metrics lr d m nest addr = .ok (st, s)) : 1 ≤ bs.toNat := by
  unfold newSgd at h
  obtain ⟨_, -, h⟩ := bind_ok h
  obtain ⟨⟨st1, o⟩, h, -⟩ := bind_ok h
  exact (newOpt_eq nn h).1

theorem newAdagrad_bs {nn : Net ℝ} {st0 st : Statics ℝ} {shuffle : Bool} {bs : ℤ} {metrics : Option (List (Option Metric))}
    {lr d : ℝ} {addr : Option ℕ} {s : Adagrad ℝ}
    (h : newAdagrad st0 nn shuffle bs metrics lr d addr = .ok (st, s)) : 1 ≤ bs.toNat := by
  unfold newAdagrad at h
  obtain ⟨_, -, h⟩ := bind_ok h
  obtain ⟨⟨st1, o⟩, h, -⟩ := bind_ok h
  exact (newOpt_eq nn h).1

theorem newRmsProp_bs {nn : Net ℝ} {st0 st : Statics ℝ} {shuffle : Bool} {bs : ℤ} {metrics : Option (List (Option Metric))}
    {lr d rho m : ℝ} {nest : Bool} {addr addr' : Option ℕ} {s : RmsProp ℝ}
    (h : newRmsProp st0 nn shuffle bs metrics lr d rho m nest addr addr' = .ok (st, s)) : 1 ≤ bs.toNat := by
  unfold newRmsProp at h
  obtain ⟨_, -, h⟩ := bind_ok h
  obtain ⟨_, -, h⟩ := bind_ok h
  obtain ⟨⟨st1, o⟩, h, -⟩ := bind_ok h
  exact (newOpt_eq nn h).1

theorem newAdam_bs {nn : Net ℝ} {st0 st : Statics ℝ} {shuffle : Bool} {bs : ℤ} {metrics : Option (List (Option Metric))}
    {lr b1 b2 wd : ℝ} {addr addr' : Option ℕ} {s : Adam ℝ}
    (h : newAdam st0 nn shuffle bs metrics lr b1 b2 wd addr addr' = .ok (st, s)) : 1 ≤ bs.toNat := by
  unfold newAdam at h
  obtain ⟨_, -, h⟩ := bind_ok h
  obtain ⟨_, -, h⟩ := bind_ok h
  obtain ⟨⟨st1, o⟩, h, -⟩ := bind_ok h
  exact (newOpt_eq nn h).1

theorem sgd_lengths (k : ℕ) (Gs : List (List ℝ → List ℝ)) (hG : ∀ G ∈ Gs, ∀ w : List ℝ, w.length = k → (G w).length = k)
    (m d : ℝ) (nest : Bool) (s : SgdState) (hw : s.w.length = k) (hv : s.v.length = k) : ∀ t ≤ Gs.length,
    (traj (Spec.sgdStep m d nest) s Gs t).w.length = k ∧ (traj (Spec.sgdStep m d nest) s Gs t).v.length = k := by
  intro t
  induction t with
  | zero => intro _; exact ⟨hw, hv⟩
  | succ t ih =>
    intro ht
    obtain ⟨h1, h2⟩ := ih (by omega)
    rw [traj_succ _ _ _ _ (by omega)]
    generalize traj (Spec.sgdStep m d nest) s Gs t = s at *
    have hg := hG _ (batchAt_mem (show t < Gs.length by omega))
    have h3 := hg s.w h1
    have h4 := hg (if nest = true then vadd s.w (vscale m s.v) else s.w) (by split <;> simp [vadd, vscale, h1, h2])
    simp only [Spec.sgdStep]
    split <;> simp [vadd_length, vscale_length, h1, h2, h3, h4]

theorem historyGrads_length (k bs : ℕ) (g : Call → List ℝ → ℕ → List ℝ) (orders : List (List ℕ)) (calls : List Call) :
    ∀ G ∈ historyGrads k bs g orders calls, ∀ w : List ℝ, w.length = k → (G w).length = k := by
  rw [historyGrads_list]
  intro G hG w _
  obtain ⟨x, -, rfl⟩ := List.mem_map.1 hG
  exact meanGrad_length _ _ _

theorem traj_take_lr {S : Type} (lr : S → ℝ) (step : S → (List ℝ → List ℝ) → S) (d lr0 : ℝ) (s : S)
    (h : ∀ Gs : List (List ℝ → List ℝ), lr (Gs.foldl step s) = lr0 / ∏ j ∈ Finset.range Gs.length, (1 + d * (j : ℝ)))
    (Gs : List (List ℝ → List ℝ)) (t : ℕ) (ht : t ≤ Gs.length) : lr (traj step s Gs t) = lrAfter lr0 d t := by
  rw [traj, h, List.length_take, Nat.min_eq_left ht, lrAfter]

theorem lr_facts {x lr d : ℝ} {N : ℕ} (hx : x = lrAfter lr d N) (hlr : 0 < lr) (hd : 0 ≤ d) : 0 < x ∧ x ≤ lr ∧
    (d = 0 → x = lr) ∧ (0 < d → 3 ≤ N → x < lr / (1 + d * ((N - 1 : ℕ) : ℝ))) := by
  obtain ⟨h1, h2, h3⟩ := lrAfter_facts lr d hlr hd
  refine ⟨hx ▸ h1 N, ?_, fun h => by rw [hx, h3 h], fun h hN => ?_⟩
  · have := h2 0 N (Nat.zero_le _)
    rw [hx]
    simpa [lrAfter] using this
  · have := (lrAfter_not_time_based lr d hlr h).2.2 (N - 1) (by omega)
    rwa [show N - 1 + 1 = N by omega, ← hx] at this

/-- Batches as gradient functions. -/
noncomputable def gradsOf (k : ℕ) (g : Call → List ℝ → ℕ → List ℝ) (b : List (Call × List ℕ)) : List (List ℝ → List ℝ) :=
  b.map fun x w => meanGrad k (g x.1 w) x.2

section
variable (k : ℕ) (g : Call → List ℝ → ℕ → List ℝ) (b : List (Call × List ℕ))

theorem gradsOf_length : (gradsOf k g b).length = b.length := by simp [gradsOf]

theorem gradsOf_len : ∀ G ∈ gradsOf k g b, ∀ w : List ℝ, w.length = k → (G w).length = k := by
  intro G hG w _
  obtain ⟨x, -, rfl⟩ := List.mem_map.1 hG
  exact meanGrad_length _ _ _

theorem at_batchAt {t : ℕ} (h : t < b.length) (w : List ℝ) {i : ℕ} (hi : i < k) :
    at_ (batchAt (gradsOf k g b) t w) i = batchMean (g b[t].1 w) b[t].2 i := by
  rw [gradsOf, batchAt_map _ _ h, at_meanGrad _ _ hi]

theorem sgd_traj (m d lr : ℝ) (hd : 0 ≤ d) (nest : Bool) (w : List ℝ) (hw : w.length = k) :
    let σ := traj (Spec.sgdStep m d nest) ⟨w, List.replicate k 0, lr, 0⟩ (gradsOf k g b)
    (∀ t ≤ b.length, (σ t).lr = lrAfter lr d t ∧ (m ≤ 0 → (σ t).v = List.replicate k 0)) ∧
    ∀ (t : ℕ) (h : t < b.length) (i : ℕ), i < k →
      (m ≤ 0 → at_ (σ (t + 1)).w i = at_ (σ t).w i - lrAfter lr d (t + 1) * batchMean (g b[t].1 (σ t).w) b[t].2 i) ∧
      (0 < m → at_ (σ (t + 1)).v i = m * at_ (σ t).v i - lrAfter lr d (t + 1) *
          batchMean (g b[t].1 (if nest then vadd (σ t).w (vscale m (σ t).v) else (σ t).w)) b[t].2 i ∧
        at_ (σ (t + 1)).w i = at_ (σ t).w i + at_ (σ (t + 1)).v i) := by
  intro σ
  have hN := gradsOf_length k g b
  have hGl := gradsOf_len k g b
  have hlen := sgd_lengths k _ hGl m d nest ⟨w, List.replicate k 0, lr, 0⟩ hw (by simp)
  have hlr := traj_take_lr SgdState.lr (Spec.sgdStep m d nest) d lr _ (sgd_lr m d hd nest w (List.replicate k 0) lr) (gradsOf k g b)
  refine ⟨fun t ht => ⟨hlr t (by omega), fun hm => ?_⟩, fun t ht i hi => ?_⟩
  · induction t with
    | zero => rfl
    | succ t ih =>
      simp only [σ]
      rw [traj_succ _ _ _ _ (by omega)]
      simp only [Spec.sgdStep, if_neg (not_lt.mpr hm)]
      exact ih (by omega)
  · obtain ⟨e1, e2⟩ := hlen t (by omega)
    have hl := hlr (t + 1) (by omega)
    have hs : σ (t + 1) = Spec.sgdStep m d nest (σ t) (batchAt (gradsOf k g b) t) := traj_succ _ _ _ _ (by omega)
    have hl' : nextLr (σ t).lr d (σ t).t = lrAfter lr d (t + 1) := by
      rw [← hl]
      change _ = (σ (t + 1)).lr
      rw [hs]
      simp only [Spec.sgdStep]; split <;> rfl
    have hG : ∀ w : List ℝ, (batchAt (gradsOf k g b) t w).length = (σ t).w.length := by
      intro w
      rw [gradsOf, batchAt_map _ _ ht, meanGrad_length]
      exact e1.symm
    constructor
    · intro hm
      have := (sgd_plain_rule m d hm nest (σ t) (batchAt (gradsOf k g b) t) i (by rw [e1]; exact hi) (hG _)).1
      rw [← hs, hl', at_batchAt k g b ht _ hi] at this
      exact this
    · intro hm
      have := sgd_momentum_rule m d hm nest (σ t) (batchAt (gradsOf k g b) t) i (by rw [e1]; exact hi) (e2.trans e1.symm) hG
      simp only [← hs, hl', at_batchAt k g b ht _ hi] at this
      exact this

end

/-! ### Theorems -/

section
variable (env : CustomEnv ℝ) (c : Cfg) (loss : Loss) (nn : Net ℝ) (hw : nn.WF c) (ms : List Metric)
  (rest : List (Option Metric)) (r : ℕ → ℕ) (g : Call → List ℝ → ℕ → List ℝ)
include hw

/-- **C31** (and C25, C28, C33) SGD without momentum, from its creation, over any calls of `optimizer_run_epoch`: the calls
succeed; the batches are those of `HistoryBatches`; batch `t` takes the step `-lr_t` times the mean gradient of its samples at
the current parameters, with `lr_t` the learning rate of C33 (constant without decay); the velocity stays 0. -/
theorem C31_history (st0 : Statics ℝ) (h0 : st0.nSample = 0) (shuffle : Bool) (bs : ℤ)
    (metrics : Option (List (Option Metric))) (lr d m : ℝ) (hm : m ≤ 0) (hd : 0 ≤ d) (nest : Bool) (addr : ℕ)
    (ha : addr % c.alignSize = 0) (st : Statics ℝ) (s : Sgd ℝ)
    (hnew : newSgd st0 nn shuffle bs metrics lr d m nest (some addr) = .ok (st, s))
    (hms : MetricsAre ms rest s.opt.metrics st.metric) (calls : List Call)
    (hok : ∀ k ∈ calls, k.OK c loss nn bs.toNat ms) (hg : ∀ k ∈ calls, SampleGrads env c k.n k.X k.Y nn (g k))
    (ht : totalBatches bs.toNat calls ≤ 2 ^ 32 - 1) (q : ℕ) :
    ∃ (b : List (Call × List ℕ)) (W : ℕ → List ℝ) (st' : Statics ℝ) (s' : Sgd ℝ) (q' : ℕ),
      HistoryBatches bs.toNat calls b ∧
      runCalls (fun k => sgdKind env c k.mem k.fuel k.n k.X k.Y) env c r calls (st, s, q) = .ok (st', s', q') ∧
      W 0 = params nn.layers ∧ params s'.opt.nn.layers = W b.length ∧
      (∀ (t : ℕ) (h : t < b.length) (i : ℕ), i < nParams nn.layers →
        at_ (W (t + 1)) i = at_ (W t) i - lrAfter lr d (t + 1) * batchMean (g b[t].1 (W t)) b[t].2 i) ∧
      s'.velocity.data = List.replicate (nParams nn.layers) 0 := by
  obtain ⟨orders, st', s', q', k1, k2, k3, -⟩ := C32_history env c loss nn hw ms rest r g st0 h0 shuffle bs metrics lr d m nest
    addr ha st s hnew hms calls hok hg ht q
  obtain ⟨t1, t2⟩ := sgd_traj (nParams nn.layers) g (historyList bs.toNat orders calls) m d lr hd nest (params nn.layers)
    (params_length c _ hw.layer)
  rw [historyGrads_list, ← traj_length, List.length_map] at k3
  refine ⟨historyList bs.toNat orders calls, fun t => (traj (Spec.sgdStep m d nest)
    ⟨params nn.layers, List.replicate (nParams nn.layers) 0, lr, 0⟩
    (gradsOf (nParams nn.layers) g (historyList bs.toNat orders calls)) t).w, st', s', q',
    historyList_ok (newSgd_bs hnew) k1, k2, rfl, ?_, fun t ht i hi => (t2 t ht i hi).1 hm, ?_⟩
  · rw [k3.opt.nn, setParams_params _ _ k3.opt.wlen]; rfl
  · rw [k3.vel.data]; exact (t1 _ le_rfl).2 hm

/-- **C32** (and C25, C28, C33) SGD with momentum `m > 0`: with the velocity `V t`, batch `t` does
`V' = m V - lr_t g`, `W' = W + V'`, where `g` is the mean gradient of the batch at `W` (classic) or at `W + m V` (Nesterov).
At the end the optimizer holds `V`. -/
theorem C32_steps (st0 : Statics ℝ) (h0 : st0.nSample = 0) (shuffle : Bool) (bs : ℤ)
    (metrics : Option (List (Option Metric))) (lr d m : ℝ) (hm : 0 < m) (hd : 0 ≤ d) (nest : Bool) (addr : ℕ)
    (ha : addr % c.alignSize = 0) (st : Statics ℝ) (s : Sgd ℝ)
    (hnew : newSgd st0 nn shuffle bs metrics lr d m nest (some addr) = .ok (st, s))
    (hms : MetricsAre ms rest s.opt.metrics st.metric) (calls : List Call)
    (hok : ∀ k ∈ calls, k.OK c loss nn bs.toNat ms) (hg : ∀ k ∈ calls, SampleGrads env c k.n k.X k.Y nn (g k))
    (ht : totalBatches bs.toNat calls ≤ 2 ^ 32 - 1) (q : ℕ) :
    ∃ (b : List (Call × List ℕ)) (W V : ℕ → List ℝ) (st' : Statics ℝ) (s' : Sgd ℝ) (q' : ℕ),
      HistoryBatches bs.toNat calls b ∧
      runCalls (fun k => sgdKind env c k.mem k.fuel k.n k.X k.Y) env c r calls (st, s, q) = .ok (st', s', q') ∧
      W 0 = params nn.layers ∧ V 0 = List.replicate (nParams nn.layers) 0 ∧
      params s'.opt.nn.layers = W b.length ∧ s'.velocity.data = V b.length ∧
      (∀ (t : ℕ) (h : t < b.length) (i : ℕ), i < nParams nn.layers →
        at_ (V (t + 1)) i = m * at_ (V t) i - lrAfter lr d (t + 1) *
          batchMean (g b[t].1 (if nest then vadd (W t) (vscale m (V t)) else W t)) b[t].2 i ∧
        at_ (W (t + 1)) i = at_ (W t) i + at_ (V (t + 1)) i) := by
  obtain ⟨orders, st', s', q', k1, k2, k3, -⟩ := C32_history env c loss nn hw ms rest r g st0 h0 shuffle bs metrics lr d m nest
    addr ha st s hnew hms calls hok hg ht q
  obtain ⟨t1, t2⟩ := sgd_traj (nParams nn.layers) g (historyList bs.toNat orders calls) m d lr hd nest (params nn.layers)
    (params_length c _ hw.layer)
  rw [historyGrads_list, ← traj_length, List.length_map] at k3
  refine ⟨historyList bs.toNat orders calls, fun t => (traj (Spec.sgdStep m d nest)
    ⟨params nn.layers, List.replicate (nParams nn.layers) 0, lr, 0⟩
    (gradsOf (nParams nn.layers) g (historyList bs.toNat orders calls)) t).w, fun t => (traj (Spec.sgdStep m d nest)
    ⟨params nn.layers, List.replicate (nParams nn.layers) 0, lr, 0⟩
    (gradsOf (nParams nn.layers) g (historyList bs.toNat orders calls)) t).v, st', s', q',
    historyList_ok (newSgd_bs hnew) k1, k2, rfl, rfl, ?_, k3.vel.data, fun t ht i hi => (t2 t ht i hi).2 hm⟩
  rw [k3.opt.nn, setParams_params _ _ k3.opt.wlen]; rfl

/-- **C33** SGD: the learning rate after `N` batches is `lr / ∏_{j<N} (1 + d j)`; it is positive and not larger than it was;
from the third batch on it is smaller than the time based decay `lr / (1 + d (N-1))`. -/
theorem C33_sgd (st0 : Statics ℝ) (h0 : st0.nSample = 0) (shuffle : Bool) (bs : ℤ)
    (metrics : Option (List (Option Metric))) (lr d m : ℝ) (hlr : 0 < lr) (hd : 0 ≤ d) (nest : Bool) (addr : ℕ)
    (ha : addr % c.alignSize = 0) (st : Statics ℝ) (s : Sgd ℝ)
    (hnew : newSgd st0 nn shuffle bs metrics lr d m nest (some addr) = .ok (st, s))
    (hms : MetricsAre ms rest s.opt.metrics st.metric) (calls : List Call)
    (hok : ∀ k ∈ calls, k.OK c loss nn bs.toNat ms) (hg : ∀ k ∈ calls, SampleGrads env c k.n k.X k.Y nn (g k))
    (ht : totalBatches bs.toNat calls ≤ 2 ^ 32 - 1) (q : ℕ) :
    ∃ (st' : Statics ℝ) (s' : Sgd ℝ) (q' : ℕ),
      runCalls (fun k => sgdKind env c k.mem k.fuel k.n k.X k.Y) env c r calls (st, s, q) = .ok (st', s', q') ∧
      s'.lr = lr / ∏ j ∈ Finset.range (totalBatches bs.toNat calls), (1 + d * (j : ℝ)) ∧ 0 < s'.lr ∧ s'.lr ≤ lr ∧
      (d = 0 → s'.lr = lr) ∧
      (0 < d → 3 ≤ totalBatches bs.toNat calls → s'.lr < lr / (1 + d * ((totalBatches bs.toNat calls - 1 : ℕ) : ℝ))) := by
  obtain ⟨orders, st', s', q', k1, k2, k3, -⟩ := C32_history env c loss nn hw ms rest r g st0 h0 shuffle bs metrics lr d m nest
    addr ha st s hnew hms calls hok hg ht q
  have hl : s'.lr = lrAfter lr d (totalBatches bs.toNat calls) := by
    rw [k3.lr, sgd_lr m d hd, historyGrads_list, List.length_map, historyList_length k1, lrAfter]
  exact ⟨st', s', q', k2, hl, lr_facts hl hlr hd⟩

/-- **C33** Adagrad. -/
theorem C33_adagrad (st0 : Statics ℝ) (h0 : st0.nSample = 0) (shuffle : Bool) (bs : ℤ)
    (metrics : Option (List (Option Metric))) (lr d : ℝ) (hlr : 0 < lr) (hd : 0 ≤ d) (addr : ℕ)
    (ha : addr % c.alignSize = 0) (st : Statics ℝ) (s : Adagrad ℝ)
    (hnew : newAdagrad st0 nn shuffle bs metrics lr d (some addr) = .ok (st, s))
    (hms : MetricsAre ms rest s.opt.metrics st.metric) (calls : List Call)
    (hok : ∀ k ∈ calls, k.OK c loss nn bs.toNat ms) (hg : ∀ k ∈ calls, SampleGrads env c k.n k.X k.Y nn (g k))
    (ht : totalBatches bs.toNat calls ≤ 2 ^ 32 - 1) (q : ℕ) :
    ∃ (st' : Statics ℝ) (s' : Adagrad ℝ) (q' : ℕ),
      runCalls (fun k => adagradKind env c k.mem k.fuel k.n k.X k.Y) env c r calls (st, s, q) = .ok (st', s', q') ∧
      s'.lr = lr / ∏ j ∈ Finset.range (totalBatches bs.toNat calls), (1 + d * (j : ℝ)) ∧ 0 < s'.lr ∧ s'.lr ≤ lr ∧
      (d = 0 → s'.lr = lr) ∧
      (0 < d → 3 ≤ totalBatches bs.toNat calls → s'.lr < lr / (1 + d * ((totalBatches bs.toNat calls - 1 : ℕ) : ℝ))) := by
  obtain ⟨orders, st', s', q', k1, k2, k3, -⟩ := C36_adagrad_history env c loss nn hw ms rest r g st0 h0 shuffle bs metrics lr d
    addr ha st s hnew hms calls hok hg ht q
  have hl : s'.lr = lrAfter lr d (totalBatches bs.toNat calls) := by
    rw [k3.lr, adagrad_lr d hd, historyGrads_list, List.length_map, historyList_length k1, lrAfter]
  exact ⟨st', s', q', k2, hl, lr_facts hl hlr hd⟩

/-- **C33** RMSprop. -/
theorem C33_rmsprop (st0 : Statics ℝ) (h0 : st0.nSample = 0) (shuffle : Bool) (bs : ℤ)
    (metrics : Option (List (Option Metric))) (lr d rho m : ℝ) (hlr : 0 < lr) (hd : 0 ≤ d) (nest : Bool) (addr addr' : ℕ)
    (ha : addr % c.alignSize = 0) (ha' : addr' % c.alignSize = 0) (st : Statics ℝ) (s : RmsProp ℝ)
    (hnew : newRmsProp st0 nn shuffle bs metrics lr d rho m nest (some addr) (some addr') = .ok (st, s))
    (hms : MetricsAre ms rest s.opt.metrics st.metric) (calls : List Call)
    (hok : ∀ k ∈ calls, k.OK c loss nn bs.toNat ms) (hg : ∀ k ∈ calls, SampleGrads env c k.n k.X k.Y nn (g k))
    (ht : totalBatches bs.toNat calls ≤ 2 ^ 32 - 1) (q : ℕ) :
    ∃ (st' : Statics ℝ) (s' : RmsProp ℝ) (q' : ℕ),
      runCalls (fun k => rmspropKind env c k.mem k.fuel k.n k.X k.Y) env c r calls (st, s, q) = .ok (st', s', q') ∧
      s'.lr = lr / ∏ j ∈ Finset.range (totalBatches bs.toNat calls), (1 + d * (j : ℝ)) ∧ 0 < s'.lr ∧ s'.lr ≤ lr ∧
      (d = 0 → s'.lr = lr) ∧
      (0 < d → 3 ≤ totalBatches bs.toNat calls → s'.lr < lr / (1 + d * ((totalBatches bs.toNat calls - 1 : ℕ) : ℝ))) := by
  obtain ⟨orders, st', s', q', k1, k2, k3, -⟩ := C36_rmsprop_history env c loss nn hw ms rest r g st0 h0 shuffle bs metrics lr d
    rho m nest addr addr' ha ha' st s hnew hms calls hok hg ht q
  have hl : s'.lr = lrAfter lr d (totalBatches bs.toNat calls) := by
    rw [k3.lr, rmsprop_lr rho m d hd, historyGrads_list, List.length_map, historyList_length k1, lrAfter]
  exact ⟨st', s', q', k2, hl, lr_facts hl hlr hd⟩

/-- **C34** (and C25, C28) Adam, the first one of a process, in the form of the published algorithm.  With `g_t` the mean
gradient of batch `t` at the parameters `W t` before it, the moments after it are `(1-b1) ∑_{j≤t} b1^(t-j) g_j` and
`(1-b2) ∑_{j≤t} b2^(t-j) g_j^2`; the step is `-lr (m/(1-b1^(t+1))) / (sqrt (v/(1-b2^(t+1))) + eps)`, and `-wd W` with weight
decay. -/
theorem C34_steps (st0 : Statics ℝ) (h0 : st0.nSample = 0) (hb1 : st0.beta1 = 1) (hb2 : st0.beta2 = 1) (shuffle : Bool) (bs : ℤ)
    (metrics : Option (List (Option Metric))) (lr b1 b2 wd : ℝ) (addr addr' : ℕ)
    (ha : addr % c.alignSize = 0) (ha' : addr' % c.alignSize = 0) (st : Statics ℝ) (s : Adam ℝ)
    (hnew : newAdam st0 nn shuffle bs metrics lr b1 b2 wd (some addr) (some addr') = .ok (st, s))
    (hms : MetricsAre ms rest s.opt.metrics st.metric) (calls : List Call)
    (hok : ∀ k ∈ calls, k.OK c loss nn bs.toNat ms)
    (hg : ∀ k ∈ calls, SampleGrads env c k.n k.X k.Y nn (g k)) (q : ℕ) :
    ∃ (b : List (Call × List ℕ)) (W : ℕ → List ℝ) (M V : ℕ → List ℝ) (st' : Statics ℝ) (s' : Adam ℝ) (q' : ℕ),
      HistoryBatches bs.toNat calls b ∧
      runCalls (fun k => adamKind env c k.mem k.fuel k.n k.X k.Y) env c r calls (st, s, q) = .ok (st', s', q') ∧
      W 0 = params nn.layers ∧ params s'.opt.nn.layers = W b.length ∧ s'.s.data = M b.length ∧ s'.r.data = V b.length ∧
      (∀ t ≤ b.length, ∀ i < nParams nn.layers,
        at_ (M t) i = (1 - b1) * ∑ j : Fin t, b1 ^ (t - 1 - (j : ℕ)) *
          ((b[(j : ℕ)]?).elim 0 fun x => batchMean (g x.1 (W j)) x.2 i) ∧
        at_ (V t) i = (1 - b2) * ∑ j : Fin t, b2 ^ (t - 1 - (j : ℕ)) *
          ((b[(j : ℕ)]?).elim 0 fun x => batchMean (g x.1 (W j)) x.2 i) ^ 2) ∧
      ∀ t < b.length, ∀ i < nParams nn.layers,
        at_ (W (t + 1)) i = at_ (W t) i - lr * (at_ (M (t + 1)) i / (1 - b1 ^ (t + 1))) /
          (Real.sqrt (at_ (V (t + 1)) i / (1 - b2 ^ (t + 1))) + 1 / 100000000) - (if 0 < wd then wd * at_ (W t) i else 0) := by
  obtain ⟨orders, st', s', q', k1, k2, k3, -⟩ := C34_history env c loss nn hw ms rest r g st0 h0 hb1 hb2 shuffle bs metrics lr b1
    b2 wd addr addr' ha ha' st s hnew hms calls hok hg q
  have hpl := params_length c _ hw.layer
  have hGl := gradsOf_len (nParams nn.layers) g (historyList bs.toNat orders calls)
  have hN := gradsOf_length (nParams nn.layers) g (historyList bs.toNat orders calls)
  rw [historyGrads_list, ← traj_length, List.length_map] at k3
  refine ⟨historyList bs.toNat orders calls, fun t => (traj (Spec.adamStep lr b1 b2 wd)
    ⟨params nn.layers, List.replicate (nParams nn.layers) 0, List.replicate (nParams nn.layers) 0, 0⟩
    (gradsOf (nParams nn.layers) g (historyList bs.toNat orders calls)) t).w, fun t => (traj (Spec.adamStep lr b1 b2 wd)
    ⟨params nn.layers, List.replicate (nParams nn.layers) 0, List.replicate (nParams nn.layers) 0, 0⟩
    (gradsOf (nParams nn.layers) g (historyList bs.toNat orders calls)) t).m, fun t => (traj (Spec.adamStep lr b1 b2 wd)
    ⟨params nn.layers, List.replicate (nParams nn.layers) 0, List.replicate (nParams nn.layers) 0, 0⟩
    (gradsOf (nParams nn.layers) g (historyList bs.toNat orders calls)) t).v, st', s', q',
    historyList_ok (newAdam_bs hnew) k1, k2, rfl, ?_, k3.m.data, k3.v.data, fun t ht i hi => ?_, fun t ht i hi => ?_⟩
  · rw [k3.opt.nn, setParams_params _ _ k3.opt.wlen]; rfl
  · obtain ⟨e1, e2, -⟩ := adam_moments _ _ hGl lr b1 b2 wd _ hpl t (by omega) i hi
    have key : ∀ (j : Fin t) (w : List ℝ), at_ (batchAt (gradsOf (nParams nn.layers) g (historyList bs.toNat orders calls)) j w) i =
        ((historyList bs.toNat orders calls)[(j : ℕ)]?).elim 0 fun x => batchMean (g x.1 w) x.2 i := by
      intro j w
      have hj : (j : ℕ) < (historyList bs.toNat orders calls).length := by omega
      rw [at_batchAt _ g _ hj w hi, List.getElem?_eq_getElem hj]
      rfl
    rw [Finset.sum_range] at e1 e2
    simp only [key] at e1 e2
    exact ⟨e1, e2⟩
  · exact adam_update _ _ hGl lr b1 b2 wd _ hpl t (by omega) i hi

/-- **C36** (and C25, C28) Adagrad: with `g_t` the mean gradient of batch `t` at the parameters before it, the accumulator is the
sum of their squares, the step is `-lr_t g_t / (eps + sqrt r)` and at most `lr_t` in absolute value. -/
theorem C36_adagrad_steps (st0 : Statics ℝ) (h0 : st0.nSample = 0) (shuffle : Bool) (bs : ℤ)
    (metrics : Option (List (Option Metric))) (lr d : ℝ) (hd : 0 ≤ d) (addr : ℕ)
    (ha : addr % c.alignSize = 0) (st : Statics ℝ) (s : Adagrad ℝ)
    (hnew : newAdagrad st0 nn shuffle bs metrics lr d (some addr) = .ok (st, s))
    (hms : MetricsAre ms rest s.opt.metrics st.metric) (calls : List Call)
    (hok : ∀ k ∈ calls, k.OK c loss nn bs.toNat ms) (hg : ∀ k ∈ calls, SampleGrads env c k.n k.X k.Y nn (g k))
    (ht : totalBatches bs.toNat calls ≤ 2 ^ 32 - 1) (q : ℕ) :
    ∃ (b : List (Call × List ℕ)) (W R : ℕ → List ℝ) (st' : Statics ℝ) (s' : Adagrad ℝ) (q' : ℕ),
      HistoryBatches bs.toNat calls b ∧
      runCalls (fun k => adagradKind env c k.mem k.fuel k.n k.X k.Y) env c r calls (st, s, q) = .ok (st', s', q') ∧
      W 0 = params nn.layers ∧ R 0 = List.replicate (nParams nn.layers) 0 ∧
      params s'.opt.nn.layers = W b.length ∧ s'.r.data = R b.length ∧
      ∀ (t : ℕ) (h : t < b.length), ∀ i < nParams nn.layers,
        at_ (R (t + 1)) i = at_ (R t) i + batchMean (g b[t].1 (W t)) b[t].2 i ^ 2 ∧
        at_ (W (t + 1)) i = at_ (W t) i - lrAfter lr d (t + 1) * batchMean (g b[t].1 (W t)) b[t].2 i /
          (1 / 10000000 + Real.sqrt (at_ (R (t + 1)) i)) ∧
        |at_ (W (t + 1)) i - at_ (W t) i| ≤ |lrAfter lr d (t + 1)| := by
  obtain ⟨orders, st', s', q', k1, k2, k3, -⟩ := C36_adagrad_history env c loss nn hw ms rest r g st0 h0 shuffle bs metrics lr d
    addr ha st s hnew hms calls hok hg ht q
  have hpl := params_length c _ hw.layer
  have hGl := gradsOf_len (nParams nn.layers) g (historyList bs.toNat orders calls)
  have hN := gradsOf_length (nParams nn.layers) g (historyList bs.toNat orders calls)
  have hlr := traj_take_lr AdagradState.lr (Spec.adagradStep d) d lr _
    (adagrad_lr d hd (params nn.layers) (List.replicate (nParams nn.layers) 0) lr)
    (gradsOf (nParams nn.layers) g (historyList bs.toNat orders calls))
  rw [historyGrads_list, ← traj_length, List.length_map] at k3
  refine ⟨historyList bs.toNat orders calls, fun t => (traj (Spec.adagradStep d)
    ⟨params nn.layers, List.replicate (nParams nn.layers) 0, lr, 0⟩
    (gradsOf (nParams nn.layers) g (historyList bs.toNat orders calls)) t).w, fun t => (traj (Spec.adagradStep d)
    ⟨params nn.layers, List.replicate (nParams nn.layers) 0, lr, 0⟩
    (gradsOf (nParams nn.layers) g (historyList bs.toNat orders calls)) t).r, st', s', q',
    historyList_ok (newAdagrad_bs hnew) k1, k2, rfl, rfl, ?_, k3.r.data, fun t ht i hi => ?_⟩
  · rw [k3.opt.nn, setParams_params _ _ k3.opt.wlen]; rfl
  · obtain ⟨e1, -, e2, e3⟩ := adagrad_rule _ _ hGl d lr _ hpl t (by omega) i hi
    simp only [hlr (t + 1) (by omega), at_batchAt _ g _ ht _ hi] at e2 e3
    refine ⟨?_, e2, e3⟩
    rcases Nat.eq_zero_or_pos t with rfl | h0
    · simp only [zero_add] at e1 ⊢
      rw [e1, Finset.sum_range_one]
      rw [at_batchAt _ g _ ht _ hi]
      simp [traj, at_, List.getD, List.getElem?_replicate, hi]
    · have e1' := (adagrad_rule _ _ hGl d lr _ hpl (t - 1) (by omega) i hi).1
      rw [show t - 1 + 1 = t by omega] at e1'
      rw [e1, Finset.sum_range_succ, ← e1']
      beta_reduce
      rw [at_batchAt _ g _ ht _ hi]

/-- **C36** (and C25, C28) RMSprop: with `g_t` the mean gradient of batch `t` at `W t` (at `W t + m V t` with Nesterov
momentum), the accumulator is `rho r + (1-rho) g_t^2`; the step `-lr_t g_t / (eps + sqrt r)` is applied directly, or through the
velocity `V' = m V + step`, `W' = W + V'`. -/
theorem C36_rmsprop_steps (st0 : Statics ℝ) (h0 : st0.nSample = 0) (shuffle : Bool) (bs : ℤ)
    (metrics : Option (List (Option Metric))) (lr d rho m : ℝ) (hd : 0 ≤ d) (nest : Bool) (addr addr' : ℕ)
    (ha : addr % c.alignSize = 0) (ha' : addr' % c.alignSize = 0) (st : Statics ℝ) (s : RmsProp ℝ)
    (hnew : newRmsProp st0 nn shuffle bs metrics lr d rho m nest (some addr) (some addr') = .ok (st, s))
    (hms : MetricsAre ms rest s.opt.metrics st.metric) (calls : List Call)
    (hok : ∀ k ∈ calls, k.OK c loss nn bs.toNat ms) (hg : ∀ k ∈ calls, SampleGrads env c k.n k.X k.Y nn (g k))
    (ht : totalBatches bs.toNat calls ≤ 2 ^ 32 - 1) (q : ℕ) :
    ∃ (b : List (Call × List ℕ)) (W V R : ℕ → List ℝ) (st' : Statics ℝ) (s' : RmsProp ℝ) (q' : ℕ),
      HistoryBatches bs.toNat calls b ∧
      runCalls (fun k => rmspropKind env c k.mem k.fuel k.n k.X k.Y) env c r calls (st, s, q) = .ok (st', s', q') ∧
      W 0 = params nn.layers ∧ V 0 = List.replicate (nParams nn.layers) 0 ∧ R 0 = List.replicate (nParams nn.layers) 0 ∧
      params s'.opt.nn.layers = W b.length ∧ s'.velocity.data = V b.length ∧ s'.r.data = R b.length ∧
      ∀ (t : ℕ) (h : t < b.length), ∀ i < nParams nn.layers,
        let gt := batchMean (g b[t].1 (if 0 < m ∧ nest then vadd (W t) (vscale m (V t)) else W t)) b[t].2 i
        let step := -lrAfter lr d (t + 1) * gt / (1 / 10000000 + Real.sqrt (at_ (R (t + 1)) i))
        at_ (R (t + 1)) i = rho * at_ (R t) i + (1 - rho) * gt ^ 2 ∧
        (m ≤ 0 → at_ (W (t + 1)) i = at_ (W t) i + step) ∧
        (0 < m → at_ (V (t + 1)) i = m * at_ (V t) i + step ∧ at_ (W (t + 1)) i = at_ (W t) i + at_ (V (t + 1)) i) := by
  obtain ⟨orders, st', s', q', k1, k2, k3, -⟩ := C36_rmsprop_history env c loss nn hw ms rest r g st0 h0 shuffle bs metrics lr d
    rho m nest addr addr' ha ha' st s hnew hms calls hok hg ht q
  have hpl := params_length c _ hw.layer
  have hGl := gradsOf_len (nParams nn.layers) g (historyList bs.toNat orders calls)
  have hN := gradsOf_length (nParams nn.layers) g (historyList bs.toNat orders calls)
  have hlr := traj_take_lr RmsPropState.lr (Spec.rmspropStep rho m d nest) d lr _
    (rmsprop_lr rho m d hd nest (params nn.layers) (List.replicate (nParams nn.layers) 0) (List.replicate (nParams nn.layers) 0) lr)
    (gradsOf (nParams nn.layers) g (historyList bs.toNat orders calls))
  have hlen := rmsprop_lengths _ _ hGl rho m d nest
    ⟨params nn.layers, List.replicate (nParams nn.layers) 0, List.replicate (nParams nn.layers) 0, lr, 0⟩ hpl (by simp) (by simp)
  rw [historyGrads_list, ← traj_length, List.length_map] at k3
  refine ⟨historyList bs.toNat orders calls, fun t => (traj (Spec.rmspropStep rho m d nest)
    ⟨params nn.layers, List.replicate (nParams nn.layers) 0, List.replicate (nParams nn.layers) 0, lr, 0⟩
    (gradsOf (nParams nn.layers) g (historyList bs.toNat orders calls)) t).w, fun t => (traj (Spec.rmspropStep rho m d nest)
    ⟨params nn.layers, List.replicate (nParams nn.layers) 0, List.replicate (nParams nn.layers) 0, lr, 0⟩
    (gradsOf (nParams nn.layers) g (historyList bs.toNat orders calls)) t).v, fun t => (traj (Spec.rmspropStep rho m d nest)
    ⟨params nn.layers, List.replicate (nParams nn.layers) 0, List.replicate (nParams nn.layers) 0, lr, 0⟩
    (gradsOf (nParams nn.layers) g (historyList bs.toNat orders calls)) t).r, st', s', q',
    historyList_ok (newRmsProp_bs hnew) k1, k2, rfl, rfl, rfl, ?_, k3.vel.data, k3.r.data, fun t ht i hi => ?_⟩
  · rw [k3.opt.nn, setParams_params _ _ k3.opt.wlen]; rfl
  · obtain ⟨-, -, e1, e2⟩ := rmsprop_rule _ _ hGl rho m d lr nest _ hpl t (by omega) i hi
    obtain ⟨h1, h2, h3⟩ := hlen t (by omega)
    simp only [hlr (t + 1) (by omega), at_batchAt _ g _ ht _ hi] at e1 e2
    refine ⟨?_, e1, e2⟩
    beta_reduce
    rw [traj_succ _ _ _ _ (by omega)]
    have : ∀ s G, (Spec.rmspropStep rho m d nest s G).r = List.zipWith (fun r g => rho * r + (1 - rho) * g ^ 2) s.r
        (G (if 0 < m ∧ nest then vadd s.w (vscale m s.v) else s.w)) := by
      intro s G; simp only [Spec.rmspropStep]; split <;> rfl
    rw [this, at_zw _ _ _ i (by omega) (by rw [gradsOf, batchAt_map _ _ ht, meanGrad_length]; exact hi),
      at_batchAt _ g _ ht _ hi]

end

/-! ### Examples -/

/-- The hypotheses are met: plain SGD with decay, ten epochs of two batches; the learning rate at the end. -/
example (c : Cfg) (jk : ℕ → ℝ) (r : ℕ → ℕ) (q : ℕ) : ∃ (st : Statics ℝ) (s : Sgd ℝ) (st' : Statics ℝ) (s' : Sgd ℝ) (q' : ℕ),
    newSgd Statics.initial exTrain true 2 none (1 / 100) (1 / 1000) 0 false (some 640) = .ok (st, s) ∧
    runCalls (fun k => sgdKind (noCustom ℝ) c k.mem k.fuel k.n k.X k.Y) (noCustom ℝ) c r
      (List.replicate 10 (exCall c jk)) (st, s, q) = .ok (st', s', q') ∧
    s'.lr = 1 / 100 / ∏ j ∈ Finset.range 20, (1 + 1 / 1000 * (j : ℝ)) := by
  have hT := exTrainable c
  have hloss : exTrain.loss = some .mse := hT.loss_eq
  have hnew : newSgd Statics.initial exTrain true 2 none (1 / 100) (1 / 1000) 0 false (some 640) =
      .ok (⟨0, some .mse, 1, 1⟩, ⟨⟨exTrain, true, 2, .static, none⟩, 1 / 100, 1 / 1000, 0, false, 0,
        ⟨640, List.replicate (nParams exTrain.layers) 0⟩⟩) := by
    have : getMetricFunc (getLossName (some Loss.mse)) = some .mse := by decide
    simp [newSgd, zeroVec, newOpt, hloss, bind, Except.bind, pure, Except.pure, Statics.initial, this]
  obtain ⟨st', s', q', h1, h2, -⟩ := C33_sgd (noCustom ℝ) c .mse exTrain hT.wf [.mse] [] r
    (fun k w p => sampleGrad (noCustom ℝ) c .mse k.X k.Y (exTrain.setParams w) p) Statics.initial rfl true 2 none (1 / 100)
    (1 / 1000) 0 (by norm_num) (by norm_num) false 640 (align64 c 640 rfl) _ _ hnew rfl (List.replicate 10 (exCall c jk))
    (fun k hk => by rw [List.eq_of_mem_replicate hk]; exact exCall_ok c jk)
    (fun k hk => by
      rw [List.eq_of_mem_replicate hk]
      exact sampleGrads_sampleGrad _ _ .mse _ _ _ _ hT)
    (by simp [totalBatches, exCall]) q
  refine ⟨_, _, st', s', q', hnew, h1, ?_⟩
  rw [h2]
  simp [totalBatches, exCall]

/-- The hypotheses are met: Adam on the same data. -/
example (c : Cfg) (jk : ℕ → ℝ) (r : ℕ → ℕ) (q : ℕ) : ∃ (st : Statics ℝ) (s : Adam ℝ) (st' : Statics ℝ) (s' : Adam ℝ) (q' : ℕ)
    (b : List (Call × List ℕ)),
    newAdam Statics.initial exTrain true 2 none (1 / 100) (9 / 10) (99 / 100) 0 (some 640) (some 1280) = .ok (st, s) ∧
    HistoryBatches 2 (List.replicate 10 (exCall c jk)) b ∧
    runCalls (fun k => adamKind (noCustom ℝ) c k.mem k.fuel k.n k.X k.Y) (noCustom ℝ) c r
      (List.replicate 10 (exCall c jk)) (st, s, q) = .ok (st', s', q') := by
  have hT := exTrainable c
  have hloss : exTrain.loss = some .mse := hT.loss_eq
  have hnew : newAdam Statics.initial exTrain true 2 none (1 / 100) (9 / 10) (99 / 100) 0 (some 640) (some 1280) =
      .ok (⟨0, some .mse, 1, 1⟩, ⟨⟨exTrain, true, 2, .static, none⟩, 1 / 100, 9 / 10, 99 / 100, 0,
        ⟨640, List.replicate (nParams exTrain.layers) 0⟩, ⟨1280, List.replicate (nParams exTrain.layers) 0⟩⟩) := by
    have : getMetricFunc (getLossName (some Loss.mse)) = some .mse := by decide
    simp [newAdam, zeroVec, newOpt, hloss, bind, Except.bind, pure, Except.pure, Statics.initial, this]
  obtain ⟨b, W, M, V, st', s', q', h1, h2, -⟩ := C34_steps (noCustom ℝ) c .mse exTrain hT.wf [.mse] [] r
    (fun k w p => sampleGrad (noCustom ℝ) c .mse k.X k.Y (exTrain.setParams w) p) Statics.initial rfl rfl rfl true 2 none
    (1 / 100) (9 / 10) (99 / 100) 0 640 1280 (align64 c 640 rfl) (align64 c 1280 rfl) _ _ hnew rfl
    (List.replicate 10 (exCall c jk))
    (fun k hk => by rw [List.eq_of_mem_replicate hk]; exact exCall_ok c jk)
    (fun k hk => by
      rw [List.eq_of_mem_replicate hk]
      exact sampleGrads_sampleGrad _ _ .mse _ _ _ _ hT) q
  exact ⟨_, _, st', s', q', b, hnew, h1, h2⟩

end NN
