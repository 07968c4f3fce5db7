import Verif.Proofs.Schedule
import Verif.Properties.Metrics
import Verif.Properties.Batch
/-
C24: evaluate (build without BLAS; the BLAS build is in `Verif/Properties/BatchBlas.lean`).
-/
set_option linter.unusedSimpArgs false
set_option linter.unusedSectionVars false

namespace NN
open FloatOps Spec

section
variable {F : Type} [FloatOps F]

theorem metricList_eq (ms : List Metric) (rest : List (Option Metric)) :
    metricList (ms.map some ++ none :: rest) = .ok ms := by
  induction ms with
  | nil => rfl
  | cons m ms ih => simp [metricList, ih, bind, Except.bind, pure, Except.pure]

/-- Every metric delivers a value, for any float operations. -/
theorem runMetric_ok (m : Metric) (n : ℕ) (hn : 1 ≤ n) (p y : View F) (hp : n ≤ p.data.length)
    (hy : n ≤ y.data.length) : ∃ r, runMetric m n p y = .ok r := by
  cases m <;> simp [runMetric, bind, Except.bind, pure, Except.pure, sumLoop_eq _ n p y hp hy,
    argmaxLoop_eq n _ hn hp, argmaxLoop_eq n _ hn hy]

theorem accMetrics_ok (n : ℕ) (hn : 1 ≤ n) (p y : View F) (hp : n ≤ p.data.length)
    (hy : n ≤ y.data.length) (ms : List Metric) (res : List F) (h : res.length = ms.length) :
    ∃ r, accMetrics n p y ms res = .ok r ∧ r.length = ms.length := by
  induction ms generalizing res with
  | nil => exact ⟨res, rfl, h⟩
  | cons m ms ih =>
    cases res with
    | nil => simp at h
    | cons r res =>
      obtain ⟨e, he⟩ := runMetric_ok m n hn p y hp hy
      obtain ⟨q, hq, hl⟩ := ih res (by simpa using h)
      exact ⟨add r e :: q, by simp [accMetrics, he, hq, bind, Except.bind, pure, Except.pure], by simp [hl]⟩

/-- The final loop writes the quotients. -/
theorem writeResults (n k : ℕ) (loc : List F) (hl : loc.length = k) (results : View F)
    (hr : k ≤ results.data.length) :
    storeResults n k loc results =
      .ok ⟨results.addr, (loc.map fun r => div r (ofNat n)) ++ results.data.drop k⟩ := by
  let f : F → F := fun r => div r (ofNat n)
  have h := forN_eq (n := k) (body := fun i (results : View F) =>
      match loc[i]? with
      | some r => results.store i (div r (ofNat n))
      | none => .error .oob)
    (fun j => (⟨results.addr, (loc.take j).map f ++ results.data.drop j⟩ : View F)) (fun j hj => by
      rw [List.getElem?_eq_getElem (by omega : j < loc.length)]
      simp only [View.store]
      rw [if_pos (by simp; omega)]
      congr 2
      apply List.ext_getElem?; intro i
      have hlen : ((loc.take j).map f).length = j := by simp; omega
      have hlen' : ((loc.take (j + 1)).map f).length = j + 1 := by simp; omega
      rw [List.getElem?_set]
      rcases lt_trichotomy i j with h | h | h
      · rw [if_neg (by omega), List.getElem?_append_left (by omega), List.getElem?_append_left (by omega)]
        simp [List.getElem?_take, h, show i < j + 1 by omega]
      · subst h
        rw [if_pos rfl, if_pos (by simp; omega), List.getElem?_append_left (by omega)]
        simp [List.getElem?_take, List.getElem?_eq_getElem (show i < loc.length by omega), f]
      · rw [if_neg (by omega), List.getElem?_append_right (by omega), List.getElem?_append_right (by omega),
          hlen, hlen', List.getElem?_drop, List.getElem?_drop]
        congr 1; omega)
  simp only [List.take_zero, List.map_nil, List.nil_append, List.drop_zero] at h
  rw [List.take_of_length_le (by omega)] at h
  exact h

/-- **C24** Any float operations, every schedule: `evaluate` succeeds, writes exactly
`results[0..n_metrics)` and leaves the rest alone. -/
theorem C24_safe (env : CustomEnv F) (c : Cfg) (mem : ℕ → ThreadMem F) (sched : Sched) (nn : Net F) (n : ℕ)
    (hs : sched.Covers n) (X Y : View F) (ms : List Metric) (rest : List (Option Metric)) (results : View F)
    (hw : nn.WF c)
    (hmem : ∀ i, (mem i).workAddr % c.alignSize = 0 ∧ (mem i).predAddr % c.alignSize = 0)
    (hX : n * nn.nInput ≤ X.data.length) (hY : n * nn.nOutput ≤ Y.data.length)
    (hr : ms.length ≤ results.data.length) :
    ∃ vals : List F, vals.length = ms.length ∧
      evaluate env c mem sched nn n X Y (ms.map some ++ none :: rest) results =
        .ok ⟨results.addr, vals ++ results.data.drop ms.length⟩ := by
  obtain ⟨last, hlast, hno, hlw⟩ := exists_last hw
  have hm : 1 ≤ nn.nOutput := by rw [hno]; exact hlw.out_pos
  obtain ⟨tot, ht, hl⟩ := reduce_inv (fun l : List F => l.length = ms.length) (fun i => i < n)
    (ms.map fun _ => (zero : F)) (evaluateBody env c mem nn X Y ms) (List.zipWith add) (by simp)
    (by
      intro i s hi hsl
      have h1 : (i + 1) * nn.nInput ≤ n * nn.nInput := Nat.mul_le_mul_right _ hi
      have h2 : (i + 1) * nn.nOutput ≤ n * nn.nOutput := Nat.mul_le_mul_right _ hi
      rw [Nat.succ_mul] at h1 h2
      unfold evaluateBody
      rw [predict_netF env c _ _ nn _ _ hw (hmem i).1 (by simp [View.offset]; omega)
        (by rw [stackArray_length]) (AlignedFor.of_aligned (hmem i).2)]
      simp only [bind, Except.bind]
      refine accMetrics_ok nn.nOutput hm _ _ ?_ (by simp [View.offset]; omega) ms s hsl
      simp only [List.length_append]
      have hlen := netF_length env c (stackArray (mem i).predAddr nn.nOutput (mem i).predJunk).addr nn.layers
        (List.take nn.nInput (X.offset (i * nn.nInput)).data) last hlast hw.layer
      rw [hlen, hno]
      omega)
    (by intro a b ha hb; simp [ha, hb]) sched
    (by intro i hi; have := (hs.mem_iff).mp hi; simpa using this)
  refine ⟨(List.zipWith add (ms.map fun _ => (zero : F)) tot).map fun r => div r (ofNat n), by simp [hl], ?_⟩
  unfold evaluate
  simp only [metricList_eq, bind, Except.bind, ht]
  exact writeResults n ms.length _ (by simp [hl]) results hr
end

theorem accMetrics_real (n : ℕ) (hn : 1 ≤ n) (p y : View ℝ) (hp : n ≤ p.data.length)
    (hy : n ≤ y.data.length) (ms : List Metric) (res : List ℝ) (h : res.length = ms.length) :
    accMetrics n p y ms res = .ok (List.zipWith add res (ms.map fun m => metricSpec m n p.data y.data)) := by
  induction ms generalizing res with
  | nil => cases res <;> simp_all [accMetrics, pure, Except.pure]
  | cons m ms ih =>
    cases res with
    | nil => simp at h
    | cons r res =>
      simp [accMetrics, runMetric_real m n hn p y hp hy, ih res (by simpa using h), bind, Except.bind, pure,
        Except.pure]

theorem metricSpec_take (m : Metric) (n : ℕ) (hn : 1 ≤ n) (p y : List ℝ) (hp : n ≤ p.length) (_hy : n ≤ y.length) :
    metricSpec m n p y = metricSpec m n (p.take n) (y.take n) := by
  have hp' : ∀ k ∈ Finset.range n, at_ p k = at_ (p.take n) k := by
    intro k hk; rw [at_take (by simpa using hk)]
  have hy' : ∀ k ∈ Finset.range n, at_ y k = at_ (y.take n) k := by
    intro k hk; rw [at_take (by simpa using hk)]
  have hc : ∀ k ∈ Finset.range n, at_ (p.map (Spec.clip (1 / 10000000))) k =
      at_ ((p.take n).map (Spec.clip (1 / 10000000))) k := by
    intro k hk
    have hk' : k < n := by simpa using hk
    rw [at_map _ (by omega), at_map _ (by simp; omega), at_take hk']
  cases m <;> simp only [metricSpec, Spec.mse, Spec.mae, Spec.mape, Spec.binaryCrossentropy,
    Spec.categoricalCrossentropy]
  · rw [Finset.sum_congr rfl fun k hk => by rw [hp' k hk, hy' k hk]]
  · rw [Finset.sum_congr rfl fun k hk => by rw [hp' k hk, hy' k hk]]
  · rw [Finset.sum_congr rfl fun k hk => by rw [hp' k hk, hy' k hk]]
  · rw [Finset.sum_congr rfl fun k hk => by rw [hc k hk, hy' k hk]]
  · rw [Finset.sum_congr rfl fun k hk => by rw [hc k hk, hy' k hk]]
  · have : ∀ (l : List ℝ), ∀ j < n, argmaxF l j = argmaxF (l.take n) j := by
      intro l j
      induction j with
      | zero =>
        intro hj
        have h0 : l.getD 0 zero = at_ l 0 := rfl
        have h1 : (l.take n).getD 0 zero = at_ (l.take n) 0 := rfl
        simp only [argmaxF, h0, h1, at_take hj]
      | succ j ih =>
        intro hj
        have h0 : l.getD (j + 1) zero = at_ l (j + 1) := rfl
        have h1 : (l.take n).getD (j + 1) zero = at_ (l.take n) (j + 1) := rfl
        simp only [argmaxF, h0, h1, at_take hj, ih (by omega)]
    rw [this p (n - 1) (by omega), this y (n - 1) (by omega)]
  · rw [Finset.sum_congr rfl fun k hk => by rw [hp' k hk, hy' k hk]]

/-- **C24** In exact arithmetic `evaluate` stores, for every metric of the list, the mean over all
samples of the metric of the network function at the sample, whatever the schedule and the stack. -/
theorem C24_mean (env : CustomEnv ℝ) (c : Cfg) (mem : ℕ → ThreadMem ℝ) (sched : Sched) (nn : Net ℝ) (n : ℕ)
    (hs : sched.Covers n) (X Y : View ℝ) (ms : List Metric) (rest : List (Option Metric)) (results : View ℝ)
    (hw : nn.WF c)
    (hmem : ∀ i, (mem i).workAddr % c.alignSize = 0 ∧ (mem i).predAddr % c.alignSize = 0)
    (hX : n * nn.nInput ≤ X.data.length) (hY : n * nn.nOutput ≤ Y.data.length)
    (hr : ms.length ≤ results.data.length) :
    evaluate env c mem sched nn n X Y (ms.map some ++ none :: rest) results =
      .ok ⟨results.addr, (ms.map fun m => (∑ i ∈ Finset.range n, metricSpec m nn.nOutput
        (Spec.network (nn.layers.map (Layer.toSpec env)) (slice X.data (i * nn.nInput) nn.nInput))
        (slice Y.data (i * nn.nOutput) nn.nOutput)) / n) ++ results.data.drop ms.length⟩ := by
  obtain ⟨last, hlast, hno, hlw⟩ := exists_last hw
  have hm : 1 ≤ nn.nOutput := by rw [hno]; exact hlw.out_pos
  let v : ℕ → List ℝ := fun i => ms.map fun m => metricSpec m nn.nOutput
        (Spec.network (nn.layers.map (Layer.toSpec env)) (slice X.data (i * nn.nInput) nn.nInput))
        (slice Y.data (i * nn.nOutput) nn.nOutput)
  have hred := reduce_real ms.length v (fun i => i < n) (evaluateBody env c mem nn X Y ms)
    (by intro i _; simp [v])
    (by
      intro i s hi hsl
      have h1 : (i + 1) * nn.nInput ≤ n * nn.nInput := Nat.mul_le_mul_right _ hi
      have h2 : (i + 1) * nn.nOutput ≤ n * nn.nOutput := Nat.mul_le_mul_right _ hi
      rw [Nat.succ_mul] at h1 h2
      have hsp : (Spec.network (nn.layers.map (Layer.toSpec env))
          (List.take nn.nInput (X.offset (i * nn.nInput)).data)).length = nn.nOutput := by
        rw [← netF_real env c 0 nn.layers _ hw.layer hw.chain (by
          intro l hl
          rw [Net.nInput_eq hl] at h1 hX ⊢
          simp [View.offset]; omega), hno]
        exact netF_length env c 0 nn.layers _ last hlast hw.layer
      unfold evaluateBody
      rw [C01_predict env c _ _ nn _ _ hw (hmem i).1 (by simp [View.offset]; omega)
        (by rw [stackArray_length]) (AlignedFor.of_aligned (hmem i).2)]
      simp only [bind, Except.bind]
      rw [accMetrics_real nn.nOutput hm _ _ (by simp [hsp]) (by simp [View.offset]; omega) ms s hsl]
      congr 2
      refine List.map_congr_left fun m _ => ?_
      rw [metricSpec_take m nn.nOutput hm _ _ (by simp [hsp]) (by simp [View.offset]; omega),
        List.take_left' hsp]
      rfl) sched
    (by intro i hi; have := (hs.mem_iff).mp hi; simpa using this)
  rw [vsum_perm _ _ hs, vsum_range] at hred
  have hz : (ms.map fun _ => (zero : ℝ)) = List.replicate ms.length 0 := by
    simp [List.map_const']
  unfold evaluate
  simp only [metricList_eq, bind, Except.bind, hz, hred]
  refine (writeResults n ms.length _ (by simp) results hr).trans ?_
  congr 3
  apply List.ext_getElem
  · simp
  · intro j h1 h2
    simp at h1
    simp [v, at_, List.getD, List.getElem?_eq_getElem h1]

/-- **C24** Two runs with different schedules and different stacks agree. -/
theorem C24_schedule_independent (env : CustomEnv ℝ) (c : Cfg) (mem mem' : ℕ → ThreadMem ℝ)
    (sched sched' : Sched) (nn : Net ℝ) (n : ℕ) (hs : sched.Covers n) (hs' : sched'.Covers n)
    (X Y : View ℝ) (ms : List Metric) (rest : List (Option Metric)) (results : View ℝ) (hw : nn.WF c)
    (hmem : ∀ i, (mem i).workAddr % c.alignSize = 0 ∧ (mem i).predAddr % c.alignSize = 0)
    (hmem' : ∀ i, (mem' i).workAddr % c.alignSize = 0 ∧ (mem' i).predAddr % c.alignSize = 0)
    (hX : n * nn.nInput ≤ X.data.length) (hY : n * nn.nOutput ≤ Y.data.length)
    (hr : ms.length ≤ results.data.length) :
    evaluate env c mem sched nn n X Y (ms.map some ++ none :: rest) results =
      evaluate env c mem' sched' nn n X Y (ms.map some ++ none :: rest) results := by
  rw [C24_mean env c mem sched nn n hs X Y ms rest results hw hmem hX hY hr,
    C24_mean env c mem' sched' nn n hs' X Y ms rest results hw hmem' hX hY hr]

/-! ### Example -/

/-- Two threads, three samples: mse and mae of the example network (predictions 28, 12, 12). -/
example (jk : ℕ → ℝ) : evaluate (noCustom ℝ) cfgAvx (fun _ => ⟨4096, jk, 8192, jk⟩)
    (.combine (.thread [2]) (.thread [0, 1])) exNet 3 ⟨0, [1, 2, 0, 0, 0, 1]⟩ ⟨0, [27, 14, 0]⟩
    [some .mse, some .mae, none] ⟨0, [5, 6, 7]⟩ =
      .ok ⟨0, [(1 + 4 + 144) / 3, (1 + 2 + 12) / 3, 7]⟩ := by
  have h := C24_mean (noCustom ℝ) cfgAvx (fun _ => ⟨4096, jk, 8192, jk⟩)
    (.combine (.thread [2]) (.thread [0, 1])) exNet 3
    (by rw [Sched.Covers, Sched.iters, Sched.iters, Sched.iters]; decide)
    ⟨0, [1, 2, 0, 0, 0, 1]⟩ ⟨0, [27, 14, 0]⟩ [.mse, .mae] [] ⟨0, [5, 6, 7]⟩ (exNet_wf _)
    (by intro _; simp [cfgAvx, Cfg.alignSize, Cfg.avx512, Cfg.avx]) (by simp [exNet, Net.nInput]) (by simp [exNet, Net.nOutput])
    (by simp)
  simp only [List.map_cons, List.map_nil, List.cons_append, List.nil_append] at h
  rw [h]
  simp [exNet, Net.nInput, Net.nOutput, Layer.toSpec, Spec.network, Spec.Layer.apply, Spec.affine,
    Spec.at_, Finset.sum_range_succ, actSpec, Spec.relu, List.range_succ, slice, metricSpec, Spec.mse, Spec.mae]
  norm_num

end NN
