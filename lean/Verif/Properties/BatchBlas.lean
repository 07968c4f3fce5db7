import Verif.Proofs.BatchBlas
import Verif.Properties.Evaluate
/-
C05, C06 and C24 for the BLAS build, in exact arithmetic.
-/
set_option linter.unusedSimpArgs false
set_option linter.unusedSectionVars false

namespace NN
open FloatOps Spec

/-- User supplied activations of the network act elementwise. -/
def ElementwiseCustom (env : CustomEnv ℝ) (nn : Net ℝ) : Prop :=
  ∀ l ∈ nn.layers, ∀ i, l.act = .custom i → ∃ f : ℝ → ℝ, env.act i = List.map f

/-- In an AVX2 build no tanh layer computes 16 or more values in one batch. -/
def SmallTanh (c : Cfg) (nn : Net ℝ) (n : ℕ) : Prop :=
  ∀ l ∈ nn.layers, l.act = .tanh → c.hasAvx2 = true → l.nOut * n < 16

theorem batchOk_of {env : CustomEnv ℝ} {c : Cfg} {nn : Net ℝ} {n : ℕ} (hw : nn.WF c)
    (he : ElementwiseCustom env nn) (ht : SmallTanh c nn n) : Blas.BatchOk env c nn n :=
  ⟨hw, fun l hl => Blas.rowWise_of env l.act (he l hl), ht⟩

/-- **C05** (missing: tanh layers in AVX2 builds, for which the claim is false, `C05_false`.)
For every sample count, stack limit `N` not below the total layer width, stack address and content:
row `i` of the output is the network function at row `i` of the input, and nothing else is written. -/
theorem C05_rows_partial (env : CustomEnv ℝ) (c : Cfg) (N fuel start : ℕ) (workAddr : ℕ → ℕ → ℕ)
    (junk : ℕ → ℕ → ℕ → ℝ) (nn : Net ℝ) (n : ℕ) (input out : View ℝ) (hw : nn.WF c)
    (he : ElementwiseCustom env nn) (ht : SmallTanh c nn n) (hN : workSize nn.layers ≤ N)
    (hov : workSize nn.layers * n ≤ 2147483647) (hf : n < fuel)
    (hin : n * nn.nInput ≤ input.data.length) (hout : n * nn.nOutput ≤ out.data.length) :
    Blas.predictBatch env c N workAddr junk nn fuel start n input out =
      .ok ⟨out.addr, ((List.range n).map fun i => Spec.network (nn.layers.map (Layer.toSpec env))
        (slice input.data (i * nn.nInput) nn.nInput)).flatten ++ out.data.drop (n * nn.nOutput)⟩ :=
  Blas.predictBatch_eq env c N workAddr junk nn hN fuel start n input out (batchOk_of hw he ht) hov hf
    hin hout

/-- **C05** Row `i` is what `neuralnet_predict` writes for row `i` (into an aligned buffer). -/
theorem C05_predict_partial (env : CustomEnv ℝ) (c : Cfg) (N fuel start : ℕ) (workAddr : ℕ → ℕ → ℕ)
    (junk : ℕ → ℕ → ℕ → ℝ) (nn : Net ℝ) (n : ℕ) (input out : View ℝ) (hw : nn.WF c)
    (he : ElementwiseCustom env nn) (ht : SmallTanh c nn n) (hN : workSize nn.layers ≤ N)
    (hov : workSize nn.layers * n ≤ 2147483647) (hf : n < fuel)
    (hin : n * nn.nInput ≤ input.data.length) (hout : n * nn.nOutput ≤ out.data.length)
    (wa : ℕ) (jk : ℕ → ℝ) (hwa : wa % c.alignSize = 0) (buf : View ℝ)
    (hb : nn.nOutput ≤ buf.data.length) (hba : buf.addr % c.alignSize = 0) :
    ∃ res, Blas.predictBatch env c N workAddr junk nn fuel start n input out = .ok res ∧
      ∀ i < n, ∃ p, predict env c wa jk nn (input.offset (i * nn.nInput)) buf = .ok p ∧
        slice res.data (i * nn.nOutput) nn.nOutput = p.data.take nn.nOutput := by
  refine ⟨_, C05_rows_partial env c N fuel start workAddr junk nn n input out hw he ht hN hov hf hin hout, ?_⟩
  intro i hi
  have h1 : (i + 1) * nn.nInput ≤ n * nn.nInput := Nat.mul_le_mul_right _ hi
  rw [Nat.succ_mul] at h1
  refine ⟨_, C01_predict env c wa jk nn _ buf hw hwa (by simp [View.offset]; omega) hb
    (AlignedFor.of_aligned hba), ?_⟩
  have hl := fun x => Blas.network_length env c nn hw x
  rw [List.take_left' (hl _)]
  exact mat_slice n nn.nOutput _ (fun j _ => hl _) i hi _

/-- **C05** is false: the layer buffers are slices of a plain `float` array on the stack, and `tanh_act`
uses aligned loads.  Every network with a hidden tanh layer in front faults if the array is not aligned
to 32 bytes and the batch is not tiny. -/
theorem C05_false (env : CustomEnv ℝ) (c : Cfg) (hc : c.hasAvx2 = true) (N fuel start : ℕ)
    (workAddr : ℕ → ℕ → ℕ) (junk : ℕ → ℕ → ℕ → ℝ) (loss : Option Loss) (l l' : Layer ℝ)
    (ls : List (Layer ℝ)) (n : ℕ) (input out : View ℝ) (hw : Net.WF c ⟨l :: l' :: ls, loss⟩)
    (hact : l.act = .tanh) (h16 : 16 ≤ l.nOut * n) (ha : workAddr start n % 32 ≠ 0)
    (hN : workSize (l :: l' :: ls) * n ≤ N) (hov : workSize (l :: l' :: ls) * n ≤ 2147483647)
    (hin : n * l.nIn ≤ input.data.length)
    (hout : n * (Net.nOutput ⟨l :: l' :: ls, loss⟩) ≤ out.data.length) :
    Blas.predictBatch env c N workAddr junk ⟨l :: l' :: ls, loss⟩ (fuel + 1) start n input out =
      .error .misaligned := by
  obtain ⟨last, hlast, hno, hlw⟩ := exists_last hw
  unfold Blas.predictBatch
  rw [if_neg (by simp only [Blas.intMax]; omega), if_neg (by simp only; omega)]
  have hlaid := Blas.laid_offsets n N (l :: l' :: ls).dropLast 0 (by
    have := Nat.mul_le_mul_right n (workSize_dropLast_le (l :: l' :: ls))
    omega)
  rw [hno] at hout
  obtain ⟨w, e, hwl, hf, -⟩ := Blas.fillAll_eq c n N (l :: l' :: ls)
    (Blas.offsets n 0 (l :: l' :: ls).dropLast) 0
    ⟨input, stackArray (workAddr start n) N (junk start n), out⟩ last hlast hw.layer
    (stackArray_length _ _ _) hlaid hout
  unfold Blas.batchBase
  simp only [e, bind, Except.bind]
  have hwf := hw.layer l (by simp)
  simp only [List.dropLast_cons_cons, Blas.offsets, List.map_cons, List.cons_append, Blas.forwardB,
    Blas.stepB, overlaps, Bool.false_eq_true, if_false, Bufs.at] at hf ⊢
  have hrow : ∀ i < n, (slice input.data (i * l.nIn) l.nIn).length = l.nIn := by
    intro i hi
    have : (i + 1) * l.nIn ≤ n * l.nIn := Nat.mul_le_mul_right _ hi
    rw [Nat.succ_mul] at this
    simp [slice]; omega
  rw [Blas.sgemm_rows l n hwf.out_pos (fun i => slice input.data (i * l.nIn) l.nIn) hrow input _
    hwf.weight_len.ge hwf.bias_len (Blas.take_eq_mat _ _ _ hin)
    (by simpa [View.offset, slice] using hf.1)]
  simp only [bind, Except.bind, Blas.activateRows, hact, reduceCtorEq, if_false]
  rw [C18_tanh_misaligned env c (l.nOut * n) _ hc h16 (by simpa [View.offset, stackArray] using ha)]

/-- **C06** (missing: networks wider than the stack limit, `C06_false`.)
The recursion terminates for every sample count if the total layer width does not exceed the limit: the
result does not depend on the recursion depth allowed, from `n + 1` on. -/
theorem C06_terminates_partial (env : CustomEnv ℝ) (c : Cfg) (N fuel start : ℕ) (workAddr : ℕ → ℕ → ℕ)
    (junk : ℕ → ℕ → ℕ → ℝ) (nn : Net ℝ) (n : ℕ) (input out : View ℝ) (hN : workSize nn.layers ≤ N)
    (hf : n < fuel) :
    Blas.predictBatch env c N workAddr junk nn fuel start n input out =
      Blas.predictBatch env c N workAddr junk nn (n + 1) start n input out :=
  Blas.predictBatch_fuel env c N workAddr junk nn hN fuel start n input out hf

/-- **C06** and under the preconditions of C05 it ends without a fault. -/
theorem C06_ok_partial (env : CustomEnv ℝ) (c : Cfg) (N fuel start : ℕ) (workAddr : ℕ → ℕ → ℕ)
    (junk : ℕ → ℕ → ℕ → ℝ) (nn : Net ℝ) (n : ℕ) (input out : View ℝ) (hw : nn.WF c)
    (he : ElementwiseCustom env nn) (ht : SmallTanh c nn n) (hN : workSize nn.layers ≤ N)
    (hov : workSize nn.layers * n ≤ 2147483647) (hf : n < fuel)
    (hin : n * nn.nInput ≤ input.data.length) (hout : n * nn.nOutput ≤ out.data.length) :
    Blas.predictBatch env c N workAddr junk nn fuel start n input out ≠ .error .diverge := by
  rw [C05_rows_partial env c N fuel start workAddr junk nn n input out hw he ht hN hov hf hin hout]
  simp

/-- **C06** is false: if the layers together are wider than the limit, no depth of recursion suffices,
for every non-empty batch (one sample is "split" into zero samples and itself). -/
theorem C06_false (env : CustomEnv ℝ) (c : Cfg) (N start : ℕ) (workAddr : ℕ → ℕ → ℕ)
    (junk : ℕ → ℕ → ℕ → ℝ) (nn : Net ℝ) (n : ℕ) (input out : View ℝ) (hw : nn.WF c)
    (he : ElementwiseCustom env nn) (hN : N < workSize nn.layers) (hn : 1 ≤ n)
    (hov : workSize nn.layers * n ≤ 2147483647) :
    ∀ fuel, Blas.predictBatch env c N workAddr junk nn fuel start n input out = .error .diverge :=
  fun fuel => Blas.predictBatch_diverges env c N workAddr junk nn
    (batchOk_of hw he (by intro l _ _ _; simp)) hN fuel start n input out hn hov

/-- **C06** The size of the work memory is computed in `int`: large batches overflow it (undefined
behaviour) although they could be split. -/
theorem C06_overflow (env : CustomEnv ℝ) (c : Cfg) (N fuel start : ℕ) (workAddr : ℕ → ℕ → ℕ)
    (junk : ℕ → ℕ → ℕ → ℝ) (nn : Net ℝ) (n : ℕ) (input out : View ℝ)
    (hov : 2147483647 < workSize nn.layers * n) :
    Blas.predictBatch env c N workAddr junk nn (fuel + 1) start n input out = .error .overflow := by
  unfold Blas.predictBatch
  rw [if_pos (by simpa [Blas.intMax] using hov)]

/-- **C24** The BLAS build of `evaluate` stores the same means. -/
theorem C24_mean_blas (env : CustomEnv ℝ) (c : Cfg) (N fuel predAddr : ℕ) (workAddr : ℕ → ℕ → ℕ)
    (junk : ℕ → ℕ → ℕ → ℝ) (sched : Sched) (nn : Net ℝ) (n : ℕ)
    (hs : sched.Covers n) (X Y : View ℝ) (ms : List Metric) (rest : List (Option Metric)) (results : View ℝ)
    (hw : nn.WF c) (he : ElementwiseCustom env nn) (ht : SmallTanh c nn n) (hN : workSize nn.layers ≤ N)
    (hov : workSize nn.layers * n ≤ 2147483647) (hf : n < fuel)
    (hX : n * nn.nInput ≤ X.data.length) (hY : n * nn.nOutput ≤ Y.data.length)
    (hr : ms.length ≤ results.data.length) :
    Blas.evaluate env c N fuel workAddr junk predAddr sched nn n X Y (ms.map some ++ none :: rest) results =
      .ok ⟨results.addr, (ms.map fun m => (∑ i ∈ Finset.range n, metricSpec m nn.nOutput
        (Spec.network (nn.layers.map (Layer.toSpec env)) (slice X.data (i * nn.nInput) nn.nInput))
        (slice Y.data (i * nn.nOutput) nn.nOutput)) / n) ++ results.data.drop ms.length⟩ := by
  obtain ⟨last, hlast, hno, hlw⟩ := exists_last hw
  have hm : 1 ≤ nn.nOutput := by rw [hno]; exact hlw.out_pos
  have hp := C05_rows_partial env c N fuel 0 workAddr junk nn n X
    ⟨predAddr, List.replicate (nn.nOutput * n) 0⟩ hw he ht hN hov hf hX
    (by simp [Nat.mul_comm])
  have hl := fun x => Blas.network_length env c nn hw x
  let v : ℕ → List ℝ := fun i => ms.map fun m => metricSpec m nn.nOutput
        (Spec.network (nn.layers.map (Layer.toSpec env)) (slice X.data (i * nn.nInput) nn.nInput))
        (slice Y.data (i * nn.nOutput) nn.nOutput)
  have hdrop : (List.replicate (nn.nOutput * n) (0:ℝ)).drop (n * nn.nOutput) = [] := by
    simp [Nat.mul_comm]
  rw [hdrop, List.append_nil] at hp
  set R : ℕ → List ℝ := fun i => Spec.network (nn.layers.map (Layer.toSpec env))
    (slice X.data (i * nn.nInput) nn.nInput) with hR
  have hred := reduce_real ms.length v (fun i => i < n) (fun i res =>
    accMetrics nn.nOutput ((⟨predAddr, ((List.range n).map R).flatten⟩ : View ℝ).offset (i * nn.nOutput))
      (Y.offset (i * nn.nOutput)) ms res)
    (by intro i _; simp [v])
    (by
      intro i s hi hsl
      have h2 : (i + 1) * nn.nOutput ≤ n * nn.nOutput := Nat.mul_le_mul_right _ hi
      rw [Nat.succ_mul] at h2
      have hml := mat_length n nn.nOutput R (fun j _ => hl _)
      have hpl : nn.nOutput ≤ (((List.range n).map R).flatten.drop (i * nn.nOutput)).length := by
        have : ((List.range n).map R).flatten.length = n * nn.nOutput := hml
        rw [List.length_drop, this]; omega
      rw [accMetrics_real nn.nOutput hm _ _ (by simpa [View.offset] using hpl)
        (by simp [View.offset]; omega) ms s hsl]
      congr 2
      refine List.map_congr_left fun m _ => ?_
      rw [metricSpec_take m nn.nOutput hm _ _ (by simpa [View.offset] using hpl)
        (by simp [View.offset]; omega)]
      have := mat_slice n nn.nOutput R (fun j _ => hl _) i hi []
      rw [List.append_nil] at this
      exact congrArg (fun p => metricSpec m nn.nOutput p _) this) sched
    (by intro i hi; have := (hs.mem_iff).mp hi; simpa using this)
  rw [vsum_perm _ _ hs, vsum_range] at hred
  have hz : (ms.map fun _ => (0 : ℝ)) = List.replicate ms.length 0 := by
    simp [List.map_const']
  unfold Blas.evaluate
  simp only [metricList_eq, bind, Except.bind, hz, hp, hred]
  rw [writeResults n ms.length _ (by simp) results hr]
  congr 3
  apply List.ext_getElem
  · simp
  · intro j h1 h2
    have h1' : j < ms.length := by simpa using h2
    simp [v, at_, List.getD, List.getElem?_eq_getElem h1', hR]

/-! ### Examples -/

theorem exNet_elementwise : ElementwiseCustom (noCustom ℝ) exNet := by
  intro l hl i h
  simp only [exNet, List.mem_cons, List.not_mem_nil, or_false] at hl
  rcases hl with rfl | rfl <;> simp at h

theorem exNet_smallTanh (c : Cfg) (n : ℕ) : SmallTanh c exNet n := by
  intro l hl h
  simp only [exNet, List.mem_cons, List.not_mem_nil, or_false] at hl
  rcases hl with rfl | rfl <;> simp at h

/-- Stack limit 5: three samples are split 1 + 2 and the two again; misaligned stack and output. -/
example (junk : ℕ → ℕ → ℕ → ℝ) : Blas.predictBatch (noCustom ℝ) cfgAvx 5 (fun a b => a + b) junk exNet
    4 0 3 ⟨4, [1, 2, 0, 0, 0, 1]⟩ ⟨4, [7, 7, 7, 9]⟩ = .ok ⟨4, [28, 12, 12, 9]⟩ := by
  rw [C05_rows_partial _ _ _ _ _ _ _ _ _ _ _ (exNet_wf _) exNet_elementwise (exNet_smallTanh _ _)
    (by simp [exNet, workSize]) (by simp [exNet, workSize]) (by omega) (by simp [exNet, Net.nInput])
    (by simp [exNet, Net.nOutput])]
  simp [exNet, Net.nInput, Net.nOutput, Layer.toSpec, Spec.network, Spec.Layer.apply, Spec.affine,
    Spec.at_, Finset.sum_range_succ, actSpec, Spec.relu, List.range_succ, slice]
  norm_num

/-- Stack limit 3 is below the total layer width 4: endless recursion on a single sample. -/
example (junk : ℕ → ℕ → ℕ → ℝ) (fuel : ℕ) : Blas.predictBatch (noCustom ℝ) cfgAvx 3 (fun _ _ => 64) junk
    exNet fuel 0 1 ⟨64, [1, 2]⟩ ⟨128, [0]⟩ = .error .diverge :=
  C06_false (noCustom ℝ) cfgAvx 3 0 _ junk exNet 1 _ _ (exNet_wf _) exNet_elementwise
    (by simp [exNet, workSize]) (by omega) (by simp [exNet, workSize]) fuel

/-- The default limit of 65536 floats and a 1 → 65536 → 1 network. -/
example (c : Cfg) (junk : ℕ → ℕ → ℕ → ℝ) (W : List ℝ) (hW : W.length = 65536) (fuel : ℕ) :
    Blas.predictBatch (noCustom ℝ) c 65536 (fun _ _ => 64) junk
      ⟨[⟨1, 65536, ⟨64, W⟩, ⟨64 * 10000, W⟩, .relu, none⟩, ⟨65536, 1, ⟨64 * 20000, W⟩, ⟨64 * 30000, [1]⟩, .linear, none⟩], none⟩
      fuel 0 1 ⟨0, [1]⟩ ⟨0, [0]⟩ = .error .diverge := by
  have h : ∀ k, (64 * k) % c.alignSize = 0 := by
    intro k
    rcases c with ⟨s, _, _⟩
    cases s <;> simp [Cfg.alignSize] <;> omega
  revert fuel
  apply C06_false
  · refine ⟨by simp, ?_, ⟨rfl, trivial⟩⟩
    intro l hl
    simp only [List.mem_cons, List.not_mem_nil, or_false] at hl
    rcases hl with rfl | rfl
    · exact ⟨by simp, by simp, by simp [hW], hW, h 1, h 10000⟩
    · exact ⟨by simp, by simp, by simp [hW], by simp, h 20000, h 30000⟩
  · intro l hl i h
    simp only [List.mem_cons, List.not_mem_nil, or_false] at hl
    rcases hl with rfl | rfl <;> simp at h
  · simp [workSize]
  · omega
  · simp [workSize]

/-- 1 → 4 (tanh) → 1, four samples, the stack array at an address that is a multiple of 16 only. -/
example (junk : ℕ → ℕ → ℕ → ℝ) : Blas.predictBatch (noCustom ℝ) cfgAvx 65536 (fun _ _ => 4112) junk
    ⟨[⟨1, 4, ⟨64, [1, 2, 3, 4]⟩, ⟨128, [0, 0, 0, 0]⟩, .tanh, none⟩,
      ⟨4, 1, ⟨192, [1, 2, 3, 4]⟩, ⟨256, [0]⟩, .linear, none⟩], none⟩
    5 0 4 ⟨0, [1, 2, 3, 4]⟩ ⟨0, [0, 0, 0, 0]⟩ = .error .misaligned := by
  apply C05_false
  · rfl
  · refine ⟨by simp, ?_, ⟨rfl, trivial⟩⟩
    intro l hl
    simp only [List.mem_cons, List.not_mem_nil, or_false] at hl
    rcases hl with rfl | rfl <;>
      exact ⟨by simp, by simp, by simp, by simp, by simp [cfgAvx, Cfg.alignSize], by simp [cfgAvx, Cfg.alignSize]⟩
  · rfl
  · simp
  · simp
  · simp [workSize]
  · simp [workSize]
  · simp
  · simp [Net.nOutput]

/-- BLAS evaluate on three samples, three threads. -/
example (junk : ℕ → ℕ → ℕ → ℝ) : Blas.evaluate (noCustom ℝ) cfgAvx 65536 4 (fun _ _ => 4) junk 4
    (.combine (.thread [2]) (.combine (.thread [1]) (.thread [0]))) exNet 3 ⟨0, [1, 2, 0, 0, 0, 1]⟩ ⟨0, [27, 14, 0]⟩
    [some .mse, some .mae, none] ⟨0, [5, 6, 7]⟩ =
      .ok ⟨0, [(1 + 4 + 144) / 3, (1 + 2 + 12) / 3, 7]⟩ := by
  have h := C24_mean_blas (noCustom ℝ) cfgAvx 65536 4 4 (fun _ _ => 4) junk
    (.combine (.thread [2]) (.combine (.thread [1]) (.thread [0]))) exNet 3
    (by simp only [Sched.Covers, Sched.iters]; decide)
    ⟨0, [1, 2, 0, 0, 0, 1]⟩ ⟨0, [27, 14, 0]⟩ [.mse, .mae] [] ⟨0, [5, 6, 7]⟩ (exNet_wf _) exNet_elementwise
    (exNet_smallTanh _ _)
    (by simp [exNet, workSize]) (by simp [exNet, workSize]) (by omega)
    (by simp [exNet, Net.nInput]) (by simp [exNet, Net.nOutput])
    (by simp)
  simp only [List.map_cons, List.map_nil, List.cons_append, List.nil_append] at h
  rw [h]
  simp [exNet, Net.nInput, Net.nOutput, Layer.toSpec, Spec.network, Spec.Layer.apply, Spec.affine,
    Spec.at_, Finset.sum_range_succ, actSpec, Spec.relu, List.range_succ, slice, metricSpec, Spec.mse, Spec.mae]
  norm_num

end NN
