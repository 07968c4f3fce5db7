import Verif.Proofs.Batch
import Verif.Properties.Predict
import Mathlib.Data.List.Range
/-
C04: neuralnet_predict_batch without BLAS.
-/
set_option linter.unusedSimpArgs false
set_option linter.unusedSectionVars false

namespace NN
open FloatOps
section
variable {F : Type} [FloatOps F]

/-- **C04** Bit for bit, for every order in which the threads run the rows and all stack addresses and
contents: the call succeeds, row `i` of the output is exactly what `neuralnet_predict` writes for row
`i` of the input at this address, and nothing behind the rows changes.
Missing for the full property: the alignment hypothesis `hal` (see `C04_misaligned`, `C04_false`). -/
theorem C04_rows_partial (env : CustomEnv F) (c : Cfg) (workAddr : ℕ → ℕ) (junk : ℕ → ℕ → F) (nn : Net F)
    (n : ℕ) (order : List ℕ) (ho : order.Perm (List.range n)) (input out : View F) (hw : nn.WF c)
    (hwa : ∀ i, workAddr i % c.alignSize = 0) (hin : n * nn.nInput ≤ input.data.length)
    (hout : n * nn.nOutput ≤ out.data.length)
    (hal : ∀ i < n, AlignedFor c nn.nOutput (out.addr + 4 * (i * nn.nOutput))) :
    ∃ r : View F, predictBatch env c workAddr junk nn order input out = .ok r ∧ r.addr = out.addr ∧
      r.data.length = out.data.length ∧ r.data.drop (n * nn.nOutput) = out.data.drop (n * nn.nOutput) ∧
      ∀ i < n, ∀ (wa : ℕ) (jk : ℕ → F) (old : List F), wa % c.alignSize = 0 → nn.nOutput ≤ old.length →
        predict env c wa jk nn (input.offset (i * nn.nInput)) ⟨out.addr + 4 * (i * nn.nOutput), old⟩ =
          .ok ⟨out.addr + 4 * (i * nn.nOutput),
            slice r.data (i * nn.nOutput) nn.nOutput ++ old.drop nn.nOutput⟩ := by
  have hm : 0 < nn.nOutput := by
    obtain ⟨last, -, hno, hlw⟩ := exists_last hw
    rw [hno]; exact hlw.out_pos
  have hmem : ∀ i, i ∈ order ↔ i < n := by intro i; rw [ho.mem_iff]; simp
  have h := predictBatch_rows env c workAddr junk nn n input out.addr out.data hw hwa hm hin hout hal order []
    (fun i hi => (hmem i).mp hi)
  rw [rowsF_nil] at h
  refine ⟨_, h, rfl, by simp, rowsF_drop _ n hm _ _ (by simp [hmem]) _, ?_⟩
  intro i hi wa jk old hwa' hold
  have h1 : (i + 1) * nn.nInput ≤ n * nn.nInput := Nat.mul_le_mul_right _ hi
  have h2 : (i + 1) * nn.nOutput ≤ n * nn.nOutput := Nat.mul_le_mul_right _ hi
  simp only
  rw [rowsF_slice _ i hm _ (rowResult_length env c nn hw input _ i) _ (by simp [hmem, hi]) _ (by omega)]
  rw [Nat.succ_mul] at h1
  rw [predict_netF env c wa jk nn _ _ hw hwa' (by simp [View.offset]; omega) (by simpa using hold) (hal i hi)]
  simp [rowResult, View.offset]

/-- **C04** Each iteration reads only its own input row and writes only its own output row, and what it
writes does not depend on the contents of the output: iterations do not interfere, whatever the
interleaving. -/
theorem C04_row_frame (env : CustomEnv F) (c : Cfg) (nn : Net F) (hw : nn.WF c) (i : ℕ) (x : List F)
    (hx : x.length = nn.nInput) (outAddr : ℕ)
    (hal : AlignedFor c nn.nOutput (outAddr + 4 * (i * nn.nOutput))) :
    ∃ y : List F, y.length = nn.nOutput ∧
      ∀ (workAddr : ℕ) (junk : ℕ → F) (input : View F) (old : List F), workAddr % c.alignSize = 0 →
        slice input.data (i * nn.nInput) nn.nInput = x → (i + 1) * nn.nOutput ≤ old.length →
        batchRow env c workAddr junk nn input i ⟨outAddr, old⟩ =
          .ok ⟨outAddr, setSlice old (i * nn.nOutput) y⟩ := by
  refine ⟨netF env c (outAddr + 4 * (i * nn.nOutput)) nn.layers x, ?_, ?_⟩
  · obtain ⟨last, hlast, hno, -⟩ := exists_last hw
    rw [hno]; exact netF_length env c _ nn.layers _ last hlast hw.layer
  · intro workAddr junk input old hwa hi ho
    have hpos : 0 < nn.nInput := by
      cases hls : nn.layers with
      | nil => exact absurd hls hw.ne
      | cons l ls =>
        rw [Net.nInput_eq (l := l) (by simp [hls])]
        exact (hw.layer l (by simp [hls])).in_pos
    have hin : (i + 1) * nn.nInput ≤ input.data.length := by
      rw [← hi, slice_length] at hx
      rw [Nat.succ_mul]; omega
    rw [batchRow_eq env c workAddr junk nn input ⟨outAddr, old⟩ i hw hwa hin ho hal]
    simp only [rowResult]
    rw [← hi]
    rfl

theorem batch_misaligned_aux (env : CustomEnv F) (c : Cfg) (workAddr : ℕ → ℕ) (junk : ℕ → ℕ → F) (nn : Net F)
    (n : ℕ) (input : View F) (hw : nn.WF c) (hwa : ∀ i, workAddr i % c.alignSize = 0)
    (hin : n * nn.nInput ≤ input.data.length) :
    ∀ (order : List ℕ) (out : View F), (∀ i ∈ order, i < n) → n * nn.nOutput ≤ out.data.length →
      (∃ i ∈ order, ¬ AlignedFor c nn.nOutput (out.addr + 4 * (i * nn.nOutput))) →
      predictBatch env c workAddr junk nn order input out = .error .misaligned
  | [], _, _, _, h => by simp at h
  | i :: order, out, ho, hout, h => by
    have hi : i < n := ho i (by simp)
    have h1 : (i + 1) * nn.nInput ≤ n * nn.nInput := Nat.mul_le_mul_right _ hi
    have h2 : (i + 1) * nn.nOutput ≤ n * nn.nOutput := Nat.mul_le_mul_right _ hi
    simp only [predictBatch]
    rw [List.foldlM_cons]
    by_cases hal : AlignedFor c nn.nOutput (out.addr + 4 * (i * nn.nOutput))
    · rw [batchRow_eq env c _ _ nn input out i hw (hwa i) (by omega) (by omega) hal]
      simp only [bind, Except.bind]
      have hlen : (setSlice out.data (i * nn.nOutput) (rowResult env c nn input out.addr i)).length =
          out.data.length := by
        rw [setSlice_length]
        rw [rowResult_length env c nn hw]
        rw [Nat.succ_mul] at h2; omega
      obtain ⟨j, hj, hja⟩ := h
      have := batch_misaligned_aux env c workAddr junk nn n input hw hwa hin order
        ⟨out.addr, setSlice out.data (i * nn.nOutput) (rowResult env c nn input out.addr i)⟩
        (fun k hk => ho k (by simp [hk])) (by simpa [hlen] using hout)
        ⟨j, by
          rcases List.mem_cons.mp hj with rfl | hj
          · exact absurd hal hja
          · exact hj, hja⟩
      simpa [predictBatch] using this
    · have hmis : batchRow env c (workAddr i) (junk i) nn input i out = .error .misaligned := by
        unfold batchRow
        rw [Nat.succ_mul] at h1
        rw [predict_misaligned env c (workAddr i) (junk i) nn _ _ hw (hwa i) (by simp [View.offset]; omega)
          (by simpa [View.offset] using hal)]
        rfl
      rw [hmis]
      rfl

/-- **C04** If the address of one output row does not have the alignment `neuralnet_predict` needs, the
call executes an aligned vector instruction on a misaligned address, under every schedule. -/
theorem C04_misaligned (env : CustomEnv F) (c : Cfg) (workAddr : ℕ → ℕ) (junk : ℕ → ℕ → F) (nn : Net F)
    (n : ℕ) (order : List ℕ) (ho : order.Perm (List.range n)) (input out : View F) (hw : nn.WF c)
    (hwa : ∀ i, workAddr i % c.alignSize = 0) (hin : n * nn.nInput ≤ input.data.length)
    (hout : n * nn.nOutput ≤ out.data.length)
    (h : ∃ i < n, ¬ AlignedFor c nn.nOutput (out.addr + 4 * (i * nn.nOutput))) :
    predictBatch env c workAddr junk nn order input out = .error .misaligned := by
  have hmem : ∀ i, i ∈ order ↔ i < n := by intro i; rw [ho.mem_iff]; simp
  obtain ⟨i, hi, hia⟩ := h
  exact batch_misaligned_aux env c workAddr junk nn n input hw hwa hin order out
    (fun i hi => (hmem i).mp hi) hout ⟨i, (hmem i).mpr hi, hia⟩

/-- **C04 is false** In AVX builds every network with at least 8 outputs, not a multiple of 8, makes
`neuralnet_predict_batch` fault as soon as there are two samples, at **every** output address and
under every schedule. -/
theorem C04_false (env : CustomEnv F) (c : Cfg) (hc : c.avx = true) (workAddr : ℕ → ℕ)
    (junk : ℕ → ℕ → F) (nn : Net F) (n : ℕ) (hn : 2 ≤ n) (order : List ℕ)
    (ho : order.Perm (List.range n)) (input out : View F) (hw : nn.WF c)
    (hwa : ∀ i, workAddr i % c.alignSize = 0) (hin : n * nn.nInput ≤ input.data.length)
    (hout : n * nn.nOutput ≤ out.data.length) (h8 : 8 ≤ nn.nOutput) (hm : nn.nOutput % 8 ≠ 0) :
    predictBatch env c workAddr junk nn order input out = .error .misaligned := by
  apply C04_misaligned env c workAddr junk nn n order ho input out hw hwa hin hout
  by_cases h0 : out.addr % 32 = 0
  · refine ⟨1, by omega, fun h => ?_⟩
    have := h.1 hc h8
    omega
  · refine ⟨0, by omega, fun h => ?_⟩
    have := h.1 hc h8
    simp at this
    omega

/-- Sizes for which the batch is safe at a SIMD aligned output: fewer than 8 outputs, a multiple of the
register width, or no AVX. -/
theorem rowsAligned_of_sizes {c : Cfg} {m a : ℕ}
    (h : m < 8 ∨ (a % c.alignSize = 0 ∧ m % c.lanes = 0) ∨ c.avx = false) (i : ℕ) :
    AlignedFor c m (a + 4 * (i * m)) := by
  rcases h with h | ⟨h1, h2⟩ | h
  · exact AlignedFor.of_small h
  · exact AlignedFor.of_aligned (aligned_off h1 (by rw [Nat.mul_mod, h2]; simp))
  · refine ⟨fun hc => by simp [h] at hc, fun hc => ?_⟩
    have := Cfg.avx_of_avx512 hc
    simp [h] at this
end

/-- **C04** In exact arithmetic: row `i` of the output is the network function of row `i` of the input,
for output sizes below 8, multiples of the register width (aligned output), or builds without AVX. -/
theorem C04_real_partial (env : CustomEnv ℝ) (c : Cfg) (workAddr : ℕ → ℕ) (junk : ℕ → ℕ → ℝ) (nn : Net ℝ)
    (n : ℕ) (order : List ℕ) (ho : order.Perm (List.range n)) (input out : View ℝ) (hw : nn.WF c)
    (hwa : ∀ i, workAddr i % c.alignSize = 0) (hin : n * nn.nInput ≤ input.data.length)
    (hout : n * nn.nOutput ≤ out.data.length)
    (hs : nn.nOutput < 8 ∨ (out.addr % c.alignSize = 0 ∧ nn.nOutput % c.lanes = 0) ∨ c.avx = false) :
    predictBatch env c workAddr junk nn order input out =
      .ok ⟨out.addr, ((List.range n).map fun i => Spec.network (nn.layers.map (Layer.toSpec env))
        (slice input.data (i * nn.nInput) nn.nInput)).flatten ++ out.data.drop (n * nn.nOutput)⟩ := by
  have hm : 0 < nn.nOutput := by
    obtain ⟨last, -, hno, hlw⟩ := exists_last hw
    rw [hno]; exact hlw.out_pos
  have hmem : ∀ i, i ∈ order ↔ i < n := by intro i; rw [ho.mem_iff]; simp
  have h := predictBatch_rows env c workAddr junk nn n input out.addr out.data hw hwa hm hin hout
    (fun i _ => rowsAligned_of_sizes hs i) order [] (fun i hi => (hmem i).mp hi)
  rw [rowsF_nil] at h
  rw [h, rowsF_full _ n hm _ (fun i _ => rowResult_length env c nn hw input _ i) _ (by simp [hmem]) _ hout]
  congr 4
  refine List.map_congr_left fun i hi => ?_
  have hi' : i < n := by simpa using hi
  have h1 : (i + 1) * nn.nInput ≤ n * nn.nInput := Nat.mul_le_mul_right _ hi'
  rw [Nat.succ_mul] at h1
  rw [rowResult, netF_real env c _ nn.layers _ hw.layer hw.chain]
  · rfl
  · intro l hl
    rw [Net.nInput_eq hl] at h1 hin ⊢
    simp; omega

/-! ### Examples -/

/-- Two samples of the example network, rows run in reverse order. -/
example (junk : ℕ → ℕ → ℝ) : predictBatch (noCustom ℝ) cfgAvx (fun _ => 4096) junk exNet [1, 0]
    ⟨20, [1, 2, 0, 0]⟩ ⟨36, [7, 8, 9]⟩ = .ok ⟨36, [28, 12, 9]⟩ := by
  rw [C04_real_partial _ _ _ _ _ 2 [1, 0] (by decide) _ _ (exNet_wf _) (by intro _; decide)
    (by simp [exNet, Net.nInput]) (by simp [exNet, Net.nOutput]) (Or.inl (by simp [exNet, Net.nOutput]))]
  simp [exNet, Net.nInput, Net.nOutput, Layer.toSpec, Spec.network, Spec.Layer.apply, Spec.affine,
    Spec.at_, Finset.sum_range_succ, actSpec, Spec.relu, List.range_succ, slice]
  norm_num

/-- 1 → 9 (sigmoid), two samples, aligned output. -/
example (junk : ℕ → ℕ → ℝ) (b w : ℝ) : predictBatch (noCustom ℝ) cfgAvx (fun _ => 0) junk
    ⟨[⟨1, 9, ⟨64, List.replicate 9 w⟩, ⟨128, List.replicate 9 b⟩, .sigmoid, none⟩], none⟩ [0, 1]
    ⟨0, [1, 2]⟩ ⟨64, List.replicate 18 0⟩ = .error .misaligned := by
  apply C04_false (n := 2)
  · decide
  · decide
  · decide
  · refine ⟨by simp, ?_, trivial⟩
    intro l hl
    simp at hl; subst hl
    exact ⟨by simp, by simp, by simp, by simp, by simp [cfgAvx, Cfg.alignSize], by simp [cfgAvx, Cfg.alignSize]⟩
  · intro _; decide
  · simp [Net.nInput]
  · simp [Net.nOutput]
  · simp [Net.nOutput]
  · simp [Net.nOutput]

end NN
