import Verif.Proofs.ForwardReal
import Verif.Properties.Activation
/-
C01 – C03: neuralnet_predict.
-/
set_option linter.unusedSimpArgs false

namespace NN
open FloatOps

/-- **C01** In exact arithmetic `neuralnet_predict` writes the network function of the input into the
output vector, for every network, build, stack address and stack contents. -/
theorem C01_predict (env : CustomEnv ℝ) (c : Cfg) (workAddr : ℕ) (junk : ℕ → ℝ) (nn : Net ℝ)
    (input out : View ℝ) (hw : nn.WF c) (hwa : workAddr % c.alignSize = 0)
    (hin : nn.nInput ≤ input.data.length) (hout : nn.nOutput ≤ out.data.length)
    (hal : AlignedFor c nn.nOutput out.addr) :
    predict env c workAddr junk nn input out =
      .ok ⟨out.addr, Spec.network (nn.layers.map (Layer.toSpec env)) (input.data.take nn.nInput) ++
        out.data.drop nn.nOutput⟩ := by
  rw [predict_netF env c workAddr junk nn input out hw hwa hin hout hal]
  rw [netF_real env c out.addr nn.layers _ hw.layer hw.chain]
  intro l hl
  rw [Net.nInput_eq hl] at hin ⊢
  simp; omega

section
variable {F : Type} [FloatOps F]

/-- **C02** For arbitrary floats: the call succeeds (no out-of-bounds or misaligned access, no
failing assertion, no overlap of the layer buffers) and changes exactly `out[0..n_output)`; what it
writes depends on the network, the first `n_input` floats of the input and the output address only:
not on the stack address, the stack contents or the previous output. -/
theorem C02_predict_safe (env : CustomEnv F) (c : Cfg) (nn : Net F) (hw : nn.WF c) (x : List F)
    (hx : x.length = nn.nInput) (outAddr : ℕ) (hal : AlignedFor c nn.nOutput outAddr) :
    ∃ y : List F, y.length = nn.nOutput ∧
      ∀ (workAddr : ℕ) (junk : ℕ → F) (input : View F) (old : List F),
        workAddr % c.alignSize = 0 → input.data.take nn.nInput = x → nn.nOutput ≤ old.length →
        predict env c workAddr junk nn input ⟨outAddr, old⟩ =
          .ok ⟨outAddr, y ++ old.drop nn.nOutput⟩ := by
  obtain ⟨last, hlast, hno, -⟩ := exists_last hw
  refine ⟨netF env c outAddr nn.layers x, ?_, ?_⟩
  · rw [hno]; exact netF_length env c outAddr nn.layers x last hlast hw.layer
  · intro workAddr junk input old hwa hi ho
    have hin : nn.nInput ≤ input.data.length := by
      rw [← hi] at hx; simp at hx; omega
    rw [predict_netF env c workAddr junk nn input ⟨outAddr, old⟩ hw hwa hin ho hal, hi]

/-- **C03** `neuralnet_predict` succeeds exactly on output vectors aligned as `AlignedFor` says, and
otherwise executes an aligned vector instruction on a misaligned address. -/
theorem C03_alignment (env : CustomEnv F) (c : Cfg) (workAddr : ℕ) (junk : ℕ → F) (nn : Net F)
    (input out : View F) (hw : nn.WF c) (hwa : workAddr % c.alignSize = 0)
    (hin : nn.nInput ≤ input.data.length) (hout : nn.nOutput ≤ out.data.length) :
    ((∃ v, predict env c workAddr junk nn input out = .ok v) ↔ AlignedFor c nn.nOutput out.addr) ∧
    (¬ AlignedFor c nn.nOutput out.addr →
      predict env c workAddr junk nn input out = .error .misaligned) := by
  have hm := predict_misaligned env c workAddr junk nn input out hw hwa hin
  refine ⟨⟨?_, ?_⟩, hm⟩
  · rintro ⟨v, hv⟩
    by_contra hal
    rw [hm hal] at hv
    cases hv
  · intro hal
    exact ⟨_, predict_netF env c workAddr junk nn input out hw hwa hin hout hal⟩

/-- **C03** Fewer outputs than one register: every address is fine. -/
theorem C03_narrow (env : CustomEnv F) (c : Cfg) (workAddr : ℕ) (junk : ℕ → F) (nn : Net F)
    (input out : View F) (hw : nn.WF c) (hwa : workAddr % c.alignSize = 0)
    (hin : nn.nInput ≤ input.data.length) (hout : nn.nOutput ≤ out.data.length)
    (h8 : nn.nOutput < 8) :
    ∃ v, predict env c workAddr junk nn input out = .ok v :=
  (C03_alignment env c workAddr junk nn input out hw hwa hin hout).1.mpr (AlignedFor.of_small h8)

/-- **C03** In AVX builds, from 8 outputs on, an address that is not a multiple of 32 is undefined
behaviour. -/
theorem C03_wide (env : CustomEnv F) (c : Cfg) (workAddr : ℕ) (junk : ℕ → F) (nn : Net F)
    (input out : View F) (hw : nn.WF c) (hwa : workAddr % c.alignSize = 0)
    (hin : nn.nInput ≤ input.data.length) (hout : nn.nOutput ≤ out.data.length)
    (hc : c.avx = true) (h8 : 8 ≤ nn.nOutput) (ha : out.addr % 32 ≠ 0) :
    predict env c workAddr junk nn input out = .error .misaligned :=
  (C03_alignment env c workAddr junk nn input out hw hwa hin hout).2 (fun h => ha (h.1 hc h8))

end

/-! ### Examples -/

/-- 2 → 3 (relu) → 1 (linear). -/
def exNet : Net ℝ :=
  ⟨[⟨2, 3, ⟨64, [1, 2, 3, -1, 0, 1]⟩, ⟨128, [0, 1, -1]⟩, .relu, none⟩,
    ⟨3, 1, ⟨192, [1, 2, 3]⟩, ⟨256, [10]⟩, .linear, none⟩], none⟩

theorem exNet_wf (c : Cfg) : exNet.WF c := by
  have h : ∀ n, n % 64 = 0 → n % c.alignSize = 0 := by
    intro n hn
    rcases c with ⟨s, _, _⟩
    cases s <;> simp [Cfg.alignSize] <;> omega
  refine ⟨by simp [exNet], ?_, ⟨rfl, trivial⟩⟩
  intro l hl
  simp only [exNet, List.mem_cons, List.not_mem_nil, or_false] at hl
  rcases hl with rfl | rfl
  · exact ⟨by decide, by decide, by simp, by simp, h _ (by decide), h _ (by decide)⟩
  · exact ⟨by decide, by decide, by simp, by simp, h _ (by decide), h _ (by decide)⟩

/-- `[1, 2]` gives `10 + 1*0 + 2*3 + 3*4 = 28` at an unaligned output; the float after it is kept. -/
example (junk : ℕ → ℝ) : predict (noCustom ℝ) cfgAvx 4096 junk exNet ⟨20, [1, 2, 99]⟩ ⟨36, [7, 8]⟩ =
    .ok ⟨36, [28, 8]⟩ := by
  rw [C01_predict _ _ _ _ _ _ _ (exNet_wf _) (by decide) (by simp [exNet, Net.nInput])
    (by simp [exNet, Net.nOutput]) (AlignedFor.of_small (by simp [exNet, Net.nOutput]))]
  simp [exNet, Net.nInput, Net.nOutput, Layer.toSpec, Spec.network, Spec.Layer.apply, Spec.affine,
    Spec.at_, Finset.sum_range_succ, actSpec, Spec.relu, List.range_succ]
  norm_num

/-- 1 → 8, output at address 36. -/
example (junk : ℕ → ℝ) (b w : ℝ) : predict (noCustom ℝ) cfgAvx 0 junk
    ⟨[⟨1, 8, ⟨64, List.replicate 8 w⟩, ⟨128, List.replicate 8 b⟩, .sigmoid, none⟩], none⟩
    ⟨0, [1]⟩ ⟨36, List.replicate 8 0⟩ = .error .misaligned := by
  apply C03_wide
  · refine ⟨by simp, ?_, trivial⟩
    intro l hl
    simp at hl; subst hl
    exact ⟨by simp, by simp, by simp, by simp, by simp [cfgAvx, Cfg.alignSize], by simp [cfgAvx, Cfg.alignSize]⟩
  · decide
  · simp [Net.nInput]
  · simp [Net.nOutput]
  · decide
  · simp [Net.nOutput]
  · decide

end NN
