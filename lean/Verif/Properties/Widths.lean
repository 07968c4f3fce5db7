import Verif.Spec.Widths
import Verif.Properties.Backprop
/-
C09: the layer sizes that can be trained, exactly.
-/
set_option linter.unusedSectionVars false

namespace NN
open FloatOps
variable {F : Type}

/-- The layers as the specification sees them. -/
def Net.described (nn : Net F) : List (ℕ × ℕ × Bool) :=
  nn.layers.map fun l => (l.nIn, l.nOut, (l.deriv.getD .linear).vectorised)

theorem rowsAligned_iff {c : Cfg} {l : Layer F} (hw : l.WF c) :
    RowsAligned c l.nIn l.nOut l.weight.addr ↔
      (c.avx = true → 2 ≤ l.nIn → 8 ≤ l.nOut → l.nOut % 8 = 0 ∧ (c.avx512 = true → 16 ≤ l.nOut → l.nOut % 16 = 0)) := by
  have hal := hw.weight_al
  constructor
  · intro h hx h2 h8
    have h1 := h 1 (by omega)
    have e8 := h1.1 hx h8
    have h32 : l.weight.addr % 32 = 0 := mod32_of_aligned hx hal
    refine ⟨by omega, fun h5 h16 => ?_⟩
    have e16 := h1.2 h5 h16
    have h64 : l.weight.addr % 64 = 0 := by
      rcases c with ⟨s, _, _⟩
      cases s <;> simp_all [Cfg.avx512, Cfg.alignSize]
    omega
  · intro h i hi
    rcases Nat.eq_zero_or_pos i with rfl | hpos
    · simpa using AlignedFor.of_aligned (n := l.nOut) hal
    · refine ⟨fun hx h8 => ?_, fun h5 h16 => ?_⟩
      · have e := (h hx (by omega) h8).1
        have h32 : l.weight.addr % 32 = 0 := mod32_of_aligned hx hal
        obtain ⟨q, hq⟩ : 8 ∣ i * l.nOut := (Nat.dvd_of_mod_eq_zero e).mul_left i
        rw [hq]; omega
      · have e := (h (Cfg.avx_of_avx512 h5) (by omega) (by omega)).2 h5 h16
        have h64 : l.weight.addr % 64 = 0 := by
          rcases c with ⟨s, _, _⟩
          cases s <;> simp_all [Cfg.avx512, Cfg.alignSize]
        obtain ⟨q, hq⟩ : 16 ∣ i * l.nOut := (Nat.dvd_of_mod_eq_zero e).mul_left i
        rw [hq]; omega

theorem derivAligned_iff {c : Cfg} {ga gb : ℕ} (hga : ga % c.alignSize = 0) (l : Layer F) :
    DerivAligned c l (ga + 4 * gb) ↔
      (c.avx = true → (l.deriv.getD .linear).vectorised = true → 16 ≤ l.nOut → gb % 8 = 0) := by
  unfold DerivAligned
  constructor
  · intro h hx hv h16
    have := h hv hx h16
    have := mod32_of_aligned hx hga
    omega
  · intro h hv hx h16
    have := h hx hv h16
    have := mod32_of_aligned hx hga
    omega

theorem backAligned_iff {c : Cfg} {ga : ℕ} (hga : ga % c.alignSize = 0) :
    ∀ (ls : List (Layer F)) (gb : ℕ), (∀ l ∈ ls, l.WF c) →
      (BackAligned c ga gb ls ↔
        Spec.VectorWidths c true gb (ls.map fun l => (l.nIn, l.nOut, (l.deriv.getD .linear).vectorised)))
  | [], _, _ => by simp [BackAligned, Spec.VectorWidths]
  | [l], gb, _ => by
    simp only [BackAligned, Spec.VectorWidths, List.map_cons, List.map_nil, and_true, reduceCtorEq, false_implies, implies_true,
      true_and]
    exact derivAligned_iff hga l
  | l :: l' :: ls, gb, hw => by
    have ih := backAligned_iff hga (l' :: ls) (gb + l.nOut + l.nIn * l.nOut) (fun m hm => hw m (List.mem_cons_of_mem _ hm))
    have e : gb + (l.nIn + 1) * l.nOut = gb + l.nOut + l.nIn * l.nOut := by ring
    simp only [BackAligned, Spec.VectorWidths, List.map_cons, reduceCtorEq, false_implies, implies_true, true_and] at ih ⊢
    rw [ih, derivAligned_iff hga l, rowsAligned_iff (hw l' (by simp)), e]
    simp only [forall_const]

section
variable [FloatOps F]

/-- **C09** The networks for which backpropagation works, exactly: it succeeds if and only if the layer sizes and the activation
functions suit the vector instructions of the build, and otherwise a vector access is misaligned — whatever the parameters, the input,
the target and the addresses are. -/
theorem C09_exact (env : CustomEnv F) (c : Cfg) (workAddr : ℕ) (junk : ℕ → F) (nn : Net F) (input target grad : View F) (loss : Loss)
    (hw : nn.WF c) (hwa : workAddr % c.alignSize = 0) (hga : grad.addr % c.alignSize = 0) (hloss : nn.loss = some loss)
    (hd : ∀ l ∈ nn.layers, l.deriv ≠ none) (hin : nn.nInput ≤ input.data.length) (hout : nn.nOutput ≤ target.data.length)
    (hg : nParams nn.layers ≤ grad.data.length) :
    ((∃ g, backpropagation env c workAddr junk nn input target grad = .ok g) ↔ Spec.VectorWidths c true 0 nn.described) ∧
    (¬ Spec.VectorWidths c true 0 nn.described →
      backpropagation env c workAddr junk nn input target grad = .error .misaligned) := by
  have hiff := backAligned_iff hga nn.layers 0 hw.layer
  have hno : ¬ Spec.VectorWidths c true 0 nn.described →
      backpropagation env c workAddr junk nn input target grad = .error .misaligned := fun h =>
    C09_misaligned env c workAddr junk nn input target grad loss hw hwa hga hloss hd hin hout hg (fun hb => h (hiff.1 hb))
  refine ⟨⟨fun ⟨g, hok⟩ => ?_, fun h => ?_⟩, hno⟩
  · by_contra h
    rw [hno h] at hok
    simp at hok
  · obtain ⟨g, h1, -⟩ := C09_safe_partial env c workAddr junk nn input target grad loss hw hwa hga hloss hd hin hout hg (hiff.2 h)
    exact ⟨_, h1⟩

end

/-! ### Examples -/

/-- 22 inputs, then 64, 32 and 1 (examples/example_01.c for its data): fine in every build. -/
example (c : Cfg) : Spec.VectorWidths c true 0 (Spec.describeLayers [22, 64, 32, 1] .bce [some "relu", some "relu", some "sigmoid"]) := by
  simp [Spec.describeLayers, Spec.fastDerivatives, Spec.fastDerivative, Spec.VectorWidths]

/-- 22, 61, 28, 1 (examples/test_sgd.c): not in AVX builds. -/
example (c : Cfg) (hx : c.avx = true) :
    ¬ Spec.VectorWidths c true 0 (Spec.describeLayers [22, 61, 28, 1] .bce [some "relu", some "relu", some "sigmoid"]) := by
  simp [Spec.describeLayers, Spec.fastDerivatives, Spec.fastDerivative, Spec.VectorWidths, hx]

/-- The width 24 suits AVX but not AVX512; with 13 outputs the derivative of the next layer is misaligned only if it is a fast one. -/
example : Spec.VectorWidths ⟨.avx, false, false⟩ true 0 (Spec.describeLayers [3, 24, 24, 1] .mse [some "tanh", some "relu", none]) ∧
    ¬ Spec.VectorWidths ⟨.avx512, false, false⟩ true 0 (Spec.describeLayers [3, 24, 24, 1] .mse [some "tanh", some "relu", none]) ∧
    Spec.VectorWidths ⟨.avx, false, false⟩ true 0 (Spec.describeLayers [3, 13, 16] .mse [some "tanh", some "linear"]) ∧
    ¬ Spec.VectorWidths ⟨.avx, false, false⟩ true 0 (Spec.describeLayers [3, 13, 16] .mse [some "tanh", some "sigmoid"]) := by
  simp [Spec.describeLayers, Spec.fastDerivatives, Spec.fastDerivative, Spec.VectorWidths, Cfg.avx, Cfg.avx512]

end NN
