import Verif.Proofs.BackpropFault
import Verif.Properties.Params
import Mathlib.Tactic.IntervalCases
/-
C09, C10 and the last part of C11: memory safety and determinism of neuralnet_backpropagation.
-/
set_option linter.unusedSimpArgs false
set_option linter.unusedSectionVars false

namespace NN
open FloatOps
variable {F : Type}

/-! ### What the code needs to be safe -/

/-- Sizes for which the backward loop needs no luck: hidden layers are a multiple of the vector width,
the output layer too or smaller than 8. -/
def SafeSizes (c : Cfg) : List (Layer F) → Prop
  | [] => True
  | [l] => l.nOut % c.lanes = 0 ∨ l.nOut < 8
  | l :: l' :: ls => l.nOut % c.lanes = 0 ∧ SafeSizes c (l' :: ls)

theorem rowsAligned_of_safe {c : Cfg} {l : Layer F} (hw : l.WF c)
    (h : l.nOut % c.lanes = 0 ∨ l.nOut < 8) : RowsAligned c l.nIn l.nOut l.weight.addr := by
  intro i _
  rcases h with h | h
  · apply AlignedFor.of_aligned
    have ha := hw.weight_al
    have e : c.alignSize = 4 * c.lanes := by rcases c with ⟨s, _, _⟩; cases s <;> simp [Cfg.alignSize, Cfg.lanes]
    rw [e] at ha ⊢
    obtain ⟨q, hq⟩ := Nat.dvd_of_mod_eq_zero h
    obtain ⟨r, hr⟩ := Nat.dvd_of_mod_eq_zero ha
    rw [hr, hq]
    have : 4 * c.lanes * r + 4 * (i * (c.lanes * q)) = 4 * c.lanes * (r + i * q) := by ring
    rw [this]; exact Nat.mul_mod_right _ _
  · exact AlignedFor.of_small h

theorem backAligned_of_safe {c : Cfg} (hx : c.avx = true) (ga : ℕ) (hga : ga % 32 = 0) :
    ∀ (ls : List (Layer F)) (gb : ℕ), gb % 8 = 0 → (∀ l ∈ ls, l.WF c) → SafeSizes c ls →
      BackAligned c ga gb ls
  | [], _, _, _, _ => trivial
  | [l], gb, hgb, _, _ => by
    simp only [BackAligned]
    intro _ _ _; omega
  | l :: l' :: ls, gb, hgb, hw, hs => by
    have h8 : l.nOut % 8 = 0 := by
      have := hs.1
      rcases c with ⟨s, _, _⟩
      cases s <;> simp_all [Cfg.avx, Cfg.lanes, Cfg.alignSize]; omega
    obtain ⟨q, hq⟩ := Nat.dvd_of_mod_eq_zero h8
    refine ⟨fun _ _ _ => by omega, ?_, ?_⟩
    · apply rowsAligned_of_safe (hw l' (by simp))
      cases ls with
      | nil => exact hs.2
      | cons a b => exact Or.inl hs.2.1
    · apply backAligned_of_safe hx ga hga (l' :: ls) _ _ (fun m hm => hw m (by simp [List.mem_cons.mp hm]))
        hs.2
      rw [hq, show gb + 8 * q + l.nIn * (8 * q) = gb + 8 * (q + l.nIn * q) by ring]; omega

theorem backAligned_of_sse {c : Cfg} (hx : c.avx = false) (ga : ℕ) :
    ∀ (ls : List (Layer F)) (gb : ℕ), BackAligned c ga gb ls := by
  have h5 : c.avx512 = false := by
    cases h : c.avx512 with
    | false => rfl
    | true => have := Cfg.avx_of_avx512 h; rw [hx] at this; exact this.symm
  have hd : ∀ (l : Layer F) a, DerivAligned c l a := fun l a _ h => by rw [hx] at h; simp at h
  have hr : ∀ n m a, RowsAligned c n m a := fun n m a i _ =>
    ⟨fun h => by rw [hx] at h; simp at h, fun h => by rw [h5] at h; simp at h⟩
  intro ls
  induction ls with
  | nil => intro gb; trivial
  | cons l ls ih =>
    intro gb
    cases ls with
    | nil => exact hd _ _
    | cons l' ls => exact ⟨hd _ _, hr _ _ _, ih _⟩

theorem backAligned_of_small {c : Cfg} (ga : ℕ) : ∀ (ls : List (Layer F)) (gb : ℕ), (∀ l ∈ ls, l.nOut < 8) →
    BackAligned c ga gb ls
  | [], _, _ => trivial
  | [l], _, h => fun _ _ h16 => by have := h l (by simp); omega
  | l :: l' :: ls, _, h =>
    ⟨fun _ _ h16 => by have := h l (by simp); omega,
      fun _ _ => AlignedFor.of_small (h l' (by simp)),
      backAligned_of_small ga (l' :: ls) _ (fun m hm => h m (by simp [List.mem_cons.mp hm]))⟩

/-- A layer behind the first with at least 2 inputs and 8 or more outputs, not a multiple of 8. -/
theorem not_backAligned_rows {c : Cfg} (hx : c.avx = true) (ga : ℕ) (l : Layer F) (hw : l.WF c)
    (hi : 2 ≤ l.nIn) (ho : 8 ≤ l.nOut) (ho8 : l.nOut % 8 ≠ 0) :
    ∀ (pre post : List (Layer F)) (gb : ℕ), pre ≠ [] → ¬ BackAligned c ga gb (pre ++ l :: post)
  | [], _, _, h => absurd rfl h
  | [a], post, gb, _ => by
    rintro ⟨-, h, -⟩
    have h1 := (h 1 (by omega)).1 hx ho
    have h32 : l.weight.addr % 32 = 0 := mod32_of_aligned hx hw.weight_al
    omega
  | a :: b :: pre, post, gb, _ => by
    rintro ⟨-, -, h⟩
    exact not_backAligned_rows hx ga l hw hi ho ho8 (b :: pre) post _ (by simp) h

/-- A layer with a vectorised derivative, 16 or more outputs, whose `grad_b` is misaligned. -/
theorem not_backAligned_deriv {c : Cfg} (hx : c.avx = true) (ga : ℕ) (hga : ga % 32 = 0) (l : Layer F)
    (hv : (l.deriv.getD .linear).vectorised = true) (ho : 16 ≤ l.nOut) (post : List (Layer F)) :
    ∀ (pre : List (Layer F)) (gb : ℕ), (gb + nParams pre) % 8 ≠ 0 → ¬ BackAligned c ga gb (pre ++ l :: post)
  | [], gb, h8 => by
    intro h
    simp [nParams] at h8
    have : DerivAligned c l (ga + 4 * gb) := by
      cases post with
      | nil => exact h
      | cons b post => exact h.1
    have := this hv hx ho
    omega
  | [a], gb, h8 => by
    intro h
    refine not_backAligned_deriv hx ga hga l hv ho post [] _ ?_ h.2.2
    rw [nParams_cons] at h8
    simp only [nParams, List.map_nil, List.sum_nil, Nat.add_zero] at h8 ⊢
    rwa [← Nat.add_assoc] at h8
  | a :: b :: pre, gb, h8 => by
    intro h
    refine not_backAligned_deriv hx ga hga l hv ho post (b :: pre) _ ?_ h.2.2
    rw [nParams_cons a] at h8
    rwa [show gb + a.nOut + a.nIn * a.nOut + nParams (b :: pre) =
      gb + (a.nOut + a.nIn * a.nOut + nParams (b :: pre)) by omega]

section
variable [FloatOps F]

/-! ### C09 -/

/-- **C09** (partial: needs `BackAligned`).  Every access is inside its buffer and aligned, `grad` keeps its
length and everything behind the parameters. Missing for the full claim: networks violating
`BackAligned`; on these the claim is false, `C09_misaligned`. -/
theorem C09_safe_partial (env : CustomEnv F) (c : Cfg) (workAddr : ℕ) (junk : ℕ → F) (nn : Net F)
    (input target grad : View F) (loss : Loss) (hw : nn.WF c) (hwa : workAddr % c.alignSize = 0)
    (hga : grad.addr % c.alignSize = 0) (hloss : nn.loss = some loss)
    (hd : ∀ l ∈ nn.layers, l.deriv ≠ none)
    (hin : nn.nInput ≤ input.data.length) (hout : nn.nOutput ≤ target.data.length)
    (hg : nParams nn.layers ≤ grad.data.length) (hal : BackAligned c grad.addr 0 nn.layers) :
    ∃ g, backpropagation env c workAddr junk nn input target grad =
        .ok ⟨grad.addr, g ++ grad.data.drop (nParams nn.layers)⟩ ∧ g.length = nParams nn.layers :=
  ⟨_, backpropagation_eq env c workAddr junk nn input target grad loss hw hwa hga hloss hd hin hout hg hal,
    gradF_length env c nn loss _ _ hw (by simp; omega)⟩

/-- **C09** The alignment condition is exact: without it the call makes a misaligned vector access,
whatever the values of parameters, input and target. -/
theorem C09_misaligned (env : CustomEnv F) (c : Cfg) (workAddr : ℕ) (junk : ℕ → F) (nn : Net F)
    (input target grad : View F) (loss : Loss) (hw : nn.WF c) (hwa : workAddr % c.alignSize = 0)
    (hga : grad.addr % c.alignSize = 0) (hloss : nn.loss = some loss)
    (hd : ∀ l ∈ nn.layers, l.deriv ≠ none)
    (hin : nn.nInput ≤ input.data.length) (hout : nn.nOutput ≤ target.data.length)
    (hg : nParams nn.layers ≤ grad.data.length) (hal : ¬ BackAligned c grad.addr 0 nn.layers) :
    backpropagation env c workAddr junk nn input target grad = .error .misaligned :=
  backpropagation_misaligned env c workAddr junk nn input target grad loss hw hwa hga hloss hd hin hout hg hal

/-- **C09** Sizes that are safe in the build `c`: hidden layers a multiple of the vector width, the output
layer too or smaller than 8; or all layers smaller than 8; or a build without AVX. -/
theorem C09_safe_sizes (c : Cfg) (nn : Net F) (ga : ℕ) (hga : ga % c.alignSize = 0) (hw : nn.WF c)
    (h : c.avx = false ∨ SafeSizes c nn.layers ∨ ∀ l ∈ nn.layers, l.nOut < 8) :
    BackAligned c ga 0 nn.layers := by
  cases hx : c.avx with
  | false => exact backAligned_of_sse hx ga _ _
  | true =>
    rcases h with h | h | h
    · rw [hx] at h; simp at h
    · exact backAligned_of_safe hx ga (mod32_of_aligned hx hga) _ 0 rfl hw.layer h
    · exact backAligned_of_small ga _ _ h

/-- **C09 is false**: in AVX and AVX512 builds the claim fails for every network with a layer behind the
first that has at least 2 inputs and 8 or more outputs, not a multiple of 8 (aligned load of the second
row of its weights in `matrix_vector_multiply`). -/
theorem C09_false_rows (env : CustomEnv F) (c : Cfg) (workAddr : ℕ) (junk : ℕ → F) (nn : Net F)
    (input target grad : View F) (loss : Loss) (hw : nn.WF c) (hwa : workAddr % c.alignSize = 0)
    (hga : grad.addr % c.alignSize = 0) (hloss : nn.loss = some loss)
    (hd : ∀ l ∈ nn.layers, l.deriv ≠ none)
    (hin : nn.nInput ≤ input.data.length) (hout : nn.nOutput ≤ target.data.length)
    (hg : nParams nn.layers ≤ grad.data.length) (hx : c.avx = true)
    (i : ℕ) (l : Layer F) (hi0 : 0 < i) (hi : nn.layers[i]? = some l)
    (hl2 : 2 ≤ l.nIn) (hl8 : 8 ≤ l.nOut) (hl : l.nOut % 8 ≠ 0) :
    backpropagation env c workAddr junk nn input target grad = .error .misaligned := by
  apply C09_misaligned env c workAddr junk nn input target grad loss hw hwa hga hloss hd hin hout hg
  obtain ⟨hil, he⟩ := List.getElem?_eq_some_iff.mp hi
  have hs : nn.layers = nn.layers.take i ++ l :: nn.layers.drop (i + 1) := by
    rw [← he, List.cons_getElem_drop_succ, List.take_append_drop]
  rw [hs]
  apply not_backAligned_rows hx grad.addr l (hw.layer l (List.mem_of_getElem? hi)) hl2 hl8 hl
  intro h0
  have := congrArg List.length h0
  rw [List.length_take, List.length_nil] at this; omega

/-- **C09 is false**: likewise for a layer with 16 or more outputs and a relu, sigmoid or tanh derivative
whose part of the gradient does not start at a multiple of 8 floats. -/
theorem C09_false_deriv (env : CustomEnv F) (c : Cfg) (workAddr : ℕ) (junk : ℕ → F) (nn : Net F)
    (input target grad : View F) (loss : Loss) (hw : nn.WF c) (hwa : workAddr % c.alignSize = 0)
    (hga : grad.addr % c.alignSize = 0) (hloss : nn.loss = some loss)
    (hd : ∀ l ∈ nn.layers, l.deriv ≠ none)
    (hin : nn.nInput ≤ input.data.length) (hout : nn.nOutput ≤ target.data.length)
    (hg : nParams nn.layers ≤ grad.data.length) (hx : c.avx = true)
    (i : ℕ) (l : Layer F) (hi : nn.layers[i]? = some l) (d : ActDeriv) (hld : l.deriv = some d)
    (hv : d = .relu ∨ d = .sigmoid ∨ d = .tanh) (hl16 : 16 ≤ l.nOut)
    (hoff : nParams (nn.layers.take i) % 8 ≠ 0) :
    backpropagation env c workAddr junk nn input target grad = .error .misaligned := by
  apply C09_misaligned env c workAddr junk nn input target grad loss hw hwa hga hloss hd hin hout hg
  obtain ⟨hil, he⟩ := List.getElem?_eq_some_iff.mp hi
  have hs : nn.layers = nn.layers.take i ++ l :: nn.layers.drop (i + 1) := by
    rw [← he, List.cons_getElem_drop_succ, List.take_append_drop]
  rw [hs]
  apply not_backAligned_deriv hx grad.addr (mod32_of_aligned hx hga) l _ hl16
  · simpa using hoff
  · rw [hld]; rcases hv with rfl | rfl | rfl <;> rfl

/-! ### C10 -/

/-- **C10** Two calls with the same network, input and target that return give the same gradient, bit for
bit: whatever `grad`, the stack and the memory behind input and target held, wherever they are. -/
theorem C10_deterministic (env : CustomEnv F) (c : Cfg) (nn : Net F) (loss : Loss) (hw : nn.WF c)
    (hloss : nn.loss = some loss) (hd : ∀ l ∈ nn.layers, l.deriv ≠ none)
    (workAddr workAddr' : ℕ) (junk junk' : ℕ → F) (input target grad input' target' grad' : View F)
    (hwa : workAddr % c.alignSize = 0) (hwa' : workAddr' % c.alignSize = 0)
    (hga : grad.addr % c.alignSize = 0) (hga' : grad'.addr % c.alignSize = 0)
    (hin : nn.nInput ≤ input.data.length) (hout : nn.nOutput ≤ target.data.length)
    (hin' : nn.nInput ≤ input'.data.length) (hout' : nn.nOutput ≤ target'.data.length)
    (hg : nParams nn.layers ≤ grad.data.length) (hg' : nParams nn.layers ≤ grad'.data.length)
    (ei : input.data.take nn.nInput = input'.data.take nn.nInput)
    (et : target.data.take nn.nOutput = target'.data.take nn.nOutput) (v v' : View F)
    (hv : backpropagation env c workAddr junk nn input target grad = .ok v)
    (hv' : backpropagation env c workAddr' junk' nn input' target' grad' = .ok v') :
    v.data.take (nParams nn.layers) = v'.data.take (nParams nn.layers) ∧
      v.data.drop (nParams nn.layers) = grad.data.drop (nParams nn.layers) := by
  have ha : BackAligned c grad.addr 0 nn.layers := by
    by_contra h
    rw [backpropagation_misaligned env c workAddr junk nn input target grad loss hw hwa hga hloss hd hin
      hout hg h] at hv
    simp at hv
  have ha' : BackAligned c grad'.addr 0 nn.layers := by
    by_contra h
    rw [backpropagation_misaligned env c workAddr' junk' nn input' target' grad' loss hw hwa' hga' hloss hd
      hin' hout' hg' h] at hv'
    simp at hv'
  rw [backpropagation_eq env c workAddr junk nn input target grad loss hw hwa hga hloss hd hin hout hg ha]
    at hv
  rw [backpropagation_eq env c workAddr' junk' nn input' target' grad' loss hw hwa' hga' hloss hd hin' hout'
    hg' ha', ← ei, ← et] at hv'
  have hl := gradF_length env c nn loss (input.data.take nn.nInput) (target.data.take nn.nOutput) hw
    (by simp; omega)
  cases hv; cases hv'
  exact ⟨by rw [List.take_left' hl, List.take_left' hl], by rw [List.drop_left' hl]⟩

/-! ### C11 -/

/-- **C11** After an unknown loss name backpropagation stops at its assertion. -/
theorem C11_unknown_asserts (env : CustomEnv F) (c : Cfg) (recs : List ActRecord) (workAddr : ℕ)
    (junk : ℕ → F) (nn : Net F) (name : String) (input target grad : View F) (hw : nn.WF c)
    (hname : getLossFunc name = none) (hwa : workAddr % c.alignSize = 0)
    (hin : nn.nInput ≤ input.data.length) (hg : nParams nn.layers ≤ grad.data.length) :
    backpropagation env c workAddr junk (setLoss recs nn name) input target grad = .error .assertFail := by
  rw [C11_unknown recs nn name hname]
  unfold backpropagation
  split
  · simp only
    rw [layout_eq c workAddr hwa 0 _ (by simp)]
    simp only [bind, Except.bind]
    have hi0 : ({ nn with loss := none } : Net F).nInput = nn.nInput := rfl
    rw [hi0]
    generalize hlen : workSize nn.layers + nn.nInput + c.lanes * nn.layers.length = len
    have hlaid := laid_offsets c workAddr hwa len 0 nn.layers (by simp) (by omega)
    have hsrc : ∀ l, nn.layers.head? = some l → l.nIn = nn.nInput := fun l hl => (Net.nInput_eq hl).symm
    obtain ⟨s', e, -⟩ := forward_work env c len nn.layers (offsets c 0 nn.layers) .input 0
      ⟨input, stackArray workAddr len junk, ⟨0, []⟩⟩ (input.data.take nn.nInput) hw.layer hw.chain
      (by rw [stackArray_length]) hlaid (fun l hl => by
        rw [hsrc l hl]
        exact ⟨rfl, by simp; omega, trivial⟩)
    rw [e]
    simp only [memsetZero, hg, if_true]
  · rfl
end

/-! ### Concrete cases -/

/-- 3 → 5 → 16 with sigmoid everywhere, mean squared error. -/
def exNet16 : Net ℝ :=
  ⟨[⟨3, 5, ⟨64, List.replicate 15 0⟩, ⟨128, List.replicate 5 0⟩, .sigmoid, some .sigmoid⟩,
    ⟨5, 16, ⟨192, List.replicate 80 0⟩, ⟨512, List.replicate 16 0⟩, .sigmoid, some .sigmoid⟩], some .mse⟩

theorem exNet16_wf (c : Cfg) : exNet16.WF c := by
  have h : ∀ n, n % 64 = 0 → n % c.alignSize = 0 := by
    intro n hn
    rcases c with ⟨s, _, _⟩
    cases s <;> simp [Cfg.alignSize] <;> omega
  refine ⟨by simp [exNet16], ?_, ⟨rfl, trivial⟩⟩
  intro l hl
  simp only [exNet16, List.mem_cons, List.not_mem_nil, or_false] at hl
  rcases hl with rfl | rfl
  · exact ⟨by decide, by decide, by simp, by simp, h _ (by decide), h _ (by decide)⟩
  · exact ⟨by decide, by decide, by simp, by simp, h _ (by decide), h _ (by decide)⟩

/-- Undefined behaviour in the AVX build: `grad_b` of the output layer is at float 20. -/
example (junk : ℕ → ℝ) : backpropagation (noCustom ℝ) cfgAvx 4096 junk exNet16 ⟨0, [1, 2, 3]⟩
    ⟨0, List.replicate 16 0⟩ ⟨8192, List.replicate 116 0⟩ = .error .misaligned :=
  C09_false_deriv _ _ _ _ _ _ _ _ .mse (exNet16_wf _) (by simp [cfgAvx, Cfg.alignSize])
    (by simp [cfgAvx, Cfg.alignSize]) rfl (by simp [exNet16]) (by simp [exNet16, Net.nInput])
    (by simp [exNet16, Net.nOutput]) (by simp [exNet16, nParams]) rfl 1 _ rfl .sigmoid rfl (by simp)
    (by decide) (by simp [exNet16, nParams])

/-- The same network is fine in an SSE build. -/
example (junk : ℕ → ℝ) : ∃ g, backpropagation (noCustom ℝ) cfgSse 4096 junk exNet16 ⟨0, [1, 2, 3]⟩
    ⟨0, List.replicate 16 0⟩ ⟨8192, List.replicate 117 5⟩ = .ok ⟨8192, g ++ [5]⟩ ∧ g.length = 116 := by
  obtain ⟨g, h1, h2⟩ := C09_safe_partial (noCustom ℝ) cfgSse 4096 junk exNet16 ⟨0, [1, 2, 3]⟩
    ⟨0, List.replicate 16 0⟩ ⟨8192, List.replicate 117 5⟩ .mse (exNet16_wf _)
    (by simp [cfgSse, Cfg.alignSize])
    (by simp [cfgSse, Cfg.alignSize]) rfl (by simp [exNet16]) (by simp [exNet16, Net.nInput])
    (by simp [exNet16, Net.nOutput]) (by simp [exNet16, nParams])
    (C09_safe_sizes _ _ _ (by simp [cfgSse, Cfg.alignSize]) (exNet16_wf _) (Or.inl rfl))
  exact ⟨g, by simpa [exNet16, nParams] using h1, by simpa [exNet16, nParams] using h2⟩

/-- The example network 2 → 3 → 1 is safe everywhere (all layers smaller than 8). -/
example (c : Cfg) (ga : ℕ) (h : ga % c.alignSize = 0) : BackAligned c ga 0 exNet.layers :=
  C09_safe_sizes c exNet ga h (exNet_wf c) (Or.inr (Or.inr (by simp [exNet])))

/-- 784 → 16 → 32 → 10-like sizes: the output layer of size 10 with 2 or more inputs is not. -/
example (c : Cfg) (hx : c.avx = true) (ga : ℕ) (l1 l2 : Layer ℝ) (hw : l2.WF c)
    (h2 : l2.nIn = 32) (h3 : l2.nOut = 10) : ¬ BackAligned c ga 0 [l1, l2] :=
  not_backAligned_rows hx ga l2 hw (by omega) (by omega) (by omega) [l1] [] 0 (by simp)

end NN
