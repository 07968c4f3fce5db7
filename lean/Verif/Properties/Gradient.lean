import Verif.Proofs.GradientOut
import Verif.Properties.Backprop
/-
C07, C08: backpropagation computes the gradient.
-/
set_option linter.unusedSimpArgs false
set_option linter.unusedSectionVars false

namespace NN
open FloatOps Spec Finset

/-- `neuralnet_set_loss` keeps sizes and buffers. -/
theorem setLoss_wf {F : Type} (recs : List ActRecord) (c : Cfg) (nn : Net F) (name : String) (h : nn.WF c) :
    (setLoss recs nn name).WF c := by
  have he := setLoss_erase recs nn name
  unfold eraseDeriv at he
  have hch : ∀ ls : List (Layer F), Chained ls ↔ Chained (ls.map fun l => { l with deriv := none }) := by
    intro ls
    induction ls with
    | nil => simp
    | cons a ls ih =>
      cases ls with
      | nil => simp [Chained]
      | cons b ls => simp only [List.map_cons, Chained] at ih ⊢; rw [ih]
  have hwf : ∀ l : Layer F, l.WF c ↔ ({ l with deriv := none } : Layer F).WF c :=
    fun l => ⟨fun h => ⟨h.1, h.2, h.3, h.4, h.5, h.6⟩, fun h => ⟨h.1, h.2, h.3, h.4, h.5, h.6⟩⟩
  refine ⟨?_, ?_, ?_⟩
  · intro h0
    rw [h0] at he
    exact h.ne (by simpa using he.symm)
  · intro l hl
    rw [hwf]
    have : ({ l with deriv := none } : Layer F) ∈ nn.layers.map fun l => { l with deriv := none } := by
      rw [← he]; exact List.mem_map_of_mem hl
    obtain ⟨m, hm, e⟩ := List.mem_map.mp this
    rw [← e, ← hwf]
    exact h.layer m hm
  · rw [hch, he, ← hch]; exact h.chain

/-- `g` is the gradient of the objective `J` of the prediction for `input`, as a function of the
parameters, in the order of `neuralnet_update`: for every direction `d`, after
`neuralnet_update( nn, t*d )` a call to `neuralnet_predict` gives `p t` for every `t`, and the derivative
of `J (p t)` at 0 is `g · d`. -/
def IsGradient (env : CustomEnv ℝ) (c : Cfg) (nn : Net ℝ) (J : List ℝ → ℝ) (input : View ℝ) (g : List ℝ) :
    Prop :=
  ∀ (d : List ℝ), d.length = nParams nn.layers →
  ∀ (deltaAddr workAddr : ℕ) (junk : ℕ → ℝ) (out : View ℝ), workAddr % c.alignSize = 0 →
    out.addr % c.alignSize = 0 → out.data.length = nn.nOutput →
    ∃ p : ℝ → List ℝ,
      (∀ t, ∃ nn', update c nn ⟨deltaAddr, d.map (t * ·)⟩ = .ok nn' ∧
        predict env c workAddr junk nn' input out = .ok ⟨out.addr, p t⟩) ∧
      HasDerivAt (fun t => J (p t)) (dot (nParams nn.layers) g d) 0

theorem shift_map (env : CustomEnv ℝ) (c : Cfg) (d : List ℝ) (t : ℝ) (ls : List (Layer ℝ))
    (hw : ∀ l ∈ ls, l.WF c) (hd : d.length = nParams ls) (hc : Chained ls) :
    (∀ l ∈ shift ls d t, l.WF c) ∧ Chained (shift ls d t) ∧
      (∀ l, ls.head? = some l → ∃ l', (shift ls d t).head? = some l' ∧ l'.nIn = l.nIn) ∧
      (∀ l, ls.getLast? = some l → ∃ l', (shift ls d t).getLast? = some l' ∧ l'.nOut = l.nOut) := by
  have hlen : (List.zipWith FloatOps.add (params ls) (d.map (t * ·))).length = nParams ls := by
    simp [params_length c ls hw, hd]
  rw [← withParams_shift c t ls d hw hd]
  refine ⟨withParams_wf c ls _ hlen hw, withParams_chained ls _ hc, ?_, ?_⟩
  · intro l hl
    cases ls with
    | nil => simp at hl
    | cons a ls => simp at hl; subst hl; exact ⟨_, rfl, rfl⟩
  · generalize List.zipWith FloatOps.add (params ls) (d.map (t * ·)) = q
    clear hw hd hlen hc
    intro l hl
    induction ls generalizing q with
    | nil => simp at hl
    | cons a ls ih =>
      cases ls with
      | nil => simp at hl; subst hl; exact ⟨_, rfl, rfl⟩
      | cons b ls =>
        obtain ⟨l', h1, h2⟩ := ih (q.drop (a.nOut + a.nIn * a.nOut)) (by simpa using hl)
        refine ⟨l', ?_, h2⟩
        simp only [withParams] at h1 ⊢
        rw [List.getLast?_cons_cons]; exact h1

/-- What update followed by predict computes. -/
theorem update_predict (env : CustomEnv ℝ) (c : Cfg) (nn : Net ℝ) (input : View ℝ) (hw : nn.WF c)
    (hin : nn.nInput ≤ input.data.length) (d : List ℝ) (hd : d.length = nParams nn.layers)
    (deltaAddr workAddr : ℕ) (junk : ℕ → ℝ) (out : View ℝ) (hwa : workAddr % c.alignSize = 0)
    (hoa : out.addr % c.alignSize = 0) (hol : out.data.length = nn.nOutput) (t : ℝ) :
    ∃ nn', update c nn ⟨deltaAddr, d.map (t * ·)⟩ = .ok nn' ∧
      predict env c workAddr junk nn' input out =
        .ok ⟨out.addr, Spec.network ((shift nn.layers d t).map (Layer.toSpec env))
          (input.data.take nn.nInput)⟩ := by
  refine ⟨_, update_eq c nn _ hw.layer (by simp [hd]), ?_⟩
  rw [withParams_shift c t nn.layers d hw.layer hd]
  obtain ⟨s1, s2, s3, s4⟩ := shift_map env c d t nn.layers hw.layer hd hw.chain
  obtain ⟨last, hlast, hno, -⟩ := exists_last hw
  obtain ⟨l0, h0⟩ : ∃ l0, nn.layers.head? = some l0 := by
    cases h : nn.layers with
    | nil => exact absurd h hw.ne
    | cons a b => exact ⟨a, rfl⟩
  obtain ⟨l0', h0', e0⟩ := s3 l0 h0
  obtain ⟨last', hl', el⟩ := s4 last hlast
  have hw' : (⟨shift nn.layers d t, nn.loss⟩ : Net ℝ).WF c :=
    ⟨by intro h; simp only at h; rw [h] at h0'; simp at h0', s1, s2⟩
  have hi : (⟨shift nn.layers d t, nn.loss⟩ : Net ℝ).nInput = nn.nInput := by
    rw [Net.nInput_eq (nn := ⟨shift nn.layers d t, nn.loss⟩) h0', Net.nInput_eq h0, e0]
  have ho : (⟨shift nn.layers d t, nn.loss⟩ : Net ℝ).nOutput = nn.nOutput := by
    rw [hno, ← el]; simp [Net.nOutput, hl']
  rw [predict_netF env c workAddr junk _ input out hw' hwa (by rw [hi]; exact hin) (by rw [ho, hol])
    (AlignedFor.of_aligned hoa), hi, ho, List.drop_of_length_le hol.le, List.append_nil]
  rw [netF_real env c _ _ _ s1 s2]
  intro l hl
  rw [h0'] at hl
  simp at hl; subst hl
  rw [e0, List.length_take, ← Net.nInput_eq h0]; omega

/-- Backpropagation computes the gradient if all layers behave (`NetOk`) and have derivatives. -/
theorem gradient_core (env : CustomEnv ℝ) (c : Cfg) (recs : List ActRecord) (workAddr : ℕ) (junk : ℕ → ℝ)
    (nn : Net ℝ) (name : String) (loss : Loss) (input target grad : View ℝ) (hw : nn.WF c)
    (hname : getLossFunc name = some loss)
    (hwa : workAddr % c.alignSize = 0) (hga : grad.addr % c.alignSize = 0)
    (hin : nn.nInput ≤ input.data.length) (hy : target.data.length = nn.nOutput)
    (hg : nParams nn.layers = grad.data.length)
    (hal : BackAligned c grad.addr 0 (setLoss recs nn name).layers)
    (hok : NetOk env c (fun p => objective loss nn.nOutput p target.data)
      (lossF loss nn.nOutput (netF env c 0 (matchPair loss (nn.layers.map (resetDeriv recs))) (input.data.take nn.nInput)) target.data)
      (matchPair loss (nn.layers.map (resetDeriv recs))) (input.data.take nn.nInput))
    (hder : ∀ l ∈ (setLoss recs nn name).layers, l.deriv ≠ none) :
    ∃ g, backpropagation env c workAddr junk (setLoss recs nn name) input target grad =
        .ok ⟨grad.addr, g⟩ ∧
      IsGradient env c (setLoss recs nn name) (fun p => objective loss nn.nOutput p target.data) input g := by
  have hw' := setLoss_wf recs c nn name hw
  have e : setLoss recs nn name = ⟨matchPair loss (nn.layers.map (resetDeriv recs)), some loss⟩ := by
    simp only [setLoss, hname]
  obtain ⟨-, hlen, hget⟩ := C11_sets recs nn name loss hname
  have hn : nParams (setLoss recs nn name).layers = nParams nn.layers := by
    have := setLoss_erase recs nn name
    unfold eraseDeriv at this
    have h2 : ∀ ls : List (Layer ℝ), nParams ls = nParams (ls.map fun l => { l with deriv := none }) := by
      intro ls; simp [nParams, Function.comp_def]
    rw [h2, this, ← h2]
  obtain ⟨last, hlast, hno, hwlast⟩ := exists_last hw
  obtain ⟨l0, h0⟩ : ∃ l0, nn.layers.head? = some l0 := by
    cases h : nn.layers with
    | nil => exact absurd h hw.ne
    | cons a b => exact ⟨a, rfl⟩
  have hpos : 0 < nn.layers.length := List.length_pos_iff.mpr hw.ne
  have h0' : ∃ l0', (setLoss recs nn name).layers.head? = some l0' ∧ l0'.nIn = l0.nIn := by
    rw [List.head?_eq_getElem?] at h0 ⊢
    exact ⟨_, hget 0 l0 h0, rfl⟩
  have hlast' : ∃ last', (setLoss recs nn name).layers.getLast? = some last' ∧ last'.nOut = last.nOut := by
    rw [List.getLast?_eq_getElem?] at hlast ⊢
    rw [hlen]
    exact ⟨_, hget _ last hlast, rfl⟩
  obtain ⟨l0', h0', e0⟩ := h0'
  obtain ⟨last', hlast', el⟩ := hlast'
  have hi : (setLoss recs nn name).nInput = nn.nInput := by
    rw [Net.nInput_eq h0', Net.nInput_eq h0, e0]
  have ho : (setLoss recs nn name).nOutput = nn.nOutput := by
    rw [hno, ← el]; simp [Net.nOutput, hlast']
  have hxl : (input.data.take nn.nInput).length = l0.nIn := by
    rw [List.length_take, ← Net.nInput_eq h0]; omega
  rw [hno] at hok
  have hbp := backpropagation_eq env c workAddr junk (setLoss recs nn name) input target grad loss hw' hwa hga
    (by rw [e]) hder (by rw [hi]; exact hin) (by rw [ho]; exact hy.ge) (by rw [hn]; exact hg.le) hal
  rw [hn, List.drop_of_length_le hg.ge, List.append_nil, hi, ho, List.take_of_length_le hy.le] at hbp
  refine ⟨_, hbp, ?_⟩
  intro d hd deltaAddr workAddr junk out hwa hoa hol
  refine ⟨_, fun t => update_predict env c _ input hw' (by rw [hi]; exact hin) d hd deltaAddr workAddr junk out
    hwa hoa hol t, ?_⟩
  have hL : (setLoss recs nn name).layers = matchPair loss (nn.layers.map (resetDeriv recs)) := by rw [e]
  have := gradient_chain env c (fun p => objective loss last.nOut p target.data)
    (lossF loss last.nOut (netF env c 0 (matchPair loss (nn.layers.map (resetDeriv recs)))
      (input.data.take nn.nInput)) target.data)
    (setLoss recs nn name).layers d (fun _ => input.data.take nn.nInput) (fun _ => 0) l0' last' h0' hlast'
    (by
      rw [← hL, lossF, List.length_zipWith, netF_length env c 0 _ _ last' hlast' hw'.layer]; omega)
    hw'.layer hw'.chain hd
    ⟨fun _ => by rw [hxl, e0], fun k _ => hasDerivAt_const _ _⟩ (by rw [hL]; exact hok)
  simp only [mul_zero, Finset.sum_const_zero, add_zero] at this
  rw [gradF, ho, hno, hi]
  rw [hL] at this ⊢
  exact this

/-- **C07** After `neuralnet_set_loss( nn, name )` with a known name, `neuralnet_backpropagation` writes
the exact gradient of the training objective to `grad`, for every network (any depth, any sizes), input
and target where that gradient exists and output activation and loss fit (`Regular`).  `BackAligned`
excludes the networks on which the code makes misaligned accesses (see C09). -/
theorem C07_gradient (env : CustomEnv ℝ) (c : Cfg) (recs : List ActRecord) (workAddr : ℕ) (junk : ℕ → ℝ)
    (nn : Net ℝ) (name : String) (loss : Loss) (input target grad : View ℝ) (hw : nn.WF c)
    (hname : getLossFunc name = some loss)
    (hwa : workAddr % c.alignSize = 0) (hga : grad.addr % c.alignSize = 0)
    (hin : nn.nInput ≤ input.data.length) (hy : target.data.length = nn.nOutput)
    (hg : nParams nn.layers = grad.data.length)
    (hal : BackAligned c grad.addr 0 (setLoss recs nn name).layers)
    (hreg : Regular env loss target.data nn.layers (input.data.take nn.nInput)) :
    ∃ g, backpropagation env c workAddr junk (setLoss recs nn name) input target grad =
        .ok ⟨grad.addr, g⟩ ∧
      IsGradient env c (setLoss recs nn name) (fun p => objective loss nn.nOutput p target.data) input g := by
  obtain ⟨-, hlen, hget⟩ := C11_sets recs nn name loss hname
  obtain ⟨last, hlast, hno, hwlast⟩ := exists_last hw
  obtain ⟨l0, h0⟩ : ∃ l0, nn.layers.head? = some l0 := by
    cases h : nn.layers with
    | nil => exact absurd h hw.ne
    | cons a b => exact ⟨a, rfl⟩
  have hxl : (input.data.take nn.nInput).length = l0.nIn := by
    rw [List.length_take, ← Net.nInput_eq h0]; omega
  have hok := netOk env c recs loss target.data nn.layers (input.data.take nn.nInput) _ l0 last h0 hlast hxl
    hw.chain hw.layer (by rw [hy, hno]) hreg rfl
  -- the derivatives are set
  have hder : ∀ l ∈ (setLoss recs nn name).layers, l.deriv ≠ none := by
    have hidden : ∀ (ls : List (Layer ℝ)) (x : List ℝ), Regular env loss target.data ls x →
        ∀ i l, ls[i]? = some l → i + 1 ≠ ls.length ∨
          ¬((loss = .bce ∧ l.act = .sigmoid) ∨ (loss = .cce ∧ l.act = .softmax)) →
          textbook l.act ≠ none := by
      intro ls
      induction ls with
      | nil => intro x _ i l h; simp at h
      | cons a ls ih =>
        intro x hr i l hl hcase
        cases ls with
        | nil =>
          cases i with
          | zero =>
            simp at hl; subst hl
            simp at hcase
            exact textbook_of_outputRegular hr (by
              rintro (h | h)
              · exact hcase.1 h.1 h.2
              · exact hcase.2 h.1 h.2)
          | succ i => simp at hl
        | cons b ls =>
          cases i with
          | zero => simp at hl; subst hl; exact hr.1.1
          | succ i =>
            refine ih _ hr.2 i l (by simpa using hl) ?_
            rcases hcase with h | h
            · left; simpa using h
            · right; exact h
    intro l hl
    obtain ⟨i, hi⟩ := List.getElem?_of_mem hl
    have hil : i < nn.layers.length := by
      have := (List.getElem?_eq_some_iff.mp hi).1; omega
    have := hget i nn.layers[i] (by simp [hil])
    rw [hi] at this
    have hl' := Option.some.inj this
    rw [hl']
    simp only
    split
    · simp
    · rename_i hne
      rw [getActivationDerivative_textbook recs _ (hidden nn.layers _ hreg i _ (by simp [hil]) (by
        by_cases h : i + 1 = nn.layers.length
        · right; intro h2; exact hne ⟨h, h2⟩
        · left; exact h))]
      simp
  rw [← hno] at hok
  exact gradient_core env c recs workAddr junk nn name loss input target grad hw hname hwa hga hin hy hg hal hok hder

/-- The derivative pointers are set after `neuralnet_set_loss` if no activation function is custom. -/
theorem setLoss_deriv {F : Type} (recs : List ActRecord) (nn : Net F) (name : String) (loss : Loss)
    (hname : getLossFunc name = some loss) (hb : ∀ l ∈ nn.layers, ∀ i, l.act ≠ .custom i) :
    ∀ l ∈ (setLoss recs nn name).layers, l.deriv ≠ none := by
  obtain ⟨-, hlen, hget⟩ := C11_sets recs nn name loss hname
  intro l hl
  obtain ⟨i, hi⟩ := List.getElem?_of_mem hl
  have hil : i < nn.layers.length := by
    have := (List.getElem?_eq_some_iff.mp hi).1; omega
  have := hget i nn.layers[i] (by simp [hil])
  rw [hi] at this
  rw [Option.some.inj this]
  simp only
  split
  · simp
  · have hc := hb nn.layers[i] (by simp)
    cases ha : nn.layers[i].act <;> simp [getActivationDerivative]
    exact absurd ha (hc _)

theorem regular_not_custom (env : CustomEnv ℝ) (loss : Loss) (y : List ℝ) :
    ∀ (ls : List (Layer ℝ)) (x : List ℝ), Regular env loss y ls x → ∀ l ∈ ls, ∀ i, l.act ≠ .custom i
  | [], _, _, l, h, _ => by simp at h
  | [a], x, hr, l, hl, i => by
    simp at hl; subst hl
    intro hc
    cases loss <;> simp [Regular, OutputRegular, hc, textbook] at hr
  | a :: b :: ls, x, hr, l, hl, i => by
    rcases List.mem_cons.mp hl with rfl | hl
    · intro hc; exact hr.1.1 (by rw [hc]; rfl)
    · exact regular_not_custom env loss y (b :: ls) _ hr.2 l hl i

/-- **C07** Without the alignment condition: whatever the call returns is the gradient (if it returns). -/
theorem C07_any_result (env : CustomEnv ℝ) (c : Cfg) (recs : List ActRecord) (workAddr : ℕ) (junk : ℕ → ℝ)
    (nn : Net ℝ) (name : String) (loss : Loss) (input target grad : View ℝ) (hw : nn.WF c)
    (hname : getLossFunc name = some loss)
    (hwa : workAddr % c.alignSize = 0) (hga : grad.addr % c.alignSize = 0)
    (hin : nn.nInput ≤ input.data.length) (hy : target.data.length = nn.nOutput)
    (hg : nParams nn.layers = grad.data.length)
    (hreg : Regular env loss target.data nn.layers (input.data.take nn.nInput)) (v : View ℝ)
    (hv : backpropagation env c workAddr junk (setLoss recs nn name) input target grad = .ok v) :
    IsGradient env c (setLoss recs nn name) (fun p => objective loss nn.nOutput p target.data) input
      v.data := by
  have he := setLoss_erase recs nn name
  have hl : (setLoss recs nn name).loss = some loss := (C11_sets recs nn name loss hname).1
  have h2 : ∀ m : Net ℝ, nParams m.layers = nParams (eraseDeriv m) ∧
      m.nInput = (⟨eraseDeriv m, none⟩ : Net ℝ).nInput ∧ m.nOutput = (⟨eraseDeriv m, none⟩ : Net ℝ).nOutput := by
    intro m
    refine ⟨by simp [nParams, eraseDeriv, Function.comp_def], ?_, ?_⟩
    · rcases m with ⟨_ | ⟨a, b⟩, _⟩ <;> simp [Net.nInput, eraseDeriv]
    · rcases hm : m.layers.getLast? with _ | a <;> simp [Net.nOutput, eraseDeriv, hm]
  obtain ⟨e1, e2, e3⟩ := h2 (setLoss recs nn name)
  obtain ⟨f1, f2, f3⟩ := h2 nn
  rw [he] at e1 e2 e3
  have hal : BackAligned c grad.addr 0 (setLoss recs nn name).layers := by
    by_contra h
    rw [backpropagation_misaligned env c workAddr junk _ input target grad loss
      (setLoss_wf recs c nn name hw) hwa hga hl
      (setLoss_deriv recs nn name loss hname (regular_not_custom env loss _ _ _ hreg))
      (by omega) (by omega) (by omega) h] at hv
    simp at hv
  obtain ⟨g, h1, h2⟩ := C07_gradient env c recs workAddr junk nn name loss input target grad hw hname hwa hga
    hin hy hg hal hreg
  rw [h1] at hv
  cases hv
  exact h2

/-- 2 → 3 (relu) → 1 (linear), mean squared error, in all builds: `z = (-1, 3, 4)`, no kink. -/
example (c : Cfg) (junk : ℕ → ℝ) : ∃ g,
    backpropagation (noCustom ℝ) c 4096 junk (setLoss [] exNet "mean_squared_error") ⟨20, [1, 2]⟩
      ⟨32, [7]⟩ ⟨8192, List.replicate 13 99⟩ = .ok ⟨8192, g⟩ ∧
    IsGradient (noCustom ℝ) c (setLoss [] exNet "mean_squared_error") (fun p => Spec.mse 1 p [7])
      ⟨20, [1, 2]⟩ g := by
  have h : ∀ n, n % 64 = 0 → n % c.alignSize = 0 := by
    intro n hn
    rcases c with ⟨s, _, _⟩
    cases s <;> simp [Cfg.alignSize] <;> omega
  have hsmall : BackAligned c 8192 0 (setLoss [] exNet "mean_squared_error").layers := by
    apply backAligned_of_small
    have : getLossFunc "mean_squared_error" = some .mse := by decide
    simp [setLoss, this, matchPair, exNet, resetDeriv]
  exact C07_gradient (noCustom ℝ) c [] 4096 junk exNet "mean_squared_error" .mse ⟨20, [1, 2]⟩
    ⟨32, [7]⟩ ⟨8192, List.replicate 13 99⟩ (exNet_wf c) (by decide) (h _ (by decide)) (h _ (by decide))
    (by simp [exNet, Net.nInput]) (by simp [exNet, Net.nOutput]) (by simp [exNet, nParams]) hsmall
    (by
      simp only [exNet, Regular, Net.nInput, OutputRegular, textbook, Smooth]
      refine ⟨⟨by simp, ?_⟩, _, rfl, fun _ _ => trivial⟩
      intro k hk
      simp [affine]
      interval_cases k <;> simp [at_, Finset.sum_range_succ] <;> norm_num)

/-! ### C08: combinations for which the result is not the gradient -/

theorem not_isGradient (env : CustomEnv ℝ) (c : Cfg) (nn : Net ℝ) (J : List ℝ → ℝ) (input : View ℝ)
    (g : List ℝ) (hw : nn.WF c) (hin : nn.nInput ≤ input.data.length) (d : List ℝ)
    (hd : d.length = nParams nn.layers) (φ : ℝ → ℝ) (v : ℝ)
    (hφ : ∀ t, J (Spec.network ((shift nn.layers d t).map (Layer.toSpec env))
      (input.data.take nn.nInput)) = φ t)
    (hder : HasDerivAt φ v 0) (hne : v ≠ dot (nParams nn.layers) g d) :
    ¬ IsGradient env c nn J input g := by
  intro h
  obtain ⟨p, hp, hdp⟩ := h d hd 0 0 (fun _ => 0) ⟨0, List.replicate nn.nOutput 0⟩ (by simp) (by simp)
    (by simp)
  have : (fun t => J (p t)) = φ := by
    funext t
    obtain ⟨nn', h1, h2⟩ := hp t
    obtain ⟨nn'', h3, h4⟩ := update_predict env c nn input hw hin d hd 0 0 (fun _ => 0)
      ⟨0, List.replicate nn.nOutput 0⟩ (by simp) (by simp) (by simp) t
    rw [h1] at h3
    cases h3
    rw [h2] at h4
    rw [← hφ t]
    congr 1
    simpa using h4
  rw [this] at hdp
  exact hne (hder.unique hdp)

/-- The claim C08 for one network: on every input and target the call gives the gradient of the objective
belonging to the loss that was set. -/
def GradientCorrect (c : Cfg) (nn : Net ℝ) (loss : Loss) : Prop :=
  ∀ (input target grad : View ℝ), input.data.length = nn.nInput → target.data.length = nn.nOutput →
    grad.data.length = nParams nn.layers → grad.addr % c.alignSize = 0 →
    ∃ g, backpropagation (noCustom ℝ) c 0 (fun _ => 0) nn input target grad = .ok ⟨grad.addr, g⟩ ∧
      IsGradient (noCustom ℝ) c nn (fun p => objective loss nn.nOutput p target.data) input g

/-- How to refute `GradientCorrect` with one sample and one direction. -/
theorem not_gradientCorrect (c : Cfg) (nn : Net ℝ) (loss : Loss) (x y : List ℝ) (hw : nn.WF c)
    (hloss : nn.loss = some loss) (hder : ∀ l ∈ nn.layers, l.deriv ≠ none)
    (hsmall : ∀ l ∈ nn.layers, l.nOut < 8) (hx : x.length = nn.nInput) (hy : y.length = nn.nOutput)
    (d : List ℝ) (hd : d.length = nParams nn.layers) (φ : ℝ → ℝ) (v : ℝ)
    (hφ : ∀ t, objective loss nn.nOutput (Spec.network ((shift nn.layers d t).map (Layer.toSpec (noCustom ℝ)))
      x) y = φ t)
    (hd' : HasDerivAt φ v 0)
    (hne : v ≠ dot (nParams nn.layers) (gradF (noCustom ℝ) c nn loss x y) d) :
    ¬ GradientCorrect c nn loss := by
  intro h
  obtain ⟨g, h1, h2⟩ := h ⟨0, x⟩ ⟨0, y⟩ ⟨0, List.replicate (nParams nn.layers) 0⟩ hx hy (by simp) (by simp)
  rw [backpropagation_eq (noCustom ℝ) c 0 (fun _ => 0) nn ⟨0, x⟩ ⟨0, y⟩
    ⟨0, List.replicate (nParams nn.layers) 0⟩ loss hw (by simp) (by simp) hloss hder hx.ge hy.ge (by simp)
    (backAligned_of_small _ _ _ hsmall)] at h1
  simp only [List.take_of_length_le hx.le, List.take_of_length_le hy.le] at h1
  have hg : g = gradF (noCustom ℝ) c nn loss x y := by
    simp at h1; exact h1.symm
  subst hg
  exact not_isGradient (noCustom ℝ) c nn _ ⟨0, x⟩ _ hw hx.ge d hd φ v
    (by intro t; simp only [List.take_of_length_le hx.le]; exact hφ t) hd' hne h2

/-- A layer of an example network: zero weights at 64, biases at 128. -/
def exLayer (nIn nOut : ℕ) (bias : List ℝ) (a : Act) : Layer ℝ :=
  ⟨nIn, nOut, ⟨64, List.replicate (nIn * nOut) 0⟩, ⟨128, bias⟩, a, none⟩

theorem exLayer_wf (c : Cfg) (nIn nOut : ℕ) (bias : List ℝ) (a : Act) (h1 : 1 ≤ nIn) (h2 : 1 ≤ nOut)
    (h3 : bias.length = nOut) : (exLayer nIn nOut bias a).WF c := by
  have h : ∀ n, n % 64 = 0 → n % c.alignSize = 0 := by
    intro n hn
    rcases c with ⟨s, _, _⟩
    cases s <;> simp [Cfg.alignSize] <;> omega
  exact ⟨h1, h2, by simp [exLayer], h3, h 64 (by decide), h 128 (by decide)⟩

theorem single_wf (c : Cfg) (l : Layer ℝ) (h : l.WF c) : (⟨[l], none⟩ : Net ℝ).WF c :=
  ⟨by simp, by simpa using h, trivial⟩

theorem sigmoid_zero : Spec.sigmoid 0 = 1 / 2 := by simp [Spec.sigmoid]; norm_num

/-- **C08 is false**: `binary_crossentropy` with a linear output.  At prediction 1/2, target 1 the
derivative with respect to the bias is -2, the code gives -1/2. -/
theorem C08_false_bce_linear (c : Cfg) :
    ¬ GradientCorrect c (setLoss [] ⟨[exLayer 1 1 [1 / 2] .linear], none⟩ "binary_crossentropy") .bce := by
  have hb : getLossFunc "binary_crossentropy" = some .bce := by decide
  have hw := exLayer_wf c 1 1 [1 / 2] .linear le_rfl le_rfl rfl
  have hL : (setLoss [] ⟨[exLayer 1 1 [1 / 2] .linear], none⟩ "binary_crossentropy") =
      ⟨[⟨1, 1, ⟨64, [0]⟩, ⟨128, [1 / 2]⟩, .linear, some .linear⟩], some .bce⟩ := by
    simp [setLoss, hb, matchPair, resetDeriv, exLayer, getActivationDerivative]
  have hwf := setLoss_wf [] c _ "binary_crossentropy" (single_wf c _ hw)
  rw [hL] at hwf ⊢
  refine not_gradientCorrect c _ .bce [1] [1] hwf rfl (by simp) (by simp) rfl rfl [1, 0]
    (by simp [nParams]) (fun t => -Real.log (1 / 2 + t)) (-2) ?_ ?_ ?_
  · intro t
    simp [objective, Spec.binaryCrossentropy, Net.nOutput, shift, Layer.toSpec, Spec.network,
      Spec.Layer.apply, affine, at_, actSpec]
  · have h1 : HasDerivAt (fun t : ℝ => 1 / 2 + t) 1 0 := (hasDerivAt_id 0).const_add _
    refine HasDerivAt.congr_deriv (h1.log (by norm_num)).neg ?_
    norm_num
  · have hp := hwf.layer _ (List.mem_singleton_self _)
    have : gradF (noCustom ℝ) c ⟨[⟨1, 1, ⟨64, [0]⟩, ⟨128, [1 / 2]⟩, .linear, some .linear⟩], some .bce⟩ .bce
        [1] [1] = [-1 / 2, -1 / 2] := by
      simp only [gradF, traceF, netF, backF]
      rw [layerF_real _ _ _ hp _ _ rfl, derivF_linear _ _ _ rfl]
      simp [Layer.toSpec, Spec.Layer.apply, affine, at_, actSpec, lossF, lossElem, Net.nOutput, outerF,
        applyTo, outerOp]
      norm_num
    rw [this]
    simp [dot, nParams, Finset.sum_range_succ, at_]
    norm_num

/-- **C08 is false**: `categorical_crossentropy` with a sigmoid output.  At prediction 1/2, target 1 the
derivative with respect to the bias is -1/2, the code gives -1/8. -/
theorem C08_false_cce_sigmoid (c : Cfg) :
    ¬ GradientCorrect c (setLoss [] ⟨[exLayer 1 1 [0] .sigmoid], none⟩ "categorical_crossentropy") .cce := by
  have hb : getLossFunc "categorical_crossentropy" = some .cce := by decide
  have hw := exLayer_wf c 1 1 [0] .sigmoid le_rfl le_rfl rfl
  have hL : (setLoss [] ⟨[exLayer 1 1 [0] .sigmoid], none⟩ "categorical_crossentropy") =
      ⟨[⟨1, 1, ⟨64, [0]⟩, ⟨128, [0]⟩, .sigmoid, some .sigmoid⟩], some .cce⟩ := by
    simp [setLoss, hb, matchPair, resetDeriv, exLayer, getActivationDerivative]
  have hwf := setLoss_wf [] c _ "categorical_crossentropy" (single_wf c _ hw)
  rw [hL] at hwf ⊢
  refine not_gradientCorrect c _ .cce [1] [1] hwf rfl (by simp) (by simp) rfl rfl [1, 0]
    (by simp [nParams]) (fun t => -Real.log (Spec.sigmoid t)) (-1 / 2) ?_ ?_ ?_
  · intro t
    simp [objective, Spec.categoricalCrossentropy, Net.nOutput, shift, Layer.toSpec, Spec.network,
      Spec.Layer.apply, affine, at_, actSpec]
  · refine HasDerivAt.congr_deriv ((hasDerivAt_sigmoid 0).log (sigmoid_pos 0).ne').neg ?_
    rw [sigmoid_zero]; norm_num
  · have hp := hwf.layer _ (List.mem_singleton_self _)
    have : gradF (noCustom ℝ) c ⟨[⟨1, 1, ⟨64, [0]⟩, ⟨128, [0]⟩, .sigmoid, some .sigmoid⟩], some .cce⟩ .cce
        [1] [1] = [-1 / 8, -1 / 8] := by
      simp only [gradF, traceF, netF, backF, derivF, Option.getD_some]
      rw [layerF_real _ _ _ hp _ _ rfl, activateDerivF_real _ _ _ _ _ (by
        simp [Layer.toSpec, Spec.Layer.apply, affine, actSpec, lossF]) (by simp)]
      simp [Layer.toSpec, Spec.Layer.apply, affine, at_, actSpec, lossF, lossElem, Net.nOutput, outerF,
        applyTo, outerOp, derivFactor, sigmoidD, sigmoid_zero]
      norm_num
    rw [this]
    simp [dot, nParams, Finset.sum_range_succ, at_]
    norm_num

theorem softmax_two (a b : ℝ) : Spec.softmax [a, b] = [Spec.sigmoid (a - b), Spec.sigmoid (b - a)] := by
  simp only [Spec.softmax, Spec.sigmoid, List.map_cons, List.map_nil, List.sum_cons, List.sum_nil, add_zero,
    neg_sub, Real.exp_sub]
  have ha := Real.exp_pos a
  have hb := Real.exp_pos b
  congr 1
  · field_simp
  · congr 1
    field_simp; ring

/-- **C08 is false**: softmax output with `mean_squared_error`.  At prediction (1/2, 1/2), target (0, 1) the
derivative with respect to the first bias is 1/4, the code gives 1/2 (`softmax_derivative` is empty). -/
theorem C08_false_softmax_mse (c : Cfg) :
    ¬ GradientCorrect c (setLoss [] ⟨[exLayer 1 2 [0, 0] .softmax], none⟩ "mean_squared_error") .mse := by
  have hb : getLossFunc "mean_squared_error" = some .mse := by decide
  have hw := exLayer_wf c 1 2 [0, 0] .softmax le_rfl (by decide) rfl
  have hL : (setLoss [] ⟨[exLayer 1 2 [0, 0] .softmax], none⟩ "mean_squared_error") =
      ⟨[⟨1, 2, ⟨64, [0, 0]⟩, ⟨128, [0, 0]⟩, .softmax, some .softmax⟩], some .mse⟩ := by
    simp [setLoss, hb, matchPair, resetDeriv, exLayer, getActivationDerivative]
  have hwf := setLoss_wf [] c _ "mean_squared_error" (single_wf c _ hw)
  rw [hL] at hwf ⊢
  refine not_gradientCorrect c _ .mse [1] [0, 1] hwf rfl (by simp) (by simp) rfl rfl [1, 0, 0, 0]
    (by simp [nParams]) (fun t => ((Spec.sigmoid t) ^ 2 + (Spec.sigmoid (-t) - 1) ^ 2) / 2) (1 / 4) ?_ ?_ ?_
  · intro t
    simp [objective, Spec.mse, Net.nOutput, shift, Layer.toSpec, Spec.network, List.range_succ,
      Spec.Layer.apply, affine, at_, actSpec, softmax_two, Finset.sum_range_succ]
  · have h1 := (hasDerivAt_sigmoid 0).pow 2
    have hs : HasDerivAt (fun t : ℝ => Spec.sigmoid (-t)) _ 0 :=
      HasDerivAt.comp (0 : ℝ) (h₂ := Spec.sigmoid) (h := fun t : ℝ => -t)
        (by simpa using hasDerivAt_sigmoid 0) (hasDerivAt_neg 0)
    have h2 := (hs.sub_const 1).pow 2
    refine HasDerivAt.congr_deriv ((h1.add h2).div_const 2) ?_
    simp [sigmoid_zero]; norm_num
  · have hp := hwf.layer _ (List.mem_singleton_self _)
    have : ∃ r, gradF (noCustom ℝ) c ⟨[⟨1, 2, ⟨64, [0, 0]⟩, ⟨128, [0, 0]⟩, .softmax, some .softmax⟩], some .mse⟩
        .mse [1] [0, 1] = (1 / 2) :: r := by
      simp only [gradF, traceF, netF, backF, derivF, Option.getD_some, activateDerivF]
      rw [layerF_real _ _ _ hp _ _ rfl]
      simp [Layer.toSpec, Spec.Layer.apply, affine, at_, actSpec, lossF, lossElem, Net.nOutput, List.range_succ,
        softmax_two, sigmoid_zero]
    obtain ⟨r, hr⟩ := this
    rw [hr]
    simp [dot, nParams, Finset.sum_range_succ, at_]

/-- **C08 is false**: softmax in a hidden layer.  1 → 2 (softmax) → 1 (linear), weights of the output layer
(1, 0): the derivative with respect to the first bias is 1/4, the code gives 1. -/
theorem C08_false_softmax_hidden (c : Cfg) :
    ¬ GradientCorrect c (setLoss [] ⟨[exLayer 1 2 [0, 0] .softmax,
      ⟨2, 1, ⟨64, [1, 0]⟩, ⟨128, [0]⟩, .linear, none⟩], none⟩ "mean_squared_error") .mse := by
  have hb : getLossFunc "mean_squared_error" = some .mse := by decide
  have hw := exLayer_wf c 1 2 [0, 0] .softmax le_rfl (by decide) rfl
  have hw2 : (⟨2, 1, ⟨64, [1, 0]⟩, ⟨128, [0]⟩, .linear, none⟩ : Layer ℝ).WF c := by
    have h := exLayer_wf c 2 1 [0] .linear (by decide) le_rfl rfl
    exact ⟨by simp, by simp, by simp, by simp, h.5, h.6⟩
  have hL : (setLoss [] ⟨[exLayer 1 2 [0, 0] .softmax,
      ⟨2, 1, ⟨64, [1, 0]⟩, ⟨128, [0]⟩, .linear, none⟩], none⟩ "mean_squared_error") =
      ⟨[⟨1, 2, ⟨64, [0, 0]⟩, ⟨128, [0, 0]⟩, .softmax, some .softmax⟩,
        ⟨2, 1, ⟨64, [1, 0]⟩, ⟨128, [0]⟩, .linear, some .linear⟩], some .mse⟩ := by
    simp [setLoss, hb, matchPair, resetDeriv, exLayer, getActivationDerivative]
  have hwf := setLoss_wf [] c ⟨[exLayer 1 2 [0, 0] .softmax,
      ⟨2, 1, ⟨64, [1, 0]⟩, ⟨128, [0]⟩, .linear, none⟩], none⟩ "mean_squared_error"
    ⟨by simp, by
      intro l hl
      simp at hl
      rcases hl with rfl | rfl
      · exact hw
      · exact hw2, ⟨rfl, trivial⟩⟩
  rw [hL] at hwf ⊢
  refine not_gradientCorrect c _ .mse [1] [0] hwf rfl (by simp) (by simp) rfl rfl [1, 0, 0, 0, 0, 0, 0]
    (by simp [nParams]) (fun t => (Spec.sigmoid t) ^ 2) (1 / 4) ?_ ?_ ?_
  · intro t
    simp [objective, Spec.mse, Net.nOutput, shift, Layer.toSpec, Spec.network, List.range_succ,
      Spec.Layer.apply, affine, at_, actSpec, softmax_two, Finset.sum_range_succ]
  · refine HasDerivAt.congr_deriv ((hasDerivAt_sigmoid 0).pow 2) ?_
    simp [sigmoid_zero]; norm_num
  · have hp := hwf.layer _ (List.mem_cons_self)
    have hp2 := hwf.layer _ (List.mem_cons_of_mem _ (List.mem_cons_self))
    have : ∃ r, gradF (noCustom ℝ) c ⟨[⟨1, 2, ⟨64, [0, 0]⟩, ⟨128, [0, 0]⟩, .softmax, some .softmax⟩,
        ⟨2, 1, ⟨64, [1, 0]⟩, ⟨128, [0]⟩, .linear, some .linear⟩], some .mse⟩
        .mse [1] [0] = 1 :: r := by
      simp only [gradF, traceF, netF, backF, derivF, Option.getD_some, activateDerivF]
      rw [layerF_real _ _ _ hp _ _ rfl, layerF_real _ _ _ hp2 _ _ (by
        simp [Layer.toSpec, Spec.Layer.apply, affine, actSpec, Spec.softmax]),
        mvmF_real _ _ _ _ _ (by
          simp [Layer.toSpec, Spec.Layer.apply, affine, actSpec, Spec.softmax, lossF]) (by simp)]
      simp [Layer.toSpec, Spec.Layer.apply, affine, at_, actSpec, lossF, lossElem, Net.nOutput, List.range_succ,
        softmax_two, sigmoid_zero, matVec, Finset.sum_range_succ]
    obtain ⟨r, hr⟩ := this
    rw [hr]
    simp [dot, nParams, Finset.sum_range_succ, at_]

/-- Differentiable everywhere. -/
def everywhereSmooth : Act → Bool
  | .sigmoid | .tanh | .linear | .exponential | .softplus | .softsign => true
  | _ => false

/-- **C08** (partial). The combinations that are right on every sample, without any condition on the
values: hidden layers with an activation function that is differentiable everywhere, and mean squared error
with such an output or binary crossentropy with sigmoid output.  Missing for the full claim: softmax with
another loss than categorical crossentropy or in a hidden layer and crossentropies with other outputs,
where the claim is false (`C08_false_*`); for relu and hard sigmoid, absolute losses and categorical
crossentropy with softmax see C07, which asks for a differentiable point. -/
theorem C08_everywhere_partial (c : Cfg) (recs : List ActRecord) (nn : Net ℝ) (name : String) (loss : Loss)
    (hw : nn.WF c) (hname : getLossFunc name = some loss)
    (hhid : ∀ l ∈ nn.layers.dropLast, everywhereSmooth l.act = true)
    (hout : ∀ l ∈ nn.layers.getLast?, (loss = .mse ∧ everywhereSmooth l.act = true) ∨
      (loss = .bce ∧ l.act = .sigmoid))
    (hal : c.avx = false ∨ SafeSizes c nn.layers ∨ ∀ l ∈ nn.layers, l.nOut < 8) :
    GradientCorrect c (setLoss recs nn name) loss := by
  have he := setLoss_erase recs nn name
  have h2 : ∀ m : Net ℝ, nParams m.layers = nParams (eraseDeriv m) ∧
      m.nInput = (⟨eraseDeriv m, none⟩ : Net ℝ).nInput ∧ m.nOutput = (⟨eraseDeriv m, none⟩ : Net ℝ).nOutput ∧
      (SafeSizes c m.layers ↔ SafeSizes c (eraseDeriv m)) ∧
      ((∀ l ∈ m.layers, l.nOut < 8) ↔ ∀ l ∈ eraseDeriv m, l.nOut < 8) := by
    intro m
    refine ⟨by simp [nParams, eraseDeriv, Function.comp_def], ?_, ?_, ?_, ?_⟩
    · rcases m with ⟨_ | ⟨a, b⟩, _⟩ <;> simp [Net.nInput, eraseDeriv]
    · rcases hm : m.layers.getLast? with _ | a <;> simp [Net.nOutput, eraseDeriv, hm]
    · unfold eraseDeriv
      generalize m.layers = ls
      induction ls with
      | nil => simp
      | cons a ls ih =>
        cases ls with
        | nil => simp [SafeSizes]
        | cons b ls => simp only [List.map_cons, SafeSizes] at ih ⊢; rw [ih]
    · simp [eraseDeriv]
  obtain ⟨e1, e2, e3, e4, e5⟩ := h2 (setLoss recs nn name)
  obtain ⟨f1, f2, f3, f4, f5⟩ := h2 nn
  rw [he] at e1 e2 e3 e4 e5
  intro input target grad hi ht hgl hga
  have hreg : ∀ (ls : List (Layer ℝ)) (x : List ℝ), (∀ l ∈ ls.dropLast, everywhereSmooth l.act = true) →
      (∀ l ∈ ls.getLast?, (loss = .mse ∧ everywhereSmooth l.act = true) ∨ (loss = .bce ∧ l.act = .sigmoid)) →
      Regular (noCustom ℝ) loss target.data ls x := by
    have hs : ∀ a, everywhereSmooth a = true → (∃ f, textbook a = some f) ∧ ∀ z, Smooth a z := by
      intro a ha
      cases a <;> simp [everywhereSmooth] at ha <;> simp [textbook, Smooth]
    intro ls
    induction ls with
    | nil => intros; trivial
    | cons a ls ih =>
      intro x h1 h2
      cases ls with
      | nil =>
        rcases h2 a (by simp) with ⟨rfl, h⟩ | ⟨rfl, h⟩
        · obtain ⟨⟨f, hf⟩, hz⟩ := hs _ h
          exact ⟨f, hf, fun k _ => hz _⟩
        · exact h
      | cons b ls =>
        obtain ⟨⟨f, hf⟩, hz⟩ := hs _ (h1 a (by simp))
        exact ⟨⟨by simp [hf], fun k _ => hz _⟩,
          ih _ (fun l hl => h1 l (by simp [hl])) (fun l hl => h2 l (by simpa using hl))⟩
  rw [e3, ← f3]
  exact C07_gradient (noCustom ℝ) c recs 0 (fun _ => 0) nn name loss input target grad hw hname (by simp) hga
    (by omega) (by omega) (by omega)
    (C09_safe_sizes c _ _ hga (setLoss_wf recs c nn name hw) (by rw [e4, e5, ← f4, ← f5]; exact hal))
    (hreg _ _ hhid hout)

/-- A sigmoid unit with binary crossentropy is right on every sample. -/
example (c : Cfg) : GradientCorrect c (setLoss [] ⟨[exLayer 1 1 [1 / 2] .sigmoid], none⟩ "binary_crossentropy")
    .bce :=
  C08_everywhere_partial c [] _ _ .bce (single_wf c _ (exLayer_wf c 1 1 _ _ le_rfl le_rfl rfl)) (by decide)
    (by simp) (by simp [exLayer]) (Or.inr (Or.inr (by simp [exLayer])))

end NN
