import Verif.Proofs.BackSmall
import Verif.Properties.Gradient
import Verif.Properties.NetFloat
/-
C70: `neuralnet_backpropagation` in `float` arithmetic.
-/
namespace NN
open B32 Finset Spec

theorem setLoss_finite (recs : List ActRecord) (nn : Net B32) (name : String) (hf : ∀ l ∈ nn.layers, l.Finite) :
    ∀ l ∈ (setLoss recs nn name).layers, l.Finite := by
  have he := setLoss_erase recs nn name
  unfold eraseDeriv at he
  intro l hl
  have h1 : ({ l with deriv := none } : Layer B32) ∈ (setLoss recs nn name).layers.map fun l => { l with deriv := none } := List.mem_map_of_mem hl
  rw [he, List.mem_map] at h1
  obtain ⟨l', h2, h3⟩ := h1
  have := hf l' h2
  have e1 : l'.weight = l.weight := by injection h3
  have e2 : l'.bias = l.bias := by injection h3
  unfold Layer.Finite at this ⊢
  rw [← e1, ← e2]; exact this

theorem setLoss_sizes {F : Type} (recs : List ActRecord) (nn : Net F) (name : String) :
    nParams (setLoss recs nn name).layers = nParams nn.layers ∧ (setLoss recs nn name).nInput = nn.nInput ∧ (setLoss recs nn name).nOutput = nn.nOutput := by
  have he := setLoss_erase recs nn name
  have h2 : ∀ m : Net F, nParams m.layers = nParams (eraseDeriv m) ∧
      m.nInput = (⟨eraseDeriv m, none⟩ : Net F).nInput ∧ m.nOutput = (⟨eraseDeriv m, none⟩ : Net F).nOutput := by
    intro m
    refine ⟨by simp [nParams, eraseDeriv, Function.comp_def], ?_, ?_⟩
    · rcases m with ⟨_ | ⟨a, b⟩, _⟩ <;> simp [Net.nInput, eraseDeriv]
    · rcases hm : m.layers.getLast? with _ | a <;> simp [Net.nOutput, eraseDeriv, hm]
  obtain ⟨e1, e2, e3⟩ := h2 (setLoss recs nn name)
  obtain ⟨f1, f2, f3⟩ := h2 nn
  rw [he] at e1 e2 e3
  exact ⟨e1.trans f1.symm, e2.trans f2.symm, e3.trans f3.symm⟩

/-- What the float call computes, and how far it is from the exact value. -/
theorem backprop_float (env : CustomEnv B32) (envR : CustomEnv ℝ) {L : Libm} (hL : L.Accurate) (c : Cfg) (recs : List ActRecord) (workAddr : ℕ)
    (junk : ℕ → B32) (nn : Net B32) (name : String) (loss : Loss) (input target grad : View B32) (hw : nn.WF c) (hname : getLossFunc name = some loss)
    (hwa : workAddr % c.alignSize = 0) (hga : grad.addr % c.alignSize = 0) (hin : nn.nInput ≤ input.data.length) (hy : target.data.length = nn.nOutput)
    (hg : nParams nn.layers = grad.data.length) (hal : BackAligned c grad.addr 0 (setLoss recs nn name).layers) (hf : ∀ l ∈ nn.layers, l.Finite)
    (hfx : ∀ x ∈ input.data.take nn.nInput, x.isFinite = true) (hfy : ∀ y ∈ target.data, y.isFinite = true)
    (hs : TrainSafe envR (setLoss recs nn name) loss (input.data.take nn.nInput) target.data) :
    ∃ g, @backpropagation B32 (ops L) env c workAddr junk (setLoss recs nn name) input target grad = .ok ⟨grad.addr, g⟩ ∧
      g.length = nParams nn.layers ∧
      ∀ k, k < nParams nn.layers → ∃ a, g[k]? = some a ∧ a.isFinite = true ∧
        |a.value - at_ (gradF envR c (setLoss recs nn name).values loss ((input.data.take nn.nInput).map B32.value) (target.data.map B32.value)) k| ≤
          at_ (gradError envR (setLoss recs nn name) loss (input.data.take nn.nInput) target.data) k := by
  obtain ⟨n1, n2, n3⟩ := setLoss_sizes recs nn name
  have hw' := setLoss_wf recs c nn name hw
  have hl : (setLoss recs nn name).loss = some loss := (C11_sets recs nn name loss hname).1
  have hfit := safe_fits envR _ _ _ _ _ hs.1 hs.2.2
  have hder : ∀ l ∈ (setLoss recs nn name).layers, l.deriv ≠ none := by
    intro l hl h
    have := (hfit l.values (List.mem_map_of_mem hl)).2
    have hd : l.values.deriv = none := h
    rcases this with h | h | h <;> rw [hd] at h <;> simp at h
  have hb := @backpropagation_eq B32 (ops L) env c workAddr junk (setLoss recs nn name) input target grad loss hw' hwa hga hl hder
    (by rw [n2]; exact hin) (by rw [n3]; exact hy.ge) (by rw [n1]; exact hg.le) hal
  rw [n1, n2, n3, List.drop_of_length_le hg.ge, List.append_nil, List.take_of_length_le hy.le] at hb
  have hgw := gradF_within env envR hL c (setLoss recs nn name) hw' (setLoss_finite recs nn name hf) loss (input.data.take nn.nInput) target.data
    (by rw [n2, List.length_take]; omega) (by rw [n3]; exact hy) hfx hfy hs
  rw [n1] at hgw
  refine ⟨_, hb, ?_, hgw.1⟩
  rw [@gradF_length B32 (ops L) env c _ loss _ _ hw' (by rw [n3]; exact hy), n1]

/-- **C70** `neuralnet_backpropagation` in IEEE binary32 arithmetic: every operation rounded, in every build, with any C library accurate to 2
units in the last place.  If parameters, input and target are finite, nothing overflows and no kink is too close (`TrainSafe`), the call succeeds,
all entries of `grad` are finite, and each differs from the corresponding entry of the exact gradient of the training objective by at most
`gradError`, a bound that does not depend on the build. -/
theorem C70_gradient (env : CustomEnv B32) (envR : CustomEnv ℝ) {L : Libm} (hL : L.Accurate) (c : Cfg) (recs : List ActRecord) (workAddr : ℕ)
    (junk : ℕ → B32) (nn : Net B32) (name : String) (loss : Loss) (input target grad : View B32) (hw : nn.WF c) (hname : getLossFunc name = some loss)
    (hwa : workAddr % c.alignSize = 0) (hga : grad.addr % c.alignSize = 0) (hin : nn.nInput ≤ input.data.length) (hy : target.data.length = nn.nOutput)
    (hg : nParams nn.layers = grad.data.length) (hal : BackAligned c grad.addr 0 (setLoss recs nn name).layers) (hf : ∀ l ∈ nn.layers, l.Finite)
    (hfx : ∀ x ∈ input.data.take nn.nInput, x.isFinite = true) (hfy : ∀ y ∈ target.data, y.isFinite = true)
    (hs : TrainSafe envR (setLoss recs nn name) loss (input.data.take nn.nInput) target.data)
    (hreg : Regular envR loss (target.data.map B32.value) nn.values.layers ((input.data.take nn.nInput).map B32.value)) :
    ∃ g gR, @backpropagation B32 (ops L) env c workAddr junk (setLoss recs nn name) input target grad = .ok ⟨grad.addr, g⟩ ∧
      IsGradient envR c (setLoss recs nn.values name) (fun p => objective loss nn.nOutput p (target.data.map B32.value))
        ⟨input.addr, input.data.map B32.value⟩ gR ∧
      g.length = nParams nn.layers ∧
      ∀ k, k < nParams nn.layers → ∃ a, g[k]? = some a ∧ a.isFinite = true ∧
        |a.value - at_ gR k| ≤ at_ (gradError envR (setLoss recs nn name) loss (input.data.take nn.nInput) target.data) k := by
  obtain ⟨g, h1, h2, h3⟩ := backprop_float env envR hL c recs workAddr junk nn name loss input target grad hw hname hwa hga hin hy hg hal hf hfx hfy hs
  have hwv := Net.values_wf hw
  have htake : ((input.data.map B32.value).take nn.nInput) = (input.data.take nn.nInput).map B32.value := List.map_take.symm
  obtain ⟨gR, r1, r2⟩ := C07_gradient envR c recs workAddr (fun _ => 0) nn.values name loss ⟨input.addr, input.data.map B32.value⟩
    ⟨target.addr, target.data.map B32.value⟩ ⟨grad.addr, grad.data.map B32.value⟩ hwv hname hwa hga (by rw [Net.values_nInput]; simpa using hin)
    (by rw [Net.values_nOutput]; simpa using hy) (by rw [show nn.values.layers = nn.layers.map Layer.values from rfl, nParams_values]; simpa using hg)
    (by rw [← Net.values_setLoss]; exact (BackAligned_values c _ _ _).2 hal)
    (by rw [Net.values_nInput]; show Regular envR loss _ nn.values.layers ((input.data.map B32.value).take nn.nInput); rw [htake]; exact hreg)
  refine ⟨g, gR, h1, by rw [Net.values_nOutput] at r2; exact r2, h2, ?_⟩
  -- the exact call computes `gradF`
  obtain ⟨n1, n2, n3⟩ := setLoss_sizes recs nn.values name
  have hfit := safe_fits envR _ _ _ _ _ hs.1 hs.2.2
  have hb := backpropagation_eq envR c workAddr (fun _ => 0) (setLoss recs nn.values name) ⟨input.addr, input.data.map B32.value⟩
    ⟨target.addr, target.data.map B32.value⟩ ⟨grad.addr, grad.data.map B32.value⟩ loss (setLoss_wf recs c nn.values name hwv) hwa hga
    (C11_sets recs nn.values name loss hname).1
    (by
      intro l hl h
      rw [← Net.values_setLoss] at hl
      rcases (hfit l hl).2 with h' | h' | h' <;> rw [h] at h' <;> simp at h')
    (by rw [n2, Net.values_nInput]; simpa using hin) (by rw [n3, Net.values_nOutput]; simpa using hy.ge)
    (by rw [n1, show nn.values.layers = nn.layers.map Layer.values from rfl, nParams_values]; simpa using hg.le)
    (by rw [← Net.values_setLoss]; exact (BackAligned_values c _ _ _).2 hal)
  rw [r1, n1, n2, n3, Net.values_nInput, Net.values_nOutput, show nn.values.layers = nn.layers.map Layer.values from rfl, nParams_values] at hb
  have hgR : gR = gradF envR c (setLoss recs nn.values name) loss ((input.data.take nn.nInput).map B32.value) (target.data.map B32.value) := by
    have e := congrArg View.data (Except.ok.inj hb)
    simp only [htake] at e
    rw [List.drop_of_length_le (by simpa using hg.ge), List.append_nil, List.take_of_length_le (l := target.data.map B32.value) (by simpa using hy.le)] at e
    exact e
  rw [hgR, ← Net.values_setLoss]
  exact h3

/-- **C70** Two builds (any instruction sets, addresses, contents of the work memory) give gradients that agree up to twice the bound. -/
theorem C70_builds (env : CustomEnv B32) (envR : CustomEnv ℝ) {L : Libm} (hL : L.Accurate) (c c' : Cfg) (recs : List ActRecord) (workAddr workAddr' : ℕ)
    (junk junk' : ℕ → B32) (nn : Net B32) (name : String) (loss : Loss) (input target grad grad' : View B32) (hw : nn.WF c) (hw' : nn.WF c')
    (hname : getLossFunc name = some loss) (hwa : workAddr % c.alignSize = 0) (hwa' : workAddr' % c'.alignSize = 0) (hga : grad.addr % c.alignSize = 0)
    (hga' : grad'.addr % c'.alignSize = 0) (hin : nn.nInput ≤ input.data.length) (hy : target.data.length = nn.nOutput)
    (hg : nParams nn.layers = grad.data.length) (hg' : nParams nn.layers = grad'.data.length)
    (hal : BackAligned c grad.addr 0 (setLoss recs nn name).layers) (hal' : BackAligned c' grad'.addr 0 (setLoss recs nn name).layers)
    (hf : ∀ l ∈ nn.layers, l.Finite) (hfx : ∀ x ∈ input.data.take nn.nInput, x.isFinite = true) (hfy : ∀ y ∈ target.data, y.isFinite = true)
    (hs : TrainSafe envR (setLoss recs nn name) loss (input.data.take nn.nInput) target.data) :
    ∃ g g', @backpropagation B32 (ops L) env c workAddr junk (setLoss recs nn name) input target grad = .ok ⟨grad.addr, g⟩ ∧
      @backpropagation B32 (ops L) env c' workAddr' junk' (setLoss recs nn name) input target grad' = .ok ⟨grad'.addr, g'⟩ ∧
      ∀ k, k < nParams nn.layers → ∃ a a', g[k]? = some a ∧ g'[k]? = some a' ∧ a.isFinite = true ∧ a'.isFinite = true ∧
        |a.value - a'.value| ≤ 2 * at_ (gradError envR (setLoss recs nn name) loss (input.data.take nn.nInput) target.data) k := by
  obtain ⟨g, h1, -, h3⟩ := backprop_float env envR hL c recs workAddr junk nn name loss input target grad hw hname hwa hga hin hy hg hal hf hfx hfy hs
  obtain ⟨g', i1, -, i3⟩ := backprop_float env envR hL c' recs workAddr' junk' nn name loss input target grad' hw' hname hwa' hga' hin hy hg' hal' hf hfx hfy hs
  refine ⟨g, g', h1, i1, ?_⟩
  obtain ⟨n1, n2, n3⟩ := setLoss_sizes recs nn name
  have hwm := setLoss_wf recs c nn name hw
  have hwm' := setLoss_wf recs c' nn name hw'
  have hwv := Net.values_wf hwm
  have hwv' := Net.values_wf hwm'
  have hfit := safe_fits envR _ _ _ _ _ hs.1 hs.2.2
  obtain ⟨last, hlast, hno, -⟩ := exists_last hwv
  have heq : gradF envR c (setLoss recs nn name).values loss ((input.data.take nn.nInput).map B32.value) (target.data.map B32.value) =
      gradF envR c' (setLoss recs nn name).values loss ((input.data.take nn.nInput).map B32.value) (target.data.map B32.value) := by
    rw [gradF_exact envR c _ hwm loss _ _ (by rw [n2, List.length_take]; omega) (by rw [n3]; exact hy) hs.2.1.1,
      gradF_exact envR c' _ hwm' loss _ _ (by rw [n2, List.length_take]; omega) (by rw [n3]; exact hy) hs.2.1.1]
    refine congrArg Prod.fst (backF_build envR c c' _ (setLoss recs nn name).values.layers last hlast hwv.layer hwv'.layer hwv.chain hfit ?_ _ ?_)
    · rw [lossGrad_length, ← hno, Net.values_nOutput]
    · intro l hl
      rw [← Net.nInput_eq (nn := (setLoss recs nn name).values) hl, Net.values_nInput, n2]
      simp; omega
  intro k hk
  obtain ⟨a, a1, a2, a3⟩ := h3 k hk
  obtain ⟨b, b1, b2, b3⟩ := i3 k hk
  refine ⟨a, b, a1, b1, a2, b2, ?_⟩
  rw [← heq, abs_sub_comm] at b3
  have := abs_tri a.value (at_ (gradF envR c (setLoss recs nn name).values loss ((input.data.take nn.nInput).map B32.value) (target.data.map B32.value)) k) b.value
  linarith

theorem smooth_regular (env : CustomEnv ℝ) (loss : Loss) {N : ℕ} {R : ℝ} (y : List ℝ) : ∀ (ls : List (Layer ℝ)) (x : List ℝ), (∀ l ∈ ls, SmoothLayer N R l) →
    (loss = .mse ∨ (loss = .bce ∧ ∀ l, ls.getLast? = some l → l.act = .sigmoid)) → Regular env loss y ls x := by
  have hs : ∀ l : Layer ℝ, SmoothLayer N R l → (∃ f, textbook l.act = some f) ∧ ∀ z, Smooth l.act z := by
    rintro l ⟨⟨h, -⟩, h2, -⟩
    rcases h with h | h | h | h
    · rw [h]; exact ⟨⟨_, rfl⟩, fun _ => trivial⟩
    · rw [h]; exact ⟨⟨_, rfl⟩, fun _ => trivial⟩
    · rw [h]; exact ⟨⟨_, rfl⟩, fun _ => trivial⟩
    · exact absurd h h2
  intro ls
  induction ls with
  | nil => intro _ _ _; trivial
  | cons l ls ih =>
    intro x hl hloss
    obtain ⟨⟨f, hf⟩, hz⟩ := hs l (hl l (by simp))
    cases ls with
    | nil =>
      rcases hloss with rfl | ⟨rfl, h⟩
      · exact ⟨f, hf, fun _ _ => hz _⟩
      · exact h l rfl
    | cons l' ls =>
      refine ⟨⟨by rw [hf]; simp, fun _ _ => hz _⟩, ih _ (fun m hm => hl m (by simp [List.mem_cons.mp hm])) ?_⟩
      simpa using hloss

/-- Networks with smooth squashing activation functions: nothing overflows, and there are closed bounds on the exact gradient and the errors. -/
theorem smooth_train (envR : CustomEnv ℝ) (c : Cfg) (recs : List ActRecord) (nn : Net B32) (name : String) (loss : Loss) (xs ys : List B32) (hw : nn.WF c)
    (hname : getLossFunc name = some loss) (hloss : loss = .mse ∨ (loss = .bce ∧ ∀ l, nn.layers.getLast? = some l → l.act = .sigmoid))
    (lx : xs.length = nn.nInput) (hy : ys.length = nn.nOutput) (hfx : ∀ x ∈ xs, x.isFinite = true ∧ |x.value| ≤ 1)
    (hfy : ∀ y ∈ ys, y.isFinite = true ∧ |y.value| ≤ 1)
    (N : ℕ) (R E κ : ℝ) (hN : N + 6 ≤ 2 ^ 20) (hR : 1 ≤ R) (hR' : R ≤ 2 ^ 100) (hsm : ∀ l ∈ nn.layers, SmoothLayer N R l.values)
    (hE : E = ((N + 1) * R * 2 ^ (-22 : ℤ) + 1 / 10 ^ 6) * ∑ i ∈ range nn.layers.length, (2 * R) ^ i) (hE1 : E ≤ 1)
    (hκ : κ = 2 * E + (N + 7) * 2 ^ (-23 : ℤ) + 2 ^ (-19 : ℤ))
    (hmax : 4 * R ^ (nn.layers.length - 1) * (1 + κ) ^ (2 * nn.layers.length + 1) ≤ 2 ^ 127) :
    TrainSafe envR (setLoss recs nn name) loss xs ys ∧ Regular envR loss (ys.map B32.value) nn.values.layers (xs.map B32.value) ∧
    (∀ k, k < nParams nn.layers → at_ (gradError envR (setLoss recs nn name) loss xs ys) k ≤
      4 * R ^ (nn.layers.length - 1) * ((1 + κ) ^ (2 * nn.layers.length + 1) - 1)) ∧
    ∀ k, |at_ (gradF envR c (setLoss recs nn name).values loss (xs.map B32.value) (ys.map B32.value)) k| ≤ 4 * R ^ (nn.layers.length - 1) := by
  obtain ⟨n1, n2, n3⟩ := setLoss_sizes recs nn name
  have hEd : E = depthError N R nn.layers.length := hE
  have hκd : κ = stepκ N E := hκ
  have hwm := setLoss_wf recs c nn name hw
  have hwv := Net.values_wf hwm
  obtain ⟨last, hlast, hno, -⟩ := exists_last hwv
  rw [Net.values_nOutput] at hno
  obtain ⟨-, hlen, hget⟩ := C11_sets recs nn name loss hname
  have hlenv : (setLoss recs nn name).values.layers.length = nn.layers.length := by
    show ((setLoss recs nn name).layers.map Layer.values).length = _
    rw [List.length_map, hlen]
  have hE0 : 0 ≤ E := by rw [hEd]; unfold depthError layerδ; positivity
  -- all layers fit
  have hall : ∀ l ∈ (setLoss recs nn name).values.layers, SmoothLayer N R l ∧ SlopeFits l := by
    intro l hl
    obtain ⟨i, hi⟩ := List.getElem?_of_mem hl
    have hil : i < nn.layers.length := by have := (List.getElem?_eq_some_iff.mp hi).1; omega
    have hgi := hget i nn.layers[i] (by simp [hil])
    have hi' : ((setLoss recs nn name).layers.map Layer.values)[i]? = some l := hi
    rw [List.getElem?_map, hgi, Option.map_some] at hi'
    have hl' := Option.some.inj hi'
    have hsi := hsm nn.layers[i] (List.getElem_mem hil)
    rw [← hl']
    refine ⟨hsi, ?_⟩
    unfold SlopeFits
    simp only [Layer.values]
    by_cases hcond : i + 1 = nn.layers.length ∧ ((loss = .bce ∧ nn.layers[i].act = .sigmoid) ∨ (loss = .cce ∧ nn.layers[i].act = .softmax))
    · rw [if_pos hcond]; exact Or.inr (Or.inl rfl)
    · rw [if_neg hcond]
      left
      apply getActivationDerivative_textbook
      obtain ⟨f, hf, -⟩ := hsi.1.1.spec
      have hf' : textbook nn.layers[i].act = some f := hf
      rw [hf']; simp
  have hsmall : ∀ l ∈ (setLoss recs nn name).values.layers, SmallLayer N R l := fun l hl => (hall l hl).1.1
  have hx : ∀ l, (setLoss recs nn name).values.layers.head? = some l → ∀ i, i < l.nIn →
      |at_ (xs.map B32.value) i| ≤ 1 ∧ 0 ≤ at_ (List.replicate (setLoss recs nn name).nInput 0) i ∧
      at_ (List.replicate (setLoss recs nn name).nInput 0) i ≤ depthError N R 0 := by
    intro l hl i hi
    have hi' : i < nn.nInput := by rw [← n2, ← Net.values_nInput, Net.nInput_eq hl]; exact hi
    have hk : i < xs.length := by omega
    have e1 : at_ (xs.map B32.value) i = (xs[i]).value := by
      simp only [at_, List.getD_eq_getElem?_getD, List.getElem?_map, List.getElem?_eq_getElem hk, Option.map_some, Option.getD_some]
    refine ⟨by rw [e1]; exact (hfx _ (List.getElem_mem hk)).2, ?_⟩
    have e2 : at_ (List.replicate (setLoss recs nn name).nInput 0) i = 0 := by simp [at_, n2, hi']
    rw [e2]
    exact ⟨le_rfl, by simp [depthError]⟩
  have hDle : depthError N R (0 + (setLoss recs nn name).values.layers.length) ≤ E := by rw [hlenv, Nat.zero_add, ← hEd]
  have hN' : N < 2 ^ 20 := by omega
  obtain ⟨s1, s2⟩ := smallNet_within envR hN' hR hR' _ last 0 _ _ hlast hwv.chain hsmall (hDle.trans hE1) hx
  have hnn := netError_nonneg envR hN' hR hR' _ last 0 _ _ hlast hwv.chain hsmall (hDle.trans hE1) hx
  have hnb := network_bounded envR _ last (xs.map B32.value) hlast hsmall
  have hl2 : loss = .mse ∨ loss = .bce := hloss.imp id And.left
  have hn1 : 1 ≤ (setLoss recs nn name).nOutput := by
    rw [hno]
    exact (hwv.layer last (List.mem_of_getLast? hlast)).out_pos
  have hnlt : (setLoss recs nn name).nOutput < 2 ^ 24 := by
    have := (hall last (List.mem_of_getLast? hlast)).1.2.2.1
    rw [hno]; omega
  have hstart : ∀ k, k < last.nOut → _ := fun k hk => by
    have hky : k < ys.length := by rw [hy, ← n3, hno]; exact hk
    have e1 : at_ (ys.map B32.value) k = ys[k].value := by simp [at_, hky]
    exact lossStart (N := N) hl2 hn1 hE0 hE1 (hnb k hk) (hnn k hk) ((s2 k hk).trans hDle) (y := at_ (ys.map B32.value) k)
      (by rw [e1]; exact (hfy _ (List.getElem_mem hky)).2)
  have hmax' : (4 : ℝ) * R ^ ((setLoss recs nn name).values.layers.length - 1) * (1 + stepκ N E) ^ (2 * (setLoss recs nn name).values.layers.length + 1) ≤ max32 := by
    rw [hlenv, ← hκd]
    refine hmax.trans ?_
    unfold max32; norm_num
  obtain ⟨b1, -, b3, b4⟩ := smallBack envR hN hR hR' hE1
    (lossGrad loss (setLoss recs nn name).nOutput (exactOut envR (setLoss recs nn name) xs) (ys.map B32.value))
    (lossGradError loss (setLoss recs nn name).nOutput (exactOut envR (setLoss recs nn name) xs)
      (outError envR (setLoss recs nn name) xs) (ys.map B32.value)) (U := 4) (by norm_num)
    (setLoss recs nn name).values.layers last 0 _ _ hlast hwv.chain hall hDle hx
    ((lossGrad_length _ _ _ _).trans hno) ((lossGradError_length _ _ _ _ _).trans hno)
    (by
      intro k hk
      have hk' : k < (setLoss recs nn name).nOutput := by rw [hno]; exact hk
      obtain ⟨t1, t2, t3, -⟩ := hstart k hk
      rw [lossGrad, lossGradError, at_range_map hk', at_range_map hk']
      exact ⟨t1, t2, t3⟩)
    hmax'
  have hsafe : TrainSafe envR (setLoss recs nn name) loss xs ys := by
    refine ⟨s1, ⟨?_, hnlt, ?_, ?_⟩, b1⟩
    · rcases hl2 with h | h <;> rw [h] <;> simp
    · intro k hk
      exact (hstart k (by rw [← hno]; exact hk)).2.2.2
    · intro h
      rcases hl2 with h' | h' <;> rw [h'] at h <;> simp at h
  refine ⟨hsafe, ?_, ?_, ?_⟩
  · exact (smooth_regular (N := N) (R := R) envR loss _ nn.values.layers _ (by
      intro l hl
      obtain ⟨l', hl', rfl⟩ := List.mem_map.mp hl
      exact hsm l' hl') (hloss.imp id fun h => ⟨h.1, by
        intro l hl
        have hl' : (nn.layers.map Layer.values).getLast? = some l := hl
        rw [List.getLast?_map, Option.map_eq_some_iff] at hl'
        obtain ⟨l', h1, rfl⟩ := hl'
        exact h.2 l' h1⟩))
  · intro k hk
    have hnp : nParams (setLoss recs nn name).values.layers = nParams nn.layers := (nParams_values _).trans n1
    have := b4 k (by rw [hnp]; exact hk)
    rw [hlenv, ← hκd] at this
    exact this
  · intro k
    rw [gradF_exact envR c _ hwm loss _ _ (by omega) (by omega) hsafe.2.1.1]
    have := smooth_grad envR c hR (lossGrad loss (setLoss recs nn name).nOutput (exactOut envR (setLoss recs nn name) xs) (ys.map B32.value)) (U := 4) (by norm_num)
      (setLoss recs nn name).values.layers last hlast hwv.layer hwv.chain hall ((lossGrad_length _ _ _ _).trans hno)
      (by
        intro k hk
        rw [lossGrad, at_range_map (by rw [hno]; exact hk)]
        exact (hstart k hk).1) (xs.map B32.value)
      (by
        intro l hl
        rw [List.length_map, lx, ← n2, ← Net.values_nInput, Net.nInput_eq hl]
        exact ⟨rfl, fun i hi => (hx l hl i hi).1⟩)
    have h3 := this.2 k
    rw [hlenv] at h3
    exact h3

/-- **C70** A closed form for networks with smooth squashing activation functions (sigmoid, tanh, softsign), inputs and targets in [-1, 1], at most
`N` inputs and outputs per layer, absolute values of the weights into each neuron and out of each neuron adding up to at most `R`, and mean squared error (or
binary crossentropy with sigmoid output): with `D` layers, `E` the bound of C62 on the prediction and `κ = 2 E + (N+7) 2^-23 + 2^-19`, nothing
overflows and every entry of the gradient has an error of at most `4 R^(D-1) ((1+κ)^(2D+1) - 1)`. -/
theorem C70_bounded (env : CustomEnv B32) (envR : CustomEnv ℝ) {L : Libm} (hL : L.Accurate) (c : Cfg) (recs : List ActRecord) (workAddr : ℕ)
    (junk : ℕ → B32) (nn : Net B32) (name : String) (loss : Loss) (input target grad : View B32) (hw : nn.WF c) (hname : getLossFunc name = some loss)
    (hloss : loss = .mse ∨ (loss = .bce ∧ ∀ l, nn.layers.getLast? = some l → l.act = .sigmoid))
    (hwa : workAddr % c.alignSize = 0) (hga : grad.addr % c.alignSize = 0) (hin : nn.nInput ≤ input.data.length) (hy : target.data.length = nn.nOutput)
    (hg : nParams nn.layers = grad.data.length) (hal : BackAligned c grad.addr 0 (setLoss recs nn name).layers) (hf : ∀ l ∈ nn.layers, l.Finite)
    (hfx : ∀ x ∈ input.data.take nn.nInput, x.isFinite = true ∧ |x.value| ≤ 1) (hfy : ∀ y ∈ target.data, y.isFinite = true ∧ |y.value| ≤ 1)
    (N : ℕ) (R E κ : ℝ) (hN : N + 6 ≤ 2 ^ 20) (hR : 1 ≤ R) (hR' : R ≤ 2 ^ 100) (hsm : ∀ l ∈ nn.layers, SmoothLayer N R l.values)
    (hE : E = ((N + 1) * R * 2 ^ (-22 : ℤ) + 1 / 10 ^ 6) * ∑ i ∈ range nn.layers.length, (2 * R) ^ i) (hE1 : E ≤ 1)
    (hκ : κ = 2 * E + (N + 7) * 2 ^ (-23 : ℤ) + 2 ^ (-19 : ℤ))
    (hmax : 4 * R ^ (nn.layers.length - 1) * (1 + κ) ^ (2 * nn.layers.length + 1) ≤ 2 ^ 127) :
    ∃ g gR, @backpropagation B32 (ops L) env c workAddr junk (setLoss recs nn name) input target grad = .ok ⟨grad.addr, g⟩ ∧
      IsGradient envR c (setLoss recs nn.values name) (fun p => objective loss nn.nOutput p (target.data.map B32.value))
        ⟨input.addr, input.data.map B32.value⟩ gR ∧
      g.length = nParams nn.layers ∧
      ∀ k, k < nParams nn.layers → ∃ a, g[k]? = some a ∧ a.isFinite = true ∧
        |a.value - at_ gR k| ≤ 4 * R ^ (nn.layers.length - 1) * ((1 + κ) ^ (2 * nn.layers.length + 1) - 1) := by
  obtain ⟨hsafe, hreg, hb, -⟩ := smooth_train envR c recs nn name loss (input.data.take nn.nInput) target.data hw hname hloss (by simp; omega) hy hfx hfy
    N R E κ hN hR hR' hsm hE hE1 hκ hmax
  obtain ⟨g, gR, r1, r2, r3, r4⟩ := C70_gradient env envR hL c recs workAddr junk nn name loss input target grad hw hname hwa hga hin hy hg hal hf
    (fun x h => (hfx x h).1) (fun y h => (hfy y h).1) hsafe hreg
  refine ⟨g, gR, r1, r2, r3, fun k hk => ?_⟩
  obtain ⟨a, a1, a2, a3⟩ := r4 k hk
  exact ⟨a, a1, a2, a3.trans (hb k hk)⟩

/-! ### Examples -/

/-- The gradient of the mean squared error of a network with tanh and sigmoid layers, in every build: error at most 2e-3. -/
example (c : Cfg) (junk : ℕ → B32) : ∃ g gR,
    @backpropagation B32 (ops exactLibm) (@noCustom B32) c 4096 junk (setLoss [] exNetB32 "mean_squared_error") ⟨20, [ofReal false (1 / 2), ofReal false 1]⟩
      ⟨36, [ofReal false (1 / 4)]⟩ ⟨8192, List.replicate 9 qnan⟩ = .ok ⟨8192, g⟩ ∧
    IsGradient (noCustom ℝ) c (setLoss [] exNetB32.values "mean_squared_error") (fun p => Spec.mse 1 p [1 / 4]) ⟨20, [1 / 2, 1]⟩ gR ∧
    g.length = 9 ∧ ∀ k, k < 9 → ∃ a, g[k]? = some a ∧ a.isFinite = true ∧ |a.value - at_ gR k| ≤ 2 / 10 ^ 3 := by
  have h1 : B32.Is (ofReal false 1) 1 := is_exact 1 0 (by norm_num) (by norm_num) (by norm_num) (by norm_num [max32])
  have h2 : B32.Is (ofReal false (1 / 2)) (1 / 2) := is_exact 1 (-1) (by norm_num) (by norm_num) (by norm_num) (by norm_num [max32])
  have h4 : B32.Is (ofReal false (1 / 4)) (1 / 4) := is_exact 1 (-2) (by norm_num) (by norm_num) (by norm_num) (by norm_num [max32])
  have h : ∀ n, n % 64 = 0 → n % c.alignSize = 0 := by
    intro n hn
    rcases c with ⟨s, _, _⟩
    cases s <;> simp [Cfg.alignSize] <;> omega
  have hsmall : BackAligned c 8192 0 (setLoss [] exNetB32 "mean_squared_error").layers := by
    apply backAligned_of_small
    have : getLossFunc "mean_squared_error" = some .mse := by decide
    simp [setLoss, this, matchPair, exNetB32, resetDeriv]
  have hn : nParams exNetB32.layers = 9 := by simp [exNetB32, nParams]
  obtain ⟨g, gR, g1, g2, g3, g4⟩ := C70_bounded (@noCustom B32) (noCustom ℝ) exactLibm_accurate c [] 4096 junk exNetB32 "mean_squared_error" .mse
    ⟨20, [ofReal false (1 / 2), ofReal false 1]⟩ ⟨36, [ofReal false (1 / 4)]⟩ ⟨8192, List.replicate 9 qnan⟩ (exNetB32_wf c) (by decide) (Or.inl rfl)
    (h _ (by decide)) (h _ (by decide)) (by simp [exNetB32, Net.nInput]) (by simp [exNetB32, Net.nOutput]) (by simp [exNetB32, nParams]) hsmall
    (by
      intro l hl
      simp only [exNetB32, List.mem_cons, List.not_mem_nil, or_false] at hl
      rcases hl with rfl | rfl <;> simp [Layer.Finite, -one_div, h1.1, h2.1, h4.1])
    (by
      intro x hx
      simp only [exNetB32, Net.nInput, List.take_succ_cons, List.take_zero, List.mem_cons, List.not_mem_nil, or_false] at hx
      rcases hx with rfl | rfl
      · exact ⟨h2.1, by rw [h2.2]; norm_num [abs_of_pos]⟩
      · exact ⟨h1.1, by rw [h1.2]; norm_num⟩)
    (by
      intro y hy
      simp only [List.mem_cons, List.not_mem_nil, or_false] at hy
      subst hy
      exact ⟨h4.1, by rw [h4.2]; norm_num [abs_of_pos]⟩)
    2 2 _ _ (by norm_num) (by norm_num) (by norm_num)
    (by
      intro l hl
      simp only [exNetB32, List.mem_cons, List.not_mem_nil, or_false] at hl
      rcases hl with rfl | rfl
      · refine ⟨⟨by simp [Squashing, Layer.values], le_rfl, ?_⟩, by simp [Layer.values], le_rfl, ?_⟩
        · intro k hk
          simp only [Layer.values] at hk
          interval_cases k <;> simp [Layer.values, at_, sum_range_succ, -one_div, h1.2, h2.2, h4.2] <;> norm_num [abs_of_pos]
        · intro k hk
          simp only [Layer.values] at hk
          interval_cases k <;> simp [Layer.values, at_, sum_range_succ, -one_div, h1.2, h2.2, h4.2] <;> norm_num [abs_of_pos]
      · refine ⟨⟨by simp [Squashing, Layer.values], le_rfl, ?_⟩, by simp [Layer.values], by simp [Layer.values], ?_⟩
        · intro k hk
          simp only [Layer.values] at hk
          interval_cases k
          simp [Layer.values, at_, sum_range_succ, -one_div, h1.2, h2.2, h4.2]
          norm_num [abs_of_pos]
        · intro k hk
          simp only [Layer.values] at hk
          interval_cases k <;> simp [Layer.values, at_, -one_div, h1.2, h2.2, h4.2] <;> norm_num [abs_of_pos])
    rfl (by norm_num [exNetB32, sum_range_succ]) rfl (by norm_num [exNetB32, sum_range_succ])
  rw [hn] at g3 g4
  refine ⟨g, gR, g1, ?_, g3, ?_⟩
  · have e1 : [ofReal false (1 / 2), ofReal false 1].map B32.value = [1 / 2, 1] := by simp [h1.2, h2.2, -one_div]
    have e2 : [ofReal false (1 / 4)].map B32.value = [1 / 4] := by simp [h4.2, -one_div]
    simp only [e1, e2] at g2
    exact g2
  · intro k hk
    obtain ⟨a, a1, a2, a3⟩ := g4 k hk
    refine ⟨a, a1, a2, a3.trans ?_⟩
    norm_num [exNetB32, sum_range_succ]

/-- One neuron with activation function relu. -/
noncomputable def exReluB32 : Net B32 := ⟨[⟨1, 1, ⟨64, [ofReal false 1]⟩, ⟨128, [ofReal false 1]⟩, .relu, none⟩], none⟩

/-- Away from the kink: `w = b = x = 1`, so `z = 2`; the gradient `2 (2 - 1/4) = 7/2` of bias and weight is found up to 1e-5, by C70 in every build. -/
example (c : Cfg) (junk : ℕ → B32) : ∃ g gR,
    @backpropagation B32 (ops exactLibm) (@noCustom B32) c 4096 junk (setLoss [] exReluB32 "mean_squared_error") ⟨20, [ofReal false 1]⟩
      ⟨36, [ofReal false (1 / 4)]⟩ ⟨8192, List.replicate 2 qnan⟩ = .ok ⟨8192, g⟩ ∧
    IsGradient (noCustom ℝ) c (setLoss [] exReluB32.values "mean_squared_error") (fun p => Spec.mse 1 p [1 / 4]) ⟨20, [1]⟩ gR ∧
    g.length = 2 ∧ ∀ k, k < 2 → ∃ a, g[k]? = some a ∧ a.isFinite = true ∧ |a.value - at_ gR k| ≤ 1 / 10 ^ 5 := by
  have h1 : B32.Is (ofReal false 1) 1 := is_exact 1 0 (by norm_num) (by norm_num) (by norm_num) (by norm_num [max32])
  have h4 : B32.Is (ofReal false (1 / 4)) (1 / 4) := is_exact 1 (-2) (by norm_num) (by norm_num) (by norm_num) (by norm_num [max32])
  have h : ∀ n, n % 64 = 0 → n % c.alignSize = 0 := by
    intro n hn
    rcases c with ⟨s, _, _⟩
    cases s <;> simp [Cfg.alignSize] <;> omega
  have hname : getLossFunc "mean_squared_error" = some .mse := by decide
  have hset : setLoss [] exReluB32 "mean_squared_error" =
      ⟨[⟨1, 1, ⟨64, [ofReal false 1]⟩, ⟨128, [ofReal false 1]⟩, .relu, some .relu⟩], some .mse⟩ := by
    simp [setLoss, hname, matchPair, exReluB32, resetDeriv, getActivationDerivative]
  have hsmall : BackAligned c 8192 0 (setLoss [] exReluB32 "mean_squared_error").layers := by
    apply backAligned_of_small
    rw [hset]; simp
  have hw : exReluB32.WF c := by
    refine ⟨by simp [exReluB32], ?_, trivial⟩
    intro l hl
    simp only [exReluB32, List.mem_cons, List.not_mem_nil, or_false] at hl
    subst hl
    exact ⟨by decide, by decide, by simp, by simp, h _ (by decide), h _ (by decide)⟩
  have e1 : [ofReal false 1].map B32.value = [1] := by simp [h1.2]
  have e2 : [ofReal false (1 / 4)].map B32.value = [1 / 4] := by simp [h4.2, -one_div]
  obtain ⟨R, hR⟩ : ∃ R : Layer ℝ, R = ⟨1, 1, ⟨64, [1]⟩, ⟨128, [1]⟩, .relu, some .relu⟩ := ⟨_, rfl⟩
  have hv : (setLoss [] exReluB32 "mean_squared_error").layers.map Layer.values = [R] := by
    rw [hset, hR]; simp [Layer.values, h1.2]
  have haff : affine 1 1 [1] [1] [1] = [2] := by simp [affine, at_]; norm_num
  have hae : affineError 1 1 [1] [1] [1] [0] = [slack 2 1 2] := by
    simp [affineError, absAffineErr, at_]; norm_num
  have hsl0 : 0 ≤ slack 2 1 2 := by norm_num [slack, u32, η32]
  have hsl : slack 2 1 2 ≤ 3 / 10 ^ 7 := by norm_num [slack, u32, η32]
  have hap : (R.toSpec (noCustom ℝ)).apply [1] = [2] := by
    rw [hR]
    simp only [Spec.Layer.apply, Layer.toSpec, haff]
    simp [actSpec, Spec.relu]
  have hle : layerError R [1] [0] = [lipError Spec.relu 2 (slack 2 1 2)] := by
    rw [hR]
    simp only [layerError, haff, hae]
    simp [actError, textbook, at_]
  obtain ⟨d, hd⟩ : ∃ d, d = lipError Spec.relu 2 (slack 2 1 2) := ⟨_, rfl⟩
  have hr2 : Spec.relu 2 = 2 := by simp [Spec.relu]
  have hd0 : 0 ≤ d := by
    rw [hd]; unfold lipError tol
    have : (0 : ℝ) ≤ max 1 (|Spec.relu 2| + slack 2 1 2) := le_trans zero_le_one (le_max_left _ _)
    positivity
  have hd1 : d ≤ 2 / 10 ^ 6 := by
    rw [hd]; unfold lipError tol
    have : max 1 (|Spec.relu 2| + slack 2 1 2) ≤ 2 + 3 / 10 ^ 7 := by
      rw [hr2, abs_two]; exact max_le (by norm_num) (by linarith)
    linarith
  rw [← hd] at hle
  obtain ⟨q, hq⟩ : ∃ q, q = lossSlopeError .mse 1 2 d (1 / 4) := ⟨_, rfl⟩
  have hq0 : 0 ≤ q := by rw [hq]; simp only [lossSlopeError]; positivity
  have hq1 : q ≤ 5 / 10 ^ 6 := by
    rw [hq]; norm_num [lossSlopeError]; linarith
  obtain ⟨r, hr⟩ : ∃ r, r = mulError (7 / 2) q 1 0 := ⟨_, rfl⟩
  have hr0 : 0 ≤ r := by rw [hr]; unfold mulError u32 η32; positivity
  have hr1 : r ≤ 6 / 10 ^ 6 := by
    rw [hr]; norm_num [mulError, u32, η32]; linarith
  have hm : mulError 1 0 (7 / 2) r ≤ 1 / 10 ^ 5 := by
    norm_num [mulError, u32, η32]; linarith
  have hlg : lossGrad .mse 1 [2] [1 / 4] = [7 / 2] := by simp [lossGrad, lossSlope, at_]; norm_num
  have hlge : lossGradError .mse 1 [2] [d] [1 / 4] = [q] := by simp [lossGradError, at_, hq]
  have hso : R.slopeOf = .relu := by rw [hR]; rfl
  have hsig : signal .relu [2] [7 / 2] = [7 / 2] := by simp [signal, slope, at_]
  have hsige : signalError .relu [2] [d] [7 / 2] [q] = [r] := by simp [signalError, slope, slopeError, at_, hr]
  have hmx : (10 : ℝ) ≤ max32 := by norm_num [max32]
  have hnI : (setLoss [] exReluB32 "mean_squared_error").nInput = 1 := by rw [hset]; rfl
  have hnO : (setLoss [] exReluB32 "mean_squared_error").nOutput = 1 := by rw [hset]; rfl
  have hxo : exactOut (noCustom ℝ) (setLoss [] exReluB32 "mean_squared_error") [ofReal false 1] = [2] := by
    unfold exactOut
    rw [hv, e1]
    exact hap
  have hoe : outError (noCustom ℝ) (setLoss [] exReluB32 "mean_squared_error") [ofReal false 1] = [d] := by
    unfold outError
    rw [hv, e1, hnI]
    exact hle
  have hge : gradError (noCustom ℝ) (setLoss [] exReluB32 "mean_squared_error") .mse [ofReal false 1] [ofReal false (1 / 4)] = [r, mulError 1 0 (7 / 2) r] := by
    unfold gradError
    rw [hv, hxo, hoe, e1, e2, hnI, hnO, hlg, hlge]
    show (backError (noCustom ℝ) [R] [1] [0] [7 / 2] [q]).2.2 = _
    simp only [backError, hap, hle, hso, hsig, hsige]
    rw [hR]
    simp [outerError, at_]
  have hsafe : TrainSafe (noCustom ℝ) (setLoss [] exReluB32 "mean_squared_error") .mse [ofReal false 1] [ofReal false (1 / 4)] := by
    unfold TrainSafe
    rw [hv, hxo, hoe, e1, e2, hnI, hnO, hlg, hlge]
    refine ⟨⟨?_, trivial⟩, ⟨by simp, by norm_num, ?_, by simp⟩, ?_⟩
    · rw [hR]
      refine ⟨?_, by simp [Unbounded], by simp, by simp⟩
      intro k hk
      have : k = 0 := by simpa using hk
      subst this
      simp only [absAffineErr, at_, peak, u32, η32]
      norm_num [max32]
    · intro k hk
      have : k = 0 := by omega
      subst this
      simp only [at_, List.getD_cons_zero]
      have : (0 : ℝ) < 2 - 1 / 4 := by norm_num
      rw [abs_of_pos this]
      norm_num
      linarith
    · show StepSafe (noCustom ℝ) R [1] [0] [7 / 2] [q]
      unfold StepSafe
      simp only [hap, hle, hso, hsig, hsige]
      rw [hR]
      refine ⟨Or.inl rfl, ?_, ?_, ?_⟩
      · intro k hk
        have : k = 0 := by simpa using hk
        subst this
        right
        simp only [haff, hae, at_, List.getD_cons_zero]
        linarith
      · intro k hk
        have : k = 0 := by simpa using hk
        subst this
        simp [at_, slope, slopeError]
        rw [abs_of_pos (by norm_num)]
        linarith
      · intro i k hi hk
        have : i = 0 := by simpa using hi
        subst this
        have : k = 0 := by simpa using hk
        subst this
        simp [at_]
        rw [abs_of_pos (by norm_num)]
        linarith
  have hreg : Regular (noCustom ℝ) .mse ([ofReal false (1 / 4)].map B32.value) exReluB32.values.layers ([ofReal false 1].map B32.value) := by
    rw [e1, e2]
    refine ⟨Spec.relu, rfl, ?_⟩
    intro k hk
    have : k = 0 := by simpa [Layer.values] using hk
    subst this
    show at_ (affine 1 1 ([ofReal false 1].map B32.value) ([ofReal false 1].map B32.value) [1]) 0 ≠ 0
    rw [e1, haff]
    simp [at_]
  obtain ⟨g, gR, g1, g2, g3, g4⟩ := C70_gradient (@noCustom B32) (noCustom ℝ) exactLibm_accurate c [] 4096 junk exReluB32 "mean_squared_error" .mse
    ⟨20, [ofReal false 1]⟩ ⟨36, [ofReal false (1 / 4)]⟩ ⟨8192, List.replicate 2 qnan⟩ hw hname (h _ (by decide)) (h _ (by decide))
    (by simp [exReluB32, Net.nInput]) (by simp [exReluB32, Net.nOutput]) (by simp [exReluB32, nParams]) hsmall
    (by
      intro l hl
      simp only [exReluB32, List.mem_cons, List.not_mem_nil, or_false] at hl
      subst hl
      simp [Layer.Finite, h1.1])
    (by intro x hx; simp [exReluB32, Net.nInput] at hx; subst hx; exact h1.1)
    (by intro x hx; simp only [List.mem_cons, List.not_mem_nil, or_false] at hx; subst hx; exact h4.1) hsafe hreg
  have hn : nParams exReluB32.layers = 2 := by simp [exReluB32, nParams]
  rw [hn] at g3 g4
  refine ⟨g, gR, g1, ?_, g3, ?_⟩
  · simp only [e1, e2] at g2
    exact g2
  · intro k hk
    obtain ⟨a, a1, a2, a3⟩ := g4 k hk
    refine ⟨a, a1, a2, a3.trans ?_⟩
    have hge' : at_ (gradError (noCustom ℝ) (setLoss [] exReluB32 "mean_squared_error") .mse ([ofReal false 1].take exReluB32.nInput) [ofReal false (1 / 4)]) k =
        at_ [r, mulError 1 0 (7 / 2) r] k := by rw [← hge]; rfl
    refine hge'.le.trans ?_
    interval_cases k
    · simp only [at_, List.getD_cons_zero]; linarith
    · simpa [at_] using hm

end NN
