import Verif.Model.Custom
import Verif.Proofs.CustomGrad
import Verif.Proofs.OptRun
/-
C76: custom activation functions: the example library, and backpropagation through custom functions.
-/
set_option linter.unusedSimpArgs false

namespace NN
open FloatOps Spec Finset

/-! ### The functions of the example library -/

section
variable {F : Type} [FloatOps F]

/-- **C76** The functions of the example library touch exactly the `n` elements they are given, with the values of `gnubgEnv`: what a
call through a function pointer does in the model is what this library does. -/
theorem C76_library (s : Scaling F) (c : Cfg) (i j n : Nat) (y a d : View F) (hy : n ≤ y.data.length) (ha : n ≤ a.data.length)
    (hd : n ≤ d.data.length) :
    scaledSigmoid s n y = activate (gnubgEnv s) c (.custom i) n y ∧
    scaledSigmoidDerivative s n a d = activateDeriv (gnubgEnv s) c (.custom j) n a d ∧
    scaledSigmoid s n y = .ok ⟨y.addr, (y.data.take n).map (scaledS s) ++ y.data.drop n⟩ ∧
    scaledSigmoidDerivative s n a d = .ok ⟨d.addr, List.zipWith s.slope (d.data.take n) (a.data.take n) ++ d.data.drop n⟩ := by
  have h1 : scaledSigmoid s n y = .ok ⟨y.addr, (y.data.take n).map (scaledS s) ++ y.data.drop n⟩ := by
    rw [scaledSigmoid, mapLoop_eq _ _ _ hy, applyTo_take_drop _ _ _ hy, applyTo_full _ (by simp)]
  have h2 : scaledSigmoidDerivative s n a d =
      .ok ⟨d.addr, List.zipWith s.slope (d.data.take n) (a.data.take n) ++ d.data.drop n⟩ := by
    rw [← applyTo_zip _ _ _ _ ha hd]
    unfold scaledSigmoidDerivative
    have h0 : d = (fun k => (⟨d.addr, applyTo (zipOp s.slope a.data) k d.data⟩ : View F)) 0 := by simp
    refine (congrArg (forN n _) h0).trans ?_
    rw [forN_eq (fun k => (⟨d.addr, applyTo (zipOp s.slope a.data) k d.data⟩ : View F))]
    intro k hk
    rw [load_applyTo (by omega), load_ok (by omega)]
    simp only [bind, Except.bind]
    exact store_applyTo (by omega) (by simp [zipOp, show k < a.data.length by omega])
  refine ⟨h1.trans ?_, h2.trans ?_, h1, h2⟩
  · simp only [activate, gnubgEnv, if_pos hy]; rfl
  · simp only [activateDeriv, gnubgEnv, if_pos (And.intro hd ha)]
    have : (d.data.take n).drop (a.data.take n).length = [] := by simp; omega
    rw [this]; simp; rfl

end

/-- The scalings in exact arithmetic, for the constant `k`. -/
noncomputable def scaling (k : ℝ) : Scaling ℝ := ⟨fun x => -k * x, fun d a => d * (k * a * (1 - a))⟩

theorem scaledS_real (k x : ℝ) : scaledS (scaling k) x = Spec.sigmoid (k * x) := by
  simp only [scaledS, scaling, Spec.sigmoid, RealOps.div_def, RealOps.one_def, RealOps.add_def, RealOps.exp_def]
  rw [neg_mul]

/-- **C76** The formula of the README, and `scaled_sigmoid_derivative` is the derivative, expressed by the activation, at every point. -/
theorem C76_formula (k : ℝ) : scaledS (scaling k) = (fun x => 1 / (1 + Real.exp (-(k * x)))) ∧
    ∀ d x, HasDerivAt (fun t => d * scaledS (scaling k) t) ((scaling k).slope d (scaledS (scaling k) x)) x := by
  refine ⟨funext fun x => by rw [scaledS_real]; rfl, fun d x => ?_⟩
  have h1 := C19_derivative .sigmoid Spec.sigmoid rfl (k * x) trivial
  have h2 := (HasDerivAt.comp x h1 ((hasDerivAt_id x).const_mul k)).const_mul d
  have e : (fun t => d * scaledS (scaling k) t) = fun t => d * (Spec.sigmoid ∘ fun t => k * id t) t := by
    funext t; rw [scaledS_real]; rfl
  rw [e]
  refine HasDerivAt.congr_deriv h2 ?_
  rw [scaledS_real]
  simp only [scaling, derivFactor, derivOf, sigmoidD, RealOps.mul_def, RealOps.sub_def, RealOps.one_def]
  ring

/-! ### Gradient -/

/-- **C76** Backpropagation through custom functions computes the gradient of the objective, for every network, loss, input and
target where the gradient exists: a custom function needs to act on each element, and to have a derivative function in its library
that multiplies by the derivative computed from the activation. -/
theorem C76_gradient (env : CustomEnv ℝ) (c : Cfg) (recs : List ActRecord) (workAddr : ℕ) (junk : ℕ → ℝ)
    (nn : Net ℝ) (name : String) (loss : Loss) (input target grad : View ℝ) (hw : nn.WF c)
    (hname : getLossFunc name = some loss)
    (hwa : workAddr % c.alignSize = 0) (hga : grad.addr % c.alignSize = 0)
    (hin : nn.nInput ≤ input.data.length) (hy : target.data.length = nn.nOutput)
    (hg : nParams nn.layers = grad.data.length)
    (hal : BackAligned c grad.addr 0 (setLoss recs nn name).layers)
    (hreg : CustomRegular env recs loss target.data nn.layers (input.data.take nn.nInput)) :
    ∃ g, backpropagation env c workAddr junk (setLoss recs nn name) input target grad = .ok ⟨grad.addr, g⟩ ∧
      IsGradient env c (setLoss recs nn name) (fun p => objective loss nn.nOutput p target.data) input g := by
  obtain ⟨last, hlast, hno, hwlast⟩ := exists_last hw
  obtain ⟨l0, h0⟩ : ∃ l0, nn.layers.head? = some l0 := by
    cases h : nn.layers with
    | nil => exact absurd h hw.ne
    | cons a b => exact ⟨a, rfl⟩
  have hxl : (input.data.take nn.nInput).length = l0.nIn := by
    rw [List.length_take, ← Net.nInput_eq h0]; omega
  obtain ⟨h1, h2⟩ := netOk_custom env c recs loss target.data nn.layers (input.data.take nn.nInput) _ l0 last h0 hlast hxl
    hw.chain hw.layer (by rw [hy, hno]) hreg rfl
  rw [← hno] at h1
  refine gradient_core env c recs workAddr junk nn name loss input target grad hw hname hwa hga hin hy hg hal h1 ?_
  have e : setLoss recs nn name = ⟨matchPair loss (nn.layers.map (resetDeriv recs)), some loss⟩ := by
    simp only [setLoss, hname]
  rw [e]; exact h2

/-- The function of the example library is regular everywhere. -/
theorem gnubg_customAt (k : ℝ) (recs : List ActRecord) (i j : ℕ)
    (hr : getActivationDerivative recs (.custom i) = some (.custom j)) (n : ℕ) (z : List ℝ) :
    CustomAt (gnubgEnv (scaling k)) recs (.custom i) n z (scaledS (scaling k)) := by
  refine ⟨i, j, fun a => k * a * (1 - a), rfl, hr, rfl, ?_, fun m _ => ?_⟩
  · intro a e h
    simp [gnubgEnv, h, scaling]
  · have := (C76_formula k).2 1 (at_ z m)
    simpa [scaling] using this

/-- Differentiable everywhere: the built-in ones, and the function of the example library. -/
def SmoothAct (recs : List ActRecord) (a : Act) : Prop :=
  everywhereSmooth a = true ∨ ∃ i j, a = .custom i ∧ getActivationDerivative recs a = some (.custom j)

/-- **C76** Networks with the example's `scaled_sigmoid` in any of the layers, beside the built-in functions that are differentiable
everywhere: for every value of the constant, the exact gradient on every sample, with mean squared error, or binary crossentropy and a
sigmoid output, or categorical crossentropy and a softmax output when the target sums to one. -/
theorem C76_gnubg (k : ℝ) (c : Cfg) (recs : List ActRecord) (workAddr : ℕ) (junk : ℕ → ℝ)
    (nn : Net ℝ) (name : String) (loss : Loss) (input target grad : View ℝ) (hw : nn.WF c)
    (hname : getLossFunc name = some loss)
    (hwa : workAddr % c.alignSize = 0) (hga : grad.addr % c.alignSize = 0)
    (hin : nn.nInput ≤ input.data.length) (hy : target.data.length = nn.nOutput)
    (hg : nParams nn.layers = grad.data.length)
    (hal : BackAligned c grad.addr 0 (setLoss recs nn name).layers)
    (hhid : ∀ l ∈ nn.layers.dropLast, SmoothAct recs l.act)
    (hout : ∀ l ∈ nn.layers.getLast?, (loss = .mse ∧ SmoothAct recs l.act) ∨ (loss = .bce ∧ l.act = .sigmoid) ∨
      (loss = .cce ∧ l.act = .softmax ∧ ∑ i ∈ range l.nOut, at_ target.data i = 1)) :
    ∃ g, backpropagation (gnubgEnv (scaling k)) c workAddr junk (setLoss recs nn name) input target grad = .ok ⟨grad.addr, g⟩ ∧
      IsGradient (gnubgEnv (scaling k)) c (setLoss recs nn name) (fun p => objective loss nn.nOutput p target.data) input g := by
  have hs : ∀ a, SmoothAct recs a → ∀ n z, ∃ f, ElemRegular (gnubgEnv (scaling k)) recs a n z f := by
    rintro a (ha | ⟨i, j, rfl, hj⟩) n z
    · have : (∃ f, textbook a = some f) ∧ ∀ z, Smooth a z := by
        cases a <;> simp [everywhereSmooth] at ha <;> simp [textbook, Smooth]
      obtain ⟨⟨f, hf⟩, h⟩ := this
      exact ⟨f, .inl ⟨hf, fun _ _ => h _⟩⟩
    · exact ⟨_, .inr (gnubg_customAt k recs i j hj n z)⟩
  have hreg : ∀ (ls : List (Layer ℝ)) (x : List ℝ), (∀ l ∈ ls.dropLast, SmoothAct recs l.act) →
      (∀ l ∈ ls.getLast?, (loss = .mse ∧ SmoothAct recs l.act) ∨ (loss = .bce ∧ l.act = .sigmoid) ∨
        (loss = .cce ∧ l.act = .softmax ∧ ∑ i ∈ range l.nOut, at_ target.data i = 1)) →
      CustomRegular (gnubgEnv (scaling k)) recs loss target.data ls x := by
    intro ls
    induction ls with
    | nil => intros; trivial
    | cons a ls ih =>
      intro x h1 h2
      cases ls with
      | nil =>
        rcases h2 a (by simp) with ⟨rfl, h⟩ | ⟨rfl, h⟩ | ⟨rfl, h⟩
        · exact hs _ h _ _
        · exact h
        · exact h
      | cons b ls =>
        exact ⟨hs _ (h1 a (by simp)) _ _, ih _ (fun l hl => h1 l (by simp [hl])) (fun l hl => h2 l (by simpa using hl))⟩
  exact C76_gradient _ c recs workAddr junk nn name loss input target grad hw hname hwa hga hin hy hg hal (hreg _ _ hhid hout)

/-! ### No derivative in the library -/

section
variable {F : Type} [FloatOps F]

theorem backward_null (env : CustomEnv F) (c : Cfg) (s : Bufs F) : ∀ (bs : List (BackLayer F)) (g g' : View F),
    (∃ b ∈ bs, b.layer.deriv = none) → backward env c s bs g ≠ .ok g'
  | [], _, _, h => by simp at h
  | [b], g, g', h => by
    have : b.layer.deriv = none := by simpa using h
    simp [backward, backStep, this]
  | b :: b' :: bs, g, g', h => by
    intro e
    unfold backward at e
    obtain ⟨g1, e1, e⟩ := bind_ok e
    split at e
    · cases e
    · obtain ⟨v, e2, e⟩ := bind_ok e
      by_cases hb : b.layer.deriv = none
      · simp [backStep, hb] at e
      · refine backward_null env c s (b' :: bs) g g1 ?_ e1
        obtain ⟨q, hq, hn⟩ := h
        rcases List.mem_cons.1 hq with rfl | hq
        · exact absurd hn hb
        · exact ⟨q, hq, hn⟩

omit [FloatOps F] in
theorem layout_len (c : Cfg) (w : Nat) : ∀ (o : Nat) (ls : List (Layer F)) (os : List Nat), layout c w o ls = .ok os →
    os.length = ls.length
  | _, [], os, h => by cases h; rfl
  | _, [_], os, h => by cases h; rfl
  | o, l :: l' :: ls, os, h => by
    unfold layout at h
    split at h
    · obtain ⟨r, e, h⟩ := bind_ok h
      cases h
      simp [layout_len c w _ (l' :: ls) r e]
    · cases h

omit [FloatOps F] in
theorem backLayers_mem : ∀ (ls : List (Layer F)) (src : Ptr) (ps : List Ptr) (g : Nat), ps.length = ls.length → ∀ l ∈ ls,
    ∃ b ∈ backLayers ls src ps g, b.layer = l
  | [], _, _, _, _, l, h => by simp at h
  | _ :: _, _, [], _, h, _, _ => by simp at h
  | a :: ls, src, p :: ps, g, h, l, hl => by
    rcases List.mem_cons.1 hl with rfl | hl
    · exact ⟨⟨l, src, p, g⟩, by simp [backLayers], rfl⟩
    · obtain ⟨b, hb, e⟩ := backLayers_mem ls p ps (g + a.nOut + a.nIn * a.nOut) (by simpa using h) l hl
      exact ⟨b, by simp [backLayers, hb], e⟩

/-- **C76** A library without the `_derivative` function gives a network that predicts but cannot be trained: setting the
loss leaves a null pointer in the layer, and no call of backpropagation on such a network returns, whatever the loss, the sample and the buffers
— the program calls the null pointer (or breaks before). -/
theorem C76_null (env : CustomEnv F) (c : Cfg) (recs : List ActRecord) (nn : Net F) (name : String) (i : Nat)
    (hname : getLossFunc name ≠ none) (l : Layer F) (hl : l ∈ nn.layers) (hi : l.act = .custom i)
    (r : ActRecord) (hr : recs.find? (fun r => r.func == i) = some r) (hn : r.deriv = none)
    (workAddr : Nat) (junk : Nat → F) (input target grad g : View F) :
    backpropagation env c workAddr junk (setLoss recs nn name) input target grad ≠ .ok g := by
  intro e
  have hm : resetDeriv recs l ∈ (setLoss recs nn name).layers := by
    cases hloss : getLossFunc name with
    | none => exact absurd hloss hname
    | some loss =>
      have h1 : resetDeriv recs l ∈ nn.layers.map (resetDeriv recs) := List.mem_map.2 ⟨l, hl, rfl⟩
      simp only [setLoss, hloss, matchPair]
      split
      · exact h1
      · rename_i last hlast
        split
        · rename_i hc
          obtain ⟨ys, hys⟩ := List.getLast?_eq_some_iff.1 hlast
          rw [hys] at h1 ⊢
          rcases List.mem_append.1 h1 with h1 | h1
          · simp [h1]
          · have : resetDeriv recs l = last := by simpa using h1
            have ha : last.act = .custom i := by rw [← this]; exact hi
            simp [ha] at hc
        · exact h1
  have hd : (resetDeriv recs l).deriv = none := by simp [resetDeriv, getActivationDerivative, hi, hr, hn]
  unfold backpropagation at e
  split at e
  · obtain ⟨offs, e1, e⟩ := bind_ok e
    obtain ⟨s, e2, e⟩ := bind_ok e
    obtain ⟨g1, e3, e⟩ := bind_ok e
    obtain ⟨b, hb, eb⟩ := backLayers_mem _ .input (offs.map .work) 0 (by rw [List.length_map, layout_len c _ _ _ _ e1]) _ hm
    dsimp only at e
    split at e
    · obtain ⟨v, e4, e⟩ := bind_ok e
      exact backward_null _ _ _ _ _ _ ⟨b, hb, by rw [eb]; exact hd⟩ e
    · cases e
    · cases e
  · cases e
end

/-! ### Concrete cases -/

/-- The network of the README: tanh, then `scaled_sigmoid` (the weights are chosen here). -/
noncomputable def readmeNet : Net ℝ := ⟨[exLayer 3 4 [1, -1, 1 / 2, 0] .tanh, exLayer 4 2 [1, 2] (.custom 0)], none⟩

theorem readmeNet_wf (c : Cfg) : readmeNet.WF c := by
  refine ⟨by simp [readmeNet], ?_, ?_⟩
  · intro l hl
    rcases List.mem_cons.1 hl with rfl | hl
    · exact exLayer_wf c _ _ _ _ (by norm_num) (by norm_num) rfl
    · obtain rfl := List.mem_singleton.1 hl
      exact exLayer_wf c _ _ _ _ (by norm_num) (by norm_num) rfl
  · simp [readmeNet, Chained, exLayer]

/-- Its gradient, on every build. -/
example (c : Cfg) (junk : ℕ → ℝ) :
    ∃ g, backpropagation (gnubgEnv (scaling (1 / 10))) c 4096 junk (setLoss [gnubgRecord] readmeNet "mean_squared_error") ⟨20, [1, 2, 3]⟩
        ⟨32, [1, 0]⟩ ⟨8192, List.replicate 26 99⟩ = .ok ⟨8192, g⟩ ∧
      IsGradient (gnubgEnv (scaling (1 / 10))) c (setLoss [gnubgRecord] readmeNet "mean_squared_error")
        (fun p => objective .mse 2 p [1, 0]) ⟨20, [1, 2, 3]⟩ g := by
  have h : ∀ n, n % 64 = 0 → n % c.alignSize = 0 := by
    intro n hn
    rcases c with ⟨s, _, _⟩
    cases s <;> simp [Cfg.alignSize] <;> omega
  have hsmall : BackAligned c 8192 0 (setLoss [gnubgRecord] readmeNet "mean_squared_error").layers := by
    apply backAligned_of_small
    have : getLossFunc "mean_squared_error" = some .mse := by decide
    simp [setLoss, this, matchPair, readmeNet, resetDeriv, exLayer]
  exact C76_gnubg (1 / 10) c [gnubgRecord] 4096 junk readmeNet "mean_squared_error" .mse ⟨20, [1, 2, 3]⟩
    ⟨32, [1, 0]⟩ ⟨8192, List.replicate 26 99⟩ (readmeNet_wf c) (by decide) (h _ (by decide)) (h _ (by decide))
    (by simp [readmeNet, Net.nInput, exLayer]) (by simp [readmeNet, Net.nOutput, exLayer]) (by simp [readmeNet, nParams, exLayer]) hsmall
    (by simp [readmeNet, exLayer, SmoothAct, everywhereSmooth])
    (by
      simp only [readmeNet, exLayer, List.getLast?_cons_cons, List.getLast?_singleton, Option.mem_some_iff, forall_eq']
      exact .inl ⟨trivial, .inr ⟨0, 1, rfl, rfl⟩⟩)

/-- The same network with a library that lacks the derivative. -/
example (c : Cfg) (junk : ℕ → ℝ) (g : View ℝ) :
    backpropagation (gnubgEnv (scaling (1 / 10))) c 4096 junk
      (setLoss [⟨"scaled_sigmoid@lib.so", 0, none⟩] readmeNet "mean_squared_error") ⟨20, [1, 2, 3]⟩
        ⟨32, [1, 0]⟩ ⟨8192, List.replicate 26 99⟩ ≠ .ok g :=
  C76_null _ c _ readmeNet _ 0 (by decide) (exLayer 4 2 [1, 2] (.custom 0)) (by simp [readmeNet]) rfl _ rfl rfl _ _ _ _ _ _

/-- Two elements of three. -/
example (c : Cfg) : scaledSigmoid (scaling 1) 2 ⟨4, [0, 0, 7]⟩ = .ok ⟨4, [1 / 2, 1 / 2, 7]⟩ := by
  rw [(C76_library (scaling 1) c 0 1 2 ⟨4, [0, 0, 7]⟩ ⟨0, [0, 0]⟩ ⟨0, [0, 0]⟩ (by simp) (by simp) (by simp)).2.2.1]
  simp [scaledS_real, Spec.sigmoid]; norm_num

end NN
