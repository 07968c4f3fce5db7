import Verif.Properties.Gradient
/-
Backpropagation through custom activation functions.
-/
set_option linter.unusedSimpArgs false

namespace NN
open FloatOps Spec Finset

/-- The activation function is `f` on every element, and its derivative function multiplies by the derivative of `f` at the first
`n` elements of `z`. -/
def ElemAt (env : CustomEnv ℝ) (c : Cfg) (recs : List ActRecord) (a : Act) (n : ℕ) (z : List ℝ) (f : ℝ → ℝ) : Prop :=
  ∃ (g : ℝ → ℝ) (d : ActDeriv), actSpec env a = List.map f ∧ getActivationDerivative recs a = some d ∧
    (∀ act e : List ℝ, act.length = e.length → activateDerivF env c d act e = List.zipWith (fun x y => x * g y) e act) ∧
    ∀ k < n, HasDerivAt f (g (f (at_ z k))) (at_ z k)

theorem elemAt_textbook (env : CustomEnv ℝ) (c : Cfg) (recs : List ActRecord) {a : Act} {f : ℝ → ℝ} (hf : textbook a = some f)
    {n : ℕ} {z : List ℝ} (hs : ∀ k < n, Smooth a (at_ z k)) : ElemAt env c recs a n z f :=
  ⟨derivFactor (derivOf a), derivOf a, actSpec_textbook env a f hf, getActivationDerivative_textbook recs a (by simp [hf]),
    fun act e h => activateDerivF_real env c _ act e h (derivOf_ne_custom a f hf), fun k hk => C19_derivative a f hf _ (hs k hk)⟩

section
variable {env : CustomEnv ℝ} {c : Cfg} {recs : List ActRecord}

theorem tangent_elem {a : Act} {f g : ℝ → ℝ} (ha : actSpec env a = List.map f) {n : ℕ} {z : ℝ → List ℝ} {zd : ℕ → ℝ}
    (hz : Tangent n z zd) (hs : ∀ k < n, HasDerivAt f (g (f (at_ (z 0) k))) (at_ (z 0) k)) :
    Tangent n (fun t => actSpec env a (z t)) (fun k => g (f (at_ (z 0) k)) * zd k) := by
  rw [ha]
  refine ⟨fun t => by simp [hz.1 t], fun k hk => ?_⟩
  have e : (fun t => at_ ((z t).map f) k) = fun t => f (at_ (z t) k) := by
    funext t; rw [at_map f (by rw [hz.1 t]; exact hk)]
  rw [e]
  exact HasDerivAt.comp (0 : ℝ) (h₂ := f) (h := fun t => at_ (z t) k) (hs k hk) (hz.2 k hk)

theorem hidOk_elem (l : Layer ℝ) (x : List ℝ) {f : ℝ → ℝ} (he : ElemAt env c recs l.act l.nOut (preact l x) f)
    (hd : l.deriv = getActivationDerivative recs l.act) : HidOk env c l x := by
  obtain ⟨g, d, ha, hd', hmul, hs⟩ := he
  refine ⟨fun k => g (f (at_ (preact l x) k)), ?_, ?_⟩
  · intro z zd hz h0
    have := tangent_elem (env := env) ha hz (by rw [h0]; exact hs)
    rwa [h0] at this
  · intro e hel k hk
    have hp : (preact l x).length = l.nOut := by simp [preact, affine]
    rw [derivF, hd, hd', Option.getD_some, hmul _ _ (by rw [actSpec_length, hp, hel]), ha, at_zipWith _ (by omega) (by simp; omega),
      at_map f (by omega)]

/-- Objectives that are sums over the outputs. -/
theorem outOk_elem (l : Layer ℝ) (x : List ℝ) (J : List ℝ → ℝ) (φ : ℕ → ℝ → ℝ) (gr : List ℝ)
    (hJ : ∀ p, p.length = l.nOut → J p = ∑ k ∈ range l.nOut, φ k (at_ p k))
    {f : ℝ → ℝ} (he : ElemAt env c recs l.act l.nOut (preact l x) f) (hd : l.deriv = getActivationDerivative recs l.act)
    (hg : gr.length = l.nOut) (hφ : ∀ k < l.nOut, HasDerivAt (φ k) (at_ gr k) (f (at_ (preact l x) k))) :
    OutOk env c J gr l x := by
  obtain ⟨g, d, ha, hd', hmul, hs⟩ := he
  intro z zd hz h0
  have ht := tangent_elem (env := env) ha hz (by rw [h0]; exact hs)
  have e : (fun t => J (actSpec env l.act (z t))) =
      fun t => ∑ k ∈ range l.nOut, φ k (at_ (actSpec env l.act (z t)) k) := by
    funext t; exact hJ _ (ht.1 t)
  rw [e]
  refine HasDerivAt.congr_deriv (HasDerivAt.fun_sum (A' := fun k => at_ gr k * (g (f (at_ (z 0) k)) * zd k)) fun k hk => ?_) ?_
  · have hk' : k < l.nOut := by simpa using hk
    have h1 : at_ (actSpec env l.act (z 0)) k = f (at_ (preact l x) k) := by
      rw [ha, at_map f (by rw [hz.1 0]; exact hk'), h0]
    exact HasDerivAt.comp (0 : ℝ) (h₂ := φ k) (h := fun t => at_ (actSpec env l.act (z t)) k)
      (by rw [h1]; exact hφ k hk') (ht.2 k hk')
  · refine Finset.sum_congr rfl fun k hk => ?_
    have hk' : k < l.nOut := by simpa using hk
    rw [derivF, hd, hd', Option.getD_some, hmul _ _ (by rw [actSpec_length, hz.1 0, hg]), ha,
      at_zipWith _ (by omega) (by rw [List.length_map, hz.1 0]; exact hk'), at_map f (by rw [hz.1 0]; exact hk')]
    ring

/-- The first three losses with an elementwise output layer. -/
theorem outOk_sums (loss : Loss) (l : Layer ℝ) (x y : List ℝ) (hl : loss = .mse ∨ loss = .mae ∨ loss = .mape)
    (hd : l.deriv = getActivationDerivative recs l.act) (hy : y.length = l.nOut) {f : ℝ → ℝ}
    (he : ElemAt env c recs l.act l.nOut (preact l x) f)
    (hne : loss ≠ .mse → ∀ k < l.nOut, f (at_ (preact l x) k) ≠ at_ y k) :
    OutOk env c (fun p => objective loss l.nOut p y) (lossF loss l.nOut (actSpec env l.act (preact l x)) y) l x := by
  have hz : (preact l x).length = l.nOut := by simp [preact, affine]
  have hgl : (lossF loss l.nOut (actSpec env l.act (preact l x)) y).length = l.nOut := by
    simp [lossF, actSpec_length, hz, hy]
  have hat : ∀ k < l.nOut, at_ (lossF loss l.nOut (actSpec env l.act (preact l x)) y) k =
        lossElem loss l.nOut (f (at_ (preact l x) k)) (at_ y k) := by
    intro k hk
    obtain ⟨g, d, ha, -⟩ := he
    rw [lossF_at loss _ l.nOut _ _ (by rw [actSpec_length]; exact hz) hy k hk, ha, at_map f (by omega)]
  rcases hl with rfl | rfl | rfl
  · refine outOk_elem l x _ (fun k p => (p - at_ y k) ^ 2 / l.nOut) _ (fun p _ => by
      simp only [objective, Spec.mse, Finset.sum_div]) he hd hgl (fun k hk => ?_)
    rw [hat k hk]
    have := (((hasDerivAt_id (f (at_ (preact l x) k))).sub_const (at_ y k)).pow 2).div_const (l.nOut : ℝ)
    refine HasDerivAt.congr_deriv this ?_
    simp [lossElem]
  · refine outOk_elem l x _ (fun k p => |p - at_ y k| / l.nOut) _ (fun p _ => by
      simp only [objective, Spec.mae, Finset.sum_div]) he hd hgl (fun k hk => ?_)
    rw [hat k hk]
    refine HasDerivAt.congr_deriv ((hasDerivAt_abs_sub _ _ (hne (by simp) k hk)).div_const (l.nOut : ℝ)) ?_
    simp [lossElem]
  · refine outOk_elem l x _ (fun k p => 100 * |p - at_ y k| / max (at_ y k) (1 / 10000000) / l.nOut) _
      (fun p _ => by simp only [objective, Spec.mape, Finset.sum_div]) he hd hgl (fun k hk => ?_)
    rw [hat k hk]
    refine HasDerivAt.congr_deriv ((((hasDerivAt_abs_sub _ _ (hne (by simp) k hk)).const_mul 100).div_const
      (max (at_ y k) (1 / 10000000))).div_const (l.nOut : ℝ)) ?_
    simp only [lossElem, epsilon, RealOps.le_iff, RealOps.div_def, RealOps.mul_def, RealOps.fmax_def,
      RealOps.lit_def, RealOps.ofNat_def]
    split <;> push_cast <;> rw [div_div] <;> ring

end

/-! ### Where the gradient exists, custom functions included -/

/-- `a` is a custom function that is `f` on every element, its record has a derivative function, and that multiplies by the
derivative of `f` at the first `n` elements of `z`, computed from the activation. -/
def CustomAt (env : CustomEnv ℝ) (recs : List ActRecord) (a : Act) (n : ℕ) (z : List ℝ) (f : ℝ → ℝ) : Prop :=
  ∃ (i d : ℕ) (g : ℝ → ℝ), a = .custom i ∧ getActivationDerivative recs a = some (.custom d) ∧ env.act i = List.map f ∧
    (∀ act e : List ℝ, act.length = e.length → env.deriv d act e = List.zipWith (fun x y => x * g y) e act) ∧
    ∀ k < n, HasDerivAt f (g (f (at_ z k))) (at_ z k)

/-- A built-in elementwise function away from its kinks, or a custom function. -/
def ElemRegular (env : CustomEnv ℝ) (recs : List ActRecord) (a : Act) (n : ℕ) (z : List ℝ) (f : ℝ → ℝ) : Prop :=
  (textbook a = some f ∧ ∀ k < n, Smooth a (at_ z k)) ∨ CustomAt env recs a n z f

/-- The output layer. -/
def OutRegular (env : CustomEnv ℝ) (recs : List ActRecord) (loss : Loss) (a : Act) (n : ℕ) (z y : List ℝ) : Prop :=
  match loss with
  | .mse => ∃ f, ElemRegular env recs a n z f
  | .mae => ∃ f, ElemRegular env recs a n z f ∧ ∀ k < n, f (at_ z k) ≠ at_ y k
  | .mape => ∃ f, ElemRegular env recs a n z f ∧ ∀ k < n, f (at_ z k) ≠ at_ y k
  | .bce => a = .sigmoid
  | .cce => a = .softmax ∧ ∑ k ∈ range n, at_ y k = 1

/-- All layers, at input `x` (`Regular` with custom functions). -/
def CustomRegular (env : CustomEnv ℝ) (recs : List ActRecord) (loss : Loss) (y : List ℝ) : List (Layer ℝ) → List ℝ → Prop
  | [], _ => True
  | [l], x => OutRegular env recs loss l.act l.nOut (affine l.nIn l.nOut l.weight.data l.bias.data x) y
  | l :: l' :: ls, x =>
    (∃ f, ElemRegular env recs l.act l.nOut (affine l.nIn l.nOut l.weight.data l.bias.data x) f) ∧
    CustomRegular env recs loss y (l' :: ls) ((l.toSpec env).apply x)

theorem elem_of_regular {env : CustomEnv ℝ} (c : Cfg) {recs : List ActRecord} {a : Act} {n : ℕ} {z : List ℝ} {f : ℝ → ℝ}
    (h : ElemRegular env recs a n z f) : ElemAt env c recs a n z f := by
  rcases h with ⟨h1, h2⟩ | ⟨i, d, g, rfl, h2, h3, h4, h5⟩
  · exact elemAt_textbook env c recs h1 h2
  · exact ⟨g, _, h3, h2, h4, h5⟩

theorem elem_not_pair {env : CustomEnv ℝ} {c : Cfg} {recs : List ActRecord} {a : Act} {n : ℕ} {z : List ℝ} {f : ℝ → ℝ}
    (h : ElemAt env c recs a n z f) : getActivationDerivative recs a ≠ none := by
  obtain ⟨g, d, -, h, -⟩ := h
  simp [h]

theorem netOk_custom (env : CustomEnv ℝ) (c : Cfg) (recs : List ActRecord) (loss : Loss) (y : List ℝ) :
    ∀ (ls : List (Layer ℝ)) (x g : List ℝ) (l0 last : Layer ℝ), ls.head? = some l0 →
      ls.getLast? = some last → x.length = l0.nIn → Chained ls →
      (∀ l ∈ ls, l.WF c) → y.length = last.nOut → CustomRegular env recs loss y ls x →
      g = lossF loss last.nOut (netF env c 0 (matchPair loss (ls.map (resetDeriv recs))) x) y →
      NetOk env c (fun p => objective loss last.nOut p y) g (matchPair loss (ls.map (resetDeriv recs))) x ∧
      ∀ l ∈ matchPair loss (ls.map (resetDeriv recs)), l.deriv ≠ none
  | [], _, _, _, _, h, _, _, _, _, _, _, _ => by simp at h
  | [l], x, g, l0, last, h0, hl, hx, hc, hw, hy, hr, hg => by
    simp at h0 hl; subst h0; subst hl
    have hwl := hw l (by simp)
    have hwr : (resetDeriv recs l).WF c := ⟨hwl.1, hwl.2, hwl.3, hwl.4, hwl.5, hwl.6⟩
    have hnet : ∀ l' : Layer ℝ, l'.WF c → l'.nIn = l.nIn → netF env c 0 [l'] x = actSpec env l'.act (preact l' x) := by
      intro l' hl' hi
      simp only [netF]
      rw [layerF_real env c l' hl' 0 x (by omega)]; rfl
    by_cases hm : (loss = .bce ∧ l.act = .sigmoid) ∨ (loss = .cce ∧ l.act = .softmax)
    · have e : matchPair loss ([l].map (resetDeriv recs)) = [{ l with deriv := some .linear }] := by
        have : (loss = .bce ∧ (resetDeriv recs l).act = .sigmoid) ∨ (loss = .cce ∧ (resetDeriv recs l).act = .softmax) := hm
        simp only [matchPair, List.map_cons, List.map_nil, List.getLast?_singleton, if_pos this]
        rfl
      rw [e] at hg ⊢
      rw [hnet { l with deriv := some .linear } ⟨hwl.1, hwl.2, hwl.3, hwl.4, hwl.5, hwl.6⟩ rfl] at hg
      refine ⟨?_, by simp⟩
      rw [hg]
      refine outOk env c loss _ x y (by rw [if_pos (show (loss = .bce ∧ l.act = .sigmoid) ∨ (loss = .cce ∧ l.act = .softmax) from hm)]) hy ?_
      rcases hm with ⟨rfl, h⟩ | ⟨rfl, h⟩
      · exact h
      · exact hr
    · have e : matchPair loss ([l].map (resetDeriv recs)) = [resetDeriv recs l] := by
        have : ¬ ((loss = .bce ∧ (resetDeriv recs l).act = .sigmoid) ∨ (loss = .cce ∧ (resetDeriv recs l).act = .softmax)) := hm
        simp [matchPair, this]
      have hel : (loss = .mse ∨ loss = .mae ∨ loss = .mape) ∧ ∃ f, ElemRegular env recs l.act l.nOut (preact l x) f ∧
          (loss ≠ .mse → ∀ k < l.nOut, f (at_ (preact l x) k) ≠ at_ y k) := by
        cases loss with
        | mse => obtain ⟨f, h⟩ := hr; exact ⟨by simp, f, h, by simp⟩
        | mae => obtain ⟨f, h, h2⟩ := hr; exact ⟨by simp, f, h, fun _ => h2⟩
        | mape => obtain ⟨f, h, h2⟩ := hr; exact ⟨by simp, f, h, fun _ => h2⟩
        | bce => exact absurd (.inl ⟨rfl, hr⟩) hm
        | cce => exact absurd (.inr ⟨rfl, hr.1⟩) hm
      obtain ⟨hl, f, hf, hne⟩ := hel
      have he := elem_of_regular c hf
      rw [e] at hg ⊢
      rw [hnet _ hwr rfl] at hg
      refine ⟨?_, by simpa [resetDeriv] using elem_not_pair he⟩
      rw [hg]
      exact outOk_sums loss (resetDeriv recs l) x y hl rfl hy he hne
  | l :: l' :: ls, x, g, l0, last, h0, hl, hx, hc, hw, hy, hr, hg => by
    simp at h0; subst h0
    have hwl := hw l (by simp)
    rw [List.map_cons, List.map_cons, matchPair_cons, ← List.map_cons] at hg ⊢
    obtain ⟨m, ms, hm⟩ := matchPair_ne_nil loss (resetDeriv recs l') (ls.map (resetDeriv recs))
    rw [← List.map_cons] at hm
    have hlay : layerF env c (resetDeriv recs l) 0 x = (l.toSpec env).apply x :=
      layerF_real env c l hwl 0 x hx
    have ih := netOk_custom env c recs loss y (l' :: ls) ((l.toSpec env).apply x) g l' last rfl
      (by simpa using hl) (by
        rw [← layerF_real env c l hwl 0 x hx, layerF_length env c l 0 x hwl, hc.1]) hc.2
      (fun m hm => hw m (by simp [List.mem_cons.mp hm])) hy hr.2 (by
        rw [hg, hm]
        simp only [netF]
        rw [hlay])
    rw [hm] at ih ⊢
    obtain ⟨⟨f, hf⟩, -⟩ := hr
    have he := elem_of_regular c hf
    refine ⟨⟨?_, by rw [hlay]; exact ih.1⟩, ?_⟩
    · exact hidOk_elem (resetDeriv recs l) x he rfl
    · intro q hq
      rcases List.mem_cons.1 hq with rfl | hq
      · exact elem_not_pair he
      · exact ih.2 q hq

end NN
