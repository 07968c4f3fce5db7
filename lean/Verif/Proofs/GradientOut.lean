import Verif.Proofs.Gradient
import Verif.Spec.Loss
import Mathlib.Algebra.BigOperators.Field
import Verif.Properties.Params
/-
The layers of a network meet `HidOk` and `OutOk`.
-/
set_option linter.unusedSimpArgs false
set_option linter.unusedSectionVars false

namespace NN
open FloatOps Spec Finset

/-- The training objective belonging to a loss. -/
noncomputable def objective : Loss → ℕ → List ℝ → List ℝ → ℝ
  | .mse => Spec.mse
  | .mae => Spec.mae
  | .mape => Spec.mape (1 / 10000000)
  | .bce => Spec.binaryCrossentropy
  | .cce => Spec.categoricalCrossentropy

/-- Where the gradient at the output layer exists and loss and activation function fit: `z` is the
pre-activation, `y` the target. -/
def OutputRegular (loss : Loss) (a : Act) (n : ℕ) (z y : List ℝ) : Prop :=
  match loss with
  | .mse => ∃ f, textbook a = some f ∧ ∀ k < n, Smooth a (at_ z k)
  | .mae => ∃ f, textbook a = some f ∧ ∀ k < n, Smooth a (at_ z k) ∧ f (at_ z k) ≠ at_ y k
  | .mape => ∃ f, textbook a = some f ∧ ∀ k < n, Smooth a (at_ z k) ∧ f (at_ z k) ≠ at_ y k
  | .bce => a = .sigmoid
  | .cce => a = .softmax ∧ ∑ k ∈ range n, at_ y k = 1

/-- Where the gradient exists: hidden layers elementwise and away from kinks, the output layer
regular. -/
def Regular (env : CustomEnv ℝ) (loss : Loss) (y : List ℝ) : List (Layer ℝ) → List ℝ → Prop
  | [], _ => True
  | [l], x => OutputRegular loss l.act l.nOut (affine l.nIn l.nOut l.weight.data l.bias.data x) y
  | l :: l' :: ls, x =>
    (textbook l.act ≠ none ∧
      ∀ k < l.nOut, Smooth l.act (at_ (affine l.nIn l.nOut l.weight.data l.bias.data x) k)) ∧
    Regular env loss y (l' :: ls) ((l.toSpec env).apply x)

theorem actSpec_textbook (env : CustomEnv ℝ) (a : Act) (f : ℝ → ℝ) (h : textbook a = some f) :
    actSpec env a = List.map f := by
  cases a <;> simp only [textbook, Option.some.injEq, reduceCtorEq] at h <;> subst h <;>
    funext l <;> simp [actSpec]

theorem derivOf_ne_custom (a : Act) (f : ℝ → ℝ) (h : textbook a = some f) (i : ℕ) :
    derivOf a ≠ .custom i := by
  cases a <;> simp_all [textbook, derivOf]

theorem getActivationDerivative_textbook (recs : List ActRecord) (a : Act) (h : textbook a ≠ none) :
    getActivationDerivative recs a = some (derivOf a) := by
  cases a <;> simp_all [textbook, derivOf, getActivationDerivative]

theorem tangent_textbook (env : CustomEnv ℝ) (a : Act) (f : ℝ → ℝ) (hf : textbook a = some f) (n : ℕ)
    (z : ℝ → List ℝ) (zd : ℕ → ℝ) (hz : Tangent n z zd) (hs : ∀ k < n, Smooth a (at_ (z 0) k)) :
    Tangent n (fun t => actSpec env a (z t))
      (fun k => derivFactor (derivOf a) (f (at_ (z 0) k)) * zd k) := by
  rw [actSpec_textbook env a f hf]
  refine ⟨fun t => by simp [hz.1 t], fun k hk => ?_⟩
  have e : (fun t => at_ ((z t).map f) k) = fun t => f (at_ (z t) k) := by
    funext t; rw [at_map f (by rw [hz.1 t]; exact hk)]
  rw [e]
  exact HasDerivAt.comp (0 : ℝ) (h₂ := f) (h := fun t => at_ (z t) k)
    (C19_derivative a f hf _ (hs k hk)) (hz.2 k hk)

theorem derivF_textbook (env : CustomEnv ℝ) (c : Cfg) (l : Layer ℝ) (f : ℝ → ℝ)
    (hf : textbook l.act = some f) (hd : l.deriv = some (derivOf l.act)) (z e : List ℝ) (n : ℕ)
    (hz : z.length = n) (he : e.length = n) (k : ℕ) (hk : k < n) :
    at_ (derivF env c l (actSpec env l.act z) e) k =
      at_ e k * derivFactor (derivOf l.act) (f (at_ z k)) := by
  rw [derivF, hd, Option.getD_some, activateDerivF_real env c _ _ _
    (by rw [actSpec_length, hz, he]) (derivOf_ne_custom l.act f hf),
    actSpec_textbook env l.act f hf, at_zipWith _ (by omega) (by simp; omega), at_map f (by omega)]

theorem hidOk (env : CustomEnv ℝ) (c : Cfg) (l : Layer ℝ) (x : List ℝ) (f : ℝ → ℝ)
    (hf : textbook l.act = some f) (hd : l.deriv = some (derivOf l.act))
    (hs : ∀ k < l.nOut, Smooth l.act (at_ (preact l x) k)) : HidOk env c l x := by
  refine ⟨fun k => derivFactor (derivOf l.act) (f (at_ (preact l x) k)), ?_, ?_⟩
  · intro z zd hz h0
    have := tangent_textbook env l.act f hf l.nOut z zd hz (by rw [h0]; exact hs)
    rwa [h0] at this
  · intro e he k hk
    exact derivF_textbook env c l f hf hd _ _ l.nOut (by simp [preact, affine]) he k hk

/-- Objectives that are sums over the outputs. -/
theorem outOk_sum (env : CustomEnv ℝ) (c : Cfg) (l : Layer ℝ) (x : List ℝ) (J : List ℝ → ℝ)
    (φ : ℕ → ℝ → ℝ) (g : List ℝ) (hJ : ∀ p, p.length = l.nOut → J p = ∑ k ∈ range l.nOut, φ k (at_ p k))
    (f : ℝ → ℝ) (hf : textbook l.act = some f) (hd : l.deriv = some (derivOf l.act))
    (hg : g.length = l.nOut)
    (hs : ∀ k < l.nOut, Smooth l.act (at_ (preact l x) k))
    (hφ : ∀ k < l.nOut, HasDerivAt (φ k) (at_ g k) (f (at_ (preact l x) k))) :
    OutOk env c J g l x := by
  intro z zd hz h0
  have ht := tangent_textbook env l.act f hf l.nOut z zd hz (by rw [h0]; exact hs)
  have e : (fun t => J (actSpec env l.act (z t))) =
      fun t => ∑ k ∈ range l.nOut, φ k (at_ (actSpec env l.act (z t)) k) := by
    funext t; exact hJ _ (ht.1 t)
  rw [e]
  refine HasDerivAt.congr_deriv (HasDerivAt.fun_sum (A' := fun k =>
    at_ g k * (derivFactor (derivOf l.act) (f (at_ (z 0) k)) * zd k)) fun k hk => ?_) ?_
  · have hk' : k < l.nOut := by simpa using hk
    have h1 : at_ (actSpec env l.act (z 0)) k = f (at_ (preact l x) k) := by
      rw [actSpec_textbook env l.act f hf, at_map f (by rw [hz.1 0]; exact hk'), h0]
    exact HasDerivAt.comp (0 : ℝ) (h₂ := φ k) (h := fun t => at_ (actSpec env l.act (z t)) k)
      (by rw [h1]; exact hφ k hk') (ht.2 k hk')
  · refine Finset.sum_congr rfl fun k hk => ?_
    rw [derivF_textbook env c l f hf hd (z 0) g l.nOut (hz.1 0) hg k (by simpa using hk)]
    ring

theorem lossF_at (loss : Loss) (n m : ℕ) (p y : List ℝ) (hp : p.length = m) (hy : y.length = m) (k : ℕ)
    (hk : k < m) : at_ (lossF loss n p y) k = lossElem loss n (at_ p k) (at_ y k) := by
  rw [lossF, at_zipWith _ (by omega) (by omega)]

theorem hasDerivAt_abs_sub (p y : ℝ) (h : p ≠ y) :
    HasDerivAt (fun p => |p - y|) (if y ≤ p then 1 else -1) p := by
  rcases lt_or_gt_of_ne h with h | h
  · rw [if_neg (by linarith)]
    have : HasDerivAt (fun p => -(p - y)) (-1) p := ((hasDerivAt_id p).sub_const y).neg
    refine this.congr_of_eventuallyEq ?_
    filter_upwards [Iio_mem_nhds h] with q hq
    exact abs_of_neg (by have : q < y := hq; linarith)
  · rw [if_pos (by linarith)]
    have : HasDerivAt (fun p => p - y) 1 p := (hasDerivAt_id p).sub_const y
    refine this.congr_of_eventuallyEq ?_
    filter_upwards [Ioi_mem_nhds h] with q hq
    exact abs_of_pos (by have : y < q := hq; linarith)

theorem sigmoid_pos (x : ℝ) : 0 < Spec.sigmoid x := by
  unfold Spec.sigmoid; have := Real.exp_pos (-x); positivity

theorem sigmoid_lt_one (x : ℝ) : Spec.sigmoid x < 1 := by
  unfold Spec.sigmoid; have := Real.exp_pos (-x); rw [div_lt_one (by positivity)]; linarith

theorem hasDerivAt_sigmoid (x : ℝ) :
    HasDerivAt Spec.sigmoid (Spec.sigmoid x * (1 - Spec.sigmoid x)) x := by
  have := C19_derivative .sigmoid Spec.sigmoid rfl x trivial
  refine HasDerivAt.congr_deriv this ?_
  simp [derivFactor, derivOf, sigmoidD]

/-- Empty derivative: the signal is passed on. -/
theorem derivF_linear (env : CustomEnv ℝ) (c : Cfg) (l : Layer ℝ) (hd : l.deriv = some .linear)
    (a e : List ℝ) : derivF env c l a e = e := by
  simp [derivF, hd, activateDerivF]

theorem outOk_bce (env : CustomEnv ℝ) (c : Cfg) (l : Layer ℝ) (x y : List ℝ) (ha : l.act = .sigmoid)
    (hd : l.deriv = some .linear) (hy : y.length = l.nOut) :
    OutOk env c (fun p => objective .bce l.nOut p y)
      (lossF .bce l.nOut (actSpec env l.act (preact l x)) y) l x := by
  intro z zd hz h0
  rw [derivF_linear env c l hd, ha]
  have e : (fun t => objective .bce l.nOut (actSpec env .sigmoid (z t)) y) = fun t =>
      -(∑ k ∈ range l.nOut, (at_ y k * Real.log (Spec.sigmoid (at_ (z t) k)) +
        (1 - at_ y k) * Real.log (1 - Spec.sigmoid (at_ (z t) k)))) / l.nOut := by
    funext t
    simp only [objective, Spec.binaryCrossentropy]
    congr 2
    refine Finset.sum_congr rfl fun k hk => ?_
    have hk' : k < (z t).length := by rw [hz.1 t]; simpa using hk
    simp only [actSpec, at_map _ hk']
  rw [e]
  have hk : ∀ k ∈ range l.nOut, HasDerivAt (fun t => at_ y k * Real.log (Spec.sigmoid (at_ (z t) k)) +
      (1 - at_ y k) * Real.log (1 - Spec.sigmoid (at_ (z t) k)))
      (-(Spec.sigmoid (at_ (z 0) k) - at_ y k) * zd k) 0 := by
    intro k hk
    have hk' : k < l.nOut := by simpa using hk
    have hs : HasDerivAt (fun t => Spec.sigmoid (at_ (z t) k)) _ 0 :=
      HasDerivAt.comp (0 : ℝ) (h₂ := Spec.sigmoid) (h := fun t => at_ (z t) k) (hasDerivAt_sigmoid _)
        (hz.2 k hk')
    have hp := sigmoid_pos (at_ (z 0) k)
    have hl := sigmoid_lt_one (at_ (z 0) k)
    have h1 := (hs.log hp.ne').const_mul (at_ y k)
    have h2 := ((hs.const_sub 1).log (by linarith : (1 : ℝ) - Spec.sigmoid (at_ (z 0) k) ≠ 0)).const_mul
      (1 - at_ y k)
    refine HasDerivAt.congr_deriv (h1.add h2) ?_
    have : 1 - Spec.sigmoid (at_ (z 0) k) ≠ 0 := by linarith
    field_simp
    ring
  refine HasDerivAt.congr_deriv (((HasDerivAt.fun_sum hk).neg).div_const _) ?_
  rw [← Finset.sum_neg_distrib, Finset.sum_div]
  refine Finset.sum_congr rfl fun k hk => ?_
  have hk' : k < l.nOut := by simpa using hk
  rw [← h0]
  have hzl := hz.1 0
  rw [lossF_at .bce _ l.nOut _ _ (by rw [actSpec_length]; exact hzl) hy k hk']
  simp only [actSpec, at_map _ (show k < (z 0).length by omega), lossElem, RealOps.div_def, RealOps.sub_def,
    RealOps.ofNat_def]
  ring

theorem at_softmax (l : List ℝ) (k : ℕ) (hk : k < l.length) :
    at_ (Spec.softmax l) k = Real.exp (at_ l k) / ∑ j ∈ range l.length, Real.exp (at_ l j) := by
  rw [Spec.softmax, at_map _ hk]
  congr 1
  rw [← sum_map_range]
  congr 1
  apply List.ext_getElem
  · simp
  · intro i h1 h2
    simp at h1
    simp [at_eq h1]

theorem outOk_cce (env : CustomEnv ℝ) (c : Cfg) (l : Layer ℝ) (x y : List ℝ) (ha : l.act = .softmax)
    (hd : l.deriv = some .linear) (hy : y.length = l.nOut) (hy1 : ∑ k ∈ range l.nOut, at_ y k = 1) :
    OutOk env c (fun p => objective .cce l.nOut p y)
      (lossF .cce l.nOut (actSpec env l.act (preact l x)) y) l x := by
  intro z zd hz h0
  rw [derivF_linear env c l hd, ha]
  have hn : 0 < l.nOut := by
    rcases Nat.eq_zero_or_pos l.nOut with h | h
    · rw [h] at hy1; simp at hy1
    · exact h
  have hS : ∀ t, 0 < ∑ j ∈ range l.nOut, Real.exp (at_ (z t) j) := fun t =>
    Finset.sum_pos (fun j _ => Real.exp_pos _) ⟨0, by simpa using hn⟩
  have e : (fun t => objective .cce l.nOut (actSpec env .softmax (z t)) y) = fun t =>
      -∑ k ∈ range l.nOut, at_ y k *
        (at_ (z t) k - Real.log (∑ j ∈ range l.nOut, Real.exp (at_ (z t) j))) := by
    funext t
    simp only [objective, Spec.categoricalCrossentropy]
    congr 1
    refine Finset.sum_congr rfl fun k hk => ?_
    have hk' : k < (z t).length := by rw [hz.1 t]; simpa using hk
    simp only [actSpec, at_softmax _ _ hk', hz.1 t]
    rw [Real.log_div (Real.exp_pos _).ne' (hS t).ne', Real.log_exp]
  rw [e]
  have hlog : HasDerivAt (fun t => Real.log (∑ j ∈ range l.nOut, Real.exp (at_ (z t) j)))
      ((∑ j ∈ range l.nOut, Real.exp (at_ (z 0) j) * zd j) / ∑ j ∈ range l.nOut, Real.exp (at_ (z 0) j)) 0 :=
    (HasDerivAt.fun_sum fun j hj => (hz.2 j (by simpa using hj)).exp).log (hS 0).ne'
  refine HasDerivAt.congr_deriv (HasDerivAt.neg (HasDerivAt.fun_sum fun k hk =>
    (((hz.2 k (by simpa using hk)).sub hlog).const_mul (at_ y k)))) ?_
  have : ∀ D : ℝ, ∑ k ∈ range l.nOut, at_ y k * (zd k - D) = ∑ k ∈ range l.nOut, at_ y k * zd k - D := by
    intro D
    simp only [mul_sub]
    rw [Finset.sum_sub_distrib, ← Finset.sum_mul, hy1, one_mul]
  rw [this, Finset.sum_div, neg_sub, ← Finset.sum_sub_distrib]
  refine Finset.sum_congr rfl fun k hk => ?_
  have hk' : k < l.nOut := by simpa using hk
  rw [← h0]
  have hzl := hz.1 0
  rw [lossF_at .cce _ l.nOut _ _ (by rw [actSpec_length]; exact hzl) hy k hk']
  simp only [actSpec, at_softmax (z 0) k (by omega), lossElem, RealOps.sub_def, hzl]
  ring

/-- The output layer as `neuralnet_set_loss` leaves it. -/
theorem outOk (env : CustomEnv ℝ) (c : Cfg) (loss : Loss) (l : Layer ℝ) (x y : List ℝ)
    (hd : l.deriv = if (loss = .bce ∧ l.act = .sigmoid) ∨ (loss = .cce ∧ l.act = .softmax) then
      some .linear else some (derivOf l.act))
    (hy : y.length = l.nOut) (hr : OutputRegular loss l.act l.nOut (preact l x) y) :
    OutOk env c (fun p => objective loss l.nOut p y)
      (lossF loss l.nOut (actSpec env l.act (preact l x)) y) l x := by
  have hz : (preact l x).length = l.nOut := by simp [preact, affine]
  have hgl : (lossF loss l.nOut (actSpec env l.act (preact l x)) y).length = l.nOut := by
    simp [lossF, actSpec_length, hz, hy]
  have hat : ∀ f, textbook l.act = some f → ∀ k < l.nOut,
      at_ (lossF loss l.nOut (actSpec env l.act (preact l x)) y) k =
        lossElem loss l.nOut (f (at_ (preact l x) k)) (at_ y k) := by
    intro f hf k hk
    rw [lossF_at loss _ l.nOut _ _ (by rw [actSpec_length]; exact hz) hy k hk,
      actSpec_textbook env l.act f hf, at_map f (by omega)]
  cases loss with
  | mse =>
    obtain ⟨f, hf, hs⟩ := hr
    simp at hd
    refine outOk_sum env c l x _ (fun k p => (p - at_ y k) ^ 2 / l.nOut) _ (fun p _ => by
      simp only [objective, Spec.mse, Finset.sum_div]) f hf hd hgl hs (fun k hk => ?_)
    rw [hat f hf k hk]
    have := (((hasDerivAt_id (f (at_ (preact l x) k))).sub_const (at_ y k)).pow 2).div_const (l.nOut : ℝ)
    refine HasDerivAt.congr_deriv this ?_
    simp [lossElem]
  | mae =>
    obtain ⟨f, hf, hs⟩ := hr
    simp at hd
    refine outOk_sum env c l x _ (fun k p => |p - at_ y k| / l.nOut) _ (fun p _ => by
      simp only [objective, Spec.mae, Finset.sum_div]) f hf hd hgl (fun k hk => (hs k hk).1) (fun k hk => ?_)
    rw [hat f hf k hk]
    refine HasDerivAt.congr_deriv ((hasDerivAt_abs_sub _ _ (hs k hk).2).div_const (l.nOut : ℝ)) ?_
    simp [lossElem]
  | mape =>
    obtain ⟨f, hf, hs⟩ := hr
    simp at hd
    refine outOk_sum env c l x _ (fun k p => 100 * |p - at_ y k| / max (at_ y k) (1 / 10000000) / l.nOut) _
      (fun p _ => by simp only [objective, Spec.mape, Finset.sum_div]) f hf hd hgl
      (fun k hk => (hs k hk).1) (fun k hk => ?_)
    rw [hat f hf k hk]
    refine HasDerivAt.congr_deriv ((((hasDerivAt_abs_sub _ _ (hs k hk).2).const_mul 100).div_const
      (max (at_ y k) (1 / 10000000))).div_const (l.nOut : ℝ)) ?_
    simp only [lossElem, epsilon, RealOps.le_iff, RealOps.div_def, RealOps.mul_def, RealOps.fmax_def,
      RealOps.lit_def, RealOps.ofNat_def]
    split <;> push_cast <;> rw [div_div] <;> ring
  | bce =>
    simp only [OutputRegular] at hr
    rw [if_pos (Or.inl ⟨rfl, hr⟩)] at hd
    exact outOk_bce env c l x y hr hd hy
  | cce =>
    simp only [OutputRegular] at hr
    rw [if_pos (Or.inr ⟨rfl, hr.1⟩)] at hd
    exact outOk_cce env c l x y hr.1 hd hy hr.2

/-! ### The layers after `neuralnet_set_loss` -/

theorem matchPair_cons (loss : Loss) (l l' : Layer ℝ) (ls : List (Layer ℝ)) :
    matchPair loss (l :: l' :: ls) = l :: matchPair loss (l' :: ls) := by
  unfold matchPair
  rw [List.getLast?_cons_cons]
  cases h : (l' :: ls).getLast? with
  | none => simp at h
  | some last =>
    simp only
    split
    · simp
    · rfl

theorem matchPair_ne_nil (loss : Loss) (l : Layer ℝ) (ls : List (Layer ℝ)) :
    ∃ m ms, matchPair loss (l :: ls) = m :: ms := by
  unfold matchPair
  cases h : (l :: ls).getLast? with
  | none => simp at h
  | some last =>
    simp only
    split
    · cases ls with
      | nil => exact ⟨_, _, rfl⟩
      | cons a b => exact ⟨_, _, rfl⟩
    · exact ⟨_, _, rfl⟩

theorem textbook_of_outputRegular {loss : Loss} {a : Act} {n : ℕ} {z y : List ℝ}
    (h : OutputRegular loss a n z y)
    (hm : ¬ ((loss = .bce ∧ a = .sigmoid) ∨ (loss = .cce ∧ a = .softmax))) : textbook a ≠ none := by
  cases loss <;> simp only [OutputRegular] at h
  · obtain ⟨f, hf, _⟩ := h; simp [hf]
  · obtain ⟨f, hf, _⟩ := h; simp [hf]
  · obtain ⟨f, hf, _⟩ := h; simp [hf]
  · exact absurd (Or.inr ⟨rfl, h.1⟩) hm
  · exact absurd (Or.inl ⟨rfl, h⟩) hm

theorem netOk (env : CustomEnv ℝ) (c : Cfg) (recs : List ActRecord) (loss : Loss) (y : List ℝ) :
    ∀ (ls : List (Layer ℝ)) (x g : List ℝ) (l0 last : Layer ℝ), ls.head? = some l0 →
      ls.getLast? = some last → x.length = l0.nIn → Chained ls →
      (∀ l ∈ ls, l.WF c) → y.length = last.nOut → Regular env loss y ls x →
      g = lossF loss last.nOut (netF env c 0 (matchPair loss (ls.map (resetDeriv recs))) x) y →
      NetOk env c (fun p => objective loss last.nOut p y) g (matchPair loss (ls.map (resetDeriv recs))) x
  | [], _, _, _, _, h, _, _, _, _, _, _, _ => by simp at h
  | [l], x, g, l0, last, h0, hl, hx, hc, hw, hy, hr, hg => by
    simp at h0 hl; subst h0; subst hl
    have hwl := hw l (by simp)
    have e : ∃ l', matchPair loss ([l].map (resetDeriv recs)) = [l'] ∧ l'.nOut = l.nOut ∧ l'.nIn = l.nIn ∧
        l'.act = l.act ∧ l'.weight = l.weight ∧ l'.bias = l.bias ∧
        l'.deriv = if (loss = .bce ∧ l.act = .sigmoid) ∨ (loss = .cce ∧ l.act = .softmax) then
          some .linear else some (derivOf l.act) := by
      by_cases hm : (loss = .bce ∧ l.act = .sigmoid) ∨ (loss = .cce ∧ l.act = .softmax)
      · refine ⟨{ resetDeriv recs l with deriv := some .linear }, ?_, rfl, rfl, rfl, rfl, rfl, ?_⟩
        · have : (loss = .bce ∧ (resetDeriv recs l).act = .sigmoid) ∨
              (loss = .cce ∧ (resetDeriv recs l).act = .softmax) := hm
          simp [matchPair, this]
        · rw [if_pos hm]
      · refine ⟨resetDeriv recs l, ?_, rfl, rfl, rfl, rfl, rfl, ?_⟩
        · have : ¬ ((loss = .bce ∧ (resetDeriv recs l).act = .sigmoid) ∨
              (loss = .cce ∧ (resetDeriv recs l).act = .softmax)) := hm
          simp [matchPair, this]
        · rw [if_neg hm]
          exact getActivationDerivative_textbook recs l.act (textbook_of_outputRegular hr hm)
    obtain ⟨l', e1, e2, e3, e4, e5, e6, e7⟩ := e
    rw [e1] at hg ⊢
    have hp : preact l' x = preact l x := by simp only [preact, e2, e3, e5, e6]
    have := outOk env c loss l' x y (by rw [e4]; exact e7) (by omega) (by rw [e4, e2, hp]; exact hr)
    have hnet : netF env c 0 [l'] x = actSpec env l'.act (preact l' x) := by
      have hwl' : l'.WF c := by
        constructor
        · rw [e3]; exact hwl.1
        · rw [e2]; exact hwl.2
        · rw [e5, e3, e2]; exact hwl.3
        · rw [e6, e2]; exact hwl.4
        · rw [e5]; exact hwl.5
        · rw [e6]; exact hwl.6
      simp only [netF]
      rw [layerF_real env c l' hwl' 0 x (by omega)]; rfl
    rw [hnet] at hg
    rw [e2] at this
    rw [hg]
    exact this
  | l :: l' :: ls, x, g, l0, last, h0, hl, hx, hc, hw, hy, hr, hg => by
    simp at h0; subst h0
    have hwl := hw l (by simp)
    rw [List.map_cons, List.map_cons, matchPair_cons, ← List.map_cons] at hg ⊢
    obtain ⟨m, ms, hm⟩ := matchPair_ne_nil loss (resetDeriv recs l') (ls.map (resetDeriv recs))
    rw [← List.map_cons] at hm
    have hlay : layerF env c (resetDeriv recs l) 0 x = (l.toSpec env).apply x :=
      layerF_real env c l hwl 0 x hx
    have ih := netOk env c recs loss y (l' :: ls) ((l.toSpec env).apply x) g l' last rfl
      (by simpa using hl) (by
        rw [← layerF_real env c l hwl 0 x hx, layerF_length env c l 0 x hwl, hc.1]) hc.2
      (fun m hm => hw m (by simp [List.mem_cons.mp hm])) hy hr.2 (by
        rw [hg, hm]
        simp only [netF]
        rw [hlay])
    rw [hm] at ih ⊢
    refine ⟨?_, by rw [hlay]; exact ih⟩
    obtain ⟨⟨ht, hs⟩, -⟩ := hr
    obtain ⟨f, hf⟩ := Option.ne_none_iff_exists'.mp ht
    exact hidOk env c (resetDeriv recs l) x f hf (getActivationDerivative_textbook recs l.act ht) hs

end NN
