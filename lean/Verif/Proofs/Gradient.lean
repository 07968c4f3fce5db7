import Verif.Proofs.Backprop
import Verif.Proofs.ActivationReal
import Mathlib.Analysis.Calculus.Deriv.Add
import Mathlib.Analysis.Calculus.Deriv.Mul
/-
The backward pass over the reals: chain rule through the layers.
-/
set_option linter.unusedSimpArgs false
set_option linter.unusedSectionVars false

namespace NN
open FloatOps Spec Finset

/-! ### The list functions over ℝ -/

theorem at_map_range (f : ℕ → ℝ) {n k : ℕ} (h : k < n) : at_ ((List.range n).map f) k = f k := by
  rw [at_eq (by simpa using h)]; simp

theorem at_append_left {a b : List ℝ} {k : ℕ} (h : k < a.length) : at_ (a ++ b) k = at_ a k := by
  rw [at_eq h, at_eq (by simp; omega)]; simp [List.getElem_append_left h]

theorem at_append_right {a b : List ℝ} {n k : ℕ} (h : a.length = n) : at_ (a ++ b) (n + k) = at_ b k := by
  subst h; simp only [at_, List.getD_eq_getElem?_getD]
  rw [List.getElem?_append_right (by omega), Nat.add_sub_cancel_left]

theorem at_take {l : List ℝ} {n k : ℕ} (h : k < n) : at_ (l.take n) k = at_ l k := by
  simp [at_, List.getD_eq_getElem?_getD, h]

theorem at_zipWith (f : ℝ → ℝ → ℝ) {a b : List ℝ} {k : ℕ} (ha : k < a.length) (hb : k < b.length) :
    at_ (List.zipWith f a b) k = f (at_ a k) (at_ b k) := by
  rw [at_eq ha, at_eq hb, at_eq (by simp; omega)]; simp

theorem at_map (f : ℝ → ℝ) {a : List ℝ} {k : ℕ} (ha : k < a.length) : at_ (a.map f) k = f (at_ a k) := by
  rw [at_eq ha, at_eq (by simpa using ha)]; simp

theorem mvmF_real (c : Cfg) (n m : ℕ) (w v : List ℝ) (hv : m ≤ v.length) (hw : n * m ≤ w.length) :
    mvmF c n m w v = matVec n m w v := by
  apply List.ext_getElem?; intro i
  simp only [mvmF, matVec, applyTo_getElem?, List.getElem?_map]
  by_cases hi : i < n
  · have h1 : i * m + m ≤ n * m := by rw [← Nat.succ_mul]; exact Nat.mul_le_mul_right m hi
    rw [List.getElem?_range hi]
    simp only [List.getElem?_replicate, hi, if_true, Option.map_some]
    rw [dotF_real c m _ v _ hv (by simp; omega)]
    simp only [RealOps.zero_def, ite_self, zero_add, at_drop]
    congr 1
    exact Finset.sum_congr rfl (fun j _ => mul_comm _ _)
  · simp [hi]

theorem outerF_real (n m : ℕ) (x y : List ℝ) (hx : n ≤ x.length) (hy : m ≤ y.length) :
    outerF n m x y = outer n m x y := by
  apply List.ext_getElem?; intro k
  simp only [outerF, outer, applyTo_getElem?, List.getElem?_map]
  by_cases hk : k < n * m
  · have hm : 0 < m := Nat.pos_of_ne_zero (by rintro rfl; simp at hk)
    have h1 : k / m < x.length := lt_of_lt_of_le (Nat.div_lt_of_lt_mul (by rw [Nat.mul_comm]; exact hk)) hx
    have h2 : k % m < y.length := lt_of_lt_of_le (Nat.mod_lt _ hm) hy
    rw [List.getElem?_range hk]
    simp [hk, outerOp, h1, h2, at_eq h1, at_eq h2]
    exact fun h => Or.inl h
  · simp [hk]

/-! ### Moving along a direction -/

/-- The layers after adding `t * d` to the parameters. -/
noncomputable def shift : List (Layer ℝ) → List ℝ → ℝ → List (Layer ℝ)
  | [], _, _ => []
  | l :: ls, d, t =>
    { l with
      bias := ⟨l.bias.addr, List.zipWith (fun x y => x + t * y) l.bias.data (d.take l.nOut)⟩
      weight := ⟨l.weight.addr,
        List.zipWith (fun x y => x + t * y) l.weight.data ((d.drop l.nOut).take (l.nIn * l.nOut))⟩ } ::
      shift ls (d.drop (l.nOut + l.nIn * l.nOut)) t

theorem withParams_shift (c : Cfg) (t : ℝ) : ∀ (ls : List (Layer ℝ)) (d : List ℝ), (∀ l ∈ ls, l.WF c) →
    d.length = nParams ls →
    withParams ls (List.zipWith FloatOps.add (params ls) (d.map (t * ·))) = shift ls d t
  | [], _, _, _ => rfl
  | l :: ls, d, hw, hd => by
    have hl := hw l (by simp)
    rw [nParams_cons] at hd
    have ih := withParams_shift c t ls (d.drop (l.nOut + l.nIn * l.nOut))
      (fun m hm => hw m (by simp [hm])) (by simp; omega)
    have hp : params (l :: ls) = (l.bias.data ++ l.weight.data) ++ params ls := by simp [params]
    have e1 : (l.bias.data ++ l.weight.data).length = l.nOut + l.nIn * l.nOut := by
      simp [hl.bias_len, hl.weight_len]
    simp only [withParams, shift, hp]
    refine congrArg₂ _ ?_ ?_
    · congr 2
      · rw [List.drop_zipWith, List.take_zipWith, List.append_assoc, List.drop_left' hl.bias_len,
          List.take_left' hl.weight_len, ← List.map_drop, ← List.map_take, List.zipWith_map_right]; rfl
      · rw [List.take_zipWith, List.append_assoc, List.take_left' hl.bias_len]
        rw [← List.map_take, List.zipWith_map_right]; rfl
    · rw [← ih, List.drop_zipWith, List.drop_left' e1, List.map_drop]

/-- `z` is a curve of vectors of length `n` with velocity `zd` at 0. -/
def Tangent (n : ℕ) (z : ℝ → List ℝ) (zd : ℕ → ℝ) : Prop :=
  (∀ t, (z t).length = n) ∧ ∀ k < n, HasDerivAt (fun t => at_ (z t) k) (zd k) 0

theorem hasDerivAt_line (a b : ℝ) : HasDerivAt (fun t : ℝ => a + t * b) b 0 := by
  have := ((hasDerivAt_id (0 : ℝ)).mul_const b).const_add a
  exact HasDerivAt.congr_deriv this (by ring)

theorem tangent_line (n : ℕ) (a d : List ℝ) (ha : a.length = n) (hd : n ≤ d.length) :
    Tangent n (fun t => List.zipWith (fun x y => x + t * y) a (d.take n)) (fun k => at_ d k) := by
  refine ⟨fun t => by simp; omega, fun k hk => ?_⟩
  have : (fun t : ℝ => at_ (List.zipWith (fun x y => x + t * y) a (d.take n)) k) =
      fun t => at_ a k + t * at_ d k := by
    funext t
    rw [at_zipWith _ (by omega) (by simp; omega), at_take hk]
  rw [this]
  exact hasDerivAt_line _ _

theorem tangent_affine (n m : ℕ) (W b x : ℝ → List ℝ) (Wd bd xd : ℕ → ℝ) (hW : Tangent (n * m) W Wd)
    (hb : Tangent m b bd) (hx : Tangent n x xd) :
    Tangent m (fun t => affine n m (W t) (b t) (x t))
      (fun k => bd k + ∑ i ∈ range n, (xd i * at_ (W 0) (i * m + k) + at_ (x 0) i * Wd (i * m + k))) := by
  refine ⟨fun t => by simp [affine], fun k hk => ?_⟩
  have : (fun t => at_ (affine n m (W t) (b t) (x t)) k) =
      fun t => at_ (b t) k + ∑ i ∈ range n, at_ (x t) i * at_ (W t) (i * m + k) := by
    funext t; rw [affine, at_map_range _ hk]
  rw [this]
  refine (hb.2 k hk).add (HasDerivAt.fun_sum fun i hi => ?_)
  have hi' : i < n := by simpa using hi
  have : i * m + k < n * m := by
    have h1 : i * m + m ≤ n * m := by rw [← Nat.succ_mul]; exact Nat.mul_le_mul_right m hi'
    omega
  exact (hx.2 i hi').mul (hW.2 _ this)

/-! ### Sums -/

theorem sum_flat (n m : ℕ) (f : ℕ → ℕ → ℝ) :
    ∑ j ∈ range (n * m), f (j / m) (j % m) = ∑ i ∈ range n, ∑ k ∈ range m, f i k := by
  induction n with
  | zero => simp
  | succ n ih =>
    rw [Nat.succ_mul, Finset.sum_range_add, ih, Finset.sum_range_succ]
    congr 1
    refine Finset.sum_congr rfl fun k hk => ?_
    have hk' : k < m := by simpa using hk
    rw [Nat.mul_comm n m, Nat.mul_add_div (by omega), Nat.mul_add_mod, Nat.div_eq_of_lt hk',
      Nat.mod_eq_of_lt hk', Nat.add_zero]

/-- What the error signal of one layer contributes: its part of the gradient times the direction, and
the signal passed back times the velocity of the input. -/
theorem layer_sum (n m : ℕ) (δ x W : List ℝ) (d : List ℝ) (xd : ℕ → ℝ) :
    ∑ k ∈ range m, at_ δ k * (at_ d k +
        ∑ i ∈ range n, (xd i * at_ W (i * m + k) + at_ x i * at_ (d.drop m) (i * m + k))) =
      (∑ k ∈ range m, at_ δ k * at_ d k +
        ∑ j ∈ range (n * m), at_ (outer n m x δ) j * at_ (d.drop m) j) +
      ∑ i ∈ range n, at_ (matVec n m W δ) i * xd i := by
  have e1 : ∑ j ∈ range (n * m), at_ (outer n m x δ) j * at_ (d.drop m) j =
      ∑ i ∈ range n, ∑ k ∈ range m, at_ x i * at_ δ k * at_ (d.drop m) (i * m + k) := by
    rw [← sum_flat n m fun i k => at_ x i * at_ δ k * at_ (d.drop m) (i * m + k)]
    refine Finset.sum_congr rfl fun j hj => ?_
    rw [outer, at_map_range _ (by simpa using hj)]
    rw [Nat.mul_comm (j / m) m, Nat.div_add_mod]
  have e2 : ∑ i ∈ range n, at_ (matVec n m W δ) i * xd i =
      ∑ i ∈ range n, ∑ k ∈ range m, at_ W (i * m + k) * at_ δ k * xd i := by
    refine Finset.sum_congr rfl fun i hi => ?_
    rw [matVec, at_map_range _ (by simpa using hi), Finset.sum_mul]
  rw [e1, e2, Finset.sum_comm (s := range n), Finset.sum_comm (s := range n), ← Finset.sum_add_distrib,
    ← Finset.sum_add_distrib]
  refine Finset.sum_congr rfl fun k _ => ?_
  rw [mul_add, Finset.mul_sum, add_assoc, ← Finset.sum_add_distrib]
  congr 1
  refine Finset.sum_congr rfl fun i _ => ?_
  ring

/-! ### The chain rule through the layers -/

/-- Pre-activation of a layer. -/
noncomputable def preact (l : Layer ℝ) (x : List ℝ) : List ℝ :=
  affine l.nIn l.nOut l.weight.data l.bias.data x

/-- The output layer with error signal `g` behaves: its `δ` is the derivative of the objective `J` with
respect to the pre-activation. -/
def OutOk (env : CustomEnv ℝ) (c : Cfg) (J : List ℝ → ℝ) (g : List ℝ) (l : Layer ℝ) (x : List ℝ) : Prop :=
  ∀ z zd, Tangent l.nOut z zd → z 0 = preact l x →
    HasDerivAt (fun t => J (actSpec env l.act (z t)))
      (∑ k ∈ range l.nOut, at_ (derivF env c l (actSpec env l.act (z 0)) g) k * zd k) 0

/-- A hidden layer behaves: the activation function is differentiable at the pre-activation, and the
derivative called multiplies with its derivative. -/
def HidOk (env : CustomEnv ℝ) (c : Cfg) (l : Layer ℝ) (x : List ℝ) : Prop :=
  ∃ f' : ℕ → ℝ,
    (∀ z zd, Tangent l.nOut z zd → z 0 = preact l x →
      Tangent l.nOut (fun t => actSpec env l.act (z t)) (fun k => f' k * zd k)) ∧
    ∀ e : List ℝ, e.length = l.nOut → ∀ k < l.nOut,
      at_ (derivF env c l (actSpec env l.act (preact l x)) e) k = at_ e k * f' k

theorem Tangent.cast {n m : ℕ} (h : n = m) {z : ℝ → List ℝ} {zd : ℕ → ℝ} (ht : Tangent n z zd) :
    Tangent m z zd := h ▸ ht

/-- All layers behave at input `x`. -/
def NetOk (env : CustomEnv ℝ) (c : Cfg) (J : List ℝ → ℝ) (g : List ℝ) : List (Layer ℝ) → List ℝ → Prop
  | [], _ => False
  | [l], x => OutOk env c J g l x
  | l :: l' :: ls, x => HidOk env c l x ∧ NetOk env c J g (l' :: ls) (layerF env c l 0 x)

theorem dot_split (n m k : ℕ) (a b r d : List ℝ) (ha : a.length = n) (hb : b.length = m) :
    dot (n + m + k) (a ++ b ++ r) d =
      ∑ i ∈ range n, at_ a i * at_ d i + ∑ j ∈ range m, at_ b j * at_ (d.drop n) j +
        dot k r (d.drop (n + m)) := by
  unfold dot
  rw [Finset.sum_range_add, Finset.sum_range_add]
  congr 1
  · congr 1
    · refine Finset.sum_congr rfl fun i hi => ?_
      have : i < n := by simpa using hi
      rw [at_append_left (by simp; omega), at_append_left (by omega)]
    · refine Finset.sum_congr rfl fun i hi => ?_
      have : i < m := by simpa using hi
      rw [at_append_left (by simp; omega), at_append_right ha, at_drop]
  · refine Finset.sum_congr rfl fun i _ => ?_
    rw [at_append_right (by simp; omega), at_drop]

theorem gradient_chain (env : CustomEnv ℝ) (c : Cfg) (J : List ℝ → ℝ) (g : List ℝ) :
    ∀ (ls : List (Layer ℝ)) (d : List ℝ) (x : ℝ → List ℝ) (xd : ℕ → ℝ) (l0 last : Layer ℝ),
      ls.head? = some l0 → ls.getLast? = some last → g.length = last.nOut →
      (∀ l ∈ ls, l.WF c) → Chained ls → d.length = nParams ls → Tangent l0.nIn x xd →
      NetOk env c J g ls (x 0) →
      HasDerivAt (fun t => J (Spec.network ((shift ls d t).map (Layer.toSpec env)) (x t)))
        (dot (nParams ls) (backF env c (traceF env c ls (x 0)) g).1 d +
          ∑ i ∈ range l0.nIn,
            at_ (matVec l0.nIn l0.nOut l0.weight.data (backF env c (traceF env c ls (x 0)) g).2) i * xd i) 0
  | [], _, _, _, _, _, h, _, _, _, _, _, _, _ => by simp at h
  | [l], d, x, xd, l0, last, h0, hl, hg, hw, hc, hd, hx, hok => by
    simp at h0 hl; subst h0; subst hl
    have hwl := hw l (by simp)
    have hd' : d.length = l.nOut + l.nIn * l.nOut := by rw [hd, nParams_cons]; simp [nParams]
    have hb := tangent_line l.nOut l.bias.data d hwl.bias_len (by omega)
    have hW := tangent_line (l.nIn * l.nOut) l.weight.data (d.drop l.nOut) hwl.weight_len (by simp; omega)
    have hz := tangent_affine l.nIn l.nOut _ _ x _ _ xd hW hb hx
    have h00 : ∀ (n : ℕ) (a b : List ℝ), a.length = n → n ≤ b.length →
        List.zipWith (fun x y => x + 0 * y) a (b.take n) = a := by
      intro n a b h1 h2
      apply List.ext_getElem
      · simp; omega
      · intro i h3 h4; simp
    have e1 := h00 l.nOut l.bias.data d hwl.bias_len (by omega)
    have e2 := h00 (l.nIn * l.nOut) l.weight.data (d.drop l.nOut) hwl.weight_len (by simp; omega)
    have := hok _ _ hz (by simp only [e1, e2]; rfl)
    refine HasDerivAt.congr_deriv this ?_
    simp only [e1, e2]
    rw [layer_sum l.nIn l.nOut]
    have hδ : derivF env c l (actSpec env l.act (preact l (x 0))) g =
        (backF env c (traceF env c [l] (x 0)) g).2 := by
      simp only [traceF, backF]
      rw [layerF_real env c l hwl 0 (x 0) (hx.1 0)]; rfl
    have hgr : (backF env c (traceF env c [l] (x 0)) g).1 =
        (backF env c (traceF env c [l] (x 0)) g).2 ++
          outer l.nIn l.nOut (x 0) (backF env c (traceF env c [l] (x 0)) g).2 ++ [] := by
      rw [List.append_nil, ← outerF_real _ _ _ _ (hx.1 0).ge (by rw [← hδ, derivF_length]; omega)]; rfl
    have hn : nParams [l] = l.nOut + l.nIn * l.nOut + 0 := by rw [nParams_cons]; simp [nParams]
    rw [hgr, hn, dot_split l.nOut (l.nIn * l.nOut) 0 _ _ _ _ (by rw [← hδ, derivF_length]; omega)
      (by simp [outer])]
    unfold preact at hδ
    rw [hδ]
    simp [dot]
  | l :: l' :: ls, d, x, xd, l0, last, h0, hl, hg, hw, hc, hd, hx, hok => by
    simp at h0; subst h0
    have hwl := hw l (by simp)
    have hwl' := hw l' (by simp)
    have hd' : d.length = l.nOut + l.nIn * l.nOut + nParams (l' :: ls) := by rw [hd, nParams_cons]
    have hb := tangent_line l.nOut l.bias.data d hwl.bias_len (by omega)
    have hW := tangent_line (l.nIn * l.nOut) l.weight.data (d.drop l.nOut) hwl.weight_len (by simp; omega)
    have hz := tangent_affine l.nIn l.nOut _ _ x _ _ xd hW hb hx
    have h00 : ∀ (n : ℕ) (a b : List ℝ), a.length = n → n ≤ b.length →
        List.zipWith (fun x y => x + 0 * y) a (b.take n) = a := by
      intro n a b h1 h2
      apply List.ext_getElem
      · simp; omega
      · intro i h3 h4; simp
    have e1 := h00 l.nOut l.bias.data d hwl.bias_len (by omega)
    have e2 := h00 (l.nIn * l.nOut) l.weight.data (d.drop l.nOut) hwl.weight_len (by simp; omega)
    obtain ⟨⟨f', hf, hder⟩, hrest⟩ := hok
    have ha := hf _ _ hz (by simp only [e1, e2]; rfl)
    have hx1 : actSpec env l.act (preact l (x 0)) = layerF env c l 0 (x 0) := by
      rw [layerF_real env c l hwl 0 (x 0) (hx.1 0)]; rfl
    have ih := gradient_chain env c J g (l' :: ls) (d.drop (l.nOut + l.nIn * l.nOut)) _ _ l' last rfl
      (by simpa using hl) hg (fun m hm => hw m (by simp [List.mem_cons.mp hm])) hc.2 (by simp; omega) (ha.cast hc.1)
      (by
        simp only [e1, e2]
        have : actSpec env l.act (affine l.nIn l.nOut l.weight.data l.bias.data (x 0)) =
          layerF env c l 0 (x 0) := hx1
        rw [this]; exact hrest)
    refine HasDerivAt.congr_deriv ih ?_
    simp only [e1, e2]
    have hx2 : actSpec env l.act (affine l.nIn l.nOut l.weight.data l.bias.data (x 0)) =
      layerF env c l 0 (x 0) := hx1
    rw [hx2]
    have hshape := backF_shape env c (l' :: ls) (layerF env c l 0 (x 0)) g last (by simpa using hl) hg hc.2
    obtain ⟨s1, s2⟩ := hshape
    obtain ⟨s3, -, -⟩ := s2 l' rfl
    have eb : backF env c (traceF env c (l :: l' :: ls) (x 0)) g =
        (derivF env c l (layerF env c l 0 (x 0)) (mvmF c l'.nIn l'.nOut l'.weight.data
            (backF env c (traceF env c (l' :: ls) (layerF env c l 0 (x 0))) g).2) ++
          outerF l.nIn l.nOut (x 0) (derivF env c l (layerF env c l 0 (x 0)) (mvmF c l'.nIn l'.nOut
            l'.weight.data (backF env c (traceF env c (l' :: ls) (layerF env c l 0 (x 0))) g).2)) ++
          (backF env c (traceF env c (l' :: ls) (layerF env c l 0 (x 0))) g).1,
         derivF env c l (layerF env c l 0 (x 0)) (mvmF c l'.nIn l'.nOut l'.weight.data
            (backF env c (traceF env c (l' :: ls) (layerF env c l 0 (x 0))) g).2)) := rfl
    rw [eb]
    generalize (backF env c (traceF env c (l' :: ls) (layerF env c l 0 (x 0))) g) = G at *
    rw [mvmF_real c _ _ _ _ s3.ge hwl'.weight_len.ge]
    have hel : (matVec l'.nIn l'.nOut l'.weight.data G.2).length = l.nOut := by
      simp [matVec, hc.1]
    have hδl : (derivF env c l (layerF env c l 0 (x 0)) (matVec l'.nIn l'.nOut l'.weight.data G.2)).length =
        l.nOut := by rw [derivF_length, hel]
    simp only
    rw [outerF_real _ _ _ _ (hx.1 0).ge hδl.ge, nParams_cons l,
      dot_split l.nOut (l.nIn * l.nOut) _ _ _ _ _ hδl (by simp [outer])]
    have hk := hder (matVec l'.nIn l'.nOut l'.weight.data G.2) hel
    rw [hx1] at hk
    have := layer_sum l.nIn l.nOut
      (derivF env c l (layerF env c l 0 (x 0)) (matVec l'.nIn l'.nOut l'.weight.data G.2)) (x 0)
      l.weight.data d xd
    have hs : ∑ i ∈ range l'.nIn, at_ (matVec l'.nIn l'.nOut l'.weight.data G.2) i *
        (f' i * (at_ d i + ∑ i_1 ∈ range l.nIn, (xd i_1 * at_ l.weight.data (i_1 * l.nOut + i) +
          at_ (x 0) i_1 * at_ (d.drop l.nOut) (i_1 * l.nOut + i)))) =
        ∑ i ∈ range l.nOut, at_ (derivF env c l (layerF env c l 0 (x 0))
          (matVec l'.nIn l'.nOut l'.weight.data G.2)) i *
        (at_ d i + ∑ i_1 ∈ range l.nIn, (xd i_1 * at_ l.weight.data (i_1 * l.nOut + i) +
          at_ (x 0) i_1 * at_ (d.drop l.nOut) (i_1 * l.nOut + i))) := by
      rw [show range l'.nIn = range l.nOut by rw [hc.1]]
      refine Finset.sum_congr rfl fun i hi => ?_
      rw [hk i (by simpa using hi)]; ring
    rw [hs, this]
    ring

end NN
