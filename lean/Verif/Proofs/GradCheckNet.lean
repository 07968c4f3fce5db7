import Verif.Proofs.GradCheck
import Verif.Properties.Widths
/-
Lemmas for C82: what the program computes for a network with a tanh layer and a sigmoid layer.
-/
set_option linter.unusedSimpArgs false

namespace NN.GradCheck
open FloatOps Finset _root_.Spec

/-- A network with a tanh layer, a sigmoid layer and mean squared error. -/
structure Two {F : Type} (c : Cfg) (nn : Net F) (l1 l2 : Layer F) : Prop where
  layers : nn.layers = [l1, l2]
  loss : nn.loss = some .mse
  wf : nn.WF c
  act1 : l1.act = .tanh
  act2 : l2.act = .sigmoid
  deriv1 : l1.deriv = some .tanh
  deriv2 : l2.deriv = some .sigmoid

/-- The parameters of the network moved by `t * d`. -/
noncomputable def moved (nn : Net ℝ) (d : List ℝ) (t : ℝ) : Net ℝ := { nn with layers := shift nn.layers d t }

namespace Two
variable {c : Cfg} {nn : Net ℝ} {l1 l2 : Layer ℝ} (h : Two c nn l1 l2)
include h

theorem wf1 : l1.WF c := h.wf.layer l1 (by simp [h.layers])
theorem wf2 : l2.WF c := h.wf.layer l2 (by simp [h.layers])
theorem chain : l1.nOut = l2.nIn := by have := h.wf.chain; rw [h.layers] at this; exact this.1
theorem nIn : nn.nInput = l1.nIn := by simp [Net.nInput, h.layers]
theorem nOut : nn.nOutput = l2.nOut := by simp [Net.nOutput, h.layers]

theorem shifted (d : List ℝ) (hd : d.length = nParams nn.layers) (t : ℝ) : ∃ l1' l2', Two c (moved nn d t) l1' l2' ∧ l1'.nIn = l1.nIn ∧
    l1'.nOut = l1.nOut ∧ l2'.nIn = l2.nIn ∧ l2'.nOut = l2.nOut ∧ (moved nn d t).described = nn.described ∧
    nParams (moved nn d t).layers = nParams nn.layers := by
  obtain ⟨k1, k2, -, -⟩ := shift_map (noCustom ℝ) c d t nn.layers h.wf.layer hd h.wf.chain
  have e : (moved nn d t).layers = shift [l1, l2] d t := by simp [moved, h.layers]
  have hw : (moved nn d t).WF c := ⟨by rw [e]; simp [shift], k1, k2⟩
  simp only [shift] at e
  refine ⟨_, _, ⟨e, h.loss, hw, h.act1, h.act2, h.deriv1, h.deriv2⟩, rfl, rfl, rfl, rfl, ?_, ?_⟩
  · simp [Net.described, e, h.layers]
  · simp [e, h.layers, nParams]

theorem update (d : List ℝ) (hd : d.length = nParams nn.layers) (a : ℕ) (t : ℝ) :
    NN.update c nn ⟨a, d.map (t * ·)⟩ = .ok (moved nn d t) := by
  rw [update_eq c nn _ h.wf.layer (by simp [hd]), withParams_shift c t nn.layers d h.wf.layer hd]
  rfl

theorem moved_moved (d : List ℝ) (hd : d.length = nParams nn.layers) (t : ℝ) : moved (moved nn d t) d (-t) = nn := by
  simp only [moved, shift_shift, add_neg_cancel, shift_zero c nn.layers d h.wf.layer hd]

theorem predict (env : CustomEnv ℝ) (work : ℕ) (jk : ℕ → ℝ) (X O : View ℝ) (hwk : work % c.alignSize = 0) (ho : O.addr % c.alignSize = 0)
    (hX : X.data.length = l1.nIn) (hO : O.data.length = l2.nOut) :
    NN.predict env c work jk nn X O = .ok ⟨O.addr, Spec.network (nn.layers.map (Layer.toSpec env)) X.data⟩ := by
  rw [C01_predict env c work jk nn X O h.wf hwk (by rw [h.nIn, hX]) (by rw [h.nOut, hO]) (AlignedFor.of_aligned ho), h.nIn, h.nOut,
    List.take_of_length_le (by omega), List.drop_eq_nil_of_le (by omega), List.append_nil]

theorem network_length (env : CustomEnv ℝ) (x : List ℝ) : (Spec.network (nn.layers.map (Layer.toSpec env)) x).length = l2.nOut := by
  rw [h.layers]
  simp [Spec.network, Spec.Layer.apply, Layer.toSpec, h.act1, h.act2, actSpec, affine]

theorem back (env : CustomEnv ℝ) (hv : NN.Spec.VectorWidths c true 0 nn.described) (work : ℕ) (jk : ℕ → ℝ) (X Y G : View ℝ)
    (hwk : work % c.alignSize = 0) (hg : G.addr % c.alignSize = 0)
    (hX : X.data.length = l1.nIn) (hY : Y.data.length = l2.nOut) (hG : G.data.length = nParams nn.layers) :
    backpropagation env c work jk nn X Y G = .ok ⟨G.addr, gradF env c nn .mse X.data Y.data⟩ := by
  rw [backpropagation_eq env c work jk nn X Y G .mse h.wf hwk hg h.loss (by
      rw [h.layers]; intro l hl; simp only [List.mem_cons, List.not_mem_nil, or_false] at hl
      rcases hl with rfl | rfl <;> simp [h.deriv1, h.deriv2])
    (by rw [h.nIn, hX]) (by rw [h.nOut, hY]) (by rw [hG]) ((backAligned_iff hg nn.layers 0 h.wf.layer).2 hv), h.nIn, h.nOut,
    List.take_of_length_le (by omega), List.take_of_length_le (by omega), List.drop_eq_nil_of_le (by omega), List.append_nil]

theorem setLoss (recs : List ActRecord) : NN.setLoss recs nn "mean_squared_error" = nn := by
  have e : getLossFunc "mean_squared_error" = some .mse := by decide
  obtain ⟨ls, lo⟩ := nn
  have h1 := h.layers
  have h2 := h.loss
  simp only at h1 h2
  subst h1 h2
  have r1 : resetDeriv recs l1 = l1 := by
    obtain ⟨a, b, w, bb, ac, de⟩ := l1
    have := h.act1; have := h.deriv1; simp_all [resetDeriv, getActivationDerivative]
  have r2 : resetDeriv recs l2 = l2 := by
    obtain ⟨a, b, w, bb, ac, de⟩ := l2
    have := h.act2; have := h.deriv2; simp_all [resetDeriv, getActivationDerivative]
  simp only [NN.setLoss, e, List.map_cons, List.map_nil, r1, r2, matchPair]
  simp

theorem dot (env : CustomEnv ℝ) (hv : NN.Spec.VectorWidths c true 0 nn.described) (x y d : List ℝ) (hx : x.length = l1.nIn)
    (hy : y.length = l2.nOut) (hd : d.length = nParams nn.layers) :
    Spec.dot (nParams nn.layers) (gradF env c nn .mse x y) d = (lineOf l1 l2 x y d).J1 0 := by
  have hreg : Regular env .mse y nn.layers (x.take nn.nInput) := by
    rw [h.layers]
    refine ⟨⟨by simp [h.act1, textbook], fun k _ => by rw [h.act1]; trivial⟩, Spec.sigmoid, by simp [h.act2, textbook], fun k _ => by
      rw [h.act2]; trivial⟩
  obtain ⟨g, hg1, hg2⟩ := C07_gradient env c [] 0 (fun _ => 0) nn "mean_squared_error" .mse ⟨0, x⟩ ⟨0, y⟩
    ⟨0, List.replicate (nParams nn.layers) 0⟩ h.wf (by decide) (by simp) (by simp) (by rw [h.nIn, hx]) (by rw [h.nOut, hy]) (by simp)
    (by rw [h.setLoss]; exact (backAligned_iff (by simp) nn.layers 0 h.wf.layer).2 hv) hreg
  rw [h.setLoss] at hg1 hg2
  rw [h.back env hv 0 _ _ _ _ (by simp) (by simp) hx hy (by simp)] at hg1
  simp only [Except.ok.injEq, View.mk.injEq, true_and] at hg1
  subst hg1
  obtain ⟨p, hp, hder⟩ := hg2 d hd 0 0 (fun _ => 0) ⟨0, List.replicate l2.nOut 0⟩ (by simp) (by simp) (by simp [h.nOut])
  refine hder.unique ?_
  have : (fun t => objective .mse nn.nOutput (p t) y) = (lineOf l1 l2 x y d).J := by
    funext t
    obtain ⟨nn', e1, e2⟩ := hp t
    rw [h.update d hd 0 t, Except.ok.injEq] at e1
    subst e1
    obtain ⟨l1', l2', h', m1, m2, m3, m4, -, -⟩ := h.shifted d hd t
    rw [h'.predict env 0 _ _ _ (by simp) (by simp) (by rw [m1]; exact hx) (by simp [m4])] at e2
    simp only [Except.ok.injEq, View.mk.injEq, true_and] at e2
    rw [← e2, h.nOut]
    simp only [objective, moved, h.layers]
    exact network_line env c l1 l2 h.wf1 h.wf2 h.act1 h.act2 h.chain x y d (by rw [hd, h.layers]) t
  have e := (lineOf l1 l2 x y d).J_deriv 0
  rw [← this] at e
  exact e

end Two

theorem sum_block (g : ℕ → ℝ) (m : ℕ) : ∀ n, ∑ i ∈ range n, ∑ j ∈ range m, g (i * m + j) = ∑ k ∈ range (n * m), g k
  | 0 => by simp
  | n + 1 => by rw [sum_range_succ, sum_block g m n, Nat.succ_mul, sum_range_add]

/-- A direction of length at most 1 in the sum of absolute values. -/
theorem moderate {c : Cfg} {nn : Net ℝ} {l1 l2 : Layer ℝ} (h : Two c nn l1 l2) (x y d : List ℝ) (hx : ∀ i, |at_ x i| ≤ 1)
    (hy : ∀ o < l2.nOut, 0 ≤ at_ y o ∧ at_ y o ≤ 1) (hw : ∀ k, |at_ l2.weight.data k| ≤ 1)
    (hd : ∑ k ∈ range (nParams nn.layers), |at_ d k| ≤ 1) : (lineOf l1 l2 x y d).Moderate := by
  have hp : nParams nn.layers = (l1.nOut + l1.nIn * l1.nOut) + (l2.nOut + l1.nOut * l2.nOut) := by
    rw [h.layers, h.chain]; simp [nParams, h.chain]; ring
  have hblock : ∀ (g : ℕ → ℝ) (m n : ℕ), ∑ j ∈ range m, (g j + ∑ i ∈ range n, g (m + (i * m + j))) = ∑ k ∈ range (m + n * m), g k := by
    intro g m n
    rw [sum_add_distrib, sum_comm, sum_range_add, sum_block (fun k => g (m + k)) m n]
  rw [hp, sum_range_add] at hd
  have hA := hblock (fun k => |at_ d k|) l1.nOut l1.nIn
  have hB := hblock (fun k => |at_ d (l1.nOut + l1.nIn * l1.nOut + k)|) l2.nOut l1.nOut
  have n1 : 0 ≤ ∑ k ∈ range (l1.nOut + l1.nIn * l1.nOut), |at_ d k| := sum_nonneg fun _ _ => abs_nonneg _
  have n2 : 0 ≤ ∑ k ∈ range (l2.nOut + l1.nOut * l2.nOut), |at_ d (l1.nOut + l1.nIn * l1.nOut + k)| := sum_nonneg fun _ _ => abs_nonneg _
  refine ⟨fun j _ o _ => hw _, hy, ?_, fun o ho => ?_⟩
  · refine le_trans (sum_le_sum fun j _ => ?_) (hA.le.trans (by linarith))
    simp only [lineOf]
    refine (abs_add_le _ _).trans (add_le_add le_rfl ((abs_sum_le_sum_abs _ _).trans (sum_le_sum fun i _ => ?_)))
    rw [abs_mul]
    exact mul_le_of_le_one_left (abs_nonneg _) (hx i)
  · have := single_le_sum (f := fun o => |at_ d (l1.nOut + l1.nIn * l1.nOut + o)| +
      ∑ j ∈ range l1.nOut, |at_ d (l1.nOut + l1.nIn * l1.nOut + (l2.nOut + (j * l2.nOut + o)))|)
      (fun o _ => add_nonneg (abs_nonneg _) (sum_nonneg fun _ _ => abs_nonneg _)) (mem_range.2 ho)
    exact this.trans (hB.le.trans (by linarith))

/-- The two sides of the test. -/
theorem core {c : Cfg} {nn : Net ℝ} {l1 l2 : Layer ℝ} (h : Two c nn l1 l2) (env : CustomEnv ℝ) (hv : NN.Spec.VectorWidths c true 0 nn.described)
    (x y d : List ℝ) (hx : x.length = l1.nIn) (hy : y.length = l2.nOut) (hd : d.length = nParams nn.layers) (hx1 : ∀ i, |at_ x i| ≤ 1)
    (hy1 : ∀ o < l2.nOut, 0 ≤ at_ y o ∧ at_ y o ≤ 1) (hw : ∀ k, |at_ l2.weight.data k| ≤ 1)
    (hd1 : ∑ k ∈ range (nParams nn.layers), |at_ d k| ≤ 1) (δ : ℝ) (h0 : 0 < δ) (h1 : δ ≤ 1 / 10) :
    |1 / 2 * (Spec.dot (nParams nn.layers) (gradF env c nn .mse x y) d + Spec.dot (nParams nn.layers) (gradF env c (moved nn d δ) .mse x y) d) -
      (Spec.mse l2.nOut (Spec.network ((moved nn d δ).layers.map (Layer.toSpec env)) x) y -
        Spec.mse l2.nOut (Spec.network (nn.layers.map (Layer.toSpec env)) x) y) / δ| ≤ 5 * δ := by
  have hd' : d.length = nParams [l1, l2] := by rw [hd, h.layers]
  have hline := fun t => network_line env c l1 l2 h.wf1 h.wf2 h.act1 h.act2 h.chain x y d hd' t
  obtain ⟨l1', l2', h', m1, m2, m3, m4, m5, m6⟩ := h.shifted d hd δ
  have e1 := h.dot env hv x y d hx hy hd
  have e2 := h'.dot env (by rw [m5]; exact hv) x y d (by rw [m1]; exact hx) (by rw [m4]; exact hy) (by rw [m6]; exact hd)
  have hsh : (lineOf l1' l2' x y d).J = fun t => (lineOf l1 l2 x y d).J (δ + t) := by
    funext t
    have a := network_line env c l1' l2' h'.wf1 h'.wf2 h'.act1 h'.act2 h'.chain x y d (by rw [hd, ← m6, h'.layers]) t
    rw [← a, ← hline, m4]
    congr 2
    rw [← h'.layers]
    simp only [moved, shift_shift, h.layers]
  have e3 : (lineOf l1' l2' x y d).J1 0 = (lineOf l1 l2 x y d).J1 δ := by
    have a := (lineOf l1' l2' x y d).J_deriv 0
    rw [hsh] at a
    have b := ((lineOf l1 l2 x y d).J_deriv (δ + 0)).comp (0 : ℝ) ((hasDerivAt_id (0 : ℝ)).const_add δ)
    rw [add_zero, mul_one] at b
    exact a.unique b
  rw [m6] at e2
  rw [e1, e2, e3]
  have f0 : Spec.mse l2.nOut (Spec.network (nn.layers.map (Layer.toSpec env)) x) y = (lineOf l1 l2 x y d).J 0 := by
    rw [← hline, shift_zero c [l1, l2] d (by rw [← h.layers]; exact h.wf.layer) hd', h.layers]
  have f1 : Spec.mse l2.nOut (Spec.network ((moved nn d δ).layers.map (Layer.toSpec env)) x) y = (lineOf l1 l2 x y d).J δ := by
    rw [← hline]; simp only [moved, h.layers]
  rw [f0, f1]
  exact Line.trapezoid (moderate h x y d hx1 hy1 hw hd1) δ h0 h1

end NN.GradCheck
