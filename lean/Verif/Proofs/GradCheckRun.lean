import Verif.Proofs.GradCheckNet
import Verif.Properties.OddSizes
/-
Lemmas for C82: the loop of the program, in any arithmetic.
-/
set_option linter.unusedSimpArgs false

namespace NN.GradCheck
open FloatOps NN.Spec
variable {F : Type} [FloatOps F]

/-- Parameter `i` changed by `δ` (0 is added to the others). -/
def nudged (nn : Net F) (i : ℕ) (δ : F) : Net F :=
  { nn with layers := withParams nn.layers (List.zipWith add (params nn.layers) ((List.replicate (nParams nn.layers) zero).set i δ)) }

namespace Two
variable {c : Cfg} {nn : Net F} {l1 l2 : Layer F} (h : Two c nn l1 l2)
include h

omit [FloatOps F] in
theorem gin : nn.nInput = l1.nIn := by simp [Net.nInput, h.layers]
omit [FloatOps F] in
theorem gout : nn.nOutput = l2.nOut := by simp [Net.nOutput, h.layers]

theorem nudge (i : ℕ) (δ : F) : ∃ l1' l2', Two c (nudged nn i δ) l1' l2' ∧ l1'.nIn = l1.nIn ∧
    l1'.nOut = l1.nOut ∧ l2'.nIn = l2.nIn ∧ l2'.nOut = l2.nOut ∧ (nudged nn i δ).described = nn.described ∧
    nParams (nudged nn i δ).layers = nParams nn.layers := by
  obtain ⟨p, hp⟩ : ∃ p, p = List.zipWith add (params nn.layers) ((List.replicate (nParams nn.layers) zero).set i δ) := ⟨_, rfl⟩
  have hpl : p.length = nParams nn.layers := by rw [hp]; simp [params_length c _ h.wf.layer]
  have e : (nudged nn i δ).layers = withParams [l1, l2] p := by rw [← h.layers, hp]; rfl
  have hw : (nudged nn i δ).WF c := by
    refine ⟨by rw [e]; simp [withParams], ?_, ?_⟩
    · rw [e]; exact withParams_wf c _ _ (by rw [hpl, h.layers]) (by rw [← h.layers]; exact h.wf.layer)
    · rw [e]; exact withParams_chained _ _ (by rw [← h.layers]; exact h.wf.chain)
  simp only [withParams] at e
  refine ⟨_, _, ⟨e, h.loss, hw, h.act1, h.act2, h.deriv1, h.deriv2⟩, rfl, rfl, rfl, rfl, ?_, ?_⟩
  · simp [Net.described, e, h.layers]
  · simp [e, h.layers, nParams]

theorem gupdate (a i : ℕ) (δ : F) :
    NN.update c nn ⟨a, (List.replicate (nParams nn.layers) zero).set i δ⟩ = .ok (nudged nn i δ) := by
  rw [update_eq c nn _ h.wf.layer (by simp)]; rfl

theorem gpredict (env : CustomEnv F) (work : ℕ) (jk : ℕ → F) (X O : View F) (hwk : work % c.alignSize = 0) (ho : O.addr % c.alignSize = 0)
    (hX : X.data.length = l1.nIn) (hO : O.data.length = l2.nOut) :
    NN.predict env c work jk nn X O = .ok ⟨O.addr, netF env c 0 nn.layers X.data⟩ := by
  rw [predict_netF env c work jk nn X O h.wf hwk (by rw [h.gin, hX]) (by rw [h.gout, hO]) (AlignedFor.of_aligned ho), h.gin, h.gout,
    List.take_of_length_le (by omega), List.drop_eq_nil_of_le (by omega), List.append_nil, OddSizes.netF_aligned env c _ ho]

theorem gnet_length (env : CustomEnv F) (x : List F) : (netF env c 0 nn.layers x).length = l2.nOut :=
  netF_length env c 0 nn.layers _ l2 (by simp [h.layers]) h.wf.layer

theorem gback (env : CustomEnv F) (hv : VectorWidths c true 0 nn.described) (work : ℕ) (jk : ℕ → F) (X Y G : View F)
    (hwk : work % c.alignSize = 0) (hg : G.addr % c.alignSize = 0)
    (hX : X.data.length = l1.nIn) (hY : Y.data.length = l2.nOut) (hG : G.data.length = nParams nn.layers) :
    backpropagation env c work jk nn X Y G = .ok ⟨G.addr, gradF env c nn .mse X.data Y.data⟩ := by
  rw [backpropagation_eq env c work jk nn X Y G .mse h.wf hwk hg h.loss (by
      rw [h.layers]; intro l hl; simp only [List.mem_cons, List.not_mem_nil, or_false] at hl
      rcases hl with rfl | rfl <;> simp [h.deriv1, h.deriv2])
    (by rw [h.gin, hX]) (by rw [h.gout, hY]) (by rw [hG]) ((backAligned_iff hg nn.layers 0 h.wf.layer).2 hv), h.gin, h.gout,
    List.take_of_length_le (by omega), List.take_of_length_le (by omega), List.drop_eq_nil_of_le (by omega), List.append_nil]

theorem ggrad_length (env : CustomEnv F) (x y : List F) (hy : y.length = l2.nOut) :
    (gradF env c nn .mse x y).length = nParams nn.layers :=
  gradF_length env c nn .mse _ _ h.wf (by rw [h.gout]; exact hy)

end Two

/-- What the arrays are like between two tests. -/
structure Shape (c : Cfg) (nOut n : ℕ) (st : State F) : Prop where
  dp : st.dp.data = List.replicate n zero
  outAddr : st.output.addr % c.alignSize = 0
  outLen : st.output.data.length = nOut
  gradAddr : st.grad1.addr % c.alignSize = 0
  gradLen : st.grad1.data.length = n

/-- One test. -/
theorem step_eq (env : CustomEnv F) {c : Cfg} {sys : Sys F} (hwk : sys.work % c.alignSize = 0) {nn : Net F} {l1 l2 : Layer F}
    (h : Two c nn l1 l2) (hv : VectorWidths c true 0 nn.described) (X Y G : View F) (hX : X.data.length = l1.nIn)
    (hY : Y.data.length = l2.nOut) (hG : G.data.length = nParams nn.layers) (J0 δ : F) (i : ℕ) (hi : i < nParams nn.layers) (st : State F)
    (hst : Shape c l2.nOut (nParams nn.layers) st) (hnn : st.nn = nn) :
    ∃ (st' : State F) (g1 J1 : F), step env c sys .mse l2.nOut X Y G J0 δ i st =
        .ok (st', mul (lit 1 2) (add (G.data[i]'(by omega)) g1), div (sub J1 J0) δ) ∧
      Shape c l2.nOut (nParams nn.layers) st' ∧ st'.nn = nudged (nudged nn i δ) i (neg δ) ∧
      (gradF env c (nudged nn i δ) .mse X.data Y.data)[i]? = some g1 ∧
      runMetric .mse l2.nOut ⟨0, netF env c 0 (nudged nn i δ).layers X.data⟩ Y = .ok J1 := by
  obtain ⟨⟨da, dd⟩, nn', ⟨oa, od⟩, ⟨ga, gd⟩⟩ := st
  obtain ⟨e1, e2, e3, e4, e5⟩ := hst
  simp only at e1 e2 e3 e4 e5 hnn
  subst hnn e1
  obtain ⟨l1', l2', h', m1, m2, m3, m4, m5, m6⟩ := h.nudge i δ
  have hgl := h'.ggrad_length env X.data Y.data (by rw [m4]; exact hY)
  rw [m6] at hgl
  have hnl := h'.gnet_length env X.data
  rw [m4] at hnl
  obtain ⟨J1, hJ⟩ := runMetric_ok .mse l2.nOut (h.wf.layer l2 (by simp [h.layers])).out_pos ⟨0, netF env c 0 (nudged nn' i δ).layers X.data⟩ Y (by simp [hnl]) (by rw [hY])
  have hJ' : runMetric .mse l2.nOut ⟨oa, netF env c 0 (nudged nn' i δ).layers X.data⟩ Y = .ok J1 := by
    rw [← hJ]; simp only [runMetric, sumLoop_eq _ l2.nOut ⟨oa, netF env c 0 (nudged nn' i δ).layers X.data⟩ Y (by simp [hnl]) (by rw [hY]),
      sumLoop_eq _ l2.nOut ⟨0, netF env c 0 (nudged nn' i δ).layers X.data⟩ Y (by simp [hnl]) (by rw [hY])]
  have u1 := h.gupdate da i δ
  have u2 := h'.gupdate da i (neg δ)
  rw [m6] at u2
  have p := h'.gpredict env sys.work sys.workJunk X ⟨oa, od⟩ hwk e2 (by rw [m1]; exact hX) (by rw [m4]; exact e3)
  have b := h'.gback env (by rw [m5]; exact hv) sys.work sys.workJunk X Y ⟨ga, gd⟩ hwk e4 (by rw [m1]; exact hX) (by rw [m4]; exact hY)
    (by rw [m6]; exact e5)
  refine ⟨⟨⟨da, List.replicate (nParams nn'.layers) zero⟩, nudged (nudged nn' i δ) i (neg δ), ⟨oa, netF env c 0 (nudged nn' i δ).layers X.data⟩,
    ⟨ga, gradF env c (nudged nn' i δ) .mse X.data Y.data⟩⟩, (gradF env c (nudged nn' i δ) .mse X.data Y.data)[i]'(by omega), J1, ?_,
    ⟨rfl, e2, hnl, e4, hgl⟩, rfl, List.getElem?_eq_getElem _, hJ⟩
  have s1 : ∀ (l : List F) (v : F), i < l.length → (⟨da, l⟩ : View F).store i v = .ok ⟨da, l.set i v⟩ := by
    intro l v hl; simp [View.store, hl]
  have s2 : ((List.replicate (nParams nn'.layers) zero).set i zero : List F) = List.replicate (nParams nn'.layers) zero := by
    apply List.ext_getElem?; intro k; rw [List.getElem?_set, List.getElem?_replicate]; split_ifs <;> simp_all
  rw [step, s1 _ _ (by simpa using hi)]
  simp only [bind, Except.bind, u1, p, b]
  rw [s1 _ _ (by simpa using hi)]
  simp only [bind, Except.bind, List.set_set, u2]
  rw [s1 _ _ (by simpa using hi)]
  simp only [List.set_set, s2, load_ok (v := G) (show i < G.data.length by omega), load_ok (v := ⟨ga, gradF env c (nudged nn' i δ) .mse X.data Y.data⟩)
    (show i < (gradF env c (nudged nn' i δ) .mse X.data Y.data).length by omega), hJ', pure, Except.pure]

/-- The loop. -/
theorem loop_eq (env : CustomEnv F) (c : Cfg) (sys : Sys F) (loss : Metric) (nOut : ℕ) (X Y G : View F) (J0 δ eps : F) (n : ℕ)
    (Inv : State F → Prop) (Q : ℕ → F → F → Prop)
    (hstep : ∀ i < n, ∀ st, Inv st → ∃ st' a b, step env c sys loss nOut X Y G J0 δ i st = .ok (st', a, b) ∧ Inv st' ∧ Q i a b) :
    ∀ k i st, i + k ≤ n → Inv st → ∃ (l : List (F × F)) (st' : State F), loop env c sys loss nOut X Y G J0 δ eps k i st =
        .ok (l, l.map (fun p => deviates eps p.1 p.2), k, (l.filter fun p => deviates eps p.1 p.2).length, st') ∧
      Inv st' ∧ l.length = k ∧ ∀ j p, l[j]? = some p → Q (i + j) p.1 p.2
  | 0, i, st, _, hI => ⟨[], st, rfl, hI, rfl, by simp⟩
  | k + 1, i, st, hk, hI => by
    obtain ⟨st1, a, b, e1, hI1, q⟩ := hstep i (by omega) st hI
    obtain ⟨l, st2, e2, hI2, hl, hq⟩ := loop_eq env c sys loss nOut X Y G J0 δ eps n Inv Q hstep k (i + 1) st1 (by omega) hI1
    refine ⟨(a, b) :: l, st2, ?_, hI2, by simp [hl], ?_⟩
    · simp only [loop, e1, e2, bind, Except.bind, pure, Except.pure, List.map_cons, List.filter_cons]
      cases deviates eps a b <;> simp
    · intro j p hp
      cases j with
      | zero => simp only [List.getElem?_cons_zero, Option.some.injEq] at hp; subst hp; exact q
      | succ j =>
        simp only [List.getElem?_cons_succ] at hp
        have := hq j p hp
        rwa [show i + 1 + j = i + (j + 1) by omega] at this

end NN.GradCheck
