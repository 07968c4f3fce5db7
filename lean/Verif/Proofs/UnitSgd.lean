import Verif.Model.UnitSgd
import Verif.Properties.Lifecycle
import Verif.Proofs.Trainer
import Verif.Proofs.TestSgd
/-
Lemmas about tests/test_sgd.c: the gradient of a batch with one sample, one step of SGD, the loop over the parameters.
-/
set_option linter.unusedSimpArgs false

namespace NN.UnitSgd
open FloatOps NN.Spec
variable {F : Type} [FloatOps F]

/-- What the gradient of a batch with one sample needs of the arithmetic: `I a x` says that `a` has the value `x`; adding zero and dividing
by one change nothing. -/
structure Neutral (I : F → ℝ → Prop) : Prop where
  zero : I zero 0
  left {a b : F} {x : ℝ} : I a 0 → I b x → I (add a b) x
  right {a b : F} {x : ℝ} : I a x → I b 0 → I (add a b) x
  div {a : F} {x : ℝ} : I a x → I (div a (ofNat 1)) x

/-- The private copies of a loop with no iteration, or with the iteration 0 only. -/
theorem sumF_one {I : F → ℝ → Prop} (hI : Neutral I) (k pad : ℕ) (hk : k ≤ pad) (v : ℕ → List F) (hv : (v 0).length = k) (x : ℕ → ℝ)
    (hx : ∀ (j : ℕ) a, (v 0)[j]? = some a → I a (x j)) : ∀ s : Sched, (s.iters = [] ∨ s.iters = [0]) →
    (s.sumF k pad v).length = pad ∧
      ∀ (j : ℕ) a, j < k → (s.sumF k pad v)[j]? = some a → I a (if s.iters = [] then 0 else x j)
  | .thread is, h => by
    rcases h with h | h
    · simp only [Sched.iters] at h
      subst h
      refine ⟨by simp [Sched.sumF], fun j a hj ha => ?_⟩
      simp only [Sched.sumF, List.foldl_nil, List.getElem?_replicate] at ha
      rw [if_pos (by omega)] at ha
      simp only [Option.some.injEq] at ha
      subst ha
      simpa [Sched.iters] using hI.zero
    · simp only [Sched.iters] at h
      subst h
      refine ⟨by simp [Sched.sumF, hv]; omega, fun j a hj ha => ?_⟩
      simp only [Sched.sumF, List.foldl_cons, List.foldl_nil, List.take_replicate, Nat.min_eq_left hk] at ha
      rw [List.getElem?_append_left (by simp [hv]; omega), List.getElem?_zipWith_eq_some] at ha
      obtain ⟨z, b, hz, hb, rfl⟩ := ha
      simp only [List.getElem?_replicate] at hz
      split_ifs at hz
      simp only [Option.some.injEq] at hz
      subst hz
      simpa [Sched.iters] using hI.left hI.zero (hx j b hb)
  | .combine a b, h => by
    have hc : (a.iters = [] ∧ b.iters = []) ∨ (a.iters = [0] ∧ b.iters = []) ∨ (a.iters = [] ∧ b.iters = [0]) := by
      rcases h with h | h
      · simp only [Sched.iters, List.append_eq_nil_iff] at h
        exact .inl h
      · simp only [Sched.iters, List.append_eq_singleton_iff] at h
        rcases h with h | h
        · exact .inr (.inr h)
        · exact .inr (.inl h)
    have ha := sumF_one hI k pad hk v hv x hx a (by tauto)
    have hb := sumF_one hI k pad hk v hv x hx b (by tauto)
    refine ⟨by simp [Sched.sumF, ha.1, hb.1], fun j e hj he => ?_⟩
    simp only [Sched.sumF, List.getElem?_zipWith_eq_some] at he
    obtain ⟨p, q, hp, hq, rfl⟩ := he
    have h1 := ha.2 j p hj hp
    have h2 := hb.2 j q hj hq
    rcases hc with ⟨e1, e2⟩ | ⟨e1, e2⟩ | ⟨e1, e2⟩ <;> simp only [Sched.iters, e1, e2, List.append_nil, List.nil_append, if_true,
      List.cons_ne_nil, if_false] at h1 h2 ⊢
    · exact hI.left h1 h2
    · exact hI.right h1 h2
    · exact hI.left h1 h2

/-- The gradient of a batch with one sample is the gradient of the sample. -/
theorem batchGradF_one {I : F → ℝ → Prop} (hI : Neutral I) (env : CustomEnv F) (c : Cfg) (sched : Sched) (hs : sched.Covers 1)
    (loss : Loss) (X Y : View F) (nn : Net F) (hl : (sampleGrad env c loss X Y nn 0).length = nParams nn.layers) (x : ℕ → ℝ)
    (hx : ∀ (j : ℕ) a, (sampleGrad env c loss X Y nn 0)[j]? = some a → I a (x j)) (j : ℕ) (a : F) (hj : j < nParams nn.layers)
    (ha : (batchGradF env c sched loss X Y nn [0] 0 1)[j]? = some a) : I a (x j) := by
  have hit : sched.iters = [0] := List.perm_singleton.1 hs
  obtain ⟨h1, h2⟩ := sumF_one hI (nParams nn.layers) (nParamPadding c (nParams nn.layers)) (le_padding c _)
    (fun b => sampleGrad env c loss X Y nn ([0].getD (0 + b) 0)) hl x hx sched (.inr hit)
  simp only [batchGradF, List.getElem?_map, Option.map_eq_some_iff, List.getElem?_zipWith_eq_some] at ha
  obtain ⟨b, ⟨z, d, hz, hd, rfl⟩, rfl⟩ := ha
  simp only [List.getElem?_replicate, if_pos hj, Option.some.injEq] at hz
  subst hz
  rw [List.getElem?_take_of_lt hj] at hd
  have := h2 j d hj hd
  simp only [hit, List.cons_ne_nil, if_false] at this
  exact hI.div (hI.left hI.zero this)

theorem tests_eq (lr eps : F) : ∀ pre post grad : List F, post.length = pre.length → grad.length = pre.length →
    ∃ l, tests lr eps pre post grad = .ok (l, pre.length, l.count true) ∧ l.length = pre.length ∧
      ∀ (i : ℕ) p q g, pre[i]? = some p → post[i]? = some q → grad[i]? = some g → l[i]? = some (deviates lr eps p q g)
  | [], post, grad, _, _ => ⟨[], rfl, rfl, by simp⟩
  | p :: pre, q :: post, g :: grad, h1, h2 => by
    obtain ⟨l, e, hl, hi⟩ := tests_eq lr eps pre post grad (by simpa using h1) (by simpa using h2)
    refine ⟨deviates lr eps p q g :: l, ?_, by simp [hl], ?_⟩
    · simp only [tests, e, bind, Except.bind, pure, Except.pure, List.count_cons, List.length_cons, beq_iff_eq]
      cases deviates lr eps p q g <;> rfl
    · intro i p' q' g' hp hq hg
      cases i with
      | zero =>
        simp only [List.getElem?_cons_zero, Option.some.injEq] at hp hq hg ⊢
        rw [hp, hq, hg]
      | succ i =>
        simp only [List.getElem?_cons_succ] at hp hq hg ⊢
        exact hi i p' q' g' hp hq hg
  | _ :: _, [], _, h, _ => by simp at h
  | _ :: _, _ :: _, [], _, h => by simp at h

/-- An epoch of SGD with one sample is one step. -/
theorem epoch_one (env : CustomEnv F) (c : Cfg) (mem : ℕ → BatchMem F) (loss : Loss) (X Y : View F) (nn0 : Net F) (s : Sgd F) (w v : List F)
    (hs : OptAt c loss 1 X Y nn0 [0] s.opt w) (hv : WorkVec c (nParams nn0.layers) s.velocity v) (hb : 1 ≤ s.opt.batchsize)
    (hm : (mem 0).OK c (nParams nn0.layers) 1) (fuel : ℕ) (hf : 1 ≤ fuel) :
    ∃ s', sgdEpoch env c mem fuel 1 X Y s = .ok s' ∧ s'.opt.nn = nn0.setParams (sgdF s.momentum s.nesterov (decayLr s.lr s.decay s.nIter)
      (gradAt env c (mem 0).sched loss X Y nn0 [0] 0 1) w v).1 := by
  have hbl : batchLen 1 s.opt.batchsize 0 = 1 := by unfold batchLen; split_ifs <;> omega
  obtain ⟨s', h1, h2, -⟩ := sgdStep_eq env c mem loss 1 X Y nn0 0 s [0] w v hs hv (by rw [hbl]; exact hm)
  rw [hbl] at h1 h2
  obtain ⟨f, rfl⟩ : ∃ f, fuel = f + 1 := ⟨fuel - 1, by omega⟩
  refine ⟨s', ?_, h2.nn⟩
  simp only [sgdEpoch, trainLoop, Nat.lt_one_iff, if_true, h1, bind, Except.bind, Nat.zero_add]
  cases f <;> simp [trainLoop, pure, Except.pure]

end NN.UnitSgd
