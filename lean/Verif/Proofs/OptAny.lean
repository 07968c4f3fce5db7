import Verif.Model.Lifecycle
import Verif.Properties.RunEpoch
/-
Training with any optimizer, in any float arithmetic: every valid call of `optimizer_run_epoch` succeeds.
-/
set_option linter.unusedSimpArgs false

namespace NN
open FloatOps Spec
variable {F : Type}

/-- A work vector: aligned, one number for each parameter. -/
def VecOK (c : Cfg) (k : ℕ) (v : View F) : Prop := v.addr % c.alignSize = 0 ∧ v.data.length = k

theorem VecOK.work {c : Cfg} {k : ℕ} {v : View F} (h : VecOK c k v) : WorkVec c k v v.data := ⟨h.1, rfl, h.2⟩

theorem WorkVec.vecOK {c : Cfg} {k : ℕ} {v : View F} {l : List F} (h : WorkVec c k v l) : VecOK c k v :=
  ⟨h.aligned, by rw [h.data, h.len]⟩

/-- The work vectors of the optimizer. -/
def AnyOpt.Vecs (c : Cfg) (k : ℕ) : AnyOpt F → Prop
  | .sgd s => VecOK c k s.velocity
  | .adagrad s => VecOK c k s.r
  | .rmsprop s => VecOK c k s.velocity ∧ VecOK c k s.r
  | .adam s => VecOK c k s.s ∧ VecOK c k s.r

/-- An optimizer for `nn0` between two epochs. -/
structure AnyOpt.Ready (c : Cfg) (nn0 : Net F) (bs : ℕ) (s : AnyOpt F) : Prop where
  nn : ∃ w : List F, w.length = nParams nn0.layers ∧ s.opt.nn = nn0.setParams w
  bs : s.opt.batchsize = bs
  vecs : s.Vecs c (nParams nn0.layers)

/-- A call the documentation allows. -/
structure EpochCall.OK (c : Cfg) (loss : Loss) (nn0 : Net F) (bs : ℕ) (ms : List Metric) (k : EpochCall F) : Prop where
  pos : 1 ≤ k.n
  train : Trainable c loss k.n k.X k.Y nn0
  mem : ∀ i, (k.mem i).OK c (nParams nn0.layers) (batchLen k.n bs i)
  fuel : (k.n + bs - 1) / bs ≤ k.fuel
  evalMem : ∀ i, (k.evalMem i).workAddr % c.alignSize = 0 ∧ (k.evalMem i).predAddr % c.alignSize = 0
  evalMemV : ∀ i, (k.evalMemV i).workAddr % c.alignSize = 0 ∧ (k.evalMemV i).predAddr % c.alignSize = 0
  sched : k.sched.Covers k.n
  room : 2 * ms.length ≤ k.results.data.length
  valid : ∀ vX vY, k.valid = some (vX, vY) → k.schedV.Covers k.nValid ∧ k.nValid * nn0.nInput ≤ vX.data.length ∧
    k.nValid * nn0.nOutput ≤ vY.data.length

theorem AnyOpt.setPivot_opt (s : AnyOpt F) (p : Option (List ℕ)) : (s.setPivot p).opt = { s.opt with pivot := p } := by
  cases s <;> rfl

theorem AnyOpt.Ready.setPivot {c : Cfg} {nn0 : Net F} {bs : ℕ} {s : AnyOpt F} (h : s.Ready c nn0 bs)
    (p : Option (List ℕ)) : (s.setPivot p).Ready c nn0 bs := by
  refine ⟨?_, ?_, ?_⟩
  · rw [setPivot_opt]; exact h.nn
  · rw [setPivot_opt]; exact h.bs
  · have := h.vecs
    cases s <;> exact this

section
variable [FloatOps F]

/-- The epoch function. -/
theorem anyEpoch_ok (env : CustomEnv F) (c : Cfg) (loss : Loss) (nn0 : Net F) (bs : ℕ) (hbs : 1 ≤ bs) (ms : List Metric)
    (k : EpochCall F) (h : k.OK c loss nn0 bs ms) (st : Statics F) (s : AnyOpt F) (hs : s.Ready c nn0 bs)
    (order : List ℕ) (ho : order.Perm (List.range k.n)) (hp : s.opt.pivot = some order) :
    ∃ st' s', (anyKind env c k.mem k.fuel k.n k.X k.Y).epoch st s = .ok (st', s') ∧ s'.Ready c nn0 bs ∧
      s'.opt.pivot = some order ∧ s.opt.same s'.opt ∧ st'.nSample = st.nSample ∧ st'.metric = st.metric := by
  obtain ⟨w, hwl, hnn⟩ := hs.nn
  have hat : OptAt c loss k.n k.X k.Y nn0 order s.opt w :=
    ⟨h.train, hnn, hwl, by simpa using ho.length_eq, fun p hp => List.mem_range.mp (ho.mem_iff.mp hp), hp⟩
  have hb := hs.bs
  have hv := hs.vecs
  cases s with
  | sgd s =>
    obtain ⟨s', w', v', h1, h2, h3⟩ := (C28_sgd env c k.mem loss k.n k.X k.Y nn0 order bs hbs h.mem s w _ hb hat
      (VecOK.work hv)).1 k.fuel h.fuel
    have hsame := trainLoop_preserve k.n (sgdStep env c k.mem k.n k.X k.Y) (fun x => s.opt.same x.opt)
      (fun i a i' a' hst hq => hq.trans (sgdStep_same env c k.mem k.n k.X k.Y i a i' a' hst)) k.fuel 0 s s' h1
      ⟨rfl, rfl, rfl⟩
    exact ⟨st, .sgd s', by simp [anyKind, sgdKind, h1, bind, Except.bind, pure, Except.pure],
      ⟨⟨w', h2.wlen, h2.nn⟩, hsame.2.2.trans hb, h3.vecOK⟩, h2.pv, hsame, rfl, rfl⟩
  | adagrad s =>
    obtain ⟨s', w', v', h1, h2, h3⟩ := (C28_adagrad env c k.mem loss k.n k.X k.Y nn0 order bs hbs h.mem s w _ hb hat
      (VecOK.work hv)).1 k.fuel h.fuel
    have hsame := trainLoop_preserve k.n (adagradStep env c k.mem k.n k.X k.Y) (fun x => s.opt.same x.opt)
      (fun i a i' a' hst hq => hq.trans (adagradStep_same env c k.mem k.n k.X k.Y i a i' a' hst)) k.fuel 0 s s' h1
      ⟨rfl, rfl, rfl⟩
    exact ⟨st, .adagrad s', by simp [anyKind, adagradKind, h1, bind, Except.bind, pure, Except.pure],
      ⟨⟨w', h2.wlen, h2.nn⟩, hsame.2.2.trans hb, h3.vecOK⟩, h2.pv, hsame, rfl, rfl⟩
  | rmsprop s =>
    obtain ⟨s', w', v', r', h1, h2, h3, h4⟩ := (C28_rmsprop env c k.mem loss k.n k.X k.Y nn0 order bs hbs h.mem s w _ _
      hb hat (VecOK.work hv.1) (VecOK.work hv.2)).1 k.fuel h.fuel
    have hsame := trainLoop_preserve k.n (rmspropStep env c k.mem k.n k.X k.Y) (fun x => s.opt.same x.opt)
      (fun i a i' a' hst hq => hq.trans (rmspropStep_same env c k.mem k.n k.X k.Y i a i' a' hst)) k.fuel 0 s s' h1
      ⟨rfl, rfl, rfl⟩
    exact ⟨st, .rmsprop s', by simp [anyKind, rmspropKind, h1, bind, Except.bind, pure, Except.pure],
      ⟨⟨w', h2.wlen, h2.nn⟩, hsame.2.2.trans hb, h3.vecOK, h4.vecOK⟩, h2.pv, hsame, rfl, rfl⟩
  | adam s =>
    obtain ⟨p', s', w', v', r', h1, h2, h3, h4⟩ := (C28_adam env c k.mem loss k.n k.X k.Y nn0 order bs hbs h.mem
      (st.beta1, st.beta2) s w _ _ hb hat (VecOK.work hv.1) (VecOK.work hv.2)).1 k.fuel h.fuel
    have hsame := trainLoop_preserve k.n (adamStep env c k.mem k.n k.X k.Y) (fun x => s.opt.same x.2.opt)
      (fun i a i' a' hst hq => hq.trans (adamStep_same env c k.mem k.n k.X k.Y i a i' a' hst)) k.fuel 0 _ _ h1
      ⟨rfl, rfl, rfl⟩
    exact ⟨{ st with beta1 := p'.1, beta2 := p'.2 }, .adam s', by simp [anyKind, adamKind, h1, bind, Except.bind, pure, Except.pure],
      ⟨⟨w', h2.wlen, h2.nn⟩, hsame.2.2.trans hb, h3.vecOK, h4.vecOK⟩, h2.pv, hsame, rfl, rfl⟩

/-- One call. -/
theorem epochCall_ok (env : CustomEnv F) (c : Cfg) (loss : Loss) (nn0 : Net F) (bs : ℕ) (hbs : 1 ≤ bs) (ms : List Metric)
    (rest : List (Option Metric)) (k : EpochCall F) (h : k.OK c loss nn0 bs ms) (r : ℕ → ℕ) (q : ℕ) (st : Statics F)
    (s : AnyOpt F) (hs : s.Ready c nn0 bs) (hp : PivotInv st.nSample s.opt.pivot)
    (hms : metricsArray st s.opt.metrics = ms.map some ++ none :: rest) :
    ∃ st' s' q' train val, k.run env c r q st s = .ok (st', s', q', ⟨k.results.addr, train ++
        if k.valid.isSome ∧ 0 < k.nValid then val ++ k.results.data.drop (2 * ms.length)
        else k.results.data.drop ms.length⟩) ∧ train.length = ms.length ∧ val.length = ms.length ∧
      s'.Ready c nn0 bs ∧ PivotInv st'.nSample s'.opt.pivot ∧
      metricsArray st' s'.opt.metrics = ms.map some ++ none :: rest := by
  obtain ⟨order, q', h1, h2⟩ := C25_order r k.n st.nSample q s.opt.shuffle s.opt.pivot h.pos
    (by have := h.train.nlt; omega) hp
  obtain ⟨st', s', h3, h4, h5, h6, h7, h8⟩ := anyEpoch_ok env c loss nn0 bs hbs ms k h { st with nSample := k.n }
    (s.setPivot (some order)) (hs.setPivot _) order h2 (by rw [AnyOpt.setPivot_opt])
  rw [AnyOpt.setPivot_opt] at h6
  obtain ⟨w, hwl, hnn⟩ := h4.nn
  have hma : metricsArray st' s'.opt.metrics = ms.map some ++ none :: rest := by
    rw [h6.2.1, ← hms]
    simp only at h8
    simp only
    cases s.opt.metrics <;> simp [metricsArray, h8]
  have hwf := (h.train.setParams _ hwl).wf
  rw [← hnn] at hwf
  have hi : s'.opt.nn.nInput = nn0.nInput := by rw [hnn]; exact withParams_nInput nn0.layers _ _ _
  have ho : s'.opt.nn.nOutput = nn0.nOutput := by rw [hnn]; exact withParams_nOutput nn0.layers _ _ _
  obtain ⟨train, val, l1, l2, hrep⟩ := C37_safe env c k.evalMem k.evalMemV k.sched k.schedV s'.opt.nn hwf ms rest k.n
    k.X k.Y k.nValid k.valid k.results h.sched h.evalMem (by rw [hi]; exact h.train.xlen)
    (by rw [ho]; exact h.train.ylen) h.room h.evalMemV (by rw [hi, ho]; exact h.valid)
  refine ⟨st', s', q', train, val, ?_, l1, l2, h4, .inr ⟨order, h5, by rw [h7]; exact h2⟩, hma⟩
  simp only [EpochCall.run, runEpoch]
  have e1 : (anyKind env c k.mem k.fuel k.n k.X k.Y).opt = AnyOpt.opt := rfl
  have e2 : (anyKind env c k.mem k.fuel k.n k.X k.Y).setPivot = fun s p => s.setPivot p := rfl
  simp only [e1, e2, h1, bind, Except.bind, h3, hma, hrep, pure, Except.pure]

end
end NN
