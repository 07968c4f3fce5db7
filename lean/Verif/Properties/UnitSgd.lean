import Verif.Proofs.UnitSgd
import Verif.Proofs.OptFloat
import Verif.Properties.InitFloat
import Verif.Properties.NanFloat
/-
C80: tests/test_sgd.c.
-/
set_option linter.unusedSimpArgs false

namespace NN.UnitSgd
open FloatOps NN.Spec
variable {F : Type}

/-- What the program needs: memory, aligned arrays on the stack, random numbers that the rejection method accepts, and for the epoch
aligned stacks and schedules that cover the single sample. -/
structure Good [FloatOps F] (c : Cfg) (sys : Sys F) : Prop where
  alloc : ∀ i, sys.ok i = true
  addr : ∀ i, sys.addr i % c.alignSize = 0
  vec1 : ∃ a, sys.vec1 = some a ∧ a % c.alignSize = 0
  rand : Accepting F sys.rnd sys.fuel
  grad : sys.grad % c.alignSize = 0
  work : sys.work % c.alignSize = 0
  mem : ∀ i, (sys.epoch.mem i).OK c 2780 (batchLen 1 16 i)
  fuel : 1 ≤ sys.epoch.fuel
  evalMem : ∀ i, (sys.epoch.evalMem i).workAddr % c.alignSize = 0 ∧ (sys.epoch.evalMem i).predAddr % c.alignSize = 0
  evalMemV : ∀ i, (sys.epoch.evalMemV i).workAddr % c.alignSize = 0 ∧ (sys.epoch.evalMemV i).predAddr % c.alignSize = 0
  sched : sys.epoch.sched.Covers 1

section
variable [FloatOps F]

abbrev metrics : List Metric := [.bce, .mse, .binaryAccuracy]

abbrev ones (n : ℕ) : List F := List.replicate n one

/-- The program as a job (see C63). -/
def job (sys : Sys F) : Job F where
  sizes := [64, 32, 16, 8, 4]
  funcs := [some "relu", some "relu", some "relu", some "sigmoid"]
  inits := none
  loss := "binary_crossentropy"
  shuffle := true
  batchsize := 16
  metrics := some [some .bce, some .mse, some .binaryAccuracy, none]
  settings := .sgd (lit 1 100) zero zero false
  calls := []
  file := ""
  ok := sys.ok
  addr := sys.addr
  junk := sys.junk
  vec1 := sys.vec1
  vec2 := sys.vec1
  dl := sys.dl
  rand := sys.rnd
  fuel := sys.fuel

theorem Good.fine {c : Cfg} {sys : Sys F} (g : Good c sys) : (job sys).Fine c .bce metrics 64 4 where
  layers := by simp [job]
  few := by simp [job]
  pos := by simp [job]
  first := rfl
  last := rfl
  small := by simp [job]
  names := rfl
  builtin := by
    intro s hs
    simp only [job, List.mem_cons, Option.some.injEq, List.not_mem_nil, or_false] at hs
    rcases hs with rfl | rfl | rfl | rfl <;> simp [builtins]
  inits := by simp [job]
  lossName := by simp only [job]; decide
  batch := by simp [job]
  metrics := ⟨[], rfl⟩
  mem := g.alloc
  addr := g.addr
  vec1 := g.vec1
  vec2 := g.vec1
  rand := g.rand
  calls := by simp [job]
  file := by simp only [job]; decide

/-- The run, in any arithmetic in which `0 < 0` is false. -/
theorem run_core {c : Cfg} {sys : Sys F} (g : Good c sys) (hz : lt (zero : F) zero = false) (env : CustomEnv F) (recs : List ActRecord)
    (hrecs : RecsNamed recs) (h : Heap) (hh : h.WF) (rs : RandState F) (st : Statics F) (hst : st.nSample = 0) :
    ∃ (out : Outcome F) (nn : Net F), main env c sys recs h rs st = .ok out ∧ nn.WF c ∧ nn.loss = some .bce ∧
      nn.layers.map (fun l => (l.nIn, l.nOut)) = [(64, 32), (32, 16), (16, 8), (8, 4)] ∧
      (∀ (work : ℕ) (jk : ℕ → F) (X Y G : View F), work % c.alignSize = 0 → G.addr % c.alignSize = 0 → X.data = ones 64 → Y.data = ones 4 →
        G.data.length = 2780 → backpropagation env c work jk nn X Y G = .ok ⟨G.addr, out.grad⟩) ∧
      out.pre = params nn.layers ∧ out.pre.length = 2780 ∧ out.grad.length = 2780 ∧
      (∀ {I : F → ℝ → Prop}, Neutral I → ∀ x : ℕ → ℝ, (∀ (j : ℕ) a, out.grad[j]? = some a → I a (x j)) →
        ∃ G : List F, G.length = 2780 ∧ (∀ (j : ℕ) a, G[j]? = some a → I a (x j)) ∧
          out.post = List.zipWith add out.pre (G.map fun a => mul a (neg (lit 1 100)))) ∧
      out.post.length = 2780 ∧
      (∀ (i : ℕ) p q e, out.pre[i]? = some p → out.post[i]? = some q → out.grad[i]? = some e →
        out.failed[i]? = some (deviates (lit 1 100) (lit 1 1000000) p q e)) ∧ out.failed.length = 2780 ∧
      out.nTests = 2780 ∧ out.nFail = out.failed.count true ∧
      ∃ (nn0 nn1 : Net F) (rs1 : RandState F), nn0.Sized ∧ nn0.layers.map (fun l => (l.nIn, l.nOut)) = [(64, 32), (32, 16), (16, 8), (8, 4)] ∧
        (∀ l ∈ nn0.layers, l.act = .relu ∨ l.act = .sigmoid) ∧
        initializeNN sys.rnd sys.fuel recs none (some nn0) rs = .ok (some nn1, rs1) ∧ params nn.layers = params nn1.layers := by
  have hj := g.fine
  have hw : VectorWidths c true 0 (describeLayers [64, 32, 16, 8, 4] .bce [some "relu", some "relu", some "relu", some "sigmoid"]) := by
    simp [describeLayers, fastDerivatives, fastDerivative, VectorWidths]
  obtain ⟨nn, kk, w2, hl2, hz2, -, hderiv2, hin2, hout2, -, hdesc, net, hp, nn1, rs1, e1, e2, e3, e4, hsz0, hch0, hzz0, -⟩ := Job.steps_sized _ c .bce metrics 64 4 hj
    recs hrecs h hh rs
  have halign : ∀ ga, ga % c.alignSize = 0 → BackAligned c ga 0 nn.layers := fun ga hga =>
    (backAligned_iff hga nn.layers 0 w2.layer).2 (by
      rw [show describeLayers [64, 32, 16, 8, 4] .bce [some "relu", some "relu", some "relu", some "sigmoid"] = nn.described from
        hdesc.symm] at hw
      exact hw)
  have hk : nParams nn.layers = 2780 := hz2.nParams
  obtain ⟨v1, hv1, hv1'⟩ := g.vec1
  have hcall : (call sys ⟨sys.input, ones 64⟩ ⟨sys.target, ones 4⟩ 3).OK c .bce nn 16 metrics := by
    refine EpochCall.Fits.ok' ?_ w2 hl2 hderiv2 halign
    rw [hin2, hout2, hk]
    exact ⟨by simp [call], by simp [call], by simp [call], by simp [call], by simp [call], by simp [call], g.mem, by simpa [call] using g.fuel,
      g.evalMem, g.evalMemV, g.sched, by simp [call], by simp [call]⟩
  obtain ⟨st1, s1, rest, hnew, hR, hnn, hP, hM⟩ := newAny_ok c .bce nn w2 hl2 st hst true 16 (by norm_num)
    (some [some .bce, some .mse, some .binaryAccuracy, none]) metrics ⟨[], rfl⟩ v1 v1 hv1' hv1' (.sgd (lit 1 100) zero zero false)
  have hnew' : newAny st nn true 16 (some [some .bce, some .mse, some .binaryAccuracy, none]) (some v1) none
      (.sgd (lit 1 100) zero zero false) = .ok (st1, s1) := hnew
  have hset := (C63_new _ _ _ _ _ _ _ _ _ _ hnew).1
  have hmet := TestSgd.newAny_metrics hnew
  -- the epoch
  obtain ⟨s0, rfl⟩ : ∃ s0, s1 = .sgd s0 := by
    cases s1 with
    | sgd s0 => exact ⟨s0, rfl⟩
    | _ => simp [AnyOpt.settings] at hset
  simp only [AnyOpt.settings, Settings.sgd.injEq] at hset
  obtain ⟨s1, s2, s3, s4⟩ := hset
  have hbs : s0.opt.batchsize = 16 := hR.bs
  have hnn0 : s0.opt.nn = nn := hnn
  obtain ⟨order, q', o1, o2⟩ := C25_order sys.rnd.r 1 st1.nSample rs1.k s0.opt.shuffle s0.opt.pivot le_rfl (by norm_num) hP
  have ho : order = [0] := List.perm_singleton.1 (by simpa using o2)
  subst ho
  have hpl : (params nn.layers).length = 2780 := by rw [params_length c _ w2.layer, hk]
  have hself := setParams_self c nn w2
  obtain ⟨s', t1, t2⟩ := epoch_one env c sys.epoch.mem .bce ⟨sys.input, ones 64⟩ ⟨sys.target, ones 4⟩ nn
    { s0 with opt := { s0.opt with pivot := some [0] } } (params nn.layers) s0.velocity.data
    ⟨hcall.train, by rw [hself]; exact hnn0, by rw [hpl, hk], rfl, by simp, rfl⟩ (VecOK.work hR.vecs) (by simp [hbs])
    (by rw [hk]; simpa [batchLen] using g.mem 0) sys.epoch.fuel g.fuel
  obtain ⟨stE, sE, qE, train, val, hrun, -, -, -, -, -⟩ := epochCall_ok env c .bce nn 16 (by norm_num) metrics rest _ hcall sys.rnd.r rs1.k
    st1 (.sgd s0) hR hP hM
  have hsE : sE.opt.nn = s'.opt.nn := by
    have hx := hrun
    have t1' : (anyKind env c sys.epoch.mem sys.epoch.fuel 1 ⟨sys.input, ones 64⟩ ⟨sys.target, ones 4⟩).epoch { st1 with nSample := 1 }
        ((AnyOpt.sgd s0).setPivot (some [0])) = .ok ({ st1 with nSample := 1 }, .sgd s') := by
      simp only [anyKind, sgdKind, AnyOpt.setPivot, t1, bind, Except.bind, pure, Except.pure]
    have e1 : (anyKind env c sys.epoch.mem sys.epoch.fuel 1 ⟨sys.input, ones 64⟩ ⟨sys.target, ones 4⟩).opt = AnyOpt.opt := rfl
    have e2 : (anyKind env c sys.epoch.mem sys.epoch.fuel 1 ⟨sys.input, ones 64⟩ ⟨sys.target, ones 4⟩).setPivot = fun s p => s.setPivot p := rfl
    have o1' : setupPivot sys.rnd.r true 1 st1.nSample rs1.k (AnyOpt.sgd s0).opt.shuffle (AnyOpt.sgd s0).opt.pivot = .ok (1, some [0], q') := o1
    simp only [EpochCall.run, runEpoch, call, e1, e2, o1'] at hx
    obtain ⟨⟨x1, x2, x3⟩, hx1, hx⟩ := bind_ok hx
    simp only [Except.ok.injEq, Prod.mk.injEq] at hx1
    obtain ⟨rfl, rfl, rfl⟩ := hx1
    obtain ⟨⟨y1, y2⟩, hy, hx⟩ := bind_ok hx
    simp only [] at hy
    rw [t1'] at hy
    simp only [Except.ok.injEq, Prod.mk.injEq] at hy
    obtain ⟨rfl, rfl⟩ := hy
    obtain ⟨z, -, hx⟩ := bind_ok hx
    simp only [pure, Except.pure, Except.ok.injEq, Prod.mk.injEq] at hx
    rw [← hx.2.1]
    rfl
  obtain ⟨w, hwdef⟩ : ∃ w, w = (sgdF s0.momentum s0.nesterov (decayLr s0.lr s0.decay s0.nIter)
      (gradAt env c (sys.epoch.mem 0).sched .bce ⟨sys.input, ones 64⟩ ⟨sys.target, ones 4⟩ nn [0] 0 1) (params nn.layers)
      s0.velocity.data).1 := ⟨_, rfl⟩
  obtain ⟨G, hG⟩ : ∃ G, G = batchGradF env c (sys.epoch.mem 0).sched .bce ⟨sys.input, ones 64⟩ ⟨sys.target, ones 4⟩ nn [0] 0 1 := ⟨_, rfl⟩
  have hw1 : w = List.zipWith add (params nn.layers) (G.map fun a => mul a (neg (lit 1 100))) := by
    rw [hwdef, hG]
    simp only [sgdF, s1, s2, s3, hz, decayLr, Bool.false_and, Bool.false_eq_true, if_false, gradAt, hself]
  have hGl : G.length = 2780 := by
    have := gradAt_length env c (sys.epoch.mem 0) .bce 1 ⟨sys.input, ones 64⟩ ⟨sys.target, ones 4⟩ nn hcall.train 16 0
      (by rw [hk]; exact g.mem 0) [0] rfl (by simp) 1 (params nn.layers) (by rw [hpl, hk])
    rw [gradAt, hself, hk] at this
    rw [hG]; exact this
  have hwl : w.length = 2780 := by rw [hw1]; simp [hpl, hGl]
  have hpost : sE.opt.nn = nn.setParams w := by rw [hsE, t2, hwdef]
  have hpostp : params sE.opt.nn.layers = w := by rw [hpost]; exact setParams_params nn w (by rw [hwl, hk])
  have hpostw : ∀ l ∈ sE.opt.nn.layers, l.WF c := by
    rw [hpost]; exact withParams_wf c _ _ (by rw [hwl, hk]) w2.layer
  have hpostk : nParams sE.opt.nn.layers = 2780 := by rw [hpost, setParams_nParams, hk]
  obtain ⟨gr, hgr⟩ : ∃ gr, gr = gradF env c nn .bce (ones 64) (ones 4) := ⟨_, rfl⟩
  have hback : ∀ (work : ℕ) (jk : ℕ → F) (X Y G : View F), work % c.alignSize = 0 → G.addr % c.alignSize = 0 → X.data = ones 64 →
      Y.data = ones 4 → G.data.length = 2780 → backpropagation env c work jk nn X Y G = .ok ⟨G.addr, gr⟩ := by
    intro work jk X Y G hwk hga hX hY hgl
    rw [backpropagation_eq env c work jk nn X Y G .bce w2 hwk hga hl2 hderiv2 (by rw [hX, hin2]; simp) (by rw [hY, hout2]; simp)
      (by rw [hk, hgl]) (halign _ hga), hX, hY, hin2, hout2, hk, List.drop_eq_nil_of_le (by rw [hgl]), List.append_nil,
      List.take_of_length_le (by simp), List.take_of_length_le (by simp), hgr]
  have hgrl : gr.length = 2780 := by
    rw [hgr, ← hk]
    exact gradF_length env c nn .bce _ _ w2 (by rw [hout2]; simp)
  have hsg : sampleGrad env c .bce ⟨sys.input, ones 64⟩ ⟨sys.target, ones 4⟩ nn 0 = gr := by
    rw [sampleGrad, hin2, hout2, hgr]; rfl
  have htot : totalNParameters nn = .ok 2780 := by
    suffices hs : ∀ l ∈ nn.layers, (l.nIn + 1) * l.nOut < 2 ^ 31 by
      rw [totalNParameters, totalNParametersLoop_eq _ _ hs (by norm_num), hk]
      rfl
    intro l hl
    have : (l.nIn, l.nOut) ∈ ([64, 32, 16, 8, 4] : List ℕ).zip [32, 16, 8, 4] := by
      have h0 : nn.layers.map (fun l => (l.nIn, l.nOut)) = ([64, 32, 16, 8, 4] : List ℕ).zip [32, 16, 8, 4] := hz2
      rw [← h0]; exact List.mem_map_of_mem (f := fun l : Layer F => (l.nIn, l.nOut)) hl
    simp only [List.zip_cons_cons, List.zip_nil_right, List.mem_cons, Prod.mk.injEq, List.not_mem_nil, or_false] at this
    rcases this with ⟨a, b⟩ | ⟨a, b⟩ | ⟨a, b⟩ | ⟨a, b⟩ <;> rw [a, b] <;> norm_num
  have hsl : ∀ a, (stackArray a 2780 sys.stack : View F).data.length = 2780 := fun a => stackArray_length' a _ _
  obtain ⟨l, hl1, hl3, hl4⟩ := tests_eq (lit 1 100 : F) (lit 1 1000000) (params nn.layers) w gr (by rw [hwl, hpl]) (by rw [hgrl, hpl])
  rw [hpl] at hl1 hl3
  have ec : createNN sys.ok sys.dl 4 [64, 32, 16, 8, 4] (some [some "relu", some "relu", some "relu", some "sigmoid"]) recs h =
      .ok (some net, recs, hp) := e1
  have e2' : initializeNN sys.rnd sys.fuel recs none (some (net.toNet sys.addr sys.junk)) rs = .ok (some nn1, rs1) := e2
  have e3' : nn = setLoss recs nn1 "binary_crossentropy" := e3
  have hg1 := hback sys.work sys.workJunk ⟨sys.input, ones 64⟩ ⟨sys.target, ones 4⟩ (stackArray sys.grad 2780 sys.stack) g.work g.grad rfl rfl
    (hsl _)
  have hp1 := getParameters_eq c nn (stackArray sys.pre 2780 sys.stack) w2.layer (by rw [hk, hsl])
  have hp2 := getParameters_eq c sE.opt.nn (stackArray sys.post 2780 sys.stack) hpostw (by rw [hpostk, hsl])
  rw [hk, List.drop_eq_nil_of_le (by rw [hsl]), List.append_nil] at hp1
  rw [hpostk, List.drop_eq_nil_of_le (by rw [hsl]), List.append_nil, hpostp] at hp2
  refine ⟨⟨gr, params nn.layers, w, l, 2780, l.count true⟩, nn, ?_, w2, hl2, hz2, hback, rfl, hpl, hgrl, ?_, hwl, hl4, hl3, rfl, rfl,
    net.toNet sys.addr sys.junk, nn1, rs1, hsz0, hzz0, ?_, e2', ?_⟩
  · simp only [main, bind, Except.bind, ec, e2', ← e3', htot, hl2, show getMetricFunc (getLossName (some Loss.bce)) = some Metric.bce by decide,
      show getMetricFunc "mean_squared_error" = some Metric.mse by decide,
      show getMetricFunc "binary_accuracy" = some Metric.binaryAccuracy by decide, hv1, hnew', hmet,
      show metricList [some Metric.bce, some .mse, some .binaryAccuracy, none] = .ok metrics from metricList_eq metrics [], hg1, hp1,
      List.length_cons, List.length_nil, Nat.zero_add, Nat.reduceAdd, hrun, hp2, hl1, pure, Except.pure]
  · intro I hI x hx
    refine ⟨G, hGl, fun j a ha => ?_, hw1⟩
    have hj : j < 2780 := by rw [← hGl]; exact (List.getElem?_eq_some_iff.1 ha).1
    rw [hG] at ha
    exact batchGradF_one hI env c _ (by simpa [batchLen] using (g.mem 0).covers) .bce _ _ nn (by rw [hsg, hgrl, hk]) x
      (by rw [hsg]; exact hx) j a (by rw [hk]; exact hj) ha
  · have hb : ∀ {n : String} {a : Act}, Chosen sys.dl (some n) a → ∀ b ∈ builtins, n = b.1 → (∀ b' ∈ builtins, n = b'.1 → b'.2.1 = b.2.1) →
        a = b.2.1 := by
      intro n a hc b hb hn hu
      rcases hc with ⟨b', h1, h2, rfl⟩ | ⟨h1, -⟩
      · exact hu b' h1 h2
      · exact absurd hn (h1 b hb)
    have hch0' : List.Forall₂ (fun name (l : Layer F) => Chosen sys.dl name l.act)
      [some "relu", some "relu", some "relu", some "sigmoid"] (net.toNet sys.addr sys.junk).layers := hch0
    have hr : ∀ {l : Layer F}, Chosen sys.dl (some "relu") l.act → l.act = .relu := fun h =>
      hb h ("relu", .relu, .relu) (by simp [builtins]) rfl (by simp [builtins])
    have hs : ∀ {l : Layer F}, Chosen sys.dl (some "sigmoid") l.act → l.act = .sigmoid := fun h =>
      hb h ("sigmoid", .sigmoid, .sigmoid) (by simp [builtins]) rfl (by simp [builtins])
    generalize (net.toNet sys.addr sys.junk : Net F).layers = ls at hch0'
    cases hch0' with | cons a1 r1 => ?_
    cases r1 with | cons a2 r2 => ?_
    cases r2 with | cons a3 r3 => ?_
    cases r3 with | cons a4 r4 => ?_
    cases r4
    intro l hl
    simp only [List.mem_cons, List.not_mem_nil, or_false] at hl
    rcases hl with rfl | rfl | rfl | rfl
    · exact .inl (hr a1)
    · exact .inl (hr a2)
    · exact .inl (hr a3)
    · exact .inr (hs a4)
  · rw [e3']
    have h1 : ∀ ls : List (Layer F), params ls = params (ls.map fun l => { l with deriv := none }) := by
      intro ls; simp [params, List.flatMap_map]
    have h2 := setLoss_erase recs nn1 "binary_crossentropy"
    simp only [eraseDeriv] at h2
    rw [h1, h2, ← h1]

end

/-! ### Exact arithmetic -/

theorem neutral_real : Neutral (F := ℝ) (fun a x => a = x) where
  zero := rfl
  left h1 h2 := by subst h1 h2; simp [FloatOps.add]
  right h1 h2 := by subst h1 h2; simp [FloatOps.add]
  div h := by subst h; simp [FloatOps.div, FloatOps.ofNat]

/-- The condition of line 85, exact: a test fails exactly if the parameter did not move by -lr times the gradient, up to the tolerance. -/
theorem C80_detects (lr eps p q e : ℝ) : deviates lr eps p q e = true ↔ eps < |q - (p - lr * e)| := by
  simp only [deviates, FloatOps.lt, FloatOps.abs, FloatOps.add, FloatOps.sub, FloatOps.mul, decide_eq_true_eq]
  rw [show q - p + lr * e = q - (p - lr * e) by ring]

/-- **C80** tests/test_sgd.c in exact arithmetic: in every build, with every schedule of the threads and all random numbers, the 2780
tests pass; the epoch moved every parameter by -0.01 times what `neuralnet_backpropagation` returns for the one sample. -/
theorem C80_exact {c : Cfg} {sys : Sys ℝ} (g : Good c sys) (env : CustomEnv ℝ) (recs : List ActRecord) (hrecs : RecsNamed recs) (h : Heap)
    (hh : h.WF) (rs : RandState ℝ) (st : Statics ℝ) (hst : st.nSample = 0) :
    ∃ (out : Outcome ℝ) (nn : Net ℝ), main env c sys recs h rs st = .ok out ∧ out.nTests = 2780 ∧ out.nFail = 0 ∧
      nn.layers.map (fun l => (l.nIn, l.nOut)) = [(64, 32), (32, 16), (16, 8), (8, 4)] ∧ nn.loss = some .bce ∧
      out.pre = nn.layers.flatMap (fun l => l.bias.data ++ l.weight.data) ∧
      (∀ (work : ℕ) (jk : ℕ → ℝ) (X Y G : View ℝ), work % c.alignSize = 0 → G.addr % c.alignSize = 0 → X.data = List.replicate 64 1 →
        Y.data = List.replicate 4 1 → G.data.length = 2780 → backpropagation env c work jk nn X Y G = .ok ⟨G.addr, out.grad⟩) ∧
      out.grad.length = 2780 ∧ out.post = List.zipWith (fun p g => p - g / 100) out.pre out.grad := by
  obtain ⟨out, nn, h1, -, h2, h3, h4, h5, h6, h7, h8, h9, h10, h11, h12, h13, -⟩ := run_core g (by simp [FloatOps.lt, FloatOps.zero]) env recs
    hrecs h hh rs st hst
  obtain ⟨G, g1, g2, g3⟩ := h8 neutral_real (fun j => out.grad.getD j 0) (fun j a ha => by simp [List.getD_eq_getElem?_getD, ha])
  have hG : G = out.grad := by
    apply List.ext_getElem (by rw [g1, h7])
    intro i a b
    have := g2 i _ (List.getElem?_eq_getElem a)
    rw [this]; simp [List.getD_eq_getElem?_getD, b]
  subst hG
  have hpost : out.post = List.zipWith (fun p g => p - g / 100) out.pre out.grad := by
    rw [g3, List.zipWith_map_right]
    congr 1
    funext p g
    simp only [FloatOps.add, FloatOps.mul, FloatOps.neg, FloatOps.lit]
    push_cast
    ring
  refine ⟨out, nn, h1, h12, ?_, h3, h2, h5, h4, h7, hpost⟩
  rw [h13, List.count_eq_zero]
  intro hm
  obtain ⟨i, hi⟩ := List.getElem?_of_mem hm
  have hlt : i < 2780 := by rw [← h11]; exact (List.getElem?_eq_some_iff.1 hi).1
  have ep := List.getElem?_eq_getElem (show i < out.pre.length by rw [h6]; exact hlt)
  have eg := List.getElem?_eq_getElem (show i < out.grad.length by rw [h7]; exact hlt)
  have eq : out.post[i]? = some (out.pre[i]'(by rw [h6]; exact hlt) - out.grad[i]'(by rw [h7]; exact hlt) / 100) := by
    rw [hpost, List.getElem?_zipWith_eq_some]
    exact ⟨_, _, ep, eg, rfl⟩
  have := h10 i _ _ _ ep eq eg
  rw [hi] at this
  have := (C80_detects _ _ _ _ _).1 (Option.some.inj this).symm
  generalize out.pre[i]'(by rw [h6]; exact hlt) = p at this
  generalize out.grad[i]'(by rw [h7]; exact hlt) = e at this
  rw [show p - e / 100 - (p - lit 1 100 * e) = 0 by simp only [FloatOps.lit]; push_cast; ring, abs_zero] at this
  simp only [FloatOps.lit] at this
  norm_num at this

/-! ### IEEE arithmetic -/

open B32 hiding add sub mul div neg abs lt le

theorem neutral_b32 (L : Libm) : @Neutral B32 (ops L) Is :=
  let _ := ops L
  { zero := is_zeroS false
    left := fun {a b x} h1 h2 => by
      have h3 : |(0 : ℝ) + x| < maxF32 + 2 ^ 103 := by rw [zero_add, ← h2.2]; have := value_abs_le h2.1; linarith [show (0:ℝ) < 2 ^ 103 by positivity]
      have h4 := add_is' h1 h2 h3
      rw [zero_add, rnd_is h2] at h4; exact h4
    right := fun {a b x} h1 h2 => by
      have h3 : |x + (0 : ℝ)| < maxF32 + 2 ^ 103 := by rw [add_zero, ← h1.2]; have := value_abs_le h1.1; linarith [show (0:ℝ) < 2 ^ 103 by positivity]
      have h4 := add_is' h1 h2 h3
      rw [add_zero, rnd_is h1] at h4; exact h4
    div := fun {a x} h1 => by
      have h2 : Is (FloatOps.ofNat 1 : B32) 1 := by
        have : Is (ofReal false ((1 : ℕ) : ℝ)) 1 := by rw [Nat.cast_one]; exact is_one
        exact this
      have h4 := div_is h1 h2 one_ne_zero (by rw [div_one, ← h1.2]; exact value_abs_le h1.1)
      rw [div_one, rnd_is h1] at h4; exact h4 }

theorem is_rate (L : Libm) : let _ := ops L; ∃ l : ℝ, Is (lit 1 100 : B32) l ∧ |l - 1 / 100| ≤ 1 / 10 ^ 9 := by
  intro _
  refine ⟨rnd (((1 : ℤ) : ℝ) / ((100 : ℕ) : ℝ)), is_ofReal (small_le_max (by norm_num)), ?_⟩
  have := rnd_abs' (((1 : ℤ) : ℝ) / ((100 : ℕ) : ℝ))
  norm_num at this ⊢
  linarith

theorem is_tolerance (L : Libm) : let _ := ops L; ∃ e : ℝ, Is (lit 1 1000000 : B32) e ∧ |e - 1 / 10 ^ 6| ≤ 1 / 10 ^ 13 := by
  intro _
  refine ⟨rnd (((1 : ℤ) : ℝ) / ((1000000 : ℕ) : ℝ)), is_ofReal (small_le_max (by norm_num)), ?_⟩
  have := rnd_abs' (((1 : ℤ) : ℝ) / ((1000000 : ℕ) : ℝ))
  norm_num at this ⊢
  linarith

/-- One parameter: the step and the test. -/
theorem passes (L : Libm) {p e e' : B32} {P x : ℝ} (hp : Is p P) (he : Is e x) (he' : Is e' x) (hb : |P| + |x| / 50 ≤ 16) :
    let _ := ops L
    deviates (lit 1 100) (lit 1 1000000) p (add p (mul e' (neg (lit 1 100)))) e = false := by
  intro _
  obtain ⟨l, hl, hl'⟩ := is_rate L
  obtain ⟨t, ht, ht'⟩ := is_tolerance L
  have hP0 := abs_nonneg P
  have hx0 := abs_nonneg x
  have hx : |x| ≤ 800 := by linarith
  have hlb := abs_le.1 hl'
  have hl0 : 0 ≤ l := by linarith [hlb.1]
  have hlx : |l * x| ≤ |x| / 100 + 1 / 10 ^ 6 := by
    rw [abs_mul, abs_of_nonneg hl0]
    have : l * |x| ≤ (1 / 100 + 1 / 10 ^ 9) * |x| := mul_le_mul_of_nonneg_right (by linarith [hlb.2]) hx0
    linarith
  have hlx8 : |l * x| ≤ 9 := by linarith
  -- the products
  have hy := mul_is (b := neg (lit 1 100)) he' (is_neg hl) (small_le_max (by
    rw [show x * -l = -(l * x) by ring, abs_neg]; exact hlx8.trans (by norm_num)))
  rw [show x * -l = -(l * x) by ring, rnd_neg] at hy
  have hz := mul_is hl he (small_le_max (hlx8.trans (by norm_num)))
  obtain ⟨y, hyd⟩ : ∃ y, y = rnd (l * x) := ⟨_, rfl⟩
  have hyb : |y| ≤ |x| / 100 + 2 / 10 ^ 6 := by
    have h1 := rnd_abs' (l * x)
    have h2 : |y| ≤ |y - l * x| + |l * x| := by
      have := abs_add_le (y - l * x) (l * x); rwa [sub_add_cancel] at this
    rw [← hyd] at h1
    linarith
  rw [← hyd] at hy hz
  -- the step
  have hq := add_is hp hy (small_le_max (by
    have := abs_add_le P (-y); rw [abs_neg] at this; exact this.trans (by linarith)))
  obtain ⟨q, hqd⟩ : ∃ q, q = rnd (P + -y) := ⟨_, rfl⟩
  have hqe : |q - (P - y)| ≤ 1 / 16777216 * (|P| + |y|) + 1 / 10 ^ 30 := by
    have h1 := rnd_abs' (P + -y)
    have h2 := abs_add_le P (-y)
    rw [abs_neg] at h2
    rw [← hqd, ← sub_eq_add_neg] at h1
    rw [← sub_eq_add_neg] at h2
    linarith
  rw [← hqd] at hq
  -- the difference
  have hqP : |q - P| ≤ |y| + 1 / 10 ^ 6 := by
    have h2 := abs_add_le (q - (P - y)) (-y)
    rw [abs_neg, show q - (P - y) + -y = q - P by ring] at h2
    linarith
  have hd := sub_is hq hp (small_le_max (hqP.trans (by linarith)))
  obtain ⟨d, hdd⟩ : ∃ d, d = rnd (q - P) := ⟨_, rfl⟩
  have hde : |d - (q - P)| ≤ 1 / 16777216 * (|y| + 1 / 10 ^ 6) + 1 / 10 ^ 30 := by
    have h1 := rnd_abs' (q - P)
    rw [← hdd] at h1
    linarith
  rw [← hdd] at hd
  have hdy : |d + y| ≤ 955 / 10 ^ 9 := by
    have h2 := abs_add_le (d - (q - P)) (q - (P - y))
    rw [show d - (q - P) + (q - (P - y)) = d + y by ring] at h2
    linarith
  have hr := add_is hd hz (small_le_max (hdy.trans (by norm_num)))
  have hre : |rnd (d + y)| ≤ 956 / 10 ^ 9 := by
    have h1 := rnd_abs' (d + y)
    have h2 := abs_add_le (rnd (d + y) - (d + y)) (d + y)
    rw [sub_add_cancel] at h2
    linarith
  have hlt := lt_iff ht (abs_is hr)
  have hn : ¬ t < |rnd (d + y)| := by
    have := (abs_le.1 ht').1
    intro h; linarith
  have : ¬ B32.lt (lit 1 1000000 : B32) (B32.abs (B32.add (B32.sub (B32.add p (B32.mul e' (B32.neg (lit 1 100)))) p)
    (B32.mul (lit 1 100) e))) = true := fun h => hn (hlt.1 h)
  exact Bool.eq_false_iff.2 this

/-- **C80** tests/test_sgd.c in IEEE arithmetic, with any libm, in every build and with every schedule of the threads: the program
completes its 2780 tests, and the test of a parameter w with gradient g passes if both are finite and |w| + |g|/50 ≤ 16; so if that
holds of all of them, no failure is counted. -/
theorem C80_float (L : Libm) {c : Cfg} {sys : Sys B32} (g : @Good B32 (ops L) c sys) (env : CustomEnv B32) (recs : List ActRecord)
    (hrecs : RecsNamed recs) (h : Heap) (hh : h.WF) (rs : RandState B32) (st : Statics B32) (hst : st.nSample = 0) :
    let _ := ops L
    ∃ (out : Outcome B32) (nn : Net B32), main env c sys recs h rs st = .ok out ∧ out.nTests = 2780 ∧
      nn.layers.map (fun l => (l.nIn, l.nOut)) = [(64, 32), (32, 16), (16, 8), (8, 4)] ∧ nn.loss = some .bce ∧
      out.pre = nn.layers.flatMap (fun l => l.bias.data ++ l.weight.data) ∧ out.pre.length = 2780 ∧ out.grad.length = 2780 ∧
      (∀ (work : ℕ) (jk : ℕ → B32) (X Y G : View B32), work % c.alignSize = 0 → G.addr % c.alignSize = 0 →
        X.data = List.replicate 64 one → Y.data = List.replicate 4 one → G.data.length = 2780 →
        backpropagation env c work jk nn X Y G = .ok ⟨G.addr, out.grad⟩) ∧
      ((∀ a ∈ out.grad, a.isFinite = true) →
        (∀ (i : ℕ) p e, out.pre[i]? = some p → out.grad[i]? = some e → p.isFinite = true → |p.value| + |e.value| / 50 ≤ 16 →
          out.failed[i]? = some false) ∧
        ((∀ (i : ℕ) p e, out.pre[i]? = some p → out.grad[i]? = some e → p.isFinite = true ∧ |p.value| + |e.value| / 50 ≤ 16) →
          out.nFail = 0)) ∧
      (L.Accurate → sys.rnd.WF → sys.rnd.randMax < 2 ^ 32 → OffCentre sys.rnd → Carried rs →
        (∀ p ∈ out.pre, p.isFinite = true ∧ |p.value| ≤ 41 / 10) ∧
        ((∀ e ∈ out.grad, e.isFinite = true ∧ |e.value| ≤ 590) → out.nFail = 0)) := by
  let _ := ops L
  have hz : lt (zero : B32) zero = false := by
    have := lt_iff (is_zeroS false) (is_zeroS false)
    have h2 : ¬ B32.lt (zeroS false) (zeroS false) = true := fun h => lt_irrefl _ (this.1 h)
    exact Bool.eq_false_iff.2 h2
  obtain ⟨out, nn, h1, -, h2, h3, h4, h5, h6, h7, h8, h9, h10, h11, h12, h13, nn0, nn1, rs1, k1, k2, k3, k4, k5⟩ := run_core g hz env recs
    hrecs h hh rs st hst
  have one : (∀ a ∈ out.grad, a.isFinite = true) → ∀ (i : ℕ) p e, out.pre[i]? = some p → out.grad[i]? = some e → p.isFinite = true →
      |p.value| + |e.value| / 50 ≤ 16 → out.failed[i]? = some false := by
    intro hf i p e hp he hpf hb
    obtain ⟨G, g1, g2, g3⟩ := h8 (neutral_b32 L) (fun j => (out.grad.getD j (zeroS false)).value) (fun j a ha =>
      ⟨hf a (List.mem_of_getElem? ha), by simp [List.getD_eq_getElem?_getD, ha]⟩)
    have hlt : i < 2780 := by rw [← h7]; exact (List.getElem?_eq_some_iff.1 he).1
    have eG := List.getElem?_eq_getElem (show i < G.length by rw [g1]; exact hlt)
    generalize G[i]'(by rw [g1]; exact hlt) = e' at eG
    have v' := g2 i e' eG
    simp only [List.getD_eq_getElem?_getD, he, Option.getD_some] at v'
    have eq : out.post[i]? = some (add p (mul e' (neg (lit 1 100)))) := by
      rw [g3, List.getElem?_zipWith_eq_some]
      exact ⟨p, _, hp, by rw [List.getElem?_map, eG]; rfl, rfl⟩
    rw [h10 i _ _ _ hp eq he, passes L ⟨hpf, rfl⟩ ⟨hf e (List.mem_of_getElem? he), rfl⟩ v' hb]
  have all : (∀ a ∈ out.grad, a.isFinite = true) → (∀ (i : ℕ) p e, out.pre[i]? = some p → out.grad[i]? = some e → p.isFinite = true ∧
      |p.value| + |e.value| / 50 ≤ 16) → out.nFail = 0 := by
    intro hf hb
    rw [h13, List.count_eq_zero]
    intro hm
    obtain ⟨i, hi⟩ := List.getElem?_of_mem hm
    have hlt : i < 2780 := by rw [← h11]; exact (List.getElem?_eq_some_iff.1 hi).1
    have ep := List.getElem?_eq_getElem (show i < out.pre.length by rw [h6]; exact hlt)
    have eg := List.getElem?_eq_getElem (show i < out.grad.length by rw [h7]; exact hlt)
    obtain ⟨b1, b2⟩ := hb i _ _ ep eg
    have := one hf i _ _ ep eg b1 b2
    rw [hi] at this
    simp at this
  refine ⟨out, nn, h1, h12, h3, h2, h5, h6, h7, h4, fun hf => ⟨one hf, all hf⟩, fun hL hg h32 ho hc => ?_⟩
  have hw : ∀ p ∈ out.pre, p.isFinite = true ∧ |p.value| ≤ 41 / 10 := by
    have hW := (C54_float_weights hL hg h32 ho hrecs k1 hc k4).2
    have hlen := (C54_values hrecs k1 k4).2.1
    intro p hp
    rw [h5, k5] at hp
    simp only [params, List.mem_flatMap, List.mem_append] at hp
    obtain ⟨l', hl', hp⟩ := hp
    obtain ⟨i, hi⟩ := List.getElem?_of_mem hl'
    have hlt : i < nn0.layers.length := by rw [← hlen]; exact (List.getElem?_eq_some_iff.1 hi).1
    obtain ⟨w1, w2⟩ := hW i _ l' "" (List.getElem?_eq_getElem hlt) hi rfl
    have hmem : nn0.layers[i] ∈ nn0.layers := List.getElem_mem hlt
    have hact := k3 _ hmem
    have hsz : (nn0.layers[i].nIn, nn0.layers[i].nOut) ∈ [(64, 32), (32, 16), (16, 8), (8, 4)] := by
      rw [← k2]; exact List.mem_map_of_mem (f := fun l : Layer B32 => (l.nIn, l.nOut)) hmem
    have h8 : 8 ≤ nn0.layers[i].nIn := by
      simp only [List.mem_cons, Prod.mk.injEq, List.not_mem_nil, or_false] at hsz
      omega
    generalize nn0.layers[i] = l at *
    have h8' : (8 : ℝ) ≤ (l.nIn : ℝ) := by exact_mod_cast h8
    rcases hp with hp | hp
    · have := w2 p hp
      exact ⟨this.1, by rw [this.2]; norm_num⟩
    · obtain ⟨v1, v2⟩ := w1 p hp
      refine ⟨v1, v2.trans ?_⟩
      have hs : ∀ y : ℝ, y ≤ 1 → √y ≤ 1 := fun y hy => by rw [Real.sqrt_le_left one_pos.le]; simpa using hy
      rcases hact with ha | ha
      · rw [ha, show schemeOf "" .relu = .kaiming from rfl]
        have h3 : √(2 / (l.nIn : ℝ)) ≤ 1 / 2 := by
          rw [Real.sqrt_le_left (by norm_num), div_le_iff₀ (by linarith)]
          linarith
        simp only []
        linarith
      · rw [ha, show schemeOf "" .sigmoid = .xavier from rfl]
        have h3 := hs (6 / ((l.nIn + l.nOut : ℕ) : ℝ)) (by
          push_cast
          rw [div_le_one (by positivity)]
          have : (0 : ℝ) ≤ l.nOut := Nat.cast_nonneg _
          linarith)
        have h4 := Real.sqrt_nonneg (6 / ((l.nIn + l.nOut : ℕ) : ℝ))
        simp only []
        nlinarith
  refine ⟨hw, fun hgr => all (fun a ha => (hgr a ha).1) fun i p e hp he => ?_⟩
  obtain ⟨p1, p2⟩ := hw p (List.mem_of_getElem? hp)
  obtain ⟨e1, e2⟩ := hgr e (List.mem_of_getElem? he)
  exact ⟨p1, by linarith⟩

/-- 2^20 - y rounds to 2^20. -/
theorem rnd_big {y : ℝ} (h0 : 0 < y) (h1 : y ≤ 1 / 50) : rnd (1048576 + -y) = 1048576 := by
  have hu : ulpExp (1048576 + -y) = -4 := by
    have hl : Int.log 2 |1048576 + -y| = 19 := by
      rw [abs_of_nonneg (by linarith)]
      apply le_antisymm
      · have := (Int.lt_zpow_iff_log_lt (b := 2) (by norm_num) (x := 20) (show (0 : ℝ) < 1048576 + -y by linarith)).1 (by norm_num; linarith)
        omega
      · exact (Int.zpow_le_iff_le_log (b := 2) (by norm_num) (show (0 : ℝ) < 1048576 + -y by linarith)).1 (by norm_num; linarith)
    rw [ulpExp, hl]; norm_num
  have he := rnd_error (1048576 + -y)
  have hr : rnd (1048576 + -y) = (mant (1048576 + -y) : ℝ) * 2 ^ (-4 : ℤ) := by
    rw [rnd, if_neg (by rw [not_lt]; linarith), hu]
  rw [hr, hu] at he
  generalize mant (1048576 + -y) = m at *
  rw [hr]
  norm_num at he ⊢
  rw [abs_le] at he
  have h3 : (m : ℝ) < 16777217 := by linarith [he.2]
  have h4 : (16777215 : ℝ) < m := by linarith [he.1]
  have h5 : m < 16777217 := by exact_mod_cast h3
  have h6 : 16777215 < m := by exact_mod_cast h4
  have : m = 16777216 := by omega
  rw [this]; norm_num

theorem nan_abs {a : B32} (h : a.isNan = true) : (B32.abs a).isNan = true := by
  have hb := a.bits.isLt
  have hn : (B32.abs a).bits.toNat = a.bits.toNat % 2 ^ 31 := by simp only [B32.abs, BitVec.toNat_ofNat]; omega
  have he : (B32.abs a).expField = a.expField := by unfold expField; rw [hn]; omega
  have hm : (B32.abs a).mantField = a.mantField := by unfold mantField; rw [hn]; omega
  unfold isNan at h ⊢
  rw [he, hm]; exact h

/-- **C80** (negation) The test does not see NaN: wherever the parameter before, the parameter after or the gradient is NaN no failure is counted, so
that a library which answers NaN for every gradient passes all tests. -/
theorem C80_nan_false (L : Libm) : let _ := ops L
    ∀ (lr eps : B32) (pre post grad : List B32), post.length = pre.length → grad.length = pre.length →
      (∀ (i : ℕ) p q e, pre[i]? = some p → post[i]? = some q → grad[i]? = some e → p.isNan = true ∨ q.isNan = true ∨ e.isNan = true) →
      tests lr eps pre post grad = .ok (List.replicate pre.length false, pre.length, 0) := by
  let _ := ops L
  intro _ lr eps pre
  induction pre with
  | nil => intro post grad _ _ _; rfl
  | cons p pre ih =>
    intro post grad h1 h2 h
    obtain ⟨q, post, rfl⟩ := List.exists_cons_of_length_eq_add_one h1
    obtain ⟨e, grad, rfl⟩ := List.exists_cons_of_length_eq_add_one h2
    have hd : deviates lr eps p q e = false := by
      refine lt_nan_right _ (nan_abs ?_)
      rcases h 0 p q e rfl rfl rfl with hn | hn | hn
      · exact add_nan_left _ (sub_nan_right _ hn)
      · exact add_nan_left _ (sub_nan_left _ hn)
      · exact add_nan_right _ (mul_nan_right _ hn)
    simp only [List.length_cons, Nat.add_right_cancel_iff] at h1 h2
    rw [tests, ih post grad h1 h2 (fun i p' q' e' k1 k2 k3 => h (i + 1) p' q' e' k1 k2 k3)]
    simp only [bind, Except.bind, hd, List.length_cons, List.replicate_succ]
    rfl

/-- Three parameters that were not touched, and gradients that are all NaN. -/
example (L : Libm) : let _ := ops L
    tests (lit 1 100) (lit 1 1000000) [one, one, zero] [one, one, zero] [qnan, qnan, qnan] = .ok ([false, false, false], 3, 0) := by
  let _ := ops L
  refine C80_nan_false L (FloatOps.lit 1 100) (FloatOps.lit 1 1000000) [FloatOps.one, FloatOps.one, FloatOps.zero] _ _ rfl rfl ?_
  intro i p q e _ _ h
  have hm := List.mem_of_getElem? h
  simp only [List.mem_cons, List.not_mem_nil, or_false, or_self] at hm
  exact .inr (.inr (hm ▸ isNan_qnan))

/-- **C80 is false** without a bound on the parameters: the tolerance of the test is absolute.  For a parameter 2^20 with gradient 1 the
step of SGD, rounded as well as `float` can, leaves the parameter as it is, and the test counts a failure. -/
theorem C80_large_false (L : Libm) : let _ := ops L
    ∃ p e q : B32, Is p 1048576 ∧ Is e 1 ∧ q = add p (mul e (neg (lit 1 100))) ∧ Is q 1048576 ∧
      deviates (lit 1 100) (lit 1 1000000) p q e = true := by
  let _ := ops L
  obtain ⟨l, hl, hl'⟩ := is_rate L
  obtain ⟨t, ht, ht'⟩ := is_tolerance L
  have hlb := abs_le.1 hl'
  have hp : Is (ofReal false (((1048576 : ℤ) : ℝ) / ((1 : ℕ) : ℝ))) 1048576 := by
    have := is_lit (p := 1048576) (q := 1) 0 (by norm_num) (by norm_num) (by norm_num)
    simpa using this
  have he := is_one
  generalize ofReal false (((1048576 : ℤ) : ℝ) / ((1 : ℕ) : ℝ)) = p at hp
  generalize ofReal false 1 = e at he
  have hy := mul_is he (is_neg hl) (small_le_max (by rw [one_mul, abs_neg, abs_of_nonneg (by linarith)]; norm_num; linarith))
  rw [one_mul, rnd_neg, rnd_is hl] at hy
  have hq := add_is hp hy (small_le_max (by rw [abs_of_nonneg (by linarith)]; norm_num; linarith))
  rw [rnd_big (by linarith) (by linarith)] at hq
  have hd := sub_is hq hp (small_le_max (by norm_num))
  rw [sub_self, rnd_zero] at hd
  have hz := mul_is hl he (small_le_max (by rw [mul_one, abs_of_nonneg (by linarith)]; norm_num; linarith))
  rw [mul_one, rnd_is hl] at hz
  have hr := add_is hd hz (small_le_max (by rw [zero_add, abs_of_nonneg (by linarith)]; norm_num; linarith))
  rw [zero_add, rnd_is hl] at hr
  refine ⟨p, e, _, hp, he, rfl, hq, (lt_iff ht (abs_is hr)).2 ?_⟩
  rw [abs_of_nonneg (by linarith)]
  linarith [(abs_le.1 ht').2]

/-! ### Examples -/

/-- A system with memory at multiples of 64 and one thread. -/
def exSys (rnd : Rand) (fuel : ℕ) (jk : ℕ → F) (dl : DynLinker) : Sys F where
  ok _ := true
  addr i := 64 * i
  junk _ := jk
  vec1 := some 640
  dl := dl
  rnd := rnd
  fuel := fuel
  grad := 4096
  pre := 8192
  post := 16384
  input := 100
  target := 200
  stack := jk
  work := 32768
  workJunk := jk
  epoch :=
    { n := 0
      X := ⟨0, []⟩
      Y := ⟨0, []⟩
      nValid := 0
      valid := none
      mem := fun i => ⟨.combine (.thread []) (.thread (List.range (batchLen 1 16 i))), fun _ => ⟨4096, jk, 8192, jk, 12⟩, 16384,
        jk, 16, 32768, jk⟩
      fuel := 1
      evalMem := fun _ => ⟨4096, jk, 8192, jk⟩
      evalMemV := fun _ => ⟨4096, jk, 8192, jk⟩
      sched := .thread [0]
      schedV := .thread []
      results := ⟨0, []⟩ }

theorem exGood [FloatOps F] {rnd : Rand} {fuel : ℕ} (h : Accepting F rnd fuel) (c : Cfg) (jk : ℕ → F) (dl : DynLinker) :
    Good c (exSys rnd fuel jk dl) where
  alloc _ := rfl
  addr i := align64 c _ (by simp [exSys])
  vec1 := ⟨640, rfl, align64 c _ rfl⟩
  rand := h
  grad := align64 c 4096 rfl
  work := align64 c 32768 rfl
  mem i := by
    refine ⟨?_, fun _ => align64 c 4096 rfl, fun _ => align64 c 8192 rfl, align64 c 16384 rfl, align64 c 32768 rfl, ?_⟩
    · simp only [Sched.Covers, exSys, Sched.iters, List.nil_append]
      exact List.Perm.refl _
    · simp only [exSys, nParamPadding]
      split <;> omega
  fuel := le_rfl
  evalMem _ := ⟨align64 c 4096 rfl, align64 c 8192 rfl⟩
  evalMemV _ := ⟨align64 c 4096 rfl, align64 c 8192 rfl⟩
  sched := by simp [Sched.Covers, exSys, Sched.iters]

/-- The program on this system, in every build: the weights are at most 4.1, and if the gradients are at most 590 no test fails. -/
example (env : CustomEnv B32) (c : Cfg) (jk : ℕ → B32) (dl : DynLinker) :
    let _ := ops zeroLibm
    ∃ out : Outcome B32, main env c (exSys exRand31 1 jk dl) [] ⟨0, []⟩ ⟨0, zeroS false, zeroS false, false⟩ Statics.initial = .ok out ∧
      out.nTests = 2780 ∧ (∀ p ∈ out.pre, p.isFinite = true ∧ |p.value| ≤ 41 / 10) ∧
      ((∀ e ∈ out.grad, e.isFinite = true ∧ |e.value| ≤ 590) → out.nFail = 0) := by
  let _ := ops zeroLibm
  obtain ⟨out, nn, h1, h2, -, -, -, -, -, -, -, h3⟩ := C80_float zeroLibm (exGood (exRand31_accepting zeroLibm) c jk dl) env []
    (by intro r hr; cases hr) ⟨0, []⟩ ⟨by simp, by simp⟩ ⟨0, zeroS false, zeroS false, false⟩ Statics.initial rfl
  obtain ⟨h4, h5⟩ := h3 zeroLibm_accurate exRand31_wf (show (2147483647 : ℕ) < 2 ^ 32 by norm_num) exRand31_off
    (by intro h; cases h)
  exact ⟨out, h1, h2, h4, h5⟩

/-- In exact arithmetic no test fails. -/
example (env : CustomEnv ℝ) (c : Cfg) (jk : ℕ → ℝ) (dl : DynLinker) :
    ∃ out : Outcome ℝ, main env c (exSys ⟨fun _ => 5, 7⟩ 1 jk dl) [] ⟨0, []⟩ ⟨0, 0, 0, false⟩ Statics.initial = .ok out ∧
      out.nTests = 2780 ∧ out.nFail = 0 := by
  obtain ⟨out, nn, h1, h2, h3, -⟩ := C80_exact (exGood exAccepting c jk dl) env [] (by intro r hr; cases hr) ⟨0, []⟩ ⟨by simp, by simp⟩
    ⟨0, 0, 0, false⟩ Statics.initial rfl
  exact ⟨out, h1, h2, h3⟩

/-- A step with the wrong sign is found. -/
example : deviates (1 / 100 : ℝ) (1 / 10 ^ 6) 1 (1 + 1 / 100 * 2) 2 = true := (C80_detects _ _ _ _ _).2 (by rw [lt_abs]; left; norm_num)

end NN.UnitSgd
