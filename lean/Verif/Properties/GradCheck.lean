import Verif.Proofs.GradCheckRun
import Verif.Properties.NanFloat
/-
C82: tests/test_backpropagation.c.
-/
set_option linter.unusedSimpArgs false

namespace NN.GradCheck
open FloatOps NN.Spec
variable {F : Type}

/-- What the program needs: memory, aligned arrays, and random numbers that the rejection method accepts. -/
structure Good [FloatOps F] (c : Cfg) (sys : Sys F) : Prop where
  alloc : ∀ i, sys.ok i = true
  addr : ∀ i, sys.addr i % c.alignSize = 0
  rand : Accepting F sys.rnd sys.fuel
  grad0 : sys.grad0 % c.alignSize = 0
  grad1 : sys.grad1 % c.alignSize = 0
  input : sys.input % c.alignSize = 0
  target : sys.target % c.alignSize = 0
  output : sys.output % c.alignSize = 0
  work : sys.work % c.alignSize = 0

/-- The network that the program makes in lines 26-32. -/
def Made [FloatOps F] (sys : Sys F) (recs : List ActRecord) (h : Heap) (rs : RandState F) (nn : Net F) : Prop :=
  ∃ net h1 nn1 rs1, createNN sys.ok sys.dl 2 [214, 64, 5] (some [some "tanh", some "sigmoid"]) recs h = .ok (some net, recs, h1) ∧
    initializeNN sys.rnd sys.fuel recs none (some (net.toNet sys.addr sys.junk)) rs = .ok (some nn1, rs1) ∧
    nn = setLoss recs nn1 "mean_squared_error"

section
variable [FloatOps F]

/-- The program as a job (see C63). -/
def job (sys : Sys F) : Job F where
  sizes := [214, 64, 5]
  funcs := [some "tanh", some "sigmoid"]
  inits := none
  loss := "mean_squared_error"
  shuffle := false
  batchsize := 1
  metrics := some [none]
  settings := .sgd zero zero zero false
  calls := []
  file := ""
  ok := sys.ok
  addr := sys.addr
  junk := sys.junk
  vec1 := some 0
  vec2 := some 0
  dl := sys.dl
  rand := sys.rnd
  fuel := sys.fuel

theorem fine {c : Cfg} {sys : Sys F} (g : Good c sys) : (job sys).Fine c .mse [] 214 5 where
  layers := by simp [job]
  few := by simp [job]
  pos := by simp [job]
  first := rfl
  last := rfl
  small := by simp [job]
  names := rfl
  builtin := by
    intro s hs; simp only [job, List.mem_cons, Option.some.injEq, List.not_mem_nil, or_false] at hs
    rcases hs with rfl | rfl <;> simp [builtins]
  inits := by simp [job]
  lossName := by simp only [job]; decide
  batch := by simp [job]
  metrics := ⟨[], rfl⟩
  mem := g.alloc
  addr := g.addr
  vec1 := ⟨0, rfl, by simp⟩
  vec2 := ⟨0, rfl, by simp⟩
  rand := g.rand
  calls := by simp [job]
  file := by simp only [job]; decide

omit [FloatOps F] in
theorem chosen_builtin {dl : DynLinker} {s : String} {a b : Act} (h : Chosen dl (some s) a) (d : ActDeriv) (hb : (s, b, d) ∈ builtins)
    (hu : ∀ q ∈ builtins, s = q.1 → q.2.1 = b) : a = b := by
  rcases h with ⟨q, hq, e1, e2⟩ | ⟨h, -⟩
  · rw [e2]; exact hu q hq e1
  · exact absurd rfl (h _ hb)

/-- The program up to the first prediction. -/
theorem main_start (env : CustomEnv F) {c : Cfg} {sys : Sys F} (g : Good c sys) (recs : List ActRecord) (hrecs : RecsNamed recs) (h : Heap)
    (hh : h.WF) (rs : RandState F) : ∃ (nn : Net F) (l1 l2 : Layer F), Made sys recs h rs nn ∧ Two c nn l1 l2 ∧ l1.nIn = 214 ∧ l1.nOut = 64 ∧
      l2.nIn = 64 ∧ l2.nOut = 5 ∧ nParams nn.layers = 14085 ∧ VectorWidths c true 0 nn.described ∧
      (∃ (nn0 nn1 : Net F) (rs1 : RandState F) (l : Layer F), initializeNN sys.rnd sys.fuel recs none (some nn0) rs = .ok (some nn1, rs1) ∧
        nn0.Sized ∧ nn0.layers[1]? = some l ∧ l.act = .sigmoid ∧ l.nIn = 64 ∧ l.nOut = 5 ∧
        ∃ l', nn1.layers[1]? = some l' ∧ l'.weight = l2.weight) ∧
      main env c sys recs h rs = (do
        let output ← predict env c sys.work sys.workJunk nn ⟨sys.input, List.replicate 214 one⟩ (stackArray sys.output 5 sys.stack)
        let J0 ← runMetric .mse 5 output ⟨sys.target, List.replicate 5 one⟩
        let grad0 ← backpropagation env c sys.work sys.workJunk nn ⟨sys.input, List.replicate 214 one⟩ ⟨sys.target, List.replicate 5 one⟩
          (stackArray sys.grad0 14085 sys.stack)
        let (l, bs, n, f, st) ← loop env c sys .mse 5 ⟨sys.input, List.replicate 214 one⟩ ⟨sys.target, List.replicate 5 one⟩ grad0 J0
          (lit 1 10000) (lit 1 100) 14085 0 ⟨⟨sys.delta, List.replicate 14085 zero⟩, nn, output, stackArray sys.grad1 14085 sys.stack⟩
        pure ⟨l, bs, n, f, st.nn⟩) := by
  obtain ⟨nn, kk, w2, hl2, hz2, hch2, hderiv2, hin2, hout2, -, hdesc, net, h1, nn1, rs1, e1, e2, e3, -, hsz, hch0, hz0, hw1, hp1, hb1, w0, wn1, al⟩ :=
    Job.steps_sized _ c .mse [] 214 5 (fine g) recs hrecs h hh rs
  have hcr : createNN sys.ok sys.dl 2 [214, 64, 5] (some [some "tanh", some "sigmoid"]) recs h = .ok (some net, recs, h1) := e1
  have hini : initializeNN sys.rnd sys.fuel recs none (some (net.toNet sys.addr sys.junk)) rs = .ok (some nn1, rs1) := e2
  have hset : nn = setLoss recs nn1 "mean_squared_error" := e3
  have hz : nn.layers.map (fun l => (l.nIn, l.nOut)) = [(214, 64), (64, 5)] := hz2
  have hz0' : (net.toNet sys.addr sys.junk : Net F).layers.map (fun l => (l.nIn, l.nOut)) = [(214, 64), (64, 5)] := hz0
  have hch : List.Forall₂ (fun name (l : Layer F) => Chosen sys.dl name l.act) [some "tanh", some "sigmoid"] nn.layers := hch2
  have hch0' : List.Forall₂ (fun name (l : Layer F) => Chosen sys.dl name l.act) [some "tanh", some "sigmoid"]
    (net.toNet sys.addr sys.junk : Net F).layers := hch0
  obtain ⟨l1, l2, hls⟩ : ∃ l1 l2, nn.layers = [l1, l2] := by
    have := congrArg List.length hz
    simp only [List.length_map, List.length_cons, List.length_nil] at this
    exact List.length_eq_two.1 this
  obtain ⟨k1, k2, hks⟩ : ∃ l1 l2, (net.toNet sys.addr sys.junk : Net F).layers = [l1, l2] := by
    have := congrArg List.length hz0'
    simp only [List.length_map, List.length_cons, List.length_nil] at this
    exact List.length_eq_two.1 this
  rw [hls] at hz hch
  rw [hks] at hz0' hch0'
  simp only [List.map_cons, List.map_nil, List.cons.injEq, Prod.mk.injEq, and_true] at hz hz0'
  simp only [List.forall₂_cons, List.forall₂_nil_left_iff, and_true] at hch hch0'
  have a1 : l1.act = .tanh := chosen_builtin hch.1 .tanh (by simp [builtins]) (by simp [builtins])
  have a2 : l2.act = .sigmoid := chosen_builtin hch.2 .sigmoid (by simp [builtins]) (by simp [builtins])
  have a2' : k2.act = .sigmoid := chosen_builtin hch0'.2 .sigmoid (by simp [builtins]) (by simp [builtins])
  obtain ⟨j1, j2, hjs⟩ : ∃ l1 l2, nn1.layers = [l1, l2] := by
    have := al.length_eq
    rw [hls] at this
    exact List.length_eq_two.1 (by simpa using this)
  have elf : getLossFunc "mean_squared_error" = some .mse := by decide
  have hlay : nn.layers = [resetDeriv recs j1, resetDeriv recs j2] := by
    have al' := al
    rw [hls, hjs] at al'
    simp only [List.forall₂_cons, List.forall₂_nil_left_iff, and_true] at al'
    rw [hset]
    simp only [setLoss, elf, hjs, List.map_cons, List.map_nil, matchPair]
    simp
  have hT : Two c nn l1 l2 := by
    have hq := hlay
    rw [hls] at hq
    simp only [List.cons.injEq, and_true] at hq
    refine ⟨hls, hl2, w2, a1, a2, ?_, ?_⟩
    · rw [hq.1] at a1 ⊢; simp only [resetDeriv] at a1 ⊢; simp [a1, getActivationDerivative]
    · rw [hq.2] at a2 ⊢; simp only [resetDeriv] at a2 ⊢; simp [a2, getActivationDerivative]
  have hk : nParams nn.layers = 14085 := hz2.nParams
  have htot : totalNParameters nn = .ok 14085 := by
    have hs : ∀ l ∈ nn.layers, (l.nIn + 1) * l.nOut < 2 ^ 31 := by
      rw [hls]; intro l hl; simp only [List.mem_cons, List.not_mem_nil, or_false] at hl
      rcases hl with rfl | rfl
      · rw [hz.1.1, hz.1.2]; norm_num
      · rw [hz.2.1, hz.2.2]; norm_num
    rw [totalNParameters, totalNParametersLoop_eq _ _ hs (by norm_num), hk, Nat.zero_add, Nat.mod_eq_of_lt (by norm_num)]
  have hv : VectorWidths c true 0 nn.described := by
    have : nn.described = describeLayers [214, 64, 5] .mse [some "tanh", some "sigmoid"] := hdesc
    rw [this]
    exact ⟨by simp, by simp, by simp, by simp, trivial⟩
  have hm : getMetricFunc (getLossName nn.loss) = some .mse := by rw [hl2]; decide
  refine ⟨nn, l1, l2, ⟨net, h1, nn1, rs1, hcr, hini, hset⟩, hT, hz.1.1, hz.1.2, hz.2.1, hz.2.2, hk, hv,
    ⟨_, nn1, rs1, k2, hini, hsz, by simp [hks], a2', hz0'.2.1, hz0'.2.2, j2, by simp [hjs], ?_⟩, ?_⟩
  · have hq := hlay
    rw [hls] at hq
    simp only [List.cons.injEq, and_true] at hq
    rw [hq.2]; rfl
  · have i1 : isAligned c sys.input = true := by simp [isAligned, g.input]
    have i2 : isAligned c sys.target = true := by simp [isAligned, g.target]
    have i3 : isAligned c sys.output = true := by simp [isAligned, g.output]
    simp only [main, hcr, hini, ← hset, hm, htot, i1, i2, i3, bind, Except.bind, Bool.and_self, Bool.not_true, Bool.false_eq_true, if_false]

omit [FloatOps F] in
theorem stack_len (a n : ℕ) (jk : ℕ → F) : (stackArray a n jk).data.length = n := by simp [stackArray]

/-- **C82** The program in any arithmetic and any build: it runs to the end, makes one test for each of the 14085 parameters, reports as failures
the tests whose two numbers differ by more than ε, and leaves a network of the same form. -/
theorem C82_runs (env : CustomEnv F) {c : Cfg} {sys : Sys F} (g : Good c sys) (recs : List ActRecord) (hrecs : RecsNamed recs) (h : Heap)
    (hh : h.WF) (rs : RandState F) : ∃ o, main env c sys recs h rs = .ok o ∧ o.nTests = 14085 ∧ o.compared.length = 14085 ∧
      o.failed = o.compared.map (fun p : F × F => lt (lit 1 100) (FloatOps.abs (sub p.1 p.2))) ∧ o.nFail = (o.failed.filter id).length ∧
      o.nn.layers.map (fun l => (l.nIn, l.nOut, l.act)) = [(214, 64, .tanh), (64, 5, .sigmoid)] ∧ o.nn.loss = some .mse := by
  obtain ⟨nn, l1, l2, -, hT, z1, z2, z3, z4, hk, hv, -, hm⟩ := main_start env g recs hrecs h hh rs
  have hp := hT.gpredict env sys.work sys.workJunk ⟨sys.input, List.replicate 214 one⟩ (stackArray sys.output 5 sys.stack) g.work g.output
    (List.length_replicate.trans z1.symm) ((stack_len _ _ _).trans z4.symm)
  obtain ⟨J0, hJ⟩ := runMetric_ok .mse 5 (by norm_num) ⟨sys.output, netF env c 0 nn.layers (List.replicate 214 one)⟩
    ⟨sys.target, List.replicate 5 one⟩ (Nat.le_of_eq ((hT.gnet_length env _).trans z4).symm) (Nat.le_of_eq List.length_replicate.symm)
  have hb := hT.gback env hv sys.work sys.workJunk ⟨sys.input, List.replicate 214 one⟩ ⟨sys.target, List.replicate 5 one⟩
    (stackArray sys.grad0 14085 sys.stack) g.work g.grad0 (List.length_replicate.trans z1.symm) (List.length_replicate.trans z4.symm) ((stack_len _ _ _).trans hk.symm)
  have hgl := hT.ggrad_length env (List.replicate 214 one) (List.replicate 5 one) (List.length_replicate.trans z4.symm)
  obtain ⟨l, st', e, ⟨-, l1', l2', hT', y1, y2, y3, y4, -, -⟩, hl, -⟩ := loop_eq env c sys .mse 5 ⟨sys.input, List.replicate 214 one⟩
    ⟨sys.target, List.replicate 5 one⟩ ⟨sys.grad0, gradF env c nn .mse (List.replicate 214 one) (List.replicate 5 one)⟩ J0 (lit 1 10000)
    (lit 1 100) 14085 (fun st => Shape c 5 14085 st ∧ ∃ l1 l2, Two c st.nn l1 l2 ∧ l1.nIn = 214 ∧ l1.nOut = 64 ∧ l2.nIn = 64 ∧ l2.nOut = 5 ∧
      nParams st.nn.layers = 14085 ∧ VectorWidths c true 0 st.nn.described) (fun _ _ _ => True) (by
      rintro i hi st ⟨hs, m1, m2, hT, y1, y2, y3, y4, hk', hv'⟩
      obtain ⟨st', g1, J1, e1, e2, e3, -, -⟩ := step_eq env g.work hT hv' ⟨sys.input, List.replicate 214 one⟩ ⟨sys.target, List.replicate 5 one⟩
        ⟨sys.grad0, gradF env c nn .mse (List.replicate 214 one) (List.replicate 5 one)⟩ (List.length_replicate.trans y1.symm) (List.length_replicate.trans y4.symm) (by rw [hgl, hk, hk']) J0
        (lit 1 10000) i (by omega) st (by rw [y4, hk']; exact hs) rfl
      rw [y4, hk'] at e2
      rw [y4] at e1
      obtain ⟨n1, n2, t1, a1, a2, a3, a4, a5, a6⟩ := hT.nudge i (lit 1 10000)
      obtain ⟨n1', n2', t1', b1, b2, b3, b4, b5, b6⟩ := t1.nudge i (neg (lit 1 10000))
      refine ⟨st', _, _, e1, ⟨e2, n1', n2', by rw [e3]; exact t1', by omega, by omega, by omega, by omega, by rw [e3, b6, a6, hk'], ?_⟩, trivial⟩
      rw [e3, b5, a5]; exact hv')
    14085 0 ⟨⟨sys.delta, List.replicate 14085 zero⟩, nn, ⟨sys.output, netF env c 0 nn.layers (List.replicate 214 one)⟩,
      stackArray sys.grad1 14085 sys.stack⟩ (by norm_num)
    ⟨⟨rfl, g.output, by rw [hT.gnet_length env, z4], g.grad1, stack_len _ _ _⟩, l1, l2, hT, z1, z2, z3, z4, hk, hv⟩
  refine ⟨⟨l, l.map fun p => deviates (lit 1 100) p.1 p.2, 14085, (l.filter fun p => deviates (lit 1 100) p.1 p.2).length, st'.nn⟩, ?_, rfl, hl, rfl,
    ?_, ?_, hT'.loss⟩
  · rw [hm, hp]
    simp only [bind, Except.bind]
    have : (stackArray sys.output 5 sys.stack).addr = sys.output := rfl
    rw [this, hJ]
    simp only
    rw [hb]
    simp only
    have : (stackArray sys.grad0 14085 sys.stack).addr = sys.grad0 := rfl
    rw [this, e]
    rfl
  · simp only [List.filter_map, List.length_map]; rfl
  · simp only [hT'.layers, List.map_cons, List.map_nil, y1, y2, y3, y4, hT'.act1, hT'.act2]

end

/-! ### Exact arithmetic -/

/-- **C82** Why the test makes sense: for every network with a tanh layer and a sigmoid layer, of any sizes that suit the build, whose second
weights are between -1 and 1, with inputs between -1 and 1 and targets between 0 and 1, and for every direction of length (sum of absolute
values) at most 1, the mean of the slopes by backpropagation before and after a step `δ` differs from the quotient of differences by at most
`5δ`; and the step back restores the network. -/
theorem C82_direction (env : CustomEnv ℝ) {c : Cfg} {nn : Net ℝ} {l1 l2 : Layer ℝ} (hT : Two c nn l1 l2)
    (hv : VectorWidths c true 0 nn.described) (work : ℕ) (jk : ℕ → ℝ) (hwk : work % c.alignSize = 0) (X Y O G0 G1 : View ℝ) (a : ℕ)
    (hX : X.data.length = l1.nIn) (hY : Y.data.length = l2.nOut) (hO : O.data.length = l2.nOut) (ho : O.addr % c.alignSize = 0)
    (hG0 : G0.data.length = nParams nn.layers) (hg0 : G0.addr % c.alignSize = 0) (hG1 : G1.data.length = nParams nn.layers)
    (hg1 : G1.addr % c.alignSize = 0) (hx : ∀ v ∈ X.data, |v| ≤ 1) (hy : ∀ v ∈ Y.data, 0 ≤ v ∧ v ≤ 1) (hw : ∀ v ∈ l2.weight.data, |v| ≤ 1)
    (d : List ℝ) (hd : d.length = nParams nn.layers) (hd1 : (d.map fun v => |v|).sum ≤ 1) (δ : ℝ) (h0 : 0 < δ) (h1 : δ ≤ 1 / 10) :
    ∃ (nn' : Net ℝ) (p0 p1 g0 g1 : List ℝ), update c nn ⟨a, d.map (δ * ·)⟩ = .ok nn' ∧
      predict env c work jk nn X O = .ok ⟨O.addr, p0⟩ ∧ predict env c work jk nn' X O = .ok ⟨O.addr, p1⟩ ∧
      backpropagation env c work jk nn X Y G0 = .ok ⟨G0.addr, g0⟩ ∧ backpropagation env c work jk nn' X Y G1 = .ok ⟨G1.addr, g1⟩ ∧
      |1 / 2 * (_root_.Spec.dot d.length g0 d + _root_.Spec.dot d.length g1 d) -
        (_root_.Spec.mse l2.nOut p1 Y.data - _root_.Spec.mse l2.nOut p0 Y.data) / δ| ≤ 5 * δ ∧
      update c nn' ⟨a, d.map (-δ * ·)⟩ = .ok nn := by
  obtain ⟨l1', l2', h', m1, m2, m3, m4, m5, m6⟩ := hT.shifted d hd δ
  have hat : ∀ (l : List ℝ) (P : ℝ → Prop), P 0 → (∀ v ∈ l, P v) → ∀ i, P (_root_.Spec.at_ l i) := by
    intro l P p0 h i
    unfold _root_.Spec.at_
    rw [List.getD_eq_getElem?_getD]
    cases e : l[i]? with
    | none => exact p0
    | some v => exact h v (List.mem_of_getElem? e)
  refine ⟨_, _, _, _, _, hT.update d hd a δ, hT.predict env work jk X O hwk ho hX hO,
    h'.predict env work jk X O hwk ho (by rw [m1]; exact hX) (by rw [m4]; exact hO), hT.back env hv work jk X Y G0 hwk hg0 hX hY hG0,
    h'.back env (by rw [m5]; exact hv) work jk X Y G1 hwk hg1 (by rw [m1]; exact hX) (by rw [m4]; exact hY) (by rw [m6]; exact hG1), ?_, ?_⟩
  · rw [hd]
    refine core hT env hv X.data Y.data d hX hY hd (hat _ _ (by simp) hx) (fun o ho => ?_) (hat _ _ (by simp) hw) ?_ δ h0 h1
    · rw [_root_.Spec.at_, List.getD_eq_getElem?_getD, List.getElem?_eq_getElem (by omega : o < Y.data.length)]
      exact hy _ (List.getElem_mem _)
    · refine le_trans (le_of_eq ?_) hd1
      rw [← hd]
      clear * -
      induction d with
      | nil => simp
      | cons v d ih => rw [List.length_cons, Finset.sum_range_succ', List.map_cons, List.sum_cons, ← ih, add_comm]; rfl
  · rw [h'.update d (by rw [m6]; exact hd) a (-δ), hT.moved_moved d hd δ]

/-- The direction of one parameter. -/
theorem unit_map (n i : ℕ) (t : ℝ) : (((List.replicate n (0:ℝ)).set i 1).map (t * ·)) = (List.replicate n 0).set i t := by
  rw [List.map_set, List.map_replicate, mul_zero, mul_one]

theorem unit_sum (n i : ℕ) (hi : i < n) : (((List.replicate n (0:ℝ)).set i 1).map fun v => |v|).sum = 1 := by
  rw [List.map_set, List.map_replicate, abs_zero, abs_one, List.set_eq_take_append_cons_drop, if_pos (by simpa using hi)]
  simp

theorem unit_dot (n i : ℕ) (hi : i < n) (g : List ℝ) (hg : g.length = n) :
    _root_.Spec.dot n g ((List.replicate n (0:ℝ)).set i 1) = g[i] := by
  unfold _root_.Spec.dot
  rw [Finset.sum_eq_single i]
  · simp [_root_.Spec.at_, hi, hg]
  · intro k hk hki
    have : _root_.Spec.at_ ((List.replicate n (0:ℝ)).set i 1) k = 0 := by
      unfold _root_.Spec.at_
      rw [List.getD_eq_getElem?_getD, List.getElem?_set_ne (Ne.symm hki), List.getElem?_replicate]
      split_ifs <;> rfl
    rw [this, mul_zero]
  · intro h; exact absurd (Finset.mem_range.2 hi) h

theorem unit_dot' {n i : ℕ} {d : List ℝ} (hd : d = (List.replicate n (0:ℝ)).set i 1) (hi : i < n) {g : List ℝ} (hg : g.length = n) :
    _root_.Spec.dot n g d = g[i] := by rw [hd]; exact unit_dot n i hi g hg

/-- The pair `p` of numbers is that of parameter `i` of the network `nn`: the mean of the derivatives before and after a step of 1/10000, and the
quotient of the differences of the mean squared error (inputs and targets 1). -/
def Compares (env : CustomEnv ℝ) (c : Cfg) (sys : Sys ℝ) (nn : Net ℝ) (i : ℕ) (p : ℝ × ℝ) : Prop :=
  ∃ (nn' : Net ℝ) (p0 p1 g0 g1 : List ℝ) (a b : ℝ), update c nn ⟨sys.delta, (List.replicate 14085 0).set i (1 / 10000)⟩ = .ok nn' ∧
    predict env c sys.work sys.workJunk nn ⟨sys.input, List.replicate 214 1⟩ ⟨sys.output, List.replicate 5 0⟩ = .ok ⟨sys.output, p0⟩ ∧
    predict env c sys.work sys.workJunk nn' ⟨sys.input, List.replicate 214 1⟩ ⟨sys.output, List.replicate 5 0⟩ = .ok ⟨sys.output, p1⟩ ∧
    backpropagation env c sys.work sys.workJunk nn ⟨sys.input, List.replicate 214 1⟩ ⟨sys.target, List.replicate 5 1⟩
      ⟨sys.grad0, List.replicate 14085 0⟩ = .ok ⟨sys.grad0, g0⟩ ∧
    backpropagation env c sys.work sys.workJunk nn' ⟨sys.input, List.replicate 214 1⟩ ⟨sys.target, List.replicate 5 1⟩
      ⟨sys.grad1, List.replicate 14085 0⟩ = .ok ⟨sys.grad1, g1⟩ ∧ g0[i]? = some a ∧ g1[i]? = some b ∧
    p = (1 / 2 * (a + b), (_root_.Spec.mse 5 p1 (List.replicate 5 1) - _root_.Spec.mse 5 p0 (List.replicate 5 1)) / (1 / 10000))

/-- **C82** The program in exact arithmetic, in every build and for all random numbers: the two numbers of every test differ by at most 5/10000,
so that none of the 14085 tests fails; they are the two derivatives of their parameter; and the network is in the end the one that was made. -/
theorem C82_exact (env : CustomEnv ℝ) {c : Cfg} {sys : Sys ℝ} (g : Good c sys) (hr : sys.rnd.WF) (recs : List ActRecord)
    (hrecs : RecsNamed recs) (h : Heap) (hh : h.WF) (rs : RandState ℝ) : ∃ o, main env c sys recs h rs = .ok o ∧ o.nTests = 14085 ∧
      o.compared.length = 14085 ∧ o.nFail = 0 ∧ (∀ p ∈ o.compared, |p.1 - p.2| ≤ 5 / 10000) ∧ Made sys recs h rs o.nn ∧
      ∀ i p, o.compared[i]? = some p → Compares env c sys o.nn i p := by
  obtain ⟨nn, l1, l2, hmade, hT, z1, z2, z3, z4, hk, hv, ⟨nn0, nn1, rs1, k2, i1, i2, i3, i4, i5, i6, k2', i7, i8⟩, hm⟩ :=
    main_start env g recs hrecs h hh rs
  have hw : ∀ v ∈ l2.weight.data, |v| ≤ 1 := by
    intro v hv
    refine (C54_xavier hr hrecs i2 i1 1 k2 k2' "" i3 i7 rfl (by simp [schemeOf, i4]) v (by rw [i8]; exact hv)).trans ?_
    rw [i5, i6]
    exact Real.sqrt_le_one.2 (by norm_num)
  have hp := hT.gpredict env sys.work sys.workJunk ⟨sys.input, List.replicate 214 one⟩ (stackArray sys.output 5 sys.stack) g.work g.output
    (List.length_replicate.trans z1.symm) ((stack_len _ _ _).trans z4.symm)
  have hJ := runMetric_real .mse 5 (by norm_num) ⟨sys.output, netF env c 0 nn.layers (List.replicate 214 one)⟩
    ⟨sys.target, List.replicate 5 one⟩ (Nat.le_of_eq ((hT.gnet_length env _).trans z4).symm) (Nat.le_of_eq List.length_replicate.symm)
  obtain ⟨J0, hJ0⟩ : ∃ J0, J0 = metricSpec .mse 5 (netF env c 0 nn.layers (List.replicate 214 one)) (List.replicate 5 one) := ⟨_, rfl⟩
  have hb := hT.gback env hv sys.work sys.workJunk ⟨sys.input, List.replicate 214 one⟩ ⟨sys.target, List.replicate 5 one⟩
    (stackArray sys.grad0 14085 sys.stack) g.work g.grad0 (List.length_replicate.trans z1.symm) (List.length_replicate.trans z4.symm) ((stack_len _ _ _).trans hk.symm)
  have hgl := hT.ggrad_length env (List.replicate 214 one) (List.replicate 5 one) (List.length_replicate.trans z4.symm)
  obtain ⟨l, st', e, ⟨-, hnn⟩, hl, hq⟩ := loop_eq env c sys .mse 5 ⟨sys.input, List.replicate 214 one⟩
    ⟨sys.target, List.replicate 5 one⟩ ⟨sys.grad0, gradF env c nn .mse (List.replicate 214 one) (List.replicate 5 one)⟩ J0 (lit 1 10000)
    (lit 1 100) 14085 (fun st => Shape c 5 14085 st ∧ st.nn = nn) (fun i a b => |a - b| ≤ 5 / 10000 ∧ Compares env c sys nn i (a, b)) (by
      rintro i hi st ⟨hs, hnn⟩
      obtain ⟨st', g1, J1, e1, e2, e3, e4, e5⟩ := step_eq env g.work hT hv ⟨sys.input, List.replicate 214 one⟩ ⟨sys.target, List.replicate 5 one⟩
        ⟨sys.grad0, gradF env c nn .mse (List.replicate 214 one) (List.replicate 5 one)⟩ (List.length_replicate.trans z1.symm) (List.length_replicate.trans z4.symm) hgl J0
        (lit 1 10000) i (by omega) st (by rw [z4, hk]; exact hs) hnn
      rw [z4, hk] at e2
      rw [z4] at e1 e5
      obtain ⟨d, hd⟩ : ∃ d, d = (List.replicate 14085 (0:ℝ)).set i 1 := ⟨_, rfl⟩
      have hdl : d.length = nParams nn.layers := by rw [hd, hk, List.length_set, List.length_replicate]
      have hlit : (lit 1 10000 : ℝ) = 1 / 10000 := by simp
      have hnud : ∀ (m : Net ℝ) (k1 k2 : Layer ℝ), Two c m k1 k2 → nParams m.layers = 14085 → ∀ t, nudged m i t = moved m d t := by
        intro m k1 k2 hm hmk t
        have q1 := hm.gupdate 0 i t
        have q2 := hm.update d (by rw [hdl, hk, hmk]) 0 t
        rw [hd, unit_map, ← hmk] at q2
        rw [RealOps.zero_def] at q1
        rw [q1] at q2
        exact (Except.ok.inj q2).trans (by rw [hd, hmk])
      obtain ⟨l1', l2', h', m1, m2, m3, m4, m5, m6⟩ := hT.shifted d hdl (lit 1 10000)
      have n1 := hnud nn l1 l2 hT hk (lit 1 10000)
      have n2 := hnud _ l1' l2' h' (by rw [m6, hk]) (neg (lit 1 10000))
      rw [n1] at e3 e4 e5
      rw [n2] at e3
      refine ⟨st', _, _, e1, ⟨e2, ?_⟩, ?_⟩
      · rw [e3]; exact hT.moved_moved d hdl _
      · obtain ⟨nn', p0, p1, g0, g1', c1, c2, c3, c4, c5, c6, -⟩ := C82_direction env hT hv 0 (fun _ => 0) (by simp)
          ⟨0, List.replicate 214 one⟩ ⟨0, List.replicate 5 one⟩ ⟨0, List.replicate 5 0⟩ ⟨0, List.replicate 14085 0⟩ ⟨0, List.replicate 14085 0⟩ 0
          (List.length_replicate.trans z1.symm) (List.length_replicate.trans z4.symm) (List.length_replicate.trans z4.symm) (by simp) (List.length_replicate.trans hk.symm) (by simp) (List.length_replicate.trans hk.symm) (by simp)
          (by intro v hv; rw [List.eq_of_mem_replicate hv]; simp) (by intro v hv; rw [List.eq_of_mem_replicate hv]; simp) hw d hdl
          (by rw [hd, unit_sum _ _ hi]) (lit 1 10000) (by rw [hlit]; norm_num) (by rw [hlit]; norm_num)
        rw [hT.update d hdl, Except.ok.injEq] at c1
        subst c1
        rw [hT.gpredict env _ _ _ _ (by simp) (by simp) (List.length_replicate.trans z1.symm) (List.length_replicate.trans z4.symm)] at c2
        rw [h'.gpredict env _ _ _ _ (by simp) (by simp) (List.length_replicate.trans (m1.trans z1).symm) (List.length_replicate.trans (m4.trans z4).symm)] at c3
        rw [hT.gback env hv _ _ _ _ _ (by simp) (by simp) (List.length_replicate.trans z1.symm) (List.length_replicate.trans z4.symm) (List.length_replicate.trans hk.symm)] at c4
        rw [h'.gback env (by rw [m5]; exact hv) _ _ _ _ _ (by simp) (by simp) (List.length_replicate.trans (m1.trans z1).symm) (List.length_replicate.trans (m4.trans z4).symm) (List.length_replicate.trans (m6.trans hk).symm)] at c5
        simp only [Except.ok.injEq, View.mk.injEq, true_and] at c2 c3 c4 c5
        subst c2 c3 c4 c5
        have r := runMetric_real .mse 5 (by norm_num) ⟨0, netF env c 0 (moved nn d (lit 1 10000)).layers (List.replicate 214 one)⟩
          ⟨sys.target, List.replicate 5 one⟩ (Nat.le_of_eq ((h'.gnet_length env _).trans (m4.trans z4)).symm) (Nat.le_of_eq List.length_replicate.symm)
        rw [r, Except.ok.injEq] at e5
        have hgl' := h'.ggrad_length env (List.replicate 214 one) (List.replicate 5 one) (List.length_replicate.trans (m4.trans z4).symm)
        rw [m6] at hgl'
        have e4' := e4
        rw [List.getElem?_eq_getElem (by rw [hgl', hk]; exact hi), Option.some.injEq] at e4'
        rw [hdl, hk, unit_dot' hd hi (by rw [hgl, hk]), unit_dot' hd hi (by rw [hgl', hk]), e4'] at c6
        rw [← e5, hJ0]
        simp only [metricSpec]
        rw [z4] at c6
        refine ⟨le_trans (le_of_eq ?_) (c6.trans (le_of_eq ?_)), moved nn d (lit 1 10000), _, _, _, _, _, g1, ?_,
          hT.gpredict env _ _ _ _ g.work g.output (List.length_replicate.trans z1.symm) (List.length_replicate.trans z4.symm),
          h'.gpredict env _ _ _ _ g.work g.output (List.length_replicate.trans (m1.trans z1).symm) (List.length_replicate.trans (m4.trans z4).symm),
          hT.gback env hv _ _ _ _ _ g.work g.grad0 (List.length_replicate.trans z1.symm) (List.length_replicate.trans z4.symm)
            (List.length_replicate.trans hk.symm),
          h'.gback env (by rw [m5]; exact hv) _ _ _ _ _ g.work g.grad1 (List.length_replicate.trans (m1.trans z1).symm)
            (List.length_replicate.trans (m4.trans z4).symm) (List.length_replicate.trans (m6.trans hk).symm),
          List.getElem?_eq_getElem (lt_of_lt_of_eq hi (hgl.trans hk).symm), e4, ?_⟩
        · simp
        · rw [hlit]; norm_num
        · have := hT.update d hdl sys.delta (lit 1 10000)
          rw [hd, unit_map, hlit] at this
          rw [this, hlit, hd]
        · simp)
    14085 0 ⟨⟨sys.delta, List.replicate 14085 zero⟩, nn, ⟨sys.output, netF env c 0 nn.layers (List.replicate 214 one)⟩,
      stackArray sys.grad1 14085 sys.stack⟩ (by norm_num)
    ⟨⟨rfl, g.output, by rw [hT.gnet_length env, z4], g.grad1, stack_len _ _ _⟩, rfl⟩
  have hall : ∀ p ∈ l, |p.1 - p.2| ≤ 5 / 10000 := by
    intro p hp
    obtain ⟨j, hj⟩ := List.getElem?_of_mem hp
    exact (hq j p hj).1
  refine ⟨⟨l, l.map fun p => deviates (lit 1 100) p.1 p.2, 14085, (l.filter fun p => deviates (lit 1 100) p.1 p.2).length, st'.nn⟩, ?_, rfl, hl, ?_,
    hall, by rw [hnn]; exact hmade, fun i p hp => by rw [hnn]; have := (hq i p hp).2; rwa [Nat.zero_add] at this⟩
  · rw [hm, hp]
    simp only [bind, Except.bind]
    have : (stackArray sys.output 5 sys.stack).addr = sys.output := rfl
    rw [this, hJ]
    simp only
    rw [hb]
    simp only
    have : (stackArray sys.grad0 14085 sys.stack).addr = sys.grad0 := rfl
    rw [this, ← hJ0, e]
    rfl
  · simp only [List.length_eq_zero_iff, List.filter_eq_nil_iff]
    intro p hp
    have := hall p hp
    simp only [deviates, RealOps.lt_iff, RealOps.abs_def, RealOps.sub_def]
    rw [not_lt]
    refine this.trans ?_
    simp; norm_num

/-- **C82** What the test finds: a number that is off from the mean of the true slopes by more than `ε + 5δ` is reported. -/
theorem C82_detects (env : CustomEnv ℝ) {c : Cfg} {nn : Net ℝ} {l1 l2 : Layer ℝ} (hT : Two c nn l1 l2)
    (hv : VectorWidths c true 0 nn.described) (work : ℕ) (jk : ℕ → ℝ) (hwk : work % c.alignSize = 0) (X Y O G0 G1 : View ℝ) (a : ℕ)
    (hX : X.data.length = l1.nIn) (hY : Y.data.length = l2.nOut) (hO : O.data.length = l2.nOut) (ho : O.addr % c.alignSize = 0)
    (hG0 : G0.data.length = nParams nn.layers) (hg0 : G0.addr % c.alignSize = 0) (hG1 : G1.data.length = nParams nn.layers)
    (hg1 : G1.addr % c.alignSize = 0) (hx : ∀ v ∈ X.data, |v| ≤ 1) (hy : ∀ v ∈ Y.data, 0 ≤ v ∧ v ≤ 1) (hw : ∀ v ∈ l2.weight.data, |v| ≤ 1)
    (d : List ℝ) (hd : d.length = nParams nn.layers) (hd1 : (d.map fun v => |v|).sum ≤ 1) (δ : ℝ) (h0 : 0 < δ) (h1 : δ ≤ 1 / 10)
    (nn' : Net ℝ) (p0 p1 g0 g1 : List ℝ) (hu : update c nn ⟨a, d.map (δ * ·)⟩ = .ok nn')
    (hp0 : predict env c work jk nn X O = .ok ⟨O.addr, p0⟩) (hp1 : predict env c work jk nn' X O = .ok ⟨O.addr, p1⟩)
    (hb0 : backpropagation env c work jk nn X Y G0 = .ok ⟨G0.addr, g0⟩) (hb1 : backpropagation env c work jk nn' X Y G1 = .ok ⟨G1.addr, g1⟩)
    (eps wrong : ℝ) (hwrong : eps + 5 * δ < |wrong - 1 / 2 * (_root_.Spec.dot d.length g0 d + _root_.Spec.dot d.length g1 d)|) :
    deviates eps wrong ((_root_.Spec.mse l2.nOut p1 Y.data - _root_.Spec.mse l2.nOut p0 Y.data) / δ) = true := by
  obtain ⟨nn2, q0, q1, k0, k1, c1, c2, c3, c4, c5, c6, -⟩ := C82_direction env hT hv work jk hwk X Y O G0 G1 a hX hY hO ho hG0 hg0 hG1 hg1 hx hy hw
    d hd hd1 δ h0 h1
  rw [hu, Except.ok.injEq] at c1
  subst c1
  rw [hp0] at c2; rw [hp1] at c3; rw [hb0] at c4; rw [hb1] at c5
  simp only [Except.ok.injEq, View.mk.injEq, true_and] at c2 c3 c4 c5
  subst c2 c3 c4 c5
  simp only [deviates, RealOps.lt_iff, RealOps.abs_def, RealOps.sub_def]
  have := abs_sub_le wrong ((_root_.Spec.mse l2.nOut p1 Y.data - _root_.Spec.mse l2.nOut p0 Y.data) / δ)
    (1 / 2 * (_root_.Spec.dot d.length g0 d + _root_.Spec.dot d.length g1 d))
  rw [abs_sub_comm ((_root_.Spec.mse l2.nOut p1 Y.data - _root_.Spec.mse l2.nOut p0 Y.data) / δ)] at this
  linarith

/-! ### Single precision -/

section
open B32 hiding add sub mul div neg abs lt le

theorem abs_nan {a : B32} (h : a.isNan = true) : (B32.abs a).isNan = true := by
  have hb := a.bits.isLt
  have hn : (B32.abs a).bits.toNat = a.bits.toNat % 2 ^ 31 := by simp only [B32.abs, BitVec.toNat_ofNat]; omega
  have he : (B32.abs a).expField = a.expField := by unfold expField; rw [hn]; omega
  have hm : (B32.abs a).mantField = a.mantField := by unfold mantField; rw [hn]; omega
  unfold isNan at h ⊢
  rw [he, hm]; exact h

theorem sum_nan (L : Libm) (n : ℕ) (hn : 1 ≤ n) (p y : List B32) (hp : n ≤ p.length) (hy : n ≤ y.length) (h : ∀ a ∈ p, a.isNan = true) :
    (@sumF B32 (ops L) (fun p y => B32.mul (B32.sub p y) (B32.sub p y)) n p y).isNan = true := by
  unfold sumF
  have hne : (p.take n).zip (y.take n) ≠ [] := by
    intro e
    have := congrArg List.length e
    rw [List.length_zip, List.length_take, List.length_take, List.length_nil] at this
    omega
  obtain ⟨l, q, hq⟩ := (List.eq_nil_or_concat _).resolve_left hne
  rw [hq, List.concat_eq_append, List.foldl_append]
  simp only [List.foldl_cons, List.foldl_nil]
  have hm : q ∈ (p.take n).zip (y.take n) := by rw [hq]; simp
  obtain ⟨q1, q2⟩ := q
  have := h _ (List.mem_of_mem_take (List.of_mem_zip hm).1)
  exact add_nan_right _ (mul_nan_left _ (sub_nan_left _ this))

/-- **C82** (negation) What the test does not find: NaN.  With a C library whose `expf` always answers NaN every prediction, every loss and every
quotient of differences is NaN; the program reports 14085 tests and no failure, in every build. -/
theorem C82_nan_false (env : CustomEnv B32) {L : Libm} (hL : ∀ a, (L.exp a).isNan = true) {c : Cfg} {sys : Sys B32} (g : @Good B32 (ops L) c sys)
    (recs : List ActRecord) (hrecs : RecsNamed recs) (h : Heap) (hh : h.WF) (rs : RandState B32) :
    ∃ o, @main B32 (ops L) env c sys recs h rs = .ok o ∧ o.nTests = 14085 ∧ o.nFail = 0 ∧ o.compared.length = 14085 ∧
      ∀ p ∈ o.compared, p.2.isNan = true := by
  let _ := ops L
  obtain ⟨nn, l1, l2, -, hT, z1, z2, z3, z4, hk, hv, -, hm⟩ := main_start env g recs hrecs h hh rs
  have hp := hT.gpredict env sys.work sys.workJunk ⟨sys.input, List.replicate 214 one⟩ (stackArray sys.output 5 sys.stack) g.work g.output
    (List.length_replicate.trans z1.symm) ((stack_len _ _ _).trans z4.symm)
  obtain ⟨J0, hJ⟩ := runMetric_ok .mse 5 (by norm_num) ⟨sys.output, netF env c 0 nn.layers (List.replicate 214 one)⟩
    ⟨sys.target, List.replicate 5 one⟩ (Nat.le_of_eq ((hT.gnet_length env _).trans z4).symm) (Nat.le_of_eq List.length_replicate.symm)
  have hb := hT.gback env hv sys.work sys.workJunk ⟨sys.input, List.replicate 214 one⟩ ⟨sys.target, List.replicate 5 one⟩
    (stackArray sys.grad0 14085 sys.stack) g.work g.grad0 (List.length_replicate.trans z1.symm) (List.length_replicate.trans z4.symm)
    ((stack_len _ _ _).trans hk.symm)
  have hgl := hT.ggrad_length env (List.replicate 214 one) (List.replicate 5 one) (List.length_replicate.trans z4.symm)
  have hnet : ∀ (m : Net B32) (m1 m2 : Layer B32), Two c m m1 m2 → m2.nOut = 5 → ∀ x, ∀ a ∈ netF env c 0 m.layers x, a.isNan = true := by
    intro m m1 m2 ht h5 x
    have hlen : (vmmF c m2.nIn m2.nOut m2.weight.data m2.bias.data (layerF env c m1 0 x)).length = 5 := by
      rw [← h5]
      exact vmmF_length c _ _ _ _ _ (Nat.le_of_eq (ht.wf.layer m2 (by simp [ht.layers])).bias_len.symm)
    rw [ht.layers]
    simp only [netF]
    unfold layerF at hlen ⊢
    generalize vmmF c m2.nIn m2.nOut m2.weight.data m2.bias.data _ = v at hlen
    rw [ht.act2]
    simp only [activateF]
    refine applyTo_all (P := fun _ => True) (Q := fun a => a.isNan = true) _ v (fun _ _ => trivial) ?_
    intro k hk y _
    have e : sigmoidOp c 0 v.length k y = sigmoidS y := by
      unfold sigmoidOp
      split
      · simp only [regionOp, if_neg (region_empty (lo := bodyLo c 0 v.length) (k := k) (w := 16) (n := v.length) (by omega))]
      · rfl
    rw [e]
    exact div_nan_right _ (add_nan_right _ (hL _))
  obtain ⟨l, st', e, -, hl, hq⟩ := loop_eq env c sys .mse 5 ⟨sys.input, List.replicate 214 one⟩
    ⟨sys.target, List.replicate 5 one⟩ ⟨sys.grad0, gradF env c nn .mse (List.replicate 214 one) (List.replicate 5 one)⟩ J0 (lit 1 10000)
    (lit 1 100) 14085 (fun st => Shape c 5 14085 st ∧ ∃ l1 l2, Two c st.nn l1 l2 ∧ l1.nIn = 214 ∧ l1.nOut = 64 ∧ l2.nIn = 64 ∧ l2.nOut = 5 ∧
      nParams st.nn.layers = 14085 ∧ VectorWidths c true 0 st.nn.described) (fun _ _ b => b.isNan = true) (by
      rintro i hi st ⟨hs, m1, m2, hT, y1, y2, y3, y4, hk', hv'⟩
      obtain ⟨st', g1, J1, e1, e2, e3, -, e5⟩ := step_eq env g.work hT hv' ⟨sys.input, List.replicate 214 one⟩ ⟨sys.target, List.replicate 5 one⟩
        ⟨sys.grad0, gradF env c nn .mse (List.replicate 214 one) (List.replicate 5 one)⟩ (List.length_replicate.trans y1.symm)
        (List.length_replicate.trans y4.symm) (by rw [hgl, hk, hk']) J0 (lit 1 10000) i (by omega) st (by rw [y4, hk']; exact hs) rfl
      rw [y4, hk'] at e2
      rw [y4] at e1 e5
      obtain ⟨n1, n2, t1, a1, a2, a3, a4, a5, a6⟩ := hT.nudge i (lit 1 10000)
      obtain ⟨n1', n2', t1', b1, b2, b3, b4, b5, b6⟩ := t1.nudge i (neg (lit 1 10000))
      refine ⟨st', _, _, e1, ⟨e2, n1', n2', by rw [e3]; exact t1', by omega, by omega, by omega, by omega, by rw [e3, b6, a6, hk'], ?_⟩, ?_⟩
      · rw [e3, b5, a5]; exact hv'
      · have hlen := t1.gnet_length env (List.replicate 214 one)
        have hle : 5 ≤ (netF env c 0 (nudged st.nn i (lit 1 10000)).layers (List.replicate 214 one)).length := by rw [hlen]; omega
        simp only [runMetric, bind, Except.bind, pure, Except.pure, sumLoop_eq _ 5 ⟨0, netF env c 0 (nudged st.nn i (lit 1 10000)).layers
          (List.replicate 214 one)⟩ ⟨sys.target, List.replicate 5 one⟩ hle (Nat.le_of_eq List.length_replicate.symm), Except.ok.injEq] at e5
        rw [← e5]
        exact div_nan_left _ (sub_nan_left _ (div_nan_left _ (sum_nan L 5 (by norm_num) _ _ hle (Nat.le_of_eq List.length_replicate.symm)
          (hnet _ n1 n2 t1 (by omega) _)))))
    14085 0 ⟨⟨sys.delta, List.replicate 14085 zero⟩, nn, ⟨sys.output, netF env c 0 nn.layers (List.replicate 214 one)⟩,
      stackArray sys.grad1 14085 sys.stack⟩ (by norm_num)
    ⟨⟨rfl, g.output, by rw [hT.gnet_length env, z4], g.grad1, stack_len _ _ _⟩, l1, l2, hT, z1, z2, z3, z4, hk, hv⟩
  have hall : ∀ p ∈ l, p.2.isNan = true := by
    intro p hp
    obtain ⟨j, hj⟩ := List.getElem?_of_mem hp
    exact hq j p hj
  refine ⟨⟨l, l.map fun p => deviates (lit 1 100) p.1 p.2, 14085, (l.filter fun p => deviates (lit 1 100) p.1 p.2).length, st'.nn⟩, ?_, rfl, ?_,
    hl, hall⟩
  · rw [hm, hp]
    simp only [bind, Except.bind]
    have : (stackArray sys.output 5 sys.stack).addr = sys.output := rfl
    rw [this, hJ]
    simp only
    rw [hb]
    simp only
    have : (stackArray sys.grad0 14085 sys.stack).addr = sys.grad0 := rfl
    rw [this, e]
    rfl
  · simp only [List.length_eq_zero_iff, List.filter_eq_nil_iff]
    intro p hp
    have h1 : (B32.abs (B32.sub p.1 p.2)).isNan = true := abs_nan (sub_nan_right _ (hall p hp))
    have h2 : deviates (lit 1 100) p.1 p.2 = false := lt_nan_right _ h1
    rw [h2]; simp

/-- A float that is not small is a multiple of 2⁻³⁷. -/
theorem multiple {a : B32} (h : a.isFinite = true) (hb : 2 ^ (-14 : ℤ) ≤ a.value) : ∃ m : ℤ, a.value = m * 2 ^ (-37 : ℤ) := by
  obtain ⟨k, j, h1, h2, -, -⟩ := value_rep h
  have hj : -37 ≤ j := by
    by_contra hj
    have hj' : j ≤ -38 := by omega
    have h3 : (2 : ℝ) ^ j ≤ 2 ^ (-38 : ℤ) := zpow_le_zpow_right₀ (by norm_num) hj'
    have h4 : (k : ℝ) < 2 ^ 24 := by exact_mod_cast (abs_lt.1 h2).2
    have h5 : (0 : ℝ) < 2 ^ j := by positivity
    have h6 : (k : ℝ) * 2 ^ j < 2 ^ 24 * 2 ^ (-38 : ℤ) := by nlinarith [zpow_pos (show (0:ℝ) < 2 by norm_num) (-38)]
    rw [h1] at hb
    norm_num at hb h6
    linarith
  obtain ⟨n, rfl⟩ : ∃ n : ℕ, j = -37 + n := ⟨(j + 37).toNat, by omega⟩
  refine ⟨k * 2 ^ n, ?_⟩
  rw [h1, zpow_split]
  push_cast
  ring

/-- `(w + δ) - δ` in single precision, for a small `w`. -/
theorem drift (L : Libm) {a : B32} {w : ℝ} (ha : Is a w) (h0 : w ≠ 0) (hw : |w| < 2 ^ (-38 : ℤ)) :
    B32.add (B32.add a (@FloatOps.lit B32 (ops L) 1 10000)) (B32.neg (@FloatOps.lit B32 (ops L) 1 10000)) ≠ a := by
  have hM : (1 : ℝ) ≤ maxF32 := by unfold maxF32; norm_num
  have hd : Is (@FloatOps.lit B32 (ops L) 1 10000) (rnd (((1 : ℤ) : ℝ) / ((10000 : ℕ) : ℝ))) :=
    is_ofReal (by rw [abs_of_pos (by positivity)]; norm_num; linarith)
  obtain ⟨δ, hδ⟩ : ∃ δ, δ = rnd (((1 : ℤ) : ℝ) / ((10000 : ℕ) : ℝ)) := ⟨_, rfl⟩
  have hr := rnd_rel (x := ((1 : ℤ) : ℝ) / ((10000 : ℕ) : ℝ)) (.inr (by rw [abs_of_pos (by positivity)]; norm_num))
  rw [← hδ] at hd hr
  rw [abs_of_pos (by positivity : (0:ℝ) < ((1 : ℤ) : ℝ) / ((10000 : ℕ) : ℝ))] at hr
  obtain ⟨r1, r2⟩ := abs_le.1 hr
  obtain ⟨w1, w2⟩ := abs_lt.1 hw
  norm_num at r1 r2 w1 w2
  have l1 : (2 : ℝ) ^ (-14 : ℤ) ≤ δ := by norm_num; linarith
  have l2 : (2 : ℝ) ^ (-14 : ℤ) ≤ w + δ := by norm_num; linarith
  have hs := add_is ha hd (by rw [abs_le]; constructor <;> linarith)
  obtain ⟨b, hb⟩ : ∃ b, b = rnd (w + δ) := ⟨_, rfl⟩
  rw [← hb] at hs
  have hpow : rnd ((2 : ℝ) ^ (-14 : ℤ)) = 2 ^ (-14 : ℤ) := rnd_exact (k := 1) (j := -14) (by norm_num) (by norm_num) (by norm_num)
  have l3 : (2 : ℝ) ^ (-14 : ℤ) ≤ b := by rw [hb]; exact le_rnd l2 hpow
  have l4 : b ≤ 1 := by rw [hb]; exact rnd_le (by linarith) rnd_one
  obtain ⟨m1, k1⟩ := multiple hd.1 (by rw [hd.2]; exact l1)
  obtain ⟨m2, k2⟩ := multiple hs.1 (by rw [hs.2]; exact l3)
  rw [hd.2] at k1
  rw [hs.2] at k2
  have hb0 : (0 : ℝ) < b := lt_of_lt_of_le (by positivity) l3
  have hres := add_is hs (is_neg hd) (by rw [abs_le]; constructor <;> linarith)
  intro e
  rw [e] at hres
  have hw' : w = rnd (b + -δ) := by rw [← ha.2, ← hres.2]
  have hdiff : b + -δ = ((m2 - m1 : ℤ) : ℝ) * 2 ^ (-37 : ℤ) := by rw [k1, k2]; push_cast; ring
  have hp : rnd ((2 : ℝ) ^ (-37 : ℤ)) = 2 ^ (-37 : ℤ) := rnd_exact (k := 1) (j := -37) (by norm_num) (by norm_num) (by norm_num)
  have hp' : rnd (-(2 : ℝ) ^ (-37 : ℤ)) = -2 ^ (-37 : ℤ) := by rw [rnd_neg, hp]
  rw [hdiff] at hw'
  have hpp : (0 : ℝ) < 2 ^ (-37 : ℤ) := by positivity
  rcases lt_trichotomy (m2 - m1) 0 with hm | hm | hm
  · have : ((m2 - m1 : ℤ) : ℝ) ≤ -1 := by exact_mod_cast (by omega : m2 - m1 ≤ -1)
    have := rnd_le (x := ((m2 - m1 : ℤ) : ℝ) * 2 ^ (-37 : ℤ)) (by nlinarith) hp'
    rw [← hw'] at this
    norm_num at this
    linarith
  · rw [hm] at hw'
    simp only [Int.cast_zero, zero_mul, rnd_zero] at hw'
    exact h0 hw'
  · have : (1 : ℝ) ≤ ((m2 - m1 : ℤ) : ℝ) := by exact_mod_cast (by omega : 1 ≤ m2 - m1)
    have := le_rnd (x := ((m2 - m1 : ℤ) : ℝ) * 2 ^ (-37 : ℤ)) (by nlinarith) hp
    rw [← hw'] at this
    norm_num at this
    linarith

/-- **C82** (negation) In single precision the test does not restore the network: whatever the network, a parameter other than 0 of absolute
value below 2⁻³⁸ is not the same after `+= δ` and `-= δ` with the `δ` of the program. -/
theorem C82_drift_false (L : Libm) (c : Cfg) (nn : Net B32) (hw : nn.WF c) (i : ℕ) (a : B32) (w : ℝ) (hi : (params nn.layers)[i]? = some a)
    (ha : Is a w) (h0 : w ≠ 0) (hs : |w| < 2 ^ (-38 : ℤ)) (addr : ℕ) : let _ := ops L
    ∃ nn' nn'' : Net B32, update c nn ⟨addr, (List.replicate (nParams nn.layers) zero).set i (lit 1 10000)⟩ = .ok nn' ∧
      update c nn' ⟨addr, (List.replicate (nParams nn.layers) zero).set i (neg (lit 1 10000))⟩ = .ok nn'' ∧
      (params nn''.layers)[i]? ≠ (params nn.layers)[i]? := by
  let _ := ops L
  have hl := params_length c nn.layers hw.layer
  have hi' : i < nParams nn.layers := by rw [← hl]; exact (List.getElem?_eq_some_iff.1 hi).1
  have key : ∀ (p : List B32), p.length = nParams nn.layers → ∀ x v, p[i]? = some x →
      (List.zipWith add p ((List.replicate (nParams nn.layers) zero).set i v))[i]? = some (add x v) := by
    intro p hp x v hx
    rw [List.getElem?_zipWith, hx, List.getElem?_set_self (by simpa using hi')]
  obtain ⟨p1, hp1⟩ : ∃ p1, p1 = List.zipWith add (params nn.layers) ((List.replicate (nParams nn.layers) zero).set i (lit 1 10000)) := ⟨_, rfl⟩
  have hl1 : p1.length = nParams nn.layers := by rw [hp1]; simp [hl]
  have e1 := update_eq c nn ⟨addr, (List.replicate (nParams nn.layers) zero).set i (lit 1 10000)⟩ hw.layer (by simp)
  have hw1 := withParams_wf c nn.layers p1 hl1 hw.layer
  have e2 := update_eq c { nn with layers := withParams nn.layers p1 }
    ⟨addr, (List.replicate (nParams nn.layers) zero).set i (neg (lit 1 10000))⟩ hw1 (by simp [nParams_withParams])
  simp only [← hp1] at e1
  refine ⟨_, _, e1, e2, ?_⟩
  · simp only
    rw [params_withParams _ _ (by simp [nParams_withParams, params_withParams _ _ hl1, hl1]), params_withParams _ _ hl1,
      key p1 hl1 _ _ (by rw [hp1]; exact key _ hl a _ hi), hi]
    intro e
    exact drift L ha h0 hs (Option.some.inj e)

end

/-! ### Concrete cases -/

def exSys (g : Rand) (fuel : ℕ) (jk : ℕ → ℕ → F) (dl : DynLinker) : Sys F :=
  ⟨fun _ => true, fun _ => 4096, jk, dl, g, fuel, 4096, 4096, 4096, 4096, 4096, 4096, jk 0, 4096, jk 0⟩

theorem exGood [FloatOps F] {g : Rand} {fuel : ℕ} (ha : Accepting F g fuel) (c : Cfg) (jk : ℕ → ℕ → F) (dl : DynLinker) :
    Good c (exSys g fuel jk dl) :=
  have h := align64 c 4096 rfl
  ⟨fun _ => rfl, fun _ => h, ha, h, h, h, h, h, h⟩

/-- The program in exact arithmetic, built for AVX-512. -/
example (env : CustomEnv ℝ) (jk : ℕ → ℕ → ℝ) (dl : DynLinker) : ∃ o, main env ⟨.avx512, true, true⟩ (exSys ⟨fun _ => 5, 7⟩ 1 jk dl) [] ⟨0, []⟩
    ⟨0, 0, 0, false⟩ = .ok o ∧ o.nTests = 14085 ∧ o.nFail = 0 := by
  obtain ⟨o, h1, h2, -, h3, -⟩ := C82_exact env (exGood exAccepting ⟨.avx512, true, true⟩ jk dl) ⟨by norm_num [exSys], fun _ => by norm_num [exSys]⟩ []
    (by intro r hr; cases hr) ⟨0, []⟩ ⟨by simp, by simp⟩ ⟨0, 0, 0, false⟩
  exact ⟨o, h1, h2, h3⟩

/-- In single precision. -/
example (env : CustomEnv B32) (c : Cfg) (jk : ℕ → ℕ → B32) (dl : DynLinker) : let _ := B32.ops B32.zeroLibm
    ∃ o, main env c (exSys B32.exRand31 1 jk dl) [] ⟨0, []⟩ ⟨0, .zeroS false, .zeroS false, false⟩ = .ok o ∧ o.nTests = 14085 :=
  let _ := B32.ops B32.zeroLibm
  have ⟨o, h1, h2, _⟩ := C82_runs env (exGood (B32.exRand31_accepting B32.zeroLibm) c jk dl) [] (by intro r hr; cases hr) ⟨0, []⟩ ⟨by simp, by simp⟩
    ⟨0, .zeroS false, .zeroS false, false⟩
  ⟨o, h1, h2⟩

/-- With `expf` broken. -/
example (env : CustomEnv B32) (c : Cfg) (jk : ℕ → ℕ → B32) (dl : DynLinker) : let _ := B32.ops ⟨fun _ => B32.qnan, id, id⟩
    ∃ o, main env c (exSys B32.exRand31 1 jk dl) [] ⟨0, []⟩ ⟨0, .zeroS false, .zeroS false, false⟩ = .ok o ∧ o.nFail = 0 :=
  let _ := B32.ops ⟨fun _ => B32.qnan, id, id⟩
  have ⟨o, h1, _, h3, _⟩ := C82_nan_false (L := ⟨fun _ => B32.qnan, id, id⟩) env (fun _ => B32.isNan_qnan) (exGood (B32.exRand31_accepting _) c jk dl) []
    (by intro r hr; cases hr) ⟨0, []⟩ ⟨by simp, by simp⟩ ⟨0, .zeroS false, .zeroS false, false⟩
  ⟨o, h1, h3⟩

/-- A network 1-1-1. -/
def exNet (v : F) : Net F := ⟨[⟨1, 1, ⟨4096, [v]⟩, ⟨4096, [v]⟩, .tanh, some .tanh⟩, ⟨1, 1, ⟨4096, [v]⟩, ⟨4096, [v]⟩, .sigmoid, some .sigmoid⟩], some .mse⟩

theorem exTwo (c : Cfg) (v : F) : Two c (exNet v) ⟨1, 1, ⟨4096, [v]⟩, ⟨4096, [v]⟩, .tanh, some .tanh⟩
    ⟨1, 1, ⟨4096, [v]⟩, ⟨4096, [v]⟩, .sigmoid, some .sigmoid⟩ := by
  have h := align64 c 4096 rfl
  refine ⟨rfl, rfl, ⟨by simp [exNet], ?_, ⟨rfl, trivial⟩⟩, rfl, rfl, rfl, rfl⟩
  intro l hl
  simp only [exNet, List.mem_cons, List.not_mem_nil, or_false] at hl
  rcases hl with rfl | rfl <;> exact ⟨le_rfl, le_rfl, rfl, rfl, h, h⟩

/-- Its four parameters `1/2` moved together. -/
example (env : CustomEnv ℝ) (c : Cfg) : ∃ (nn' : Net ℝ) (g0 : List ℝ),
    update c (exNet (1 / 2)) ⟨0, [1 / 4, 1 / 4, -1 / 4, 1 / 4].map (1 / 20 * ·)⟩ = .ok nn' ∧
    backpropagation env c 0 (fun _ => 0) (exNet (1 / 2)) ⟨0, [1]⟩ ⟨0, [0]⟩ ⟨0, [0, 0, 0, 0]⟩ = .ok ⟨0, g0⟩ ∧
    update c nn' ⟨0, [1 / 4, 1 / 4, -1 / 4, 1 / 4].map (-(1 / 20) * ·)⟩ = .ok (exNet (1 / 2)) := by
  obtain ⟨nn', p0, p1, g0, g1, c1, -, -, c4, -, -, c7⟩ := C82_direction env (exTwo c (1 / 2 : ℝ)) ⟨by simp, by simp, by simp, by simp, trivial⟩ 0
    (fun _ => 0) (by simp) ⟨0, [1]⟩ ⟨0, [0]⟩ ⟨0, [0]⟩ ⟨0, [0, 0, 0, 0]⟩ ⟨0, [0, 0, 0, 0]⟩ 0 rfl rfl rfl (by simp) rfl (by simp) rfl (by simp)
    (by simp) (by simp) (by simp; norm_num) [1 / 4, 1 / 4, -1 / 4, 1 / 4] rfl
    (by norm_num [abs_of_pos, abs_div]) (1 / 20) (by norm_num) (by norm_num)
  exact ⟨nn', g0, c1, c4, c7⟩

/-- The network 1-1-1 with parameters 2⁻⁶⁰. -/
example (c : Cfg) : let _ := B32.ops B32.zeroLibm
    ∃ nn' nn'' : Net B32, update c (exNet (B32.ofReal false (((1 : ℤ) : ℝ) / ((2 ^ 60 : ℕ) : ℝ)))) ⟨0, [zero, zero, lit 1 10000, zero]⟩ = .ok nn' ∧
      update c nn' ⟨0, [zero, zero, neg (lit 1 10000), zero]⟩ = .ok nn'' ∧
      (params nn''.layers)[2]? ≠ some (B32.ofReal false (((1 : ℤ) : ℝ) / ((2 ^ 60 : ℕ) : ℝ))) :=
  C82_drift_false B32.zeroLibm c _ (exTwo c _).wf 2 _ _ rfl (B32.is_lit (p := 1) (q := 2 ^ 60) 60 rfl (by norm_num) (by norm_num)) (by norm_num)
    (by rw [abs_of_pos (by positivity)]; norm_num) 0

end NN.GradCheck
