import Verif.Proofs.OddSizes
import Verif.Proofs.ForwardReal
import Verif.Properties.InitFloat
/-
C81: tests/test_oddsizes.c.
-/
set_option linter.unusedSimpArgs false

namespace NN.OddSizes
open FloatOps NN.Spec
variable {F : Type}

/-- What the program needs: memory, aligned, and random numbers that the rejection method accepts. -/
structure Good [FloatOps F] (c : Cfg) (sys : Sys F) : Prop where
  alloc : ∀ i, sys.ok i = true
  addr : ∀ i, sys.addr i % c.alignSize = 0
  rand : Accepting F sys.rnd sys.fuel
  work : sys.work % c.alignSize = 0

/-- A test case that describes a network: names of built-in functions, one for each layer, positive sizes, and at least 11 parameters. -/
structure CaseOk (cs : Case) (sizes : List ℕ) (funcs : List (Option String)) (loss : Loss) (nIn nOut : ℕ) : Prop where
  dims : cs.sizes = sizes.map Int.ofNat
  names : cs.activations = funcs ++ [none]
  named : none ∉ funcs
  len : funcs.length + 1 = sizes.length
  layers : 2 ≤ sizes.length
  few : 12 * sizes.length < 2 ^ 31
  pos : ∀ s ∈ sizes, 1 ≤ s
  first : sizes.head? = some nIn
  last : sizes.getLast? = some nOut
  small : ∀ p ∈ sizes.zip sizes.tail, (p.1 + 1) * p.2 < 2 ^ 31 ∧ p.1 + p.2 < 2 ^ 31
  builtin : ∀ s, some s ∈ funcs → ∃ b ∈ builtins, s = b.1
  lossName : getLossFunc cs.loss = some loss
  params : 10 < paramCount sizes ∧ paramCount sizes < 2 ^ 32

section
variable [FloatOps F]

def job (sys : Sys F) (cs : Case) (sizes : List ℕ) (funcs : List (Option String)) : Job F where
  sizes := sizes
  funcs := funcs
  inits := none
  loss := cs.loss
  shuffle := false
  batchsize := 1
  metrics := some [none]
  settings := .sgd zero zero zero false
  calls := []
  file := ""
  ok := sys.ok
  addr := sys.addr
  junk := sys.junk
  vec1 := some 0
  vec2 := some 0
  dl := sys.dl
  rand := sys.rnd
  fuel := sys.fuel

theorem fine {c : Cfg} {sys : Sys F} (g : Good c sys) {cs : Case} {sizes : List ℕ} {funcs : List (Option String)} {loss : Loss} {nIn nOut : ℕ}
    (k : CaseOk cs sizes funcs loss nIn nOut) : (job sys cs sizes funcs).Fine c loss [] nIn nOut where
  layers := k.layers
  few := k.few
  pos := k.pos
  first := k.first
  last := k.last
  small := fun p hp => by
    have := k.small p hp
    exact ⟨lt_of_le_of_lt (Nat.mul_le_mul_right _ (Nat.le_succ _)) this.1, this.2⟩
  names := k.len
  builtin := k.builtin
  inits := by simp [job]
  lossName := k.lossName
  batch := by simp [job]
  metrics := ⟨[], rfl⟩
  mem := g.alloc
  addr := g.addr
  vec1 := ⟨0, rfl, by simp⟩
  vec2 := ⟨0, rfl, by simp⟩
  rand := g.rand
  calls := by simp [job]
  file := by simp only [job]; decide

theorem netF_aligned (env : CustomEnv F) (c : Cfg) (a : ℕ) (h : a % c.alignSize = 0) : ∀ (ls : List (Layer F)) (x : List F),
    netF env c a ls x = netF env c 0 ls x
  | [], _ => rfl
  | [l], x => layerF_aligned env c l a h x
  | _ :: l' :: ls, _ => netF_aligned env c a h (l' :: ls) _

theorem freeNN_perm {net : CNet} {h : Heap} {rest : List ℕ} (hb : ∀ l ∈ net.layers, (∃ i, l.weight = .blk i) ∧ ∃ i, l.bias = .blk i)
    (hw : h.WF) (hp : h.live.Perm (net.blocks ++ rest)) : ∃ h', freeNN (some net) h = .ok h' ∧ h'.live.Perm rest ∧ h'.WF := by
  have p' : h.live.Perm (NN.blocks net.layers ++ (net.layer :: net.nn :: rest)) := by
    refine hp.trans ?_
    simp only [CNet.blocks, List.cons_append]
    exact ((List.perm_middle.trans (List.Perm.cons _ List.perm_middle))).symm
  obtain ⟨h1, e1, p1, c1⟩ := weightsFree_perm net.layers h _ (fun l hl => by
    obtain ⟨⟨i, hi⟩, j, hj⟩ := hb l hl
    simp [hi, hj]) p'
  obtain ⟨h2, e2, p2, c2⟩ := free_perm p1
  obtain ⟨h3, e3, p3, c3⟩ := free_perm p2
  refine ⟨h3, by simp only [freeNN, e1, e2, e3, bind, Except.bind], p3, fun i hi => ?_, ?_⟩
  · rw [c3, c2, c1]
    exact hw.lt i (hp.mem_iff.2 (List.mem_append_right _ (p3.mem_iff.1 hi)))
  · exact (p3.nodup_iff).2 (List.nodup_append.1 ((hp.nodup_iff).1 hw.nodup)).2.1

/-- The network of a test case: its sizes and activation functions are those that were asked for. -/
def Built (sys : Sys F) (sizes : List ℕ) (funcs : List (Option String)) (nn : Net F) : Prop :=
  nn.layers.map (fun l => (l.nIn, l.nOut)) = sizes.zip sizes.tail ∧
    List.Forall₂ (fun name (l : Layer F) => Chosen sys.dl name l.act) funcs nn.layers

/-- **C81** One test case, in any arithmetic.  If the layer widths suit the build, the case runs to the end: the predictions printed are what
`neuralnet_predict` computes for the initialised network, the number printed is entry 10 of what `neuralnet_backpropagation` computes, and all
memory is returned.  Otherwise `neuralnet_backpropagation` makes a misaligned access. -/
theorem C81_case (env : CustomEnv F) {c : Cfg} {sys : Sys F} (g : Good c sys) {cs : Case} {sizes : List ℕ} {funcs : List (Option String)}
    {loss : Loss} {nIn nOut : ℕ} (k : CaseOk cs sizes funcs loss nIn nOut) (st : State F) (hrecs : RecsNamed st.recs) (hh : st.heap.WF) :
    (VectorWidths c true 0 (describeLayers sizes loss funcs) →
      ∃ (s : Shown F) (st' : State F) (nn : Net F), runCase env c sys cs st = .ok (s, st') ∧ Built sys sizes funcs nn ∧
        (∀ (work : ℕ) (jk : ℕ → F) (X O : View F), work % c.alignSize = 0 → O.addr % c.alignSize = 0 → X.data = List.replicate nIn one →
          O.data.length = nOut → predict env c work jk nn X O = .ok ⟨O.addr, s.predictions⟩) ∧
        s.predictions.length = nOut ∧
        (∃ gr : List F, gr.length = paramCount sizes ∧ gr[10]? = some s.gradient ∧
          ∀ (work : ℕ) (jk : ℕ → F) (X Y G : View F), work % c.alignSize = 0 → G.addr % c.alignSize = 0 → X.data = List.replicate nIn one →
            Y.data = List.replicate nOut one → G.data.length = paramCount sizes →
            backpropagation env c work jk (setLoss st.recs nn cs.loss) X Y G = .ok ⟨G.addr, gr⟩) ∧
        st'.recs = st.recs ∧ st'.tests = st.tests + 1 ∧ st'.fails = st.fails ∧ st'.heap.WF ∧ st'.heap.live.Perm st.heap.live) ∧
    (¬ VectorWidths c true 0 (describeLayers sizes loss funcs) → runCase env c sys cs st = .error .misaligned) := by
  obtain ⟨nn, kk, w2, hl2, hz2, hch2, hderiv2, hin2, hout2, -, hdesc, net, h1, nn1, rs1, e1, e2, e3, -, -, -, hz0, hw1, hp1, hb1, w0, wn1, al⟩ :=
    Job.steps_sized _ c loss [] nIn nOut (fine g k) st.recs hrecs st.heap hh st.rand
  have hcr : createNN sys.ok sys.dl ((sizes.length : ℤ) - 1) (sizes.map Int.ofNat) (some funcs) st.recs st.heap = .ok (some net, st.recs, h1) := e1
  have hcr' : createNN sys.ok sys.dl (funcs.length : ℤ) cs.sizes (some cs.activations) st.recs st.heap = .ok (some net, st.recs, h1) := by
    rw [k.dims, k.names, show ((funcs.length : ℕ) : ℤ) = (sizes.length : ℤ) - 1 by have := k.len; omega]
    exact createNN_extra hcr
  have hini : initializeNN sys.rnd sys.fuel st.recs none (some (net.toNet sys.addr sys.junk)) st.rand = .ok (some nn1, rs1) := e2
  have hset : nn = setLoss st.recs nn1 cs.loss := e3
  have hz0' : HasSizes (net.toNet sys.addr sys.junk : Net F).layers sizes := hz0
  have w0' : (net.toNet sys.addr sys.junk : Net F).WF c := w0
  have hin0 : (net.toNet sys.addr sys.junk : Net F).nInput = nIn := by
    have := hz0'.nInput w0'.ne; rw [k.first] at this; exact (Option.some.inj this).symm
  have hout0 : (net.toNet sys.addr sys.junk : Net F).nOutput = nOut := by
    have := hz0'.nOutput w0'.ne; rw [k.last] at this; exact (Option.some.inj this).symm
  have hsh := Alike.shape al
  have hz1 : HasSizes nn1.layers sizes := by
    have := congrArg (List.map fun p : ℕ × ℕ × Act => (p.1, p.2.1)) hsh
    rw [List.map_map, List.map_map] at this
    exact this.symm.trans hz2
  have hin1 : nn1.nInput = nIn := by have := hz1.nInput wn1.ne; rw [k.first] at this; exact (Option.some.inj this).symm
  have hout1 : nn1.nOutput = nOut := by have := hz1.nOutput wn1.ne; rw [k.last] at this; exact (Option.some.inj this).symm
  have hch1 : List.Forall₂ (fun name (l : Layer F) => Chosen sys.dl name l.act) funcs nn1.layers := chosen_shape hch2 hsh.symm
  have hk1 : nParams nn1.layers = paramCount sizes := hz1.nParams
  have hk2 : nParams nn.layers = paramCount sizes := hz2.nParams
  have htot : totalNParameters nn1 = .ok (paramCount sizes) := by
    have hs : ∀ l ∈ nn1.layers, (l.nIn + 1) * l.nOut < 2 ^ 31 := by
      intro l hl
      have : (l.nIn, l.nOut) ∈ sizes.zip sizes.tail := by
        have h0 : nn1.layers.map (fun l => (l.nIn, l.nOut)) = sizes.zip sizes.tail := hz1
        rw [← h0]; exact List.mem_map_of_mem (f := fun l : Layer F => (l.nIn, l.nOut)) hl
      exact (k.small _ this).1
    rw [totalNParameters, totalNParametersLoop_eq _ _ hs (by norm_num), hk1, Nat.zero_add, Nat.mod_eq_of_lt k.params.2]
  have hcnt : countNames cs.activations = .ok funcs.length := by rw [k.names]; exact countNames_eq [] funcs k.named
  obtain ⟨pr, hpr⟩ : ∃ pr, pr = netF env c 0 nn1.layers (List.replicate nIn one) := ⟨_, rfl⟩
  have hpred : ∀ (work : ℕ) (jk : ℕ → F) (X O : View F), work % c.alignSize = 0 → O.addr % c.alignSize = 0 → X.data = List.replicate nIn one →
      O.data.length = nOut → predict env c work jk nn1 X O = .ok ⟨O.addr, pr⟩ := by
    intro work jk X O hwk ha hX hO
    rw [predict_netF env c work jk nn1 X O wn1 hwk (by rw [hX, hin1]; simp) (by rw [hO, hout1]) (AlignedFor.of_aligned ha), hX, hin1,
      List.take_of_length_le (by simp), netF_aligned env c _ ha, hout1, List.drop_eq_nil_of_le (by rw [hO]), List.append_nil, hpr]
  have hprl : pr.length = nOut := by
    obtain ⟨last, hlast, hno, -⟩ := exists_last wn1
    rw [hpr, netF_length env c 0 nn1.layers _ last hlast wn1.layer, ← hno, hout1]
  have hal : ∀ i, sys.addr i % c.alignSize = 0 := g.addr
  have hde : ∀ ga, ga % c.alignSize = 0 → (BackAligned c ga 0 nn.layers ↔ VectorWidths c true 0 (describeLayers sizes loss funcs)) := by
    intro ga hga
    rw [backAligned_iff hga nn.layers 0 w2.layer]
    have : nn.described = describeLayers sizes loss funcs := hdesc
    rw [← this]; rfl
  have hbr : ∀ (n b : ℕ), ((List.range n).map (sys.junk b)).length = n := by simp
  refine ⟨fun hv => ?_, fun hv => ?_⟩
  · obtain ⟨gr, hgr⟩ : ∃ gr, gr = gradF env c nn loss (List.replicate nIn one) (List.replicate nOut one) := ⟨_, rfl⟩
    have hback : ∀ (work : ℕ) (jk : ℕ → F) (X Y G : View F), work % c.alignSize = 0 → G.addr % c.alignSize = 0 →
        X.data = List.replicate nIn one → Y.data = List.replicate nOut one → G.data.length = paramCount sizes →
        backpropagation env c work jk nn X Y G = .ok ⟨G.addr, gr⟩ := by
      intro work jk X Y G hwk hga hX hY hgl
      rw [backpropagation_eq env c work jk nn X Y G loss w2 hwk hga hl2 hderiv2 (by rw [hX, hin2]; simp) (by rw [hY, hout2]; simp)
        (by rw [hk2, hgl]) ((hde _ hga).2 hv), hX, hY, hin2, hout2, hk2, List.drop_eq_nil_of_le (by rw [hgl]), List.append_nil,
        List.take_of_length_le (by simp), List.take_of_length_le (by simp), hgr]
    have hgrl : gr.length = paramCount sizes := by
      rw [hgr, ← hk2]
      exact gradF_length env c nn loss _ _ w2 (by rw [hout2]; simp)
    -- memory
    have p1 : (⟨h1.count + 1 + 1 + 1 + 1, (h1.count + 1 + 1 + 1) :: (h1.count + 1 + 1) :: (h1.count + 1) :: h1.count :: h1.live⟩ : Heap).live.Perm
        (h1.count :: (h1.count + 1) :: (h1.count + 1 + 1) :: (h1.count + 1 + 1 + 1) :: h1.live) := by
      simp only
      have : ∀ a b c d : ℕ, (d :: c :: b :: a :: h1.live).Perm (a :: b :: c :: d :: h1.live) := fun a b c d => by
        have := (List.reverse_perm [a, b, c, d]).append_right h1.live
        simpa using this
      exact this _ _ _ _
    obtain ⟨f1, e1, p1, c1⟩ := free_perm p1
    obtain ⟨f2, e2, p2, c2⟩ := free_perm p1
    obtain ⟨f3, e3, p3, c3⟩ := free_perm p2
    obtain ⟨f4, e4, p4, c4⟩ := free_perm p3
    have hw4 : f4.WF := by
      refine ⟨fun i hi => ?_, (p4.nodup_iff).2 hw1.nodup⟩
      have := hw1.lt i (p4.mem_iff.1 hi)
      rw [c4, c3, c2, c1]; simp only; omega
    obtain ⟨f5, e5, p5, w5⟩ := freeNN_perm hb1 hw4 (p4.trans hp1)
    have hP := hpred sys.work sys.workJunk ⟨sys.addr h1.count, List.replicate nIn one⟩
      ⟨sys.addr (h1.count + 1), (List.range nOut).map (sys.junk (h1.count + 1))⟩ g.work (hal _) rfl (hbr _ _)
    have hB := hback sys.work sys.workJunk ⟨sys.addr h1.count, List.replicate nIn one⟩ ⟨sys.addr (h1.count + 1 + 1), List.replicate nOut one⟩
      ⟨sys.addr (h1.count + 1 + 1 + 1), (List.range (paramCount sizes)).map (sys.junk (h1.count + 1 + 1 + 1))⟩ g.work (hal _) rfl rfl (hbr _ _)
    have hlt : 10 < gr.length := by rw [hgrl]; exact k.params.1
    refine ⟨⟨pr, gr[10]⟩, ⟨st.recs, f5, rs1, st.tests + 1, st.fails⟩, nn1, ?_, ⟨hz1, hch1⟩, hpred, hprl, ⟨gr, hgrl,
      List.getElem?_eq_getElem hlt, by rw [← hset]; exact hback⟩, rfl, rfl, rfl, w5, p5⟩
    rw [hset] at hB
    simp only [runCase, hcnt, hcr', hini, htot, hin0, hout0, array_eq g.alloc, hP, hB,
      load_ok (v := ⟨_, gr⟩) hlt, e1, e2, e3, e4, e5, bind, Except.bind, pure, Except.pure, Option.isNone, Bool.false_eq_true, if_false]
  · have hB := C09_misaligned env c sys.work sys.workJunk nn ⟨sys.addr h1.count, List.replicate nIn one⟩
      ⟨sys.addr (h1.count + 1 + 1), List.replicate nOut one⟩
      ⟨sys.addr (h1.count + 1 + 1 + 1), (List.range (paramCount sizes)).map (sys.junk (h1.count + 1 + 1 + 1))⟩ loss w2 g.work (hal _) hl2 hderiv2
      (by rw [hin2]; simp) (by rw [hout2]; simp) (by rw [hk2]; simp) (fun h => hv ((hde _ (hal _)).1 h))
    have hP := hpred sys.work sys.workJunk ⟨sys.addr h1.count, List.replicate nIn one⟩
      ⟨sys.addr (h1.count + 1), (List.range nOut).map (sys.junk (h1.count + 1))⟩ g.work (hal _) rfl (hbr _ _)
    rw [hset] at hB
    simp only [runCase, hcnt, hcr', hini, htot, hin0, hout0, array_eq g.alloc, hP, hB,
      bind, Except.bind, pure, Except.pure, Option.isNone, Bool.false_eq_true, if_false]

end

theorem case1_ok : CaseOk ⟨[231, 128, 5], [some "relu", some "sigmoid", none], "binary_crossentropy"⟩ [231, 128, 5] [some "relu", some "sigmoid"]
    .bce 231 5 :=
  ⟨rfl, rfl, by simp, rfl, by simp, by simp, by simp, rfl, rfl, by simp, by
    intro s hs; simp only [List.mem_cons, Option.some.injEq, List.not_mem_nil, or_false] at hs
    rcases hs with rfl | rfl <;> simp [builtins], rfl, by decide⟩

theorem case2_ok : CaseOk ⟨[53, 19, 13, 7], [some "relu", some "tanh", some "sigmoid", none], "binary_crossentropy"⟩ [53, 19, 13, 7]
    [some "relu", some "tanh", some "sigmoid"] .bce 53 7 :=
  ⟨rfl, rfl, by simp, rfl, by simp, by simp, by simp, rfl, rfl, by simp, by
    intro s hs; simp only [List.mem_cons, Option.some.injEq, List.not_mem_nil, or_false] at hs
    rcases hs with rfl | rfl | rfl <;> simp [builtins], rfl, by decide⟩

theorem case3_ok : CaseOk ⟨[103, 53, 19, 13, 7], [some "relu", some "hard_sigmoid", some "tanh", some "softmax", none], "categorical_crossentropy"⟩
    [103, 53, 19, 13, 7] [some "relu", some "hard_sigmoid", some "tanh", some "softmax"] .cce 103 7 :=
  ⟨rfl, rfl, by simp, rfl, by simp, by simp, by simp, rfl, rfl, by simp, by
    intro s hs; simp only [List.mem_cons, Option.some.injEq, List.not_mem_nil, or_false] at hs
    rcases hs with rfl | rfl | rfl | rfl <;> simp [builtins], rfl, by decide⟩

section
variable [FloatOps F]

/-- **C81** (partial) The test program in a build without AVX, in any arithmetic: it runs to the end, shows 5, 7 and 7 predictions, counts three
tests and no failure, and returns all memory.  (Missing: builds with AVX, where it is false.) -/
theorem C81_program_partial (env : CustomEnv F) {c : Cfg} (hc : c.avx = false) {sys : Sys F} (g : Good c sys) (recs : List ActRecord)
    (hrecs : RecsNamed recs) (h : Heap) (hh : h.WF) (rs : RandState F) :
    ∃ (s1 s2 s3 : Shown F) (st : State F), main env c sys recs h rs = .ok ([s1, s2, s3], st) ∧
      s1.predictions.length = 5 ∧ s2.predictions.length = 7 ∧ s3.predictions.length = 7 ∧
      st.tests = 3 ∧ st.fails = 0 ∧ st.heap.live.Perm h.live := by
  have hv : ∀ (ls : List (ℕ × ℕ × Bool)) (b : Bool) (o : ℕ), VectorWidths c b o ls := by
    intro ls
    induction ls with
    | nil => intros; trivial
    | cons l ls ih => intro b o; exact ⟨by simp [hc], by simp [hc], ih _ _⟩
  obtain ⟨s1, st1, -, e1, -, -, l1, -, r1, t1, f1, w1, p1⟩ := (C81_case env g case1_ok ⟨recs, h, rs, 0, 0⟩ hrecs hh).1 (hv _ _ _)
  obtain ⟨s2, st2, -, e2, -, -, l2, -, r2, t2, f2, w2, p2⟩ := (C81_case env g case2_ok st1 (by rw [r1]; exact hrecs) w1).1 (hv _ _ _)
  obtain ⟨s3, st3, -, e3, -, -, l3, -, r3, t3, f3, w3, p3⟩ := (C81_case env g case3_ok st2 (by rw [r2, r1]; exact hrecs) w2).1 (hv _ _ _)
  refine ⟨s1, s2, s3, st3, ?_, l1, l2, l3, by rw [t3, t2, t1], by rw [f3, f2, f1], (p3.trans p2).trans p1⟩
  simp only [main, testCases, runCases, e1, e2, e3, bind, Except.bind, pure, Except.pure]

/-- **C81** (negation) In every build with AVX the test program does not run to the end: the first network is dealt with, and in the
backpropagation of the second (53-19-13-7) there is a misaligned access. -/
theorem C81_avx_false (env : CustomEnv F) {c : Cfg} (hc : c.avx = true) {sys : Sys F} (g : Good c sys) (recs : List ActRecord)
    (hrecs : RecsNamed recs) (h : Heap) (hh : h.WF) (rs : RandState F) :
    (∃ r : Shown F × State F, runCase env c sys ⟨[231, 128, 5], [some "relu", some "sigmoid", none], "binary_crossentropy"⟩ ⟨recs, h, rs, 0, 0⟩ =
      .ok r) ∧ main env c sys recs h rs = .error .misaligned := by
  have v1 : VectorWidths c true 0 (describeLayers [231, 128, 5] .bce [some "relu", some "sigmoid"]) :=
    ⟨by simp, by simp, by simp, by simp, trivial⟩
  have v2 : ¬ VectorWidths c true 0 (describeLayers [53, 19, 13, 7] .bce [some "relu", some "tanh", some "sigmoid"]) := by
    rintro ⟨-, -, h, -⟩
    exact absurd (h hc rfl (by decide) (by decide)).1 (by decide)
  obtain ⟨s1, st1, -, e1, -, -, -, -, r1, -, -, w1, -⟩ := (C81_case env g case1_ok ⟨recs, h, rs, 0, 0⟩ hrecs hh).1 v1
  have e2 := (C81_case env g case2_ok st1 (by rw [r1]; exact hrecs) w1).2 v2
  exact ⟨⟨_, e1⟩, by simp only [main, testCases, runCases, e1, e2, bind, Except.bind]⟩

/-- **C81** (negation) A network that could not be created is counted as a failed test, but the program does not come to print that:
`nn->n_layers` is read through the NULL pointer. -/
theorem C81_null_false (env : CustomEnv F) (c : Cfg) {sys : Sys F} {cs : Case} {sizes : List ℕ} {funcs : List (Option String)}
    {loss : Loss} {nIn nOut : ℕ} (k : CaseOk cs sizes funcs loss nIn nOut) (st : State F) (hfail : sys.ok st.heap.count = false) :
    runCase env c sys cs st = .error .nullDeref := by
  have hcnt : countNames cs.activations = .ok funcs.length := by rw [k.names]; exact countNames_eq [] funcs k.named
  have hl := k.len
  have hl2 := k.layers
  have hall : (cs.sizes.all fun s => decide (1 ≤ s)) = true := by
    rw [List.all_eq_true, k.dims]
    intro s hs
    obtain ⟨n, hn, rfl⟩ := List.mem_map.1 hs
    simpa using k.pos n hn
  have hcr : createNN sys.ok sys.dl (funcs.length : ℤ) cs.sizes (some cs.activations) st.recs st.heap =
      .ok (none, st.recs, ⟨st.heap.count + 1, st.heap.live⟩) := by
    simp only [createNN, if_neg (show ¬ ((funcs.length : ℕ) : ℤ) < 1 by omega), Int.toNat_natCast,
      check_all (show cs.sizes.length = funcs.length + 1 by rw [k.dims]; simp [hl]), hall, bind, Except.bind,
      Bool.not_true, Bool.false_eq_true, if_false, malloc_fail (h := st.heap) hfail]
    rfl
  simp only [runCase, hcnt, hcr, bind, Except.bind]

end

/-! ### Concrete cases -/

/-- A system whose blocks are at multiples of 4096. -/
def exSys (g : Rand) (fuel : ℕ) (jk : ℕ → ℕ → F) (dl : DynLinker) : Sys F := ⟨fun _ => true, fun _ => 4096, jk, dl, g, fuel, 4096, jk 0⟩

theorem exGood [FloatOps F] {g : Rand} {fuel : ℕ} (ha : Accepting F g fuel) (c : Cfg) (jk : ℕ → ℕ → F) (dl : DynLinker) :
    Good c (exSys g fuel jk dl) := ⟨fun _ => rfl, fun _ => align64 c 4096 rfl, ha, align64 c 4096 rfl⟩

/-- In exact arithmetic, built without AVX. -/
example (env : CustomEnv ℝ) (jk : ℕ → ℕ → ℝ) (dl : DynLinker) :
    ∃ (s1 s2 s3 : Shown ℝ) (st : State ℝ), main env ⟨.sse, false, false⟩ (exSys ⟨fun _ => 5, 7⟩ 1 jk dl) [] ⟨0, []⟩ ⟨0, 0, 0, false⟩ =
      .ok ([s1, s2, s3], st) ∧ st.tests = 3 ∧ st.fails = 0 ∧ st.heap.live = [] := by
  obtain ⟨s1, s2, s3, st, e, -, -, -, t, f, p⟩ := C81_program_partial env (c := ⟨.sse, false, false⟩) rfl (exGood exAccepting _ jk dl) []
    (by intro r hr; cases hr) ⟨0, []⟩ ⟨by simp, by simp⟩ ⟨0, 0, 0, false⟩
  exact ⟨s1, s2, s3, st, e, t, f, p.eq_nil⟩

/-- The same program built for AVX2. -/
example (env : CustomEnv ℝ) (jk : ℕ → ℕ → ℝ) (dl : DynLinker) :
    main env ⟨.avx, true, true⟩ (exSys ⟨fun _ => 5, 7⟩ 1 jk dl) [] ⟨0, []⟩ ⟨0, 0, 0, false⟩ = .error .misaligned :=
  (C81_avx_false env (c := ⟨.avx, true, true⟩) rfl (exGood exAccepting _ jk dl) [] (by intro r hr; cases hr) ⟨0, []⟩ ⟨by simp, by simp⟩
    ⟨0, 0, 0, false⟩).2

/-- In IEEE single precision, built for AVX-512: the network 53-19-13-7. -/
example (env : CustomEnv B32) (jk : ℕ → ℕ → B32) (dl : DynLinker) :
    let _ := B32.ops B32.zeroLibm
    main env ⟨.avx512, true, true⟩ (exSys B32.exRand31 1 jk dl) [] ⟨0, []⟩ ⟨0, .zeroS false, .zeroS false, false⟩ = .error .misaligned :=
  let _ := B32.ops B32.zeroLibm
  (C81_avx_false env (c := ⟨.avx512, true, true⟩) rfl (exGood (B32.exRand31_accepting B32.zeroLibm) _ jk dl) [] (by intro r hr; cases hr) ⟨0, []⟩
    ⟨by simp, by simp⟩ ⟨0, .zeroS false, .zeroS false, false⟩).2

/-- No memory. -/
example (env : CustomEnv ℝ) (c : Cfg) (jk : ℕ → ℕ → ℝ) (dl : DynLinker) :
    runCase env c { exSys ⟨fun _ => 5, 7⟩ 1 jk dl with ok := fun _ => false } ⟨[231, 128, 5], [some "relu", some "sigmoid", none],
      "binary_crossentropy"⟩ ⟨[], ⟨0, []⟩, ⟨0, 0, 0, false⟩, 0, 0⟩ = .error .nullDeref := C81_null_false env c case1_ok _ rfl

end NN.OddSizes
