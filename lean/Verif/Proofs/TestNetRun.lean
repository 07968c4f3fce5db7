import Verif.Proofs.TestNet
import Verif.Proofs.OddSizes
import Verif.Properties.GradCheck
/-
Lemmas for C83: the steps of tests/test_neuralnet.c, in any arithmetic.
-/
set_option linter.unusedSimpArgs false

namespace NN

theorem readSize_extra {sizes rest : List ℤ} {i : ℕ} {s : ℤ} (h : readSize sizes i = .ok s) : readSize (sizes ++ rest) i = .ok s := by
  unfold readSize at h ⊢
  cases e : sizes[i]? with
  | none => simp [e] at h
  | some x =>
    rw [List.getElem?_append_left (List.getElem?_eq_some_iff.1 e).1, e]
    simpa [e] using h

theorem checkSizes_extra {sizes rest : List ℤ} : ∀ {k i : ℕ} {b : Bool}, checkSizes sizes i k = .ok b → checkSizes (sizes ++ rest) i k = .ok b
  | 0, i, b, h => by
    unfold checkSizes at h ⊢
    cases e : readSize sizes i with
    | error e' => simp [e, bind, Except.bind] at h
    | ok s => rw [readSize_extra e]; simpa [e] using h
  | k + 1, i, b, h => by
    unfold checkSizes at h ⊢
    cases e : readSize sizes i with
    | error e' => simp [e, bind, Except.bind] at h
    | ok s =>
      rw [readSize_extra e]
      simp only [e, bind, Except.bind] at h ⊢
      split_ifs at h ⊢ with h1
      · exact h
      · exact checkSizes_extra h

theorem layerSizes_extra {sizes rest : List ℤ} : ∀ {k i : ℕ} {ls : List CLayer}, layerSizes sizes i k = .ok ls →
    layerSizes (sizes ++ rest) i k = .ok ls
  | 0, i, ls, h => h
  | k + 1, i, ls, h => by
    unfold layerSizes at h ⊢
    cases e1 : readSize sizes i with
    | error e' => simp [e1, bind, Except.bind] at h
    | ok a =>
      cases e2 : readSize sizes (i + 1) with
      | error e' => simp [e1, e2, bind, Except.bind] at h
      | ok b =>
        cases e3 : layerSizes sizes (i + 1) k with
        | error e' => simp [e1, e2, e3, bind, Except.bind] at h
        | ok l => rw [readSize_extra e1, readSize_extra e2, layerSizes_extra e3]; simpa [e1, e2, e3] using h

/-- Sizes behind those of the layers are not read. -/
theorem createNN_extra_sizes {ok : ℕ → Bool} {dl : DynLinker} {n : ℤ} {sizes rest : List ℤ} {fs : Option (List (Option String))}
    {recs recs' : List ActRecord} {h h' : Heap} {net : CNet} (he : createNN ok dl n sizes fs recs h = .ok (some net, recs', h')) :
    createNN ok dl n (sizes ++ rest) fs recs h = .ok (some net, recs', h') := by
  unfold createNN at he ⊢
  split_ifs at he ⊢ with h1
  · simp [pure, Except.pure] at he
  · cases e1 : checkSizes sizes 0 n.toNat with
    | error e => simp [e1, bind, Except.bind] at he
    | ok good =>
      simp only [e1, checkSizes_extra e1, bind, Except.bind] at he ⊢
      split_ifs at he ⊢ with h2
      · simp [pure, Except.pure] at he
      · split at he
        · simp [pure, Except.pure] at he
        · split at he
          · split at he <;> simp [pure, Except.pure] at he
          · cases e3 : layerSizes sizes 0 n.toNat with
            | error e => simp [e3] at he
            | ok ls =>
              rw [e3] at he
              rw [layerSizes_extra e3]
              exact he

theorem malloc_live {ok : ℕ → Bool} {h h1 : Heap} {id : ℕ} (e : h.malloc ok = (some id, h1)) : ∀ i ∈ h.live, i ∈ h1.live := by
  unfold Heap.malloc at e
  split_ifs at e
  · simp only [Prod.mk.injEq, Option.some.injEq] at e
    rw [← e.2]; exact fun i hi => List.mem_cons_of_mem _ hi
  · simp at e

theorem allocWeights_live {ok : ℕ → Bool} : ∀ {ls ls' : List CLayer} {h h' : Heap}, allocWeights ok ls h = .ok (true, ls', h') →
    ∀ i ∈ h.live, i ∈ h'.live
  | [], ls', h, h', e => by
    simp only [allocWeights, pure, Except.pure, Except.ok.injEq, Prod.mk.injEq, true_and] at e
    rw [← e.2]; exact fun _ h => h
  | l :: ls, ls', h, h', e => by
    rw [allocWeights] at e
    split_ifs at e
    split at e
    · simp [pure, Except.pure] at e
    · rename_i id h1 hm
      cases e1 : allocWeights ok ls h1 with
      | error x => simp [e1, bind, Except.bind] at e
      | ok q =>
        obtain ⟨b, ls1, h2⟩ := q
        simp only [e1, bind, Except.bind, pure, Except.pure, Except.ok.injEq, Prod.mk.injEq] at e
        obtain ⟨rfl, -, rfl⟩ := e
        intro i hi
        exact allocWeights_live e1 i (malloc_live hm i hi)

theorem allocBiases_live {ok : ℕ → Bool} : ∀ {ls ls' : List CLayer} {h h' : Heap}, allocBiases ok ls h = .ok (true, ls', h') →
    ∀ i ∈ h.live, i ∈ h'.live
  | [], ls', h, h', e => by
    simp only [allocBiases, pure, Except.pure, Except.ok.injEq, Prod.mk.injEq, true_and] at e
    rw [← e.2]; exact fun _ h => h
  | l :: ls, ls', h, h', e => by
    rw [allocBiases] at e
    split at e
    · simp [pure, Except.pure] at e
    · rename_i id h1 hm
      cases e1 : allocBiases ok ls h1 with
      | error x => simp [e1, bind, Except.bind] at e
      | ok q =>
        obtain ⟨b, ls1, h2⟩ := q
        simp only [e1, bind, Except.bind, pure, Except.pure, Except.ok.injEq, Prod.mk.injEq] at e
        obtain ⟨rfl, -, rfl⟩ := e
        intro i hi
        exact allocBiases_live e1 i (malloc_live hm i hi)

theorem weightsAllocate_live {ok : ℕ → Bool} {ls ls' : List CLayer} {h h' : Heap} (e : weightsAllocate ok ls h = .ok (true, ls', h')) :
    ∀ i ∈ h.live, i ∈ h'.live := by
  unfold weightsAllocate at e
  split_ifs at e
  · simp [pure, Except.pure] at e
  · cases e1 : allocWeights ok ls h with
    | error x => simp [e1, bind, Except.bind] at e
    | ok q =>
      obtain ⟨b, ls1, h1⟩ := q
      cases b with
      | false =>
        simp only [e1, bind, Except.bind, Bool.false_eq_true, if_false] at e
        split at e <;> simp [pure, Except.pure] at e
      | true =>
        simp only [e1, bind, Except.bind, if_true] at e
        cases e2 : allocBiases ok ls1 h1 with
        | error x => simp [e2] at e
        | ok q =>
          obtain ⟨b, ls2, h2⟩ := q
          cases b with
          | false =>
            simp only [e2, Bool.false_eq_true, if_false] at e
            split at e <;> simp [pure, Except.pure] at e
          | true =>
            simp only [e2, if_true, pure, Except.pure, Except.ok.injEq, Prod.mk.injEq, true_and] at e
            rw [← e.2]
            exact fun i hi => allocBiases_live e2 i (allocWeights_live e1 i hi)

/-- A successful `neuralnet_create` frees no block that was there before. -/
theorem create_live {ok : ℕ → Bool} {dl : DynLinker} {n : ℤ} {sizes : List ℤ} {fs : Option (List (Option String))}
    {recs recs' : List ActRecord} {h h' : Heap} {net : CNet} (e : createNN ok dl n sizes fs recs h = .ok (some net, recs', h')) :
    ∀ i ∈ h.live, i ∈ h'.live := by
  unfold createNN at e
  split_ifs at e
  · simp [pure, Except.pure] at e
  · cases e1 : checkSizes sizes 0 n.toNat with
    | error x => simp [e1, bind, Except.bind] at e
    | ok good =>
      simp only [e1, bind, Except.bind] at e
      split_ifs at e
      · simp [pure, Except.pure] at e
      · split at e
        · simp [pure, Except.pure] at e
        · rename_i i1 h1 m1
          split at e
          · split at e <;> simp [pure, Except.pure] at e
          · rename_i i2 h2 m2
            cases e3 : layerSizes sizes 0 n.toNat with
            | error x => simp [e3] at e
            | ok ls =>
              simp only [e3] at e
              cases e4 : weightsAllocate ok ls h2 with
              | error x => simp [e4] at e
              | ok q =>
                obtain ⟨b, ls1, h3⟩ := q
                cases b with
                | false =>
                  simp only [e4, Bool.false_eq_true, if_false] at e
                  split at e
                  · simp at e
                  · split at e <;> simp [pure, Except.pure] at e
                | true =>
                  simp only [e4, if_true] at e
                  split at e
                  · simp at e
                  · simp only [pure, Except.pure, Except.ok.injEq, Prod.mk.injEq] at e
                    rw [← e.2.2]
                    exact fun i hi => weightsAllocate_live e4 i (malloc_live m2 i (malloc_live m1 i hi))

namespace TestNet
open FloatOps NN.Spec
variable {F : Type} [FloatOps F]

/-- The parameters of `net` in the heap, as `neuralnet_create` leaves them. -/
structure Fresh (c : Cfg) (sys : Sys F) (sizes : List ℕ) (funcs : List (Option String)) (net : CNet) (before after : Heap) : Prop where
  sized : (net.toNet sys.addr sys.junk : Net F).Sized
  wf : (net.toNet sys.addr sys.junk : Net F).WF c
  sizes : (net.toNet sys.addr sys.junk : Net F).layers.map (fun l => (l.nIn, l.nOut)) = sizes.zip sizes.tail
  funcs : List.Forall₂ (fun name (l : Layer F) => Chosen sys.dl name l.act) funcs (net.toNet sys.addr sys.junk : Net F).layers
  heap : after.WF
  live : after.live.Perm (net.blocks ++ before.live)
  blocks : ∀ l ∈ net.layers, (∃ i, l.weight = .blk i) ∧ ∃ i, l.bias = .blk i

/-- What the program needs. -/
structure Good (c : Cfg) (sys : Sys F) : Prop where
  alloc : ∀ i, sys.ok i = true
  mem : ∀ n, sys.mem n = true
  addr : ∀ i, sys.addr i % c.alignSize = 0
  rand : Accepting F sys.rnd sys.fuel
  lib : sys.lib.Lawful
  bits : sys.bits.Lawful
  result : sys.result % c.alignSize = 0
  resultNew : sys.resultNew % c.alignSize = 0
  work : sys.work % c.alignSize = 0
  workNew : sys.workNew % c.alignSize = 0

/-- Three sizes that `neuralnet_create` accepts. -/
theorem created {c : Cfg} {sys : Sys F} (halloc : ∀ i, sys.ok i = true) (haddr : ∀ i, sys.addr i % c.alignSize = 0)
    (hrand : Accepting F sys.rnd sys.fuel) (n0 n1 n2 : ℕ) (f0 f1 : Option String) (h0 : 1 ≤ n0) (h1 : 1 ≤ n1)
    (h2 : 1 ≤ n2) (hs : n0 * n1 < 2 ^ 31 ∧ n0 + n1 < 2 ^ 31 ∧ n1 * n2 < 2 ^ 31 ∧ n1 + n2 < 2 ^ 31)
    (hf : ∀ s, some s ∈ [f0, f1] → ∃ b ∈ builtins, s = b.1) (recs : List ActRecord) (hrecs : RecsNamed recs) (h : Heap) (hh : h.WF)
    (rs : RandState F) :
    ∃ net h', createNN sys.ok sys.dl 2 [(n0 : ℤ), n1, n2] (some [f0, f1]) recs h = .ok (some net, recs, h') ∧
      Fresh c sys [n0, n1, n2] [f0, f1] net h h' := by
  let j : Job F := {
    sizes := [n0, n1, n2], funcs := [f0, f1], inits := none, loss := "mean_squared_error", shuffle := false, batchsize := 1,
    metrics := some [none], settings := .sgd zero zero zero false, calls := [], file := "", ok := sys.ok, addr := sys.addr,
    junk := sys.junk, vec1 := some 0, vec2 := some 0, dl := sys.dl, rand := sys.rnd, fuel := sys.fuel }
  have hj : j.Fine c .mse [] n0 n2 := {
    layers := by simp [j]
    few := by simp [j]
    pos := by simp [j]; omega
    first := rfl
    last := rfl
    small := by simp only [j, List.tail_cons, List.zip_cons_cons, List.zip_nil_right, List.mem_cons, List.not_mem_nil, or_false]
                rintro p (rfl | rfl)
                · exact ⟨hs.1, hs.2.1⟩
                · exact ⟨hs.2.2.1, hs.2.2.2⟩
    names := rfl
    builtin := hf
    inits := by simp [j]
    lossName := by simp only [j]; decide
    batch := by simp [j]
    metrics := ⟨[], rfl⟩
    mem := halloc
    addr := haddr
    vec1 := ⟨0, rfl, by simp⟩
    vec2 := ⟨0, rfl, by simp⟩
    rand := hrand
    calls := by simp [j]
    file := by simp only [j]; decide }
  obtain ⟨nn, kk, -, -, -, -, -, -, -, -, -, net, h1, nn1, rs1, e1, -, -, -, hsz, hch0, hz0, hw1, hp1, hb1, w0, -, -⟩ :=
    Job.steps_sized j c .mse [] n0 n2 hj recs hrecs h hh rs
  exact ⟨net, h1, e1, hsz, w0, hz0, hch0, hw1, hp1, hb1⟩

/-- The first two networks. -/
theorem smallNet_eq {c : Cfg} {sys : Sys F} (halloc : ∀ i, sys.ok i = true) (haddr : ∀ i, sys.addr i % c.alignSize = 0)
    (hrand : Accepting F sys.rnd sys.fuel) (f0 f1 : Option String)
    (hf : ∀ s, some s ∈ [f0, f1] → ∃ b ∈ builtins, s = b.1) (xs : List ℤ) (ys : List (Option String)) (t : Tally) (ht : t.Sound)
    (recs : List ActRecord) (hrecs : RecsNamed recs) (h : Heap) (hh : h.WF) (rs : RandState F) :
    ∃ t' h', smallNet sys ([3, 4, 2] ++ xs) ([f0, f1] ++ ys) t recs h = .ok (t', recs, h') ∧ t'.Sound ∧
      t'.log = t.log ++ List.replicate 3 (true, false) ∧ h'.WF ∧ h'.live.Perm h.live := by
  obtain ⟨net, h1, e, fr⟩ := created (c := c) halloc haddr hrand 3 4 2 f0 f1 (by omega) (by omega) (by omega) (by omega) hf recs hrecs h hh rs
  have e' := createNN_extra_sizes (rest := xs) (createNN_extra (rest := ys) e)
  obtain ⟨h2, e2, p2, w2⟩ := OddSizes.freeNN_perm fr.blocks fr.heap fr.live
  have hz : (net.toNet sys.addr sys.junk : Net F).layers.map (fun l => (l.nIn, l.nOut)) = [(3, 4), (4, 2)] := fr.sizes
  obtain ⟨l1, l2, hls⟩ : ∃ l1 l2, (net.toNet sys.addr sys.junk : Net F).layers = [l1, l2] := by
    have := congrArg List.length hz
    simp only [List.length_map, List.length_cons, List.length_nil] at this
    exact List.length_eq_two.1 this
  rw [hls] at hz
  simp only [List.map_cons, List.map_nil, List.cons.injEq, Prod.mk.injEq, and_true] at hz
  have htot : totalNParameters (net.toNet sys.addr sys.junk : Net F) = .ok 26 := by
    rw [totalNParameters, hls]
    simp [totalNParametersLoop, hz.1.1, hz.1.2, hz.2.1, hz.2.2, pure, Except.pure]
  refine ⟨((t.check true false).check true false).check true false, h2, ?_, ((ht.check _ _).check _ _).check _ _, ?_, w2, p2⟩
  · unfold smallNet
    have e'' : createNN sys.ok sys.dl 2 ([3, 4, 2] ++ xs) (some ([f0, f1] ++ ys)) recs h = .ok (some net, recs, h1) := e'
    rw [e'']
    simp only [bind, Except.bind, htot, e2, hls]
    rfl
  · simp [Tally.check]

/-- The big network, whatever its parameters are. -/
structure Big (c : Cfg) (dl : DynLinker) (nn : Net F) (l1 l2 : Layer F) : Prop where
  layers : nn.layers = [l1, l2]
  wf : nn.WF c
  in1 : l1.nIn = 1000
  out1 : l1.nOut = 1000
  in2 : l2.nIn = 1000
  out2 : l2.nOut = 10
  act1 : l1.act = .tanh
  act2 : l2.act = .sigmoid

namespace Big
variable {c : Cfg} {dl : DynLinker} {nn : Net F} {l1 l2 : Layer F}

omit [FloatOps F] in
theorem sized (b : Big c dl nn l1 l2) : nn.Sized := by
  intro l hl
  have hw := b.wf.layer l hl
  refine ⟨⟨hw.weight_len, hw.bias_len⟩, ?_⟩
  rw [b.layers] at hl
  simp only [List.mem_cons, List.not_mem_nil, or_false] at hl
  rcases hl with rfl | rfl
  · rw [b.in1, b.out1]; norm_num
  · rw [b.in2, b.out2]; norm_num

theorem init (b : Big c dl nn l1 l2) {g : Rand} {fuel : ℕ} (ha : Accepting F g fuel) {recs : List ActRecord} (hr : RecsNamed recs)
    (inits : Option (List (Option String))) (hi : ∀ fs, inits = some fs → 2 ≤ fs.length ∧ none ∉ fs) (rs : RandState F) :
    ∃ nn' rs' l1' l2', initializeNN g fuel recs inits (some nn) rs = .ok (some nn', rs') ∧ Big c dl nn' l1' l2' := by
  obtain ⟨nn', rs', e⟩ := C54_defined (g := g) (fuel := fuel) hr (inits := inits) b.sized (by
    intro l hl
    rw [b.layers] at hl
    simp only [List.mem_cons, List.not_mem_nil, or_false] at hl
    rcases hl with rfl | rfl
    · rw [b.in1, b.out1]; norm_num
    · rw [b.in2, b.out2]; norm_num) (fun fs h => by rw [b.layers]; exact hi fs h) ha rs
  have al := alike_initialize hr b.sized e
  have w := Alike.wf al b.wf
  obtain ⟨k1, k2, hk⟩ : ∃ k1 k2, nn'.layers = [k1, k2] := by
    have := al.length_eq
    rw [b.layers] at this
    exact List.length_eq_two.1 (by simpa using this.symm)
  rw [b.layers, hk] at al
  simp only [List.forall₂_cons, List.forall₂_nil_left_iff, and_true] at al
  exact ⟨nn', rs', k1, k2, e, hk, w, by rw [al.1.1.1, b.in1], by rw [al.1.1.2.1, b.out1], by rw [al.2.1.1, b.in2], by rw [al.2.1.2.1, b.out2],
    by rw [al.1.1.2.2, b.act1], by rw [al.2.1.2.2, b.act2]⟩

omit [FloatOps F] in
theorem nParams_eq (b : Big c dl nn l1 l2) : nParams nn.layers = 1011010 := by
  simp [nParams, b.layers, b.in1, b.out1, b.in2, b.out2]

omit [FloatOps F] in
theorem total (b : Big c dl nn l1 l2) : totalNParameters nn = .ok 1011010 := by
  rw [totalNParameters, b.layers]
  simp [totalNParametersLoop, b.in1, b.out1, b.in2, b.out2, pure, Except.pure]

omit [FloatOps F] in
theorem weight_len (b : Big c dl nn l1 l2) : l1.weight.data.length = 1000 * 1000 := by
  rw [(b.wf.layer l1 (by rw [b.layers]; simp)).weight_len, b.in1, b.out1]

omit [FloatOps F] in
theorem bias_len (b : Big c dl nn l1 l2) : l1.bias.data.length = 1000 := by
  rw [(b.wf.layer l1 (by rw [b.layers]; simp)).bias_len, b.out1]

omit [FloatOps F] in
theorem params_eq (b : Big c dl nn l1 l2) (p : View F) (hp : p.data.length = 1011010) :
    getParameters nn p = .ok ⟨p.addr, l1.bias.data ++ (l1.weight.data ++ (l2.bias.data ++ l2.weight.data))⟩ ∧
    (l1.bias.data ++ (l1.weight.data ++ (l2.bias.data ++ l2.weight.data))).length = 1011010 := by
  have e : params nn.layers = l1.bias.data ++ (l1.weight.data ++ (l2.bias.data ++ l2.weight.data)) := by simp [params, b.layers]
  rw [← e]
  refine ⟨?_, by rw [params_length c _ b.wf.layer, b.nParams_eq]⟩
  rw [getParameters_eq c nn p b.wf.layer (by rw [b.nParams_eq, hp]), List.drop_eq_nil_of_le (by rw [b.nParams_eq, hp]), List.append_nil]

omit [FloatOps F] in
theorem storable (b : Big c dl nn l1 l2) : Storable c nn where
  wf := b.wf
  small := fun l hl => (b.sized l hl).2
  count := by simp [b.layers]
  act := by
    intro l hl
    rw [b.layers] at hl
    simp only [List.mem_cons, List.not_mem_nil, or_false] at hl
    rcases hl with rfl | rfl
    · exact ⟨("tanh", .tanh, .tanh), by simp [builtins], b.act1⟩
    · exact ⟨("sigmoid", .sigmoid, .sigmoid), by simp [builtins], b.act2⟩

omit [FloatOps F] in
theorem gin (b : Big c dl nn l1 l2) : nn.nInput = 1000 := by simp [Net.nInput, b.layers, b.in1]
omit [FloatOps F] in
theorem gout (b : Big c dl nn l1 l2) : nn.nOutput = 10 := by simp [Net.nOutput, b.layers, b.out2]

theorem gpredict (b : Big c dl nn l1 l2) (env : CustomEnv F) (work : ℕ) (jk : ℕ → F) (X O : View F) (hwk : work % c.alignSize = 0)
    (ho : O.addr % c.alignSize = 0) (hX : X.data.length = 1000) (hO : O.data.length = 10) :
    predict env c work jk nn X O = .ok ⟨O.addr, netF env c 0 nn.layers X.data⟩ := by
  rw [predict_netF env c work jk nn X O b.wf hwk (by rw [b.gin, hX]) (by rw [b.gout, hO]) (AlignedFor.of_aligned ho), b.gin, b.gout,
    List.take_of_length_le (by omega), List.drop_eq_nil_of_le (by omega), List.append_nil, OddSizes.netF_aligned env c _ ho]

theorem gnet_length (b : Big c dl nn l1 l2) (env : CustomEnv F) (x : List F) : (netF env c 0 nn.layers x).length = 10 := by
  rw [netF_length env c 0 nn.layers _ l2 (by simp [b.layers]) b.wf.layer, b.out2]

end Big

omit [FloatOps F] in
theorem Fresh.big {c : Cfg} {sys : Sys F} {net : CNet} {h h' : Heap}
    (fr : Fresh c sys [1000, 1000, 10] [some "tanh", some "sigmoid"] net h h') :
    ∃ l1 l2, Big c sys.dl (net.toNet sys.addr sys.junk : Net F) l1 l2 := by
  have hz : (net.toNet sys.addr sys.junk : Net F).layers.map (fun l => (l.nIn, l.nOut)) = [(1000, 1000), (1000, 10)] := fr.sizes
  obtain ⟨l1, l2, hls⟩ : ∃ l1 l2, (net.toNet sys.addr sys.junk : Net F).layers = [l1, l2] := by
    have := congrArg List.length hz
    simp only [List.length_map, List.length_cons, List.length_nil] at this
    exact List.length_eq_two.1 this
  have hf := fr.funcs
  rw [hls] at hz hf
  simp only [List.map_cons, List.map_nil, List.cons.injEq, Prod.mk.injEq, and_true] at hz
  simp only [List.forall₂_cons, List.forall₂_nil_left_iff, and_true] at hf
  exact ⟨l1, l2, hls, fr.wf, hz.1.1, hz.1.2, hz.2.1, hz.2.2,
    GradCheck.chosen_builtin hf.1 .tanh (by simp [builtins]) (by simp [builtins]),
    GradCheck.chosen_builtin hf.2 .sigmoid (by simp [builtins]) (by simp [builtins])⟩

/-- What the ten comparisons print and count when both predictions are `y`. -/
def sameLog (y : List F) : List (Bool × Bool) :=
  y.map fun v => (le (FloatOps.abs (sub v v)) (lit 1 10000000), lt (lit 1 10000000) (FloatOps.abs (sub v v)))

theorem load_exists {F : Type} {lib : ZipLib} {bits : FloatBits F} {d : Disk} {mem ok : ℕ → Bool} {dl : DynLinker} {addr : ℕ → ℕ}
    {junk : ℕ → ℕ → F} {f : String} {recs recs' : List ActRecord} {h h' : Heap} {nn : Net F}
    (e : loadNN lib bits d mem ok dl addr junk f recs h = .ok (some nn, recs', h')) : (d.content f).isSome = true := by
  cases hc : d.content f with
  | some s => rfl
  | none => simp [loadNN, listLoad, hc, loadArrays, bind, Except.bind, pure, Except.pure] at e

/-- Loading frees no block that was there before. -/
theorem load_live {F : Type} {lib : ZipLib} {bits : FloatBits F} {d : Disk} {mem ok : ℕ → Bool} {dl : DynLinker} {addr : ℕ → ℕ}
    {junk : ℕ → ℕ → F} {f : String} {recs recs' : List ActRecord} {h h' : Heap} {nn : Net F}
    (e : loadNN lib bits d mem ok dl addr junk f recs h = .ok (some nn, recs', h')) : ∀ i ∈ h.live, i ∈ h'.live := by
  unfold loadNN at e
  cases e1 : listLoad lib d mem f with
  | error x => simp [e1, bind, Except.bind] at e
  | ok l =>
    simp only [e1, bind, Except.bind] at e
    unfold loadArrays at e
    split_ifs at e
    · simp [pure, Except.pure] at e
    · simp [pure, Except.pure] at e
    · cases e2 : sortArrays mem (l.map Prod.snd) [] none with
      | error x => simp [e2, bind, Except.bind] at e
      | ok r =>
        cases r with
        | none => simp [e2, bind, Except.bind, pure, Except.pure] at e
        | some q =>
          obtain ⟨wb, acts⟩ := q
          simp only [e2, bind, Except.bind] at e
          split_ifs at e
          cases e3 : sizeArray wb with
          | error x => simp [e3, bind, Except.bind] at e
          | ok sizes =>
            simp only [e3, bind, Except.bind] at e
            split at e
            · simp at e
            · rename_i v hv
              obtain ⟨net, r1, h1⟩ := v
              cases net with
              | none => simp [pure, Except.pure] at e
              | some net =>
                simp only at e
                split at e
                · simp at e
                · simp only [pure, Except.pure, Except.ok.injEq, Prod.mk.injEq] at e
                  rw [← e.2.2]
                  exact create_live hv

/-- From the second prediction on. -/
theorem predictAgain_eq (env : CustomEnv F) {c : Cfg} {sys : Sys F} (g : Good c sys) {net : CNet} {nn : Net F} {l1 l2 : Layer F}
    (b : Big c sys.dl nn l1 l2) (hb : ∀ l ∈ net.layers, (∃ i, l.weight = .blk i) ∧ ∃ i, l.bias = .blk i) (t : Tally) (ht : t.Sound)
    (recs : List ActRecord) (h : Heap) (hh : h.WF) {rest : List ℕ} (hp : h.live.Perm (net.blocks ++ rest)) (d : Disk)
    (hdw : d.writable "tmp_store_12.npz" = true) (hdr : d.readable "tmp_store_12.npz" = true) :
    ∃ o y, predictAgain env c sys net nn t recs h d = .ok o ∧ o.tally.Sound ∧
      o.tally.log = t.log ++ List.replicate 2 (true, false) ++ sameLog y ∧
      o.results = some (⟨sys.result, y⟩, ⟨sys.resultNew, y⟩) ∧ y.length = 10 ∧
      (∀ f, f ≠ "tmp_store_12.npz" → o.disk.content f = d.content f) := by
  obtain ⟨d', es, hd, hl⟩ := C49_roundtrip g.bits g.lib hdw hdr (by decide) b.storable recs
  have hp1 : (⟨h.count + 1, h.count :: h.live⟩ : Heap).live.Perm (net.blocks ++ (h.count :: rest)) :=
    (List.Perm.cons _ hp).trans List.perm_middle.symm
  obtain ⟨h2, e2, p2, w2⟩ := OddSizes.freeNN_perm hb hh.cons hp1
  obtain ⟨nn', recs', h3, e3, sl, -, wf'⟩ := hl sys.mem sys.ok sys.dl sys.addr sys.junk recs h2 g.mem w2 (fun _ _ => g.alloc _)
  have hw' := wf' c g.addr
  obtain ⟨inp, hinp⟩ : ∃ inp : List F, inp = List.replicate 1000 (lit 1 2) := ⟨_, rfl⟩
  have hil : inp.length = 1000 := by rw [hinp]; exact List.length_replicate
  have r1 := b.gpredict env sys.work sys.workJunk ⟨sys.addr h.count, inp⟩ (stackArray sys.result 10 sys.stack) g.work g.result hil
    (GradCheck.stack_len _ _ _)
  have r2 := b.gpredict env sys.work sys.workJunk ⟨sys.addr h.count, inp⟩ (stackArray sys.resultNew 10 sys.stack) g.work g.resultNew hil
    (GradCheck.stack_len _ _ _)
  rw [← C49_predict env c b.wf hw' sl sys.work sys.workNew sys.workJunk sys.workNewJunk _ _ g.work g.workNew (by rw [b.gin]; exact hil.ge)
    (by rw [b.gout, GradCheck.stack_len]) (AlignedFor.of_aligned g.resultNew)] at r2
  have hyl := b.gnet_length env inp
  generalize hy : netF env c 0 nn.layers inp = y at r1 r2 hyl
  obtain ⟨t', e4, s4, l4⟩ := compareLoop_eq sys.result sys.resultNew y y 10 0 ((t.check true false).check true false) (by omega) (by omega)
    ((ht.check _ _).check _ _)
  have hp3 : h.count ∈ h3.live := load_live e3 _ (p2.mem_iff.2 (by simp))
  refine ⟨⟨t', some (⟨sys.result, y⟩, ⟨sys.resultNew, y⟩), { h3 with live := h3.live.erase h.count }, d'⟩, y, ?_, s4, ?_, rfl, hyl, hd⟩
  · unfold predictAgain
    rw [malloc_ok (g.alloc _)]
    simp only [← hinp, bind, Except.bind]
    rw [r1]
    simp only [es, e2, e3, load_exists e3, Tally.checkCond, Tally.checkNotNull, Option.isSome_some, Option.isNone_some, Bool.not_true]
    rw [r2]
    have e4' : compareLoop ⟨(stackArray sys.result 10 sys.stack).addr, y⟩ ⟨(stackArray sys.resultNew 10 sys.stack).addr, y⟩ 10 0
      ((t.check true false).check true false) = .ok t' := e4
    simp only [e4', Heap.free, if_pos hp3]
    rfl
  · rw [l4, List.drop_zero, List.take_of_length_le (by omega)]
    simp [Tally.check, sameLog, List.zipWith_self]

/-- The lists of weights that the statistics are about: the first layer after the Kaiming and after the Xavier initialisation. -/
structure Drawn (c : Cfg) (sys : Sys F) (recs : List ActRecord) (rs : RandState F) (ks : List F) (x : F) (xs : List F) : Prop where
  ex : ∃ (nn0 nn1 nn2 : Net F) (k1 k2 l1 l2 m1 m2 : Layer F) (rs1 rs2 : RandState F), Big c sys.dl nn0 k1 k2 ∧ Big c sys.dl nn1 l1 l2 ∧
    Big c sys.dl nn2 m1 m2 ∧
    initializeNN sys.rnd sys.fuel recs (some [some "kaiming", some "kaiming"]) (some nn0) rs = .ok (some nn1, rs1) ∧
    initializeNN sys.rnd sys.fuel recs (some [some "xavier", some "xavier"]) (some nn1) rs1 = .ok (some nn2, rs2) ∧
    l1.weight.data = ks ∧ m1.weight.data = x :: xs

theorem initChecks_eq (env : CustomEnv F) {c : Cfg} {sys : Sys F} (g : Good c sys) {net : CNet} {h0 h : Heap}
    (fr : Fresh c sys [1000, 1000, 10] [some "tanh", some "sigmoid"] net h0 h) (t : Tally) (ht : t.Sound)
    (recs : List ActRecord) (hrecs : RecsNamed recs) (rs : RandState F) (d : Disk)
    (hdw : d.writable "tmp_store_12.npz" = true) (hdr : d.readable "tmp_store_12.npz" = true) :
    ∃ o ks x xs y, initChecks env c sys net t recs h rs d = .ok o ∧ o.tally.Sound ∧ Drawn c sys recs rs ks x xs ∧
      o.tally.log = t.log ++ [(true, false)] ++ kaimingLog 1000 ks ++ xavierLog 1000 1000 x xs ++ List.replicate 3 (true, false) ++ sameLog y ∧
      o.results = some (⟨sys.result, y⟩, ⟨sys.resultNew, y⟩) ∧ y.length = 10 ∧
      (∀ f, f ≠ "tmp_store_12.npz" → o.disk.content f = d.content f) := by
  obtain ⟨k1, k2, b0⟩ := fr.big
  obtain ⟨nn1, rs1, l1, l2, e1, b1⟩ := b0.init g.rand hrecs (some [some "kaiming", some "kaiming"]) (by simp) rs
  obtain ⟨nn2, rs2, m1, m2, e2, b2⟩ := b1.init g.rand hrecs (some [some "xavier", some "xavier"]) (by simp) rs1
  obtain ⟨nn3, rs3, q1, q2, e3, b3⟩ := b2.init g.rand hrecs none (by simp) rs2
  obtain ⟨n, hn⟩ : ∃ n, n = 1011010 := ⟨_, rfl⟩
  have et := b1.total
  rw [← hn] at et
  have hbl : (blockView sys.addr sys.junk n (.blk h.count)).data.length = 1011010 := by
    rw [blockView, List.length_map, List.length_range, hn]
  obtain ⟨p1, lp1⟩ := b1.params_eq _ hbl
  obtain ⟨p2, -⟩ := b2.params_eq ⟨(blockView sys.addr sys.junk n (.blk h.count)).addr, _⟩ lp1
  obtain ⟨t1, f1, s1, g1⟩ := kaimingChecks_eq 1000 1000 (blockView sys.addr sys.junk n (.blk h.count)).addr l1.bias.data l1.weight.data
    (l2.bias.data ++ l2.weight.data) b1.bias_len b1.weight_len (by omega) (by omega) (t.check true false) (ht.check _ _)
  obtain ⟨x, xs, hx⟩ : ∃ x xs, m1.weight.data = x :: xs := by
    cases hm : m1.weight.data with
    | nil => have := b2.weight_len; rw [hm] at this; simp at this
    | cons x xs => exact ⟨x, xs, rfl⟩
  have hxl := b2.weight_len
  rw [hx] at hxl p2
  obtain ⟨t2, f2, s2, g2⟩ := xavierChecks_eq 1000 1000 (blockView sys.addr sys.junk n (.blk h.count)).addr m1.bias.data x xs
    (m2.bias.data ++ m2.weight.data) b2.bias_len hxl (by omega) (by omega) t1 s1
  obtain ⟨h2, e4, p4, c4⟩ := free_perm (h := ⟨h.count + 1, h.count :: h.live⟩) (id := h.count) (rest := h.live) (List.Perm.refl _)
  have w2 : h2.WF := by
    have hw := fr.heap.cons
    refine ⟨?_, p4.nodup_iff.2 fr.heap.2⟩
    intro i hi
    rw [c4]
    exact hw.1 i (List.mem_cons_of_mem _ (p4.mem_iff.1 hi))
  obtain ⟨o, y, e5, s5, l5, r5, y5, d5⟩ := predictAgain_eq env g b3 fr.blocks (t2.check true false) (s2.check _ _) recs h2 w2
    (p4.trans fr.live) d hdw hdr
  refine ⟨o, l1.weight.data, x, xs, y, ?_, s5, ⟨_, _, _, _, _, _, _, _, _, _, _, b0, b1, b2, e1, e2, rfl, hx⟩, ?_, r5, y5, d5⟩
  · unfold initChecks
    rw [e1]
    simp only [bind, Except.bind, et]
    rw [malloc_ok (g.alloc _)]
    simp only [p1]
    have ec : t.checkInt (1000 * 1000 + 1000 * 10 + 1000 + 10) (n : ℤ) = t.check true false := by rw [hn]; rfl
    rw [ec, f1]
    simp only [e2]
    rw [p2]
    simp only [f2, e4, e3]
    exact e5
  · rw [l5, show (t2.check true false).log = t2.log ++ [(true, false)] from rfl, g2, g1,
      show (t.check true false).log = t.log ++ [(true, false)] from rfl]
    simp

/-- Without memory for the copy of the parameters. -/
theorem initChecks_nomem (env : CustomEnv F) {c : Cfg} {sys : Sys F} (hrand : Accepting F sys.rnd sys.fuel) {net : CNet} {h0 h : Heap}
    (fr : Fresh c sys [1000, 1000, 10] [some "tanh", some "sigmoid"] net h0 h) (hno : sys.ok h.count = false) (t : Tally)
    (recs : List ActRecord) (hrecs : RecsNamed recs) (rs : RandState F) (d : Disk) :
    ∃ o, initChecks env c sys net t recs h rs d = .ok o ∧ o.tally = t.check true false ∧ o.results = none ∧
      o.heap.live.Perm h0.live ∧ o.disk = d := by
  obtain ⟨k1, k2, b0⟩ := fr.big
  obtain ⟨nn1, rs1, l1, l2, e1, b1⟩ := b0.init hrand hrecs (some [some "kaiming", some "kaiming"]) (by simp) rs
  obtain ⟨h2, e2, p2, -⟩ := OddSizes.freeNN_perm (h := ⟨h.count + 1, h.live⟩) fr.blocks fr.heap.skip fr.live
  refine ⟨⟨t.check true false, none, h2, d⟩, ?_, rfl, rfl, p2, rfl⟩
  unfold initChecks
  rw [e1]
  simp only [bind, Except.bind, b1.total]
  rw [malloc_fail hno]
  simp only [e2]
  rfl

/-- The whole program. -/
theorem main_eq (env : CustomEnv F) {c : Cfg} {sys : Sys F} (g : Good c sys) (recs : List ActRecord) (hrecs : RecsNamed recs) (h : Heap)
    (hh : h.WF) (rs : RandState F) (d : Disk) (hdw : d.writable "tmp_store_12.npz" = true) (hdr : d.readable "tmp_store_12.npz" = true) :
    ∃ o ks x xs y, main env c sys recs h rs d = .ok o ∧ o.tally.Sound ∧ Drawn c sys recs rs ks x xs ∧
      o.tally.log = List.replicate 8 (true, false) ++ kaimingLog 1000 ks ++ xavierLog 1000 1000 x xs ++ List.replicate 3 (true, false) ++
        sameLog y ∧
      o.results = some (⟨sys.result, y⟩, ⟨sys.resultNew, y⟩) ∧ y.length = 10 ∧
      (∀ f, f ≠ "tmp_store_12.npz" → o.disk.content f = d.content f) := by
  obtain ⟨t1, h1, e1, s1, g1, w1, -⟩ := smallNet_eq (c := c) g.alloc g.addr g.rand (some "tanh") (some "sigmoid") (by
      intro s hs; simp only [List.mem_cons, Option.some.injEq, List.not_mem_nil, or_false] at hs
      rcases hs with rfl | rfl <;> simp [builtins]) [] [] ⟨0, 0, []⟩ ⟨rfl, rfl⟩ recs hrecs h hh rs
  obtain ⟨t2, h2, e2, s2, g2, w2, -⟩ := smallNet_eq (c := c) g.alloc g.addr g.rand none (some "sigmoid") (by
      intro s hs; simp only [List.mem_cons, reduceCtorEq, Option.some.injEq, List.not_mem_nil, or_false, false_or] at hs
      rcases hs with rfl; simp [builtins]) [-1] [some "blah"] t1 s1 recs hrecs h1 w1 rs
  obtain ⟨net, h3, e3, fr⟩ := created (c := c) g.alloc g.addr g.rand 1000 1000 10 (some "tanh") (some "sigmoid") (by omega) (by omega) (by omega)
    (by omega) (by
      intro s hs; simp only [List.mem_cons, Option.some.injEq, List.not_mem_nil, or_false] at hs
      rcases hs with rfl | rfl <;> simp [builtins]) recs hrecs h2 w2 rs
  obtain ⟨o, ks, x, xs, y, e4, s4, d4, l4, r4⟩ := initChecks_eq env g fr (t2.check true false) (s2.check _ _) recs hrecs rs d hdw hdr
  refine ⟨o, ks, x, xs, y, ?_, s4, d4, ?_, r4⟩
  · unfold main
    simp only [List.append_nil] at e1
    rw [e1]
    simp only [bind, Except.bind]
    have e2' : smallNet sys [3, 4, 2, -1] [none, some "sigmoid", some "blah"] t1 recs h1 = .ok (t2, recs, h2) := e2
    have e3' : createNN sys.ok sys.dl 2 [1000, 1000, 10] (some [some "tanh", some "sigmoid"]) recs h2 = .ok (some net, recs, h3) := e3
    rw [e2']
    simp only [e3']
    exact e4
  · rw [l4, show (t2.check true false).log = t2.log ++ [(true, false)] from rfl, g2, g1]
    simp

end TestNet
end NN
