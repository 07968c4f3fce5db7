import Verif.Proofs.Example02
import Verif.Properties.TestSgd
import Verif.Properties.Examples
/-
C79: the second program of the mushroom example (examples/example_02b.c) reproduces the results of the first (examples/example_02.c).
-/
set_option linter.unusedSimpArgs false

namespace NN.Example02
open FloatOps NN.Spec NN.Trainer _root_.Spec _root_.Spec.Example02
variable {F : Type}

/-! ### Files -/

section
variable [FloatOps F]

/-- **C79** Without the data both programs end with a failed assertion, as they should. -/
theorem C79_missing (lb : Lib F) (fixed : F → Bytes) (sys : Sys F) (sys2 : Sys2 F) (rnd : Rand) (fuel : ℕ) (recs : List ActRecord) (h : Heap)
    (rs : RandState F) (st : Statics F) (d : Disk) (hd : d.content "mushroom_train.npz" = none ∨ d.readable "mushroom_train.npz" = false) :
    first lb fixed sys rnd fuel recs h rs st d = .error .assertFail ∧ second lb fixed sys2 recs h d = .error .assertFail := by
  have key : ∀ mem, loadData lb.zip d mem = .error .assertFail := by
    intro mem
    have : listLoad lb.zip d mem "mushroom_train.npz" = .ok [] := by
      unfold listLoad
      rcases hd with hd | hd
      · rw [hd]; rfl
      · cases d.content "mushroom_train.npz" <;> simp [hd] <;> rfl
    simp [loadData, this, bind, Except.bind]
  constructor
  · simp [first, key, bind, Except.bind]
  · simp [second, key, bind, Except.bind]

/-- **C79 is false** for files with one, two or three arrays: both programs follow a NULL pointer. -/
theorem C79_file_false (lb : Lib F) (fixed : F → Bytes) (sys : Sys F) (sys2 : Sys2 F) (rnd : Rand) (fuel : ℕ) (recs : List ActRecord)
    (h : Heap) (rs : RandState F) (st : Statics F) (d : Disk) (l l2 : List (Bytes × NpyArray))
    (hl : listLoad lb.zip d sys.mem "mushroom_train.npz" = .ok l) (hl2 : listLoad lb.zip d sys2.mem "mushroom_train.npz" = .ok l2)
    (h1 : 1 ≤ l.length) (h4 : l.length < 4) (h1' : 1 ≤ l2.length) (h4' : l2.length < 4) :
    first lb fixed sys rnd fuel recs h rs st d = .error .nullDeref ∧ second lb fixed sys2 recs h d = .error .nullDeref := by
  have key : ∀ (mem : ℕ → Bool) (l : List (Bytes × NpyArray)), listLoad lb.zip d mem "mushroom_train.npz" = .ok l → 1 ≤ l.length → l.length < 4 →
      loadData lb.zip d mem = .error .nullDeref := by
    intro mem l hl h1 h4
    simp only [loadData, hl, bind, Except.bind]
    match l, h1, h4 with
    | [_], _, _ => rfl
    | [_, _], _, _ => rfl
    | [_, _, _], _, _ => rfl
    | _ :: _ :: _ :: _ :: _, _, h => simp at h; omega
  exact ⟨by simp [first, key _ l hl h1 h4, bind, Except.bind], by simp [second, key _ l2 hl2 h1' h4', bind, Except.bind]⟩

/-- **C79** An array in Fortran order ends both programs with a failed assertion. -/
theorem C79_order (lb : Lib F) (fixed : F → Bytes) (sys : Sys F) (sys2 : Sys2 F) (rnd : Rand) (fuel : ℕ) (recs : List ActRecord)
    (h : Heap) (rs : RandState F) (st : Statics F) (d : Disk) (p1 p2 p3 p4 : Bytes × NpyArray) (rest : List (Bytes × NpyArray))
    (hl : listLoad lb.zip d sys.mem "mushroom_train.npz" = .ok (p1 :: p2 :: p3 :: p4 :: rest))
    (hl2 : listLoad lb.zip d sys2.mem "mushroom_train.npz" = .ok (p1 :: p2 :: p3 :: p4 :: rest))
    (hf : ∃ p ∈ [p1, p2, p3, p4], p.2.fortran = true) :
    first lb fixed sys rnd fuel recs h rs st d = .error .assertFail ∧ second lb fixed sys2 recs h d = .error .assertFail := by
  have key : ∀ mem, listLoad lb.zip d mem "mushroom_train.npz" = .ok (p1 :: p2 :: p3 :: p4 :: rest) →
      loadData lb.zip d mem = .error .assertFail := by
    intro mem hl
    simp only [loadData, hl, bind, Except.bind]
    rw [if_pos]
    simp only [List.mem_cons, List.not_mem_nil, or_false, exists_eq_or_imp, exists_eq_left] at hf
    rcases hf with hf | hf | hf | hf <;> simp [hf]
  exact ⟨by simp [first, key _ hl, bind, Except.bind], by simp [second, key _ hl2, bind, Except.bind]⟩

/-! ### What the programs need -/

/-- What the first program needs: four arrays with `n` and `nV` samples of `k` inputs and one output, enough memory. -/
structure Good (lb : Lib F) (sys : Sys F) (rnd : Rand) (fuel : ℕ) (d : Disk) (k n nV : ℕ) (tX tY vX vY : NpyArray) : Prop where
  zip : lb.zip.Lawful
  bits : lb.bits.Lawful
  file : ∃ n1 n2 n3 n4 rest, listLoad lb.zip d sys.mem "mushroom_train.npz" = .ok ((n1, tX) :: (n2, tY) :: (n3, vX) :: (n4, vY) :: rest)
  order : tX.fortran = false ∧ tY.fortran = false ∧ vX.fortran = false ∧ vY.fortran = false
  rows : dim tX 0 = n ∧ dim vX 0 = nV
  cols : dim tX 1 = k
  full : 4 * (n * k) ≤ tX.data.length ∧ 4 * n ≤ tY.data.length ∧ 4 * (nV * k) ≤ vX.data.length ∧ 4 * nV ≤ vY.data.length
  pos : 1 ≤ n ∧ 1 ≤ nV ∧ 1 ≤ k
  few : n < 2 ^ 31 ∧ nV < 2 ^ 31 ∧ n * k ≤ 2 ^ 32 ∧ k * 64 < 2 ^ 31
  alloc : ∀ i, sys.ok i = true
  addr : ∀ i, sys.addr i % lb.c.alignSize = 0
  vec1 : ∃ a, sys.vec1 = some a ∧ a % lb.c.alignSize = 0
  vec2 : ∃ a, sys.vec2 = some a ∧ a % lb.c.alignSize = 0
  rand : Accepting F rnd fuel
  mem : ∀ j, ((sys.epoch 0).mem j).OK lb.c (paramCount [k, 64, 32, 1]) (batchLen n 1 j)
  fuel : n ≤ (sys.epoch 0).fuel
  evalMem : ∀ j, ((sys.epoch 0).evalMem j).workAddr % lb.c.alignSize = 0 ∧ ((sys.epoch 0).evalMem j).predAddr % lb.c.alignSize = 0
  evalMemV : ∀ j, ((sys.epoch 0).evalMemV j).workAddr % lb.c.alignSize = 0 ∧ ((sys.epoch 0).evalMemV j).predAddr % lb.c.alignSize = 0
  sched : (sys.epoch 0).sched.Covers n ∧ (sys.epoch 0).schedV.Covers nV
  disk : d.writable "mushroom-neuralnet.npz" = true ∧ d.readable "mushroom-neuralnet.npz" = true

/-- What the second program needs besides the network. -/
structure Good2 (lb : Lib F) (sys : Sys2 F) (d : Disk) (n nV : ℕ) (tX tY vX vY : NpyArray) : Prop where
  file : ∃ n1 n2 n3 n4 rest, listLoad lb.zip d sys.mem "mushroom_train.npz" = .ok ((n1, tX) :: (n2, tY) :: (n3, vX) :: (n4, vY) :: rest)
  mem : ∀ i, sys.mem i = true
  ok : ∀ i, sys.ok i = true
  addr : ∀ i, sys.addr i % lb.c.alignSize = 0
  work : ∀ i, sys.train.workAddr i % lb.c.alignSize = 0
  workV : ∀ i, sys.test.workAddr i % lb.c.alignSize = 0
  order : sys.train.order.Perm (List.range n)
  orderV : sys.test.order.Perm (List.range nV)

/-- An array of the file as the programs see it; `a`: its address. -/
abbrev matrix (lb : Lib F) (a : ℕ) (m : NpyArray) : View F := floats lb.bits a m

/-! ### Both programs -/

theorem Good.load {lb : Lib F} {sys : Sys F} {rnd : Rand} {fuel : ℕ} {d : Disk} {k n nV : ℕ} {tX tY vX vY : NpyArray}
    (g : Good lb sys rnd fuel d k n nV tX tY vX vY) : loadData lb.zip d sys.mem = .ok (tX, tY, vX, vY) := by
  obtain ⟨n1, n2, n3, n4, rest, h⟩ := g.file
  simp [loadData, h, g.order, bind, Except.bind, pure, Except.pure]

/-- The metrics of the first program. -/
abbrev metrics : List Metric := [.bce, .mae, .binaryAccuracy]

/-- The first program as a job (see C63). -/
def job (sys : Sys F) (rnd : Rand) (fuel k : ℕ) (data : Data F) : Job F where
  sizes := [k, 64, 32, 1]
  funcs := [some "relu", some "relu", some "sigmoid"]
  inits := some [some "kaiming", some "kaiming", some "kaiming"]
  loss := "binary_crossentropy"
  shuffle := true
  batchsize := 1
  metrics := some [some .bce, some .mae, some .binaryAccuracy, none]
  settings := .sgd (lit 1 100) zero zero false
  calls := [call sys data 3 0]
  file := "mushroom-neuralnet.npz"
  ok := sys.ok
  addr := sys.addr
  junk := sys.junk
  vec1 := sys.vec1
  vec2 := sys.vec2
  dl := sys.dl
  rand := rnd
  fuel := fuel

theorem Good.fits {lb : Lib F} {sys : Sys F} {rnd : Rand} {fuel : ℕ} {d : Disk} {k n nV : ℕ} {tX tY vX vY : NpyArray}
    (g : Good lb sys rnd fuel d k n nV tX tY vX vY) :
    (call sys (TestSgd.dataOf lb sys n nV tX tY vX vY) 3 0).Fits lb.c k 1 (paramCount [k, 64, 32, 1]) 1 3 := by
  have h1 := g.few
  refine ⟨g.pos.1, h1.1, floats_length _ _ _ g.full.1, floats_length _ _ _ (by simpa [call] using g.full.2.1), h1.2.2.1, by
    simp only [call]; omega, g.mem, by simpa [call] using g.fuel, g.evalMem, g.evalMemV, g.sched.1, by simp [call], ?_⟩
  intro x y hxy
  simp only [call, Option.some.injEq, Prod.mk.injEq] at hxy
  obtain ⟨rfl, rfl⟩ := hxy
  exact ⟨g.sched.2, floats_length _ _ _ g.full.2.2.1, floats_length _ _ _ (by simpa [call] using g.full.2.2.2)⟩

theorem Good.fine {lb : Lib F} {sys : Sys F} {rnd : Rand} {fuel : ℕ} {d : Disk} {k n nV : ℕ} {tX tY vX vY : NpyArray}
    (g : Good lb sys rnd fuel d k n nV tX tY vX vY) :
    (job sys rnd fuel k (TestSgd.dataOf lb sys n nV tX tY vX vY)).Fine lb.c .bce metrics k 1 where
  layers := by simp [job]
  few := by simp [job]
  pos := by have := g.pos; simp [job]; omega
  first := rfl
  last := rfl
  small := by have := g.few; simp [job]; omega
  names := rfl
  builtin := by
    intro s hs
    simp only [job, List.mem_cons, Option.some.injEq, List.not_mem_nil, or_false] at hs
    rcases hs with rfl | rfl | rfl <;> simp [builtins]
  inits := by
    intro l hl
    simp only [job, Option.some.injEq] at hl
    subst hl
    simp [job]
  lossName := by simp only [job]; decide
  batch := by simp [job]
  metrics := ⟨[], rfl⟩
  mem := g.alloc
  addr := g.addr
  vec1 := g.vec1
  vec2 := g.vec2
  rand := g.rand
  calls := by
    intro e he
    simp only [job, List.mem_singleton] at he
    subst he
    exact g.fits
  file := by simp only [job]; decide

/-- `nn` is what one epoch of SGD with the learning rate 1/100, without momentum, sample by sample and shuffled, makes of a network
initialised with `kaiming`; `results` is what `optimizer_run_epoch` reports. -/
def Trained (lb : Lib F) (sys : Sys F) (rnd : Rand) (fuel : ℕ) (recs : List ActRecord) (rs : RandState F) (data : Data F) (nn : Net F)
    (results : List F) : Prop :=
  ∃ (net nn0 : Net F) (rs1 : RandState F) (st1 st2 : Statics F) (s0 s1 : AnyOpt F) (q : ℕ) (res : View F),
    initializeNN rnd fuel recs (some [some "kaiming", some "kaiming", some "kaiming"]) (some net) rs = .ok (some nn0, rs1) ∧
    s0.opt.nn = setLoss recs nn0 "binary_crossentropy" ∧ s0.settings = .sgd (lit 1 100) zero zero false ∧ s0.opt.batchsize = 1 ∧
    s0.opt.shuffle = true ∧ (call sys data 3 0).run lb.env lb.c rnd.r rs1.k st1 s0 = .ok (st2, s1, q, res) ∧
    s1.opt.nn = nn ∧ res.data = results

omit [FloatOps F] in
theorem saveNN_readable {lib : ZipLib} {bits : FloatBits F} {recs : List ActRecord} {d d' : Disk} {nn : Net F} {f : String}
    (h : saveNN lib bits recs d (some nn) (some f) = .ok d') : d'.readable = d.readable := by
  simp only [saveNN] at h
  split_ifs at h
  · cases h; rfl
  · obtain ⟨l, -, h⟩ := bind_ok h
    obtain ⟨⟨q, d2⟩, h1, h⟩ := bind_ok h
    cases h
    simp only [listSave, listSaveCompressed] at h1
    split_ifs at h1
    · cases h1; rfl
    · obtain ⟨v, -, h1⟩ := bind_ok h1
      cases h1; rfl

/-- The parts of a run of the first program. -/
theorem run_first {lb : Lib F} {sys : Sys F} {rnd : Rand} {fuel : ℕ} {d : Disk} {k n nV : ℕ} {tX tY vX vY : NpyArray}
    (g : Good lb sys rnd fuel d k n nV tX tY vX vY) (fixed : F → Bytes) (recs : List ActRecord)
    (hrecs : RecsNamed recs) (h : Heap) (hh : h.WF) (rs : RandState F) (st : Statics F) (hst : st.nSample = 0) :
    ∃ (nn : Net F) (d' : Disk) (v w : Metric → ℕ → F), OneSigmoid lb.c nn k ∧ Storable lb.c nn ∧ nn.loss = some .bce ∧
      nn.layers.map (fun l => (l.nIn, l.nOut, l.act)) = [(k, 64, .relu), (64, 32, .relu), (32, 1, .sigmoid)] ∧
      saveNN lb.zip lb.bits recs d (some nn) (some "mushroom-neuralnet.npz") = .ok d' ∧
      Values lb.env lb.c nn k n (matrix lb sys.trainX tX) (matrix lb sys.trainY tY) v ∧
      Values lb.env lb.c nn k nV (matrix lb sys.verifyX vX) (matrix lb sys.verifyY vY) w ∧
      Trained lb sys rnd fuel recs rs (TestSgd.dataOf lb sys n nV tX tY vX vY) nn
        ((metrics.map fun m => div (add zero (Spec.treeSum (v m) (sys.epoch 0).sched)) (ofNat n)) ++
          (metrics.map fun m => div (add zero (Spec.treeSum (w m) (sys.epoch 0).schedV)) (ofNat nV))) ∧
      first lb fixed sys rnd fuel recs h rs st d = .ok ⟨nn, d',
        (metrics.map fun m => div (add zero (Spec.treeSum (v m) (sys.epoch 0).sched)) (ofNat n)) ++
          (metrics.map fun m => div (add zero (Spec.treeSum (w m) (sys.epoch 0).schedV)) (ofNat nV)),
        table fixed metrics ((metrics.map fun m => div (add zero (Spec.treeSum (v m) (sys.epoch 0).sched)) (ofNat n)) ++
          (metrics.map fun m => div (add zero (Spec.treeSum (w m) (sys.epoch 0).schedV)) (ofNat nV)))⟩ := by
  have h1 := g.few
  have hj := g.fine
  obtain ⟨nn, kk, w2, hl2, hz2, hc2, hderiv2, hin2, hout2, hact2, hdesc, net, hp, nn1, rs1, e1, e2, e3, e4⟩ := Job.steps _ lb.c .bce metrics k 1 hj
    recs hrecs h hh rs
  have halign : ∀ ga, ga % lb.c.alignSize = 0 → BackAligned lb.c ga 0 nn.layers := fun ga hga => by
    refine C73_sizes_safe lb.c nn w2 ?_ ga hga
    have := congrArg (List.map Prod.snd) hz2
    rw [List.map_map] at this
    exact this
  obtain ⟨v1, hv1, hv1'⟩ := g.vec1
  obtain ⟨v2, hv2, hv2'⟩ := g.vec2
  set cl := call sys (TestSgd.dataOf lb sys n nV tX tY vX vY) 3 0 with hcl
  have hcall : cl.OK lb.c .bce nn 1 metrics := by
    refine EpochCall.Fits.ok' ?_ w2 hl2 hderiv2 halign
    rw [hin2, hout2, hz2.nParams]
    exact g.fits
  obtain ⟨st1, s1, rest, hnew, hR, -, hP, hM⟩ := newAny_ok lb.c .bce nn w2 hl2 st hst true 1 (by norm_num)
    (some [some .bce, some .mae, some .binaryAccuracy, none]) metrics ⟨[], rfl⟩ v1 v2 hv1' hv2' (.sgd (lit 1 100) zero zero false)
  obtain ⟨st2, s2, q2, res, hrun, hR2, -, hM2⟩ : ∃ st2 s2 q2 res, cl.run lb.env lb.c rnd.r rs1.k st1 s1 = .ok (st2, s2, q2, res) ∧
      s2.Ready lb.c nn 1 ∧ PivotInv st2.nSample s2.opt.pivot ∧ metricsArray st2 s2.opt.metrics = metrics.map some ++ none :: rest := by
    obtain ⟨st1, s1, q1, train, val, hrun, -, -, k⟩ := epochCall_ok lb.env lb.c .bce nn 1 (le_refl _) metrics rest
      cl hcall rnd.r rs1.k st1 s1 hR hP hM
    exact ⟨_, _, _, _, hrun, k⟩
  obtain ⟨w, hwl, hnn⟩ := hR2.nn
  have a3 : List.Forall₂ Layer.Alike nn.layers s2.opt.nn.layers := hnn ▸ alike_withParams (c := lb.c) w2.layer hwl
  have w3 := Alike.wf a3 w2
  have hshape3 := Alike.shape a3
  have hin3 : s2.opt.nn.nInput = k := by rw [hnn]; exact (withParams_nInput nn.layers _ _ _).trans hin2
  have hout3 : s2.opt.nn.nOutput = 1 := by rw [hnn]; exact (withParams_nOutput nn.layers _ _ _).trans hout2
  have hshape : s2.opt.nn.layers.map (fun l => (l.nIn, l.nOut, l.act)) = [(k, 64, .relu), (64, 32, .relu), (32, 1, .sigmoid)] := by
    have chosen : ∀ {dl : DynLinker} {name : String} {a b : Act}, Chosen dl (some name) a → (∃ x, (name, b, x) ∈ builtins) →
        (∀ p ∈ builtins, p.1 = name → p.2.1 = b) → a = b := by
      rintro dl name a b (⟨p, p1, p2, rfl⟩ | ⟨p1, -⟩) ⟨x, hx⟩ hb
      · exact hb p p1 p2.symm
      · exact absurd rfl (p1 _ hx)
    rw [hshape3]
    have hz : nn.layers.map (fun l => (l.nIn, l.nOut)) = [(k, 64), (64, 32), (32, 1)] := hz2
    have hc : List.Forall₂ (fun name (l : Layer F) => Chosen sys.dl name l.act) [some "relu", some "relu", some "sigmoid"] nn.layers := hc2
    match hL : nn.layers, hc, hz with
    | [a, b, c], .cons ha (.cons hb (.cons hc .nil)), hz =>
      simp only [List.map_cons, List.map_nil, List.cons.injEq, Prod.mk.injEq] at hz
      have ra := chosen (b := .relu) ha ⟨.relu, by simp [builtins]⟩ (by simp [builtins])
      have rb := chosen (b := .relu) hb ⟨.relu, by simp [builtins]⟩ (by simp [builtins])
      have rc := chosen (b := .sigmoid) hc ⟨.sigmoid, by simp [builtins]⟩ (by simp [builtins])
      simp [hz, ra, rb, rc]
  have hone : OneSigmoid lb.c s2.opt.nn k := by
    refine ⟨w3, hin3, hout3, ?_⟩
    have := congrArg List.getLast? hshape
    rw [List.getLast?_map] at this
    cases hl : s2.opt.nn.layers.getLast? with
    | none => rw [hl] at this; simp at this
    | some l =>
      rw [hl] at this
      simp only [Option.map_some, List.getLast?_cons_cons, List.getLast?_singleton, Option.some.injEq, Prod.mk.injEq] at this
      exact ⟨l, rfl, this.2.2⟩
  have hstor : Storable lb.c s2.opt.nn := by
    refine ⟨w3, ?_, ?_, fun l hl => ?_⟩
    · intro l hl
      have : (l.nIn, l.nOut, l.act) ∈ [(k, 64, Act.relu), (64, 32, .relu), (32, 1, .sigmoid)] := by
        rw [← hshape]; exact List.mem_map_of_mem (f := fun l : Layer F => (l.nIn, l.nOut, l.act)) hl
      simp only [List.mem_cons, Prod.mk.injEq, List.not_mem_nil, or_false] at this
      rcases this with ⟨e1, e2, -⟩ | ⟨e1, e2, -⟩ | ⟨e1, e2, -⟩ <;> rw [e1, e2] <;> omega
    · have := congrArg List.length hshape
      simp only [List.length_map, List.length_cons, List.length_nil] at this
      omega
    · obtain ⟨l0, h1, h2, -⟩ := Alike.mem a3 l hl
      rw [h2.2.2]; exact hact2 l0 h1
  obtain ⟨d', hsave, -, -⟩ := C49_roundtrip g.bits g.zip g.disk.1 g.disk.2 (by decide) hstor recs
  have hXl : n * k ≤ (matrix lb sys.trainX tX).data.length := floats_length _ _ _ g.full.1
  have hYl : n ≤ (matrix lb sys.trainY tY).data.length := floats_length _ _ _ g.full.2.1
  have hXl' : nV * k ≤ (matrix lb sys.verifyX vX).data.length := floats_length _ _ _ g.full.2.2.1
  have hYl' : nV ≤ (matrix lb sys.verifyY vY).data.length := floats_length _ _ _ g.full.2.2.2
  obtain ⟨v, hv⟩ := hone.values lb.env hXl hYl
  obtain ⟨vV, hvV⟩ := hone.values lb.env hXl' hYl'
  -- the report
  have hrep := C37_after_epoch _ lb.env lb.c _ _ _ _ _ _ _ _ _ _ _ _ _ _ _ _ _ _ _ hrun
  rw [show ((anyKind lb.env lb.c cl.mem cl.fuel cl.n cl.X cl.Y).opt s2) = s2.opt from rfl, hM2] at hrep
  have hrl : cl.results.data.length = 6 := by simp [hcl, call]
  have hev := evaluate_values hv w3 hin3 hout3 g.sched.1 (mem := cl.evalMem) metrics rest cl.results hcall.evalMem hXl hYl (by rw [hrl]; decide)
  have hres : res.data = (metrics.map fun m => div (add zero (Spec.treeSum (v m) (sys.epoch 0).sched)) (ofNat n)) ++
      (metrics.map fun m => div (add zero (Spec.treeSum (vV m) (sys.epoch 0).schedV)) (ofNat nV)) := by
    have hpk : 0 < cl.nValid := g.pos.2.1
    have hvalid : cl.valid = some (matrix lb sys.verifyX vX, matrix lb sys.verifyY vY) := rfl
    have hev' : evaluate lb.env lb.c cl.evalMem cl.sched s2.opt.nn cl.n cl.X cl.Y (metrics.map some ++ none :: rest) cl.results = _ := hev
    simp only [NN.report, metricList_eq, hev', bind, Except.bind, hvalid, hpk, if_true] at hrep
    have hev2 := evaluate_values hvV w3 hin3 hout3 g.sched.2 (mem := cl.evalMemV) metrics rest ((⟨cl.results.addr, (metrics.map fun m =>
      div (add zero (Spec.treeSum (v m) (sys.epoch 0).sched)) (ofNat n)) ++ cl.results.data.drop metrics.length⟩ : View F).offset metrics.length)
      hcall.evalMemV hXl' hYl' (by simp [View.offset, hrl])
    have hev2' : evaluate lb.env lb.c cl.evalMemV cl.schedV s2.opt.nn cl.nValid (matrix lb sys.verifyX vX) (matrix lb sys.verifyY vY)
      (metrics.map some ++ none :: rest) _ = _ := hev2
    rw [hev2'] at hrep
    simp only [pure, Except.pure, Except.ok.injEq] at hrep
    rw [← hrep]
    simp [putGrad, View.offset, hrl]
  have hset := C63_new _ _ _ _ _ _ _ _ _ _ hnew
  refine ⟨s2.opt.nn, d', v, vV, hone, hstor, by rw [hnn]; exact hl2, hshape, hsave, hv, hvV, ⟨_, _, rs1, st1, st2, s1, s2, q2, res, e2,
    hset.2.1.trans e3, hset.1, by exact_mod_cast hset.2.2.2.1, hset.2.2.1, hrun, rfl, hres⟩, ?_⟩
  have hk : dim tX 1 < 2 ^ 31 := by rw [g.cols]; omega
  have ec : createNN sys.ok sys.dl 3 [castInt (dim tX 1), 64, 32, 1] (some [some "relu", some "relu", some "sigmoid"]) recs h =
      .ok (some net, recs, hp) := by
    rw [castInt_eq hk, g.cols]; exact e1
  have hmet := TestSgd.newAny_metrics hnew
  have e3' : nn = setLoss recs nn1 "binary_crossentropy" := e3
  have e2' : initializeNN rnd fuel recs (some [some "kaiming", some "kaiming", some "kaiming"])
      (some (net.toNet sys.addr sys.junk)) rs = .ok (some nn1, rs1) := e2
  simp only [first, g.load, bind, Except.bind, ec, e2', ← e3', hl2, show getMetricFunc (getLossName (some Loss.bce)) = some Metric.bce by decide,
    show getMetricFunc "mean_absolute_error" = some Metric.mae by decide,
    show getMetricFunc "binary_accuracy" = some Metric.binaryAccuracy by decide, hv1, hv2, hnew, hmet,
    show metricList [some Metric.bce, some .mae, some .binaryAccuracy, none] = .ok metrics from metricList_eq metrics [], g.rows,
    Nat.mod_eq_of_lt (show n < 2 ^ 32 by omega), Nat.mod_eq_of_lt (show nV < 2 ^ 32 by omega), List.length_cons, List.length_nil, Nat.zero_add,
    Nat.reduceAdd]
  have hrun' : (call sys (TestSgd.dataOf lb sys n nV tX tY vX vY) 3 0).run lb.env lb.c rnd.r rs1.k st1 s1 = .ok (st2, s2, q2, res) := hrun
  rw [hrun']
  simp only [hsave, hres, pure, Except.pure]

theorem Values.congr {env : CustomEnv F} {c : Cfg} {nn nn' : Net F} {k n : ℕ} {X Y X' Y' : View F} {v : Metric → ℕ → F}
    (h : Values env c nn k n X Y v) (hn : OneSigmoid c nn k) (hn' : OneSigmoid c nn' k)
    (hs : List.Forall₂ SameLayer nn'.layers nn.layers) (hX : X'.data = X.data) (hY : Y'.data = Y.data) (hl : n * k ≤ X.data.length) :
    Values env c nn' k n X' Y' v := by
  intro m i hi work junk out hw ho
  obtain ⟨a, h1, h2⟩ := h m i hi work junk out hw ho
  have hl' : n * k ≤ X'.data.length := by rw [hX]; exact hl
  have e1 := (hn.predict_eq (env := env) hw junk (X.offset (i * k)) out (row_bounds hl hi) ho).1
  have e2 := (hn'.predict_eq (env := env) hw junk (X'.offset (i * k)) out (row_bounds hl' hi) ho).1
  rw [netF_same env c 0 hs, show (X'.offset (i * k)).data = (X.offset (i * k)).data by simp only [View.offset, hX], ← e1, h1] at e2
  refine ⟨a, e2, ?_⟩
  have : runMetric m 1 a (Y'.offset i) = runMetric m 1 a (Y.offset i) := by
    have e : ∀ j, (Y'.offset i).load j = (Y.offset i).load j := fun j => by simp only [View.load, View.offset, hY]
    cases m <;> simp [runMetric, sumLoop, forN, argmaxLoop, stripLe, e, bind, Except.bind]
  rw [this, h2]

omit [FloatOps F] in
theorem table_eq (fixed : F → Bytes) (a b c a' b' c' : F) :
    table fixed metrics [a, b, c, a', b', c'] = sixLines fixed [a, b, c, a', b', c'] := by
  have h : ∀ (set : String) (m : Metric) (x : F) (t : Bytes), padRight 6 (str set) ++ str " " ++ padRight 20 (str (getMetricName (some m))) ++ str ": " = t →
      line fixed set m x = t ++ fixed x ++ str "\n" := by
    rintro set m x t rfl; rfl
  have h1 := fun x => h "Train" .bce x (str "Train  binary_crossentropy : ") (by decide)
  have h2 := fun x => h "Train" .mae x (str "Train  mean_absolute_error : ") (by decide)
  have h3 := fun x => h "Train" .binaryAccuracy x (str "Train  binary_accuracy     : ") (by decide)
  have h4 := fun x => h "Test" .bce x (str "Test   binary_crossentropy : ") (by decide)
  have h5 := fun x => h "Test" .mae x (str "Test   mean_absolute_error : ") (by decide)
  have h6 := fun x => h "Test" .binaryAccuracy x (str "Test   binary_accuracy     : ") (by decide)
  simp only [table, sixLines, metrics, List.zipWith_cons_cons, List.zipWith_nil_left, h1, h2, h3, h4, h5, h6, List.length_cons, List.length_nil,
    Nat.zero_add, Nat.reduceAdd, List.drop_succ_cons, List.drop_zero, List.flatten_cons, List.flatten_nil, List.append_nil, List.append_assoc]

omit [FloatOps F] in
theorem SameLayer.last {c : Cfg} {nn nn' : Net F} {k : ℕ} (h : OneSigmoid c nn k) (hw : nn'.WF c)
    (hs : List.Forall₂ SameLayer nn'.layers nn.layers) : OneSigmoid c nn' k := by
  have key : ∀ {ls' ls : List (Layer F)}, List.Forall₂ SameLayer ls' ls → ls'.map (fun l => (l.nIn, l.nOut, l.act)) =
      ls.map (fun l => (l.nIn, l.nOut, l.act)) := by
    intro ls' ls h
    induction h with
    | nil => rfl
    | cons h1 _ ih => simp only [List.map_cons, ih, h1.1, h1.2.1, h1.2.2.2.2]
  have e := key hs
  have e1 : (nn'.layers.map fun l => (l.nIn, l.nOut, l.act)).head? = (nn.layers.map fun l => (l.nIn, l.nOut, l.act)).head? := by rw [e]
  have e2 : (nn'.layers.map fun l => (l.nIn, l.nOut, l.act)).getLast? = (nn.layers.map fun l => (l.nIn, l.nOut, l.act)).getLast? := by rw [e]
  obtain ⟨l, hl, ha⟩ := h.last
  have hno := h.nOut
  have hni := h.nIn
  simp only [List.getLast?_map, hl, Option.map_some] at e2
  obtain ⟨l', hl', e3⟩ : ∃ l', nn'.layers.getLast? = some l' ∧ (l'.nIn, l'.nOut, l'.act) = (l.nIn, l.nOut, l.act) := by
    cases h2 : nn'.layers.getLast? with
    | none => rw [h2] at e2; simp at e2
    | some l' => rw [h2] at e2; exact ⟨l', rfl, by simpa using e2⟩
  simp only [Prod.mk.injEq] at e3
  refine ⟨hw, ?_, ?_, l', hl', by rw [e3.2.2, ha]⟩
  · rw [← hni]
    simp only [Net.nInput]
    cases h1 : nn.layers with
    | nil => rw [h1] at hl; simp at hl
    | cons a as =>
      cases h2 : nn'.layers with
      | nil => rw [h1, h2] at e1; simp at e1
      | cons b bs =>
        rw [h1, h2] at e1
        simp only [List.map_cons, List.head?_cons, Option.some.injEq, Prod.mk.injEq] at e1
        exact e1.1
  · simp only [Net.nOutput, hl, hl'] at hno ⊢
    rw [e3.2.1, hno]

/-- **C79** The two programs.  The first trains the network for one epoch; `v` and `w` are the metrics of the trained network sample by sample, on the training and on the test data.
The first program prints their means, summed as the threads happened to; the second, started on the disk the first one left, loads the
same network and prints the means of the same values, summed in order. -/
theorem C79_same {lb : Lib F} {sys : Sys F} {rnd : Rand} {fuel : ℕ} {d : Disk} {k n nV : ℕ} {tX tY vX vY : NpyArray}
    (g : Good lb sys rnd fuel d k n nV tX tY vX vY) (fixed : F → Bytes) (recs : List ActRecord)
    (hrecs : RecsNamed recs) (h : Heap) (hh : h.WF) (rs : RandState F) (st : Statics F) (hst : st.nSample = 0) :
    ∃ (out : Outcome F) (v w : Metric → ℕ → F), first lb fixed sys rnd fuel recs h rs st d = .ok out ∧
      out.nn.layers.map (fun l => (l.nIn, l.nOut, l.act)) = [(k, 64, .relu), (64, 32, .relu), (32, 1, .sigmoid)] ∧
      Values lb.env lb.c out.nn k n (matrix lb sys.trainX tX) (matrix lb sys.trainY tY) v ∧
      Values lb.env lb.c out.nn k nV (matrix lb sys.verifyX vX) (matrix lb sys.verifyY vY) w ∧
      out.results = (metrics.map fun m => div (add zero (Spec.treeSum (v m) (sys.epoch 0).sched)) (ofNat n)) ++
          (metrics.map fun m => div (add zero (Spec.treeSum (w m) (sys.epoch 0).schedV)) (ofNat nV)) ∧
      out.text = sixLines fixed out.results ∧
      out.nn.loss = some .bce ∧ Trained lb sys rnd fuel recs rs (TestSgd.dataOf lb sys n nV tX tY vX vY) out.nn out.results ∧
      (∀ f, f ≠ "mushroom-neuralnet.npz" → out.d.content f = d.content f) ∧
      ∀ (sys2 : Sys2 F) (recs2 : List ActRecord) (h2 : Heap), h2.WF → Good2 lb sys2 d n nV tX tY vX vY →
        ∀ a b a' b', a = div (inOrder (v .bce) n) (ofNat n) → b = div (inOrder (v .binaryAccuracy) n) (ofNat n) →
          a' = div (inOrder (w .bce) nV) (ofNat nV) → b' = div (inOrder (w .binaryAccuracy) nV) (ofNat nV) →
          second lb fixed sys2 recs2 h2 out.d = .ok ([a, b, a', b'], fourLines fixed a b a' b') := by
  obtain ⟨nn, d', v, w, hone, hstor, hloss, hshape, hsave, hv, hw, htr, hfirst⟩ := run_first g fixed recs hrecs h hh rs st hst
  obtain ⟨d2, hsave2, hother, hload⟩ := C49_roundtrip g.bits g.zip g.disk.1 g.disk.2 (by decide) hstor recs
  rw [hsave] at hsave2
  cases hsave2
  refine ⟨_, v, w, hfirst, hshape, hv, hw, rfl, table_eq fixed _ _ _ _ _ _, hloss, htr, hother, ?_⟩
  intro sys2 recs2 h2 hh2 g2 a b a' b' ha hb ha' hb'
  obtain ⟨nn', recs', h', hl', hsame, -, hwf⟩ := hload sys2.mem sys2.ok sys2.dl sys2.addr sys2.junk recs2 h2 g2.mem hh2 (fun j _ => g2.ok _)
  have hdata : loadData lb.zip d' sys2.mem = .ok (tX, tY, vX, vY) := by
    obtain ⟨n1, n2, n3, n4, rest, hf⟩ := g2.file
    have : listLoad lb.zip d' sys2.mem "mushroom_train.npz" = listLoad lb.zip d sys2.mem "mushroom_train.npz" := by
      unfold listLoad
      rw [hother _ (by decide), saveNN_readable hsave]
    simp [loadData, this, hf, g.order, bind, Except.bind, pure, Except.pure]
  have hone' : OneSigmoid lb.c nn' k := SameLayer.last hone (hwf lb.c g2.addr) hsame
  have hXl : n * k ≤ (matrix lb sys.trainX tX).data.length := floats_length _ _ _ g.full.1
  have hXl' : nV * k ≤ (matrix lb sys.verifyX vX).data.length := floats_length _ _ _ g.full.2.2.1
  have hv' : Values lb.env lb.c nn' k n (matrix lb sys2.trainX tX) (matrix lb sys2.trainY tY) v := Values.congr hv hone hone' hsame rfl rfl hXl
  have hw' : Values lb.env lb.c nn' k nV (matrix lb sys2.testX vX) (matrix lb sys2.testY vY) w := Values.congr hw hone hone' hsame rfl rfl hXl'
  have h1 := local_values hv' hone' sys2.train.junk g2.work g2.order sys2.train.predAddr sys2.train.predJunk [.bce, .binaryAccuracy] []
    (stackArray sys2.results 4 sys2.old) hXl (by simp [stackArray])
  have h2 := local_values hw' hone' sys2.test.junk g2.workV g2.orderV sys2.test.predAddr sys2.test.predJunk [.bce, .binaryAccuracy] []
    ((⟨(stackArray sys2.results 4 sys2.old).addr, [a, b] ++ (stackArray sys2.results 4 sys2.old).data.drop 2⟩ : View F).offset 2) hXl'
    (by simp [stackArray, View.offset])
  have hn := g.pos
  have hb2 := g.few
  simp only [List.map_cons, List.map_nil, ← ha, ← hb, ← ha', ← hb', List.length_cons, List.length_nil, Nat.zero_add, Nat.reduceAdd,
    List.cons_append, List.nil_append] at h1 h2
  have hc : castInt (dim tX 0) = n := by rw [g.rows.1, castInt_eq (by omega)]
  have hc' : castInt (dim vX 0) = nV := by rw [g.rows.2, castInt_eq (by omega)]
  simp only [second, hdata, hl', bind, Except.bind, hc, hc', evalCall, show getMetricFunc "binary_crossentropy" = some Metric.bce by decide,
    show getMetricFunc "binary_accuracy" = some Metric.binaryAccuracy by decide, if_neg (show ¬ (n : Int) ≤ 0 by omega),
    if_neg (show ¬ (nV : Int) ≤ 0 by omega), Int.toNat_natCast, h1, h2]
  simp [putGrad, View.offset, View.load, stackArray, fourLines, pure, Except.pure]

end

/-! ### The same numbers -/

theorem inOrder_eq [FloatOps F] (v : ℕ → F) (n : ℕ) : inOrder v n = Spec.treeSum v (.thread (List.range n)) := rfl

theorem treeSum_real (v : ℕ → ℝ) : ∀ s : Sched, Spec.treeSum v s = (s.iters.map v).sum
  | .thread is => by
    have key : ∀ (l : List ℕ) (a : ℝ), l.foldl (fun s i => add s (v i)) a = a + (l.map v).sum := by
      intro l
      induction l with
      | nil => intro a; simp
      | cons i l ih => intro a; rw [List.foldl_cons, ih, List.map_cons, List.sum_cons, ← add_assoc]; rfl
    simp only [Spec.treeSum, key, Sched.iters]
    simp
  | .combine a b => by
    simp only [Spec.treeSum, Sched.iters, List.map_append, List.sum_append, treeSum_real v a, treeSum_real v b]; rfl

theorem mean_real (v : ℕ → ℝ) {s : Sched} {n : ℕ} (h : s.Covers n) :
    div (add zero (Spec.treeSum v s)) (ofNat n) = div (inOrder v n) (ofNat n) := by
  rw [inOrder_eq, treeSum_real, treeSum_real, covers_sum h, covers_sum (sched := .thread (List.range n)) (.refl _)]
  simp

/-- **C79** With exact arithmetic the second program prints the loss and the accuracy that the first one printed, on both data sets,
whatever the threads did. -/
theorem C79_exact {lb : Lib ℝ} {sys : Sys ℝ} {rnd : Rand} {fuel : ℕ} {d : Disk} {k n nV : ℕ} {tX tY vX vY : NpyArray}
    (g : Good lb sys rnd fuel d k n nV tX tY vX vY) (fixed : ℝ → Bytes) (recs : List ActRecord)
    (hrecs : RecsNamed recs) (h : Heap) (hh : h.WF) (rs : RandState ℝ) (st : Statics ℝ) (hst : st.nSample = 0) :
    ∃ (out : Outcome ℝ) (r0 r1 r2 r3 r4 r5 : ℝ), first lb fixed sys rnd fuel recs h rs st d = .ok out ∧
      out.results = [r0, r1, r2, r3, r4, r5] ∧ out.text = sixLines fixed [r0, r1, r2, r3, r4, r5] ∧
      ∀ (sys2 : Sys2 ℝ) (recs2 : List ActRecord) (h2 : Heap), h2.WF → Good2 lb sys2 d n nV tX tY vX vY →
        second lb fixed sys2 recs2 h2 out.d = .ok ([r0, r2, r3, r5], fourLines fixed r0 r2 r3 r5) := by
  obtain ⟨out, v, w, h1, -, -, -, h2, h3, -, -, -, h4⟩ := C79_same g fixed recs hrecs h hh rs st hst
  refine ⟨out, _, _, _, _, _, _, h1, h2, by rw [h3, h2]; rfl, ?_⟩
  intro sys2 recs2 h2' hh2 g2
  exact h4 sys2 recs2 h2' hh2 g2 _ _ _ _ (mean_real _ g.sched.1) (mean_real _ g.sched.1) (mean_real _ g.sched.2) (mean_real _ g.sched.2)

theorem plain_treeSum (L : B32.Libm) (v : ℕ → B32) : ∀ s : Sched, B32.Plain (@Spec.treeSum B32 (B32.ops L) v s)
  | .thread is => by
    let _ := B32.ops L
    have key : ∀ (l : List ℕ) (a : B32), B32.Plain a → B32.Plain (l.foldl (fun s i => add s (v i)) a) := by
      intro l
      induction l with
      | nil => intro a h; exact h
      | cons i l ih => intro a h; exact ih _ ((zeroLaws_b32 L).add _ h)
    exact key is _ (zeroLaws_b32 L).zero
  | .combine a b => @ZeroLaws.add B32 (B32.ops L) _ (zeroLaws_b32 L) _ _ (plain_treeSum L v a)

/-- **C79** In `float` arithmetic with one thread the two programs agree bit for bit. -/
theorem C79_single (L : B32.Libm) {lb : Lib B32} {sys : Sys B32} {rnd : Rand} {fuel : ℕ} {d : Disk} {k n nV : ℕ} {tX tY vX vY : NpyArray}
    (g : @Good B32 (B32.ops L) lb sys rnd fuel d k n nV tX tY vX vY) (fixed : B32 → Bytes) (recs : List ActRecord)
    (hrecs : RecsNamed recs) (h : Heap) (hh : h.WF) (rs : RandState B32) (st : Statics B32) (hst : st.nSample = 0)
    (h1 : (sys.epoch 0).sched = .thread (List.range n)) (h1V : (sys.epoch 0).schedV = .thread (List.range nV)) :
    letI := B32.ops L
    ∃ (out : Outcome B32) (r0 r1 r2 r3 r4 r5 : B32), first lb fixed sys rnd fuel recs h rs st d = .ok out ∧
      out.results = [r0, r1, r2, r3, r4, r5] ∧ out.text = sixLines fixed [r0, r1, r2, r3, r4, r5] ∧
      ∀ (sys2 : Sys2 B32) (recs2 : List ActRecord) (h2 : Heap), h2.WF → Good2 lb sys2 d n nV tX tY vX vY →
        second lb fixed sys2 recs2 h2 out.d = .ok ([r0, r2, r3, r5], fourLines fixed r0 r2 r3 r5) := by
  let _ := B32.ops L
  obtain ⟨out, v, w, e1, -, -, -, e2, e3, -, -, -, e4⟩ := C79_same g fixed recs hrecs h hh rs st hst
  refine ⟨out, _, _, _, _, _, _, e1, e2, by rw [e3, e2]; rfl, ?_⟩
  intro sys2 recs2 h2' hh2 g2
  refine e4 sys2 recs2 h2' hh2 g2 _ _ _ _ ?_ ?_ ?_ ?_ <;>
    simp only [h1, h1V, inOrder_eq, (zeroLaws_b32 L).zero_add (plain_treeSum L _ _)]

theorem eq_of_is {a b : B32} {x : ℝ} (ha : B32.Is a x) (hb : B32.Is b x) (pa : B32.Plain a) (pb : B32.Plain b) : a = b := by
  refine B32.value_inj ha.1 hb.1 ?_ (ha.2.trans hb.2.symm)
  have key : ∀ {a b : B32}, B32.Is a x → B32.Is b x → B32.Plain a → B32.Plain b → a.sign = true → b.sign = true := by
    intro a b ha hb pa pb hs
    have h1 := B32.neg_of_plain ha.1 pa hs
    rw [ha.2] at h1
    cases h : b.sign with
    | true => rfl
    | false =>
      have := B32.sign_of_neg (a := b) (by rw [hb.2]; exact h1)
      rw [h] at this; exact this
  have k1 := key ha hb pa pb
  have k2 := key hb ha pb pa
  cases h : a.sign with
  | true => exact (k1 h).symm
  | false =>
    cases h' : b.sign with
    | false => rfl
    | true => rw [k2 h'] at h; exact h.symm

/-- Two means of the same `n` numbers: `x`, summed by the threads, and `y`, summed in order.  If the numbers are finite and their sum is not
too large, the means are finite and differ by the rounding errors of the two sums at most. -/
def Close (n : ℕ) (sched : Sched) (v : ℕ → B32) (x y : B32) : Prop :=
  ∀ q : ℕ → ℝ, (∀ i < n, B32.Is (v i) (q i)) → peak (Spec.depth sched + 2) 0 (∑ i ∈ Finset.range n, |q i|) ≤ max32 →
    peak (n + 2) 0 (∑ i ∈ Finset.range n, |q i|) ≤ max32 →
    x.isFinite = true ∧ y.isFinite = true ∧ |x.value - y.value| ≤ (slack (Spec.depth sched + 2) 0 (∑ i ∈ Finset.range n, |q i|) +
      slack (n + 2) 0 (∑ i ∈ Finset.range n, |q i|)) / n + 2 * η32

theorem close_mean (L : B32.Libm) {sched : Sched} {n : ℕ} (hs : sched.Covers n) (hn : 1 ≤ n) (hn24 : n ≤ 2 ^ 24) {v : ℕ → B32} :
    letI := B32.ops L
    Close n sched v (div (add zero (Spec.treeSum v sched)) (ofNat n)) (div (inOrder v n) (ofNat n)) := by
  let _ := B32.ops L
  intro q hq h1 h2
  obtain ⟨a1, a2⟩ := mean_float L hs hn hn24 hq h1
  obtain ⟨b1, b2⟩ := mean_float L (sched := .thread (List.range n)) (.refl _) hn hn24 hq (by simpa [Spec.depth] using h2)
  rw [(zeroLaws_b32 L).zero_add (plain_treeSum L _ _), ← inOrder_eq] at b1 b2
  simp only [Spec.depth, List.length_range] at b2
  refine ⟨a1, b1, ?_⟩
  rw [abs_sub_comm] at b2
  refine (abs_sub_le _ ((∑ i ∈ Finset.range n, q i) / n) _).trans ((add_le_add a2 b2).trans (le_of_eq ?_))
  ring

theorem count_mean (L : B32.Libm) {sched : Sched} {n : ℕ} (hs : sched.Covers n) (hn24 : n ≤ 2 ^ 24) {v : ℕ → B32}
    (hv : ∀ i < n, v i = B32.zeroS false ∨ v i = B32.ofReal false 1) :
    letI := B32.ops L
    (div (add zero (Spec.treeSum v sched)) (ofNat n) : B32) = div (inOrder v n) (ofNat n) := by
  classical
  let _ := B32.ops L
  let r : ℕ → ℕ := fun i => if v i = B32.ofReal false 1 then 1 else 0
  have hr : ∀ i < n, B32.Is (v i) (r i) := by
    intro i hi
    simp only [r]
    by_cases h : v i = B32.ofReal false 1
    · rw [if_pos h, h, Nat.cast_one]; exact B32.is_one
    · rw [if_neg h, (hv i hi).resolve_right h, Nat.cast_zero]; exact B32.is_zeroS false
  have hsum : ∀ s : Sched, s.Covers n → (s.iters.map r).sum = ∑ i ∈ Finset.range n, r i := fun s hs => covers_sum hs r
  have hle : ∑ i ∈ Finset.range n, r i ≤ n := by
    have : ∑ i ∈ Finset.range n, r i ≤ ∑ i ∈ Finset.range n, 1 := Finset.sum_le_sum fun i _ => by simp only [r]; split_ifs <;> omega
    simpa using this
  have key : ∀ s : Sched, s.Covers n → B32.Is (Spec.treeSum v s) ((∑ i ∈ Finset.range n, r i : ℕ) : ℝ) := by
    intro s hs
    have := treeSum_nat L (v := v) (r := r) s (fun i hi => hr i (by simpa using (hs.mem_iff).mp hi)) (by rw [hsum s hs]; omega)
    rwa [hsum s hs] at this
  rw [(zeroLaws_b32 L).zero_add (plain_treeSum L _ _), inOrder_eq, eq_of_is (key sched hs) (key (.thread (List.range n)) (.refl _))
    (plain_treeSum L _ _) (plain_treeSum L _ _)]

/-- The binary accuracy of a sample is 0 or 1. -/
theorem accuracy_cases (L : B32.Libm) {env : CustomEnv B32} {c : Cfg} {nn : Net B32} {k n : ℕ} {X Y : View B32} {v : Metric → ℕ → B32}
    (h : @Values B32 (B32.ops L) env c nn k n X Y v) : ∀ i < n, v .binaryAccuracy i = B32.zeroS false ∨ v .binaryAccuracy i = B32.ofReal false 1 := by
  let _ := B32.ops L
  intro i hi
  obtain ⟨a, -, h1⟩ := h .binaryAccuracy i hi 0 (fun _ => zero) ⟨0, [zero]⟩ (Nat.zero_mod _) (le_refl _)
  cases hp : a.load 0 with
  | error e => simp [runMetric, sumLoop, forN, stripLe, hp, bind, Except.bind] at h1
  | ok p =>
    cases hy : (Y.offset i).load 0 with
    | error e => simp [runMetric, sumLoop, forN, stripLe, hp, hy, bind, Except.bind] at h1
    | ok y =>
      have hs := forN_eq (n := 1) (body := fun j (err : B32) => do
          let p ← a.load j
          let y ← (Y.offset i).load j
          pure (add err (if FloatOps.eq (FloatOps.round (fmin (fmax y zero) one)) (FloatOps.round p) then one else zero)))
        (fun j => if j = 0 then (zero : B32) else add zero
          (if FloatOps.eq (FloatOps.round (fmin (fmax y zero) one)) (FloatOps.round p) then one else zero)) (by
            intro j hj
            obtain rfl : j = 0 := by omega
            simp [hp, hy, bind, Except.bind, pure, Except.pure])
      simp only [if_true, one_ne_zero, if_false] at hs
      simp only [runMetric, sumLoop] at h1
      rw [hs] at h1
      simp only [bind, Except.bind, pure, Except.pure, Except.ok.injEq] at h1
      rw [← h1]
      have z := zeroLaws_b32 L
      have po : B32.Plain (one : B32) := B32.is_one.plain (.inl one_ne_zero)
      by_cases he : FloatOps.eq (FloatOps.round (fmin (fmax y zero) one)) (FloatOps.round p) = true
      · right
        rw [if_pos he, z.zero_add po, z.div_one po]; rfl
      · left
        rw [if_neg he, z.zero_add z.zero, z.div_one z.zero]; rfl

/-- **C79** In `float` arithmetic, for up to 2^24 samples: the two programs print the same accuracies, bit for bit, whatever the threads
did; and if the losses of the samples are finite, the two losses differ by no more than the rounding of the two sums. -/
theorem C79_float (L : B32.Libm) {lb : Lib B32} {sys : Sys B32} {rnd : Rand} {fuel : ℕ} {d : Disk} {k n nV : ℕ} {tX tY vX vY : NpyArray}
    (g : @Good B32 (B32.ops L) lb sys rnd fuel d k n nV tX tY vX vY) (fixed : B32 → Bytes) (recs : List ActRecord)
    (hrecs : RecsNamed recs) (h : Heap) (hh : h.WF) (rs : RandState B32) (st : Statics B32) (hst : st.nSample = 0)
    (hn : n ≤ 2 ^ 24) (hnV : nV ≤ 2 ^ 24) :
    letI := B32.ops L
    ∃ (out : Outcome B32) (v w : Metric → ℕ → B32) (r0 r1 r2 r3 r4 r5 a b : B32), first lb fixed sys rnd fuel recs h rs st d = .ok out ∧
      Values lb.env lb.c out.nn k n (matrix lb sys.trainX tX) (matrix lb sys.trainY tY) v ∧
      Values lb.env lb.c out.nn k nV (matrix lb sys.verifyX vX) (matrix lb sys.verifyY vY) w ∧
      out.results = [r0, r1, r2, r3, r4, r5] ∧ out.text = sixLines fixed [r0, r1, r2, r3, r4, r5] ∧
      (∀ (sys2 : Sys2 B32) (recs2 : List ActRecord) (h2 : Heap), h2.WF → Good2 lb sys2 d n nV tX tY vX vY →
        second lb fixed sys2 recs2 h2 out.d = .ok ([a, r2, b, r5], fourLines fixed a r2 b r5)) ∧
      Close n (sys.epoch 0).sched (v .bce) r0 a ∧ Close nV (sys.epoch 0).schedV (w .bce) r3 b := by
  let _ := B32.ops L
  obtain ⟨out, v, w, e1, -, hv, hw, e2, e3, -, -, -, e4⟩ := C79_same g fixed recs hrecs h hh rs st hst
  refine ⟨out, v, w, _, _, _, _, _, _, _, _, e1, hv, hw, e2, by rw [e3, e2]; rfl, ?_, close_mean L g.sched.1 g.pos.1 hn, close_mean L g.sched.2 g.pos.2.1 hnV⟩
  intro sys2 recs2 h2' hh2 g2
  exact e4 sys2 recs2 h2' hh2 g2 _ _ _ _ rfl (count_mean L g.sched.1 hn (accuracy_cases L hv)) rfl (count_mean L g.sched.2 hnV (accuracy_cases L hw))

/-! ### Example: three samples for training, one for testing -/

/-- The system of the first program. -/
def exSystem [FloatOps F] (c : Cfg) (jk : ℕ → F) (dl : DynLinker) : Sys F :=
  { exSys c jk dl with
    epoch := fun _ => { exEpoch c jk with
      mem := fun i => ⟨.combine (.thread ((List.range (batchLen 3 1 i)).reverse)) (.thread []), fun _ => ⟨4096, jk, 8192, jk, 12⟩, 16384,
        jk, if c.avx then 16 else 0, 32768, jk⟩
      fuel := 3 } }

/-- The system of the second: another place for everything, and the samples are predicted in another order. -/
def exSystem2 (jk : ℕ → F) (dl : DynLinker) : Sys2 F where
  mem _ := true
  ok _ := true
  addr i := 128 * i
  junk _ := jk
  dl := dl
  trainX := 20
  trainY := 24
  testX := 28
  testY := 32
  train := ⟨fun _ => 8192, fun _ => jk, [2, 0, 1], 4, jk⟩
  test := ⟨fun _ => 4096, fun _ => jk, [0], 8, jk⟩
  results := 12
  old := jk

theorem exGood [FloatOps F] (bits : FloatBits F) (hb : bits.Lawful) (rnd : Rand) (hr : Accepting F rnd 1) (env : CustomEnv F) (c : Cfg) (jk : ℕ → F)
    (dl : DynLinker) :
    ∃ (zip : ZipLib) (d : Disk) (tX tY vX vY : NpyArray),
      Good ⟨env, c, zip, bits⟩ (exSystem c jk dl) rnd 1 d 2 3 1 tX tY vX vY ∧
      Good2 ⟨env, c, zip, bits⟩ (exSystem2 jk dl) d 3 1 tX tY vX vY := by
  obtain ⟨zip, hz⟩ := exists_lawful
  obtain ⟨s, r, k1, k2⟩ := TestSgd.exFile hz
  match r, k1, k2 with
  | [(n1, tX), (n2, tY), (n3, vX), (n4, vY)], k1, .cons h1 (.cons h2 (.cons h3 (.cons h4 .nil))) =>
  have s1 := TestSgd.exArray_same h1.2
  have s2 := TestSgd.exArray_same h2.2
  have s3 := TestSgd.exArray_same h3.2
  have s4 := TestSgd.exArray_same h4.2
  have hfit := exEpoch_fits c jk 13
  refine ⟨zip, ⟨fun _ => some s, fun _ => true, fun _ => true⟩, tX, tY, vX, vY, ?_, ?_⟩
  · exact
    { zip := hz
      bits := hb
      file := ⟨n1, n2, n3, n4, [], k1 _ _ rfl rfl⟩
      order := ⟨s1.1, s2.1, s3.1, s4.1⟩
      rows := ⟨s1.2.1, s3.2.1⟩
      cols := s1.2.2.1
      full := by rw [s1.2.2.2, s2.2.2.2, s3.2.2.2, s4.2.2.2]; decide
      pos := by decide
      few := by decide
      alloc := fun _ => rfl
      addr := fun i => align64 c _ (by simp [exSystem, exSys])
      vec1 := ⟨640, rfl, align64 c _ rfl⟩
      vec2 := ⟨1280, rfl, align64 c _ rfl⟩
      rand := hr
      mem := by
        intro i
        refine ⟨?_, fun _ => align64 c 4096 rfl, fun _ => align64 c 8192 rfl, align64 c 16384 rfl, align64 c 32768 rfl, ?_⟩
        · simp only [Sched.Covers, exSystem, Sched.iters, List.append_nil]
          exact List.reverse_perm _
        · simp only [exSystem, nParamPadding]
          split <;> omega
      fuel := by simp [exSystem]
      evalMem := hfit.evalMem
      evalMemV := hfit.evalMemV
      sched := ⟨List.Perm.refl _, List.Perm.refl _⟩
      disk := ⟨rfl, rfl⟩ }
  · exact
    { file := ⟨n1, n2, n3, n4, [], k1 _ _ rfl rfl⟩
      mem := fun _ => rfl
      ok := fun _ => rfl
      addr := fun i => align64 c _ (by simp only [exSystem2]; omega)
      work := fun _ => align64 c 8192 rfl
      workV := fun _ => align64 c 4096 rfl
      order := by simp only [exSystem2]; decide
      orderV := by simp only [exSystem2]; decide }

/-- Both programs run on that file, in every build, and agree bit for bit. -/
example (L : B32.Libm) (env : CustomEnv B32) (c : Cfg) (jk : ℕ → B32) (dl : DynLinker) (fixed : B32 → Bytes) :
    let _ := B32.ops L
    ∃ (zip : ZipLib) (d : Disk) (out : Outcome B32) (r0 r1 r2 r3 r4 r5 : B32),
      first ⟨env, c, zip, b32Bits⟩ fixed (exSystem c jk dl) B32.exRand31 1 [] ⟨0, []⟩ ⟨0, B32.qnan, B32.qnan, false⟩ Statics.initial d = .ok out ∧
      out.results = [r0, r1, r2, r3, r4, r5] ∧
      second ⟨env, c, zip, b32Bits⟩ fixed (exSystem2 jk dl) [] ⟨0, []⟩ out.d = .ok ([r0, r2, r3, r5], fourLines fixed r0 r2 r3 r5) := by
  intro _
  obtain ⟨zip, d, tX, tY, vX, vY, g, g2⟩ := exGood b32Bits b32Bits_lawful B32.exRand31 (B32.exRand31_accepting L) env c jk dl
  obtain ⟨out, r0, r1, r2, r3, r4, r5, h1, h2, -, h3⟩ := C79_single L g fixed [] (by simp [RecsNamed]) ⟨0, []⟩ ⟨by simp, by simp⟩
    ⟨0, B32.qnan, B32.qnan, false⟩ Statics.initial rfl rfl rfl
  exact ⟨zip, d, out, r0, r1, r2, r3, r4, r5, h1, h2, h3 _ [] ⟨0, []⟩ ⟨by simp, by simp⟩ g2⟩

/-- The hypotheses of `C79_float`. -/
example (L : B32.Libm) (env : CustomEnv B32) (c : Cfg) (jk : ℕ → B32) (dl : DynLinker) (fixed : B32 → Bytes) :
    let _ := B32.ops L
    ∃ (zip : ZipLib) (d : Disk) (out : Outcome B32) (r0 r1 r2 r3 r4 r5 a b : B32),
      first ⟨env, c, zip, b32Bits⟩ fixed (exSystem c jk dl) B32.exRand31 1 [] ⟨0, []⟩ ⟨0, B32.qnan, B32.qnan, false⟩ Statics.initial d = .ok out ∧
      out.text = sixLines fixed [r0, r1, r2, r3, r4, r5] ∧
      second ⟨env, c, zip, b32Bits⟩ fixed (exSystem2 jk dl) [] ⟨0, []⟩ out.d = .ok ([a, r2, b, r5], fourLines fixed a r2 b r5) := by
  intro _
  obtain ⟨zip, d, tX, tY, vX, vY, g, g2⟩ := exGood b32Bits b32Bits_lawful B32.exRand31 (B32.exRand31_accepting L) env c jk dl
  obtain ⟨out, v, w, r0, r1, r2, r3, r4, r5, a, b, h1, -, -, -, h2, h3, -⟩ := C79_float L g fixed [] (by simp [RecsNamed]) ⟨0, []⟩ ⟨by simp, by simp⟩
    ⟨0, B32.qnan, B32.qnan, false⟩ Statics.initial rfl (by norm_num) (by norm_num)
  exact ⟨zip, d, out, r0, r1, r2, r3, r4, r5, a, b, h1, h2, h3 _ [] ⟨0, []⟩ ⟨by simp, by simp⟩ g2⟩

/-- No file, and a file with one array. -/
example [FloatOps F] (lb : Lib F) (fixed : F → Bytes) (sys : Sys F) (sys2 : Sys2 F) (rnd : Rand) (rs : RandState F) :
    first lb fixed sys rnd 1 [] ⟨0, []⟩ rs Statics.initial ⟨fun _ => none, fun _ => true, fun _ => true⟩ = .error .assertFail :=
  (C79_missing lb fixed sys sys2 rnd 1 [] ⟨0, []⟩ rs Statics.initial ⟨fun _ => none, fun _ => true, fun _ => true⟩ (.inl rfl)).1

example [FloatOps F] (lb : Lib F) (fixed : F → Bytes) (sys : Sys F) (sys2 : Sys2 F) (rnd : Rand) (rs : RandState F) (d : Disk) (x : NpyArray)
    (h : listLoad lb.zip d sys.mem "mushroom_train.npz" = .ok [(str "x", x)]) (h2 : listLoad lb.zip d sys2.mem "mushroom_train.npz" = .ok [(str "x", x)]) :
    second lb fixed sys2 [] ⟨0, []⟩ d = .error .nullDeref :=
  (C79_file_false lb fixed sys sys2 rnd 1 [] ⟨0, []⟩ rs Statics.initial d _ _ h h2 (by simp) (by simp) (by simp) (by simp)).2

/-- The first array is transposed. -/
example [FloatOps F] (lb : Lib F) (fixed : F → Bytes) (sys : Sys F) (sys2 : Sys2 F) (rnd : Rand) (rs : RandState F) (d : Disk) (y z w : NpyArray)
    (h : listLoad lb.zip d sys.mem "mushroom_train.npz" =
      .ok [(str "x", { exArray 2 1 with fortran := true }), (str "y", y), (str "z", z), (str "w", w)])
    (h2 : listLoad lb.zip d sys2.mem "mushroom_train.npz" =
      .ok [(str "x", { exArray 2 1 with fortran := true }), (str "y", y), (str "z", z), (str "w", w)]) :
    second lb fixed sys2 [] ⟨0, []⟩ d = .error .assertFail :=
  (C79_order lb fixed sys sys2 rnd 1 [] ⟨0, []⟩ rs Statics.initial d _ _ _ _ _ h h2 ⟨_, List.mem_of_getElem? (i := 0) rfl, rfl⟩).2

end NN.Example02
