import Verif.Proofs.Examples
import Verif.Proofs.OptAny
import Verif.Properties.BatchFloat
import Verif.Properties.Lifecycle
/-
C73: the example programs against the library functions they stand for.
-/
set_option linter.unusedSectionVars false

namespace NN
open FloatOps _root_.Spec

/-! ### Training by hand and SGD -/

section
variable {F : Type} [FloatOps F]

/-- Both programs train with the data of `k`: the loop of example_01 on the network `nn`, and `optimizer_run_epoch` on a new SGD optimizer
for `nn` with batches of one sample, no shuffling, and neither momentum nor decay.  Both succeed, and afterwards the two networks are
the same. -/
def SameTraining (env : CustomEnv F) (c : Cfg) (ms : List Metric) (k : EpochCall F) (nn : Net F) : Prop :=
  ∀ (lr decay momentum : F) (nesterov : Bool), lt zero decay = false → lt zero momentum = false →
  ∀ (workAddr : ℕ → ℕ) (junk : ℕ → ℕ → F) (gradAddr : ℕ) (gradJunk : ℕ → F), (∀ i, workAddr i % c.alignSize = 0) →
    gradAddr % c.alignSize = 0 →
  ∀ (st : Statics F), st.nSample = 0 → ∀ (rest : List (Option Metric)) (addr : ℕ), addr % c.alignSize = 0 →
  ∀ (rand : ℕ → ℕ) (calls : ℕ),
  ∃ nn' st' s st'' s' calls' results,
    Examples.train env c workAddr junk gradAddr gradJunk lr k.n nn.nInput k.X k.Y nn = .ok nn' ∧
    newSgd st nn false 1 (some (ms.map some ++ none :: rest)) lr decay momentum nesterov (some addr) = .ok (st', s) ∧
    k.run env c rand calls st' (.sgd s) = .ok (st'', .sgd s', calls', results) ∧ s'.opt.nn = nn'

theorem sameTraining {P : F → Prop} (laws : ZeroLaws P) (env : CustomEnv F) (c : Cfg) (loss : Loss) (ms : List Metric)
    (k : EpochCall F) (nn : Net F) (hk : k.OK c loss nn 1 ms) (h1 : nn.nOutput = 1) (hP : ∀ x ∈ params nn.layers, P x) :
    SameTraining env c ms k nn := by
  intro lr decay momentum nesterov hdec hmo workAddr junk gradAddr gradJunk hwa hga st hst rest addr haddr rand calls
  have h := hk.train
  have ht := Examples.train_eq env c workAddr junk gradAddr gradJunk lr loss k.n k.X k.Y nn h h1 hwa hga
  let st' : Statics F := { st with metric := getMetricFunc (getLossName (some loss)) }
  let s : Sgd F := ⟨⟨nn, false, 1, .own (ms.map some ++ none :: rest), none⟩, lr, decay, momentum, nesterov, 0,
    ⟨addr, List.replicate (nParams nn.layers) zero⟩⟩
  have hnew : newSgd st nn false 1 (some (ms.map some ++ none :: rest)) lr decay momentum nesterov (some addr) = .ok (st', s) := by
    simp [newSgd, zeroVec, newOpt, h.loss_eq, bind, Except.bind, pure, Except.pure, st', s]
  have hmem : ∀ i < k.n, (k.mem i).OK c (nParams nn.layers) 1 := by
    intro i hi
    have := hk.mem i
    rwa [show batchLen k.n 1 i = 1 by unfold batchLen; split <;> omega] at this
  have hf : k.n ≤ k.fuel := by simpa using hk.fuel
  obtain ⟨s2, he, hs2⟩ := Examples.sgd_eq laws env c k.mem loss k.n k.X k.Y nn h hP hmem
    { s with opt := { s.opt with pivot := some (List.range k.n) } } rfl rfl rfl _
    ⟨haddr, rfl, List.length_replicate⟩ hmo hdec k.fuel hf
  have hsame := trainLoop_preserve k.n (sgdStep env c k.mem k.n k.X k.Y)
    (fun x => (s.opt).same x.opt)
    (fun i a i' a' hst hq => hq.trans (sgdStep_same env c k.mem k.n k.X k.Y i a i' a' hst)) k.fuel 0 _ s2 he ⟨rfl, rfl, rfl⟩
  have hw := Examples.paramsAfter_length env c loss lr k.n k.X k.Y nn h k.n le_rfl
  have hwf := (h.setParams _ hw).wf
  have hs2' : s2.opt.nn = nn.setParams (Examples.paramsAfter env c loss lr k.X k.Y nn k.n) := hs2
  rw [← hs2'] at hwf
  have hi : s2.opt.nn.nInput = nn.nInput := by rw [hs2']; exact withParams_nInput nn.layers _ _ _
  have ho : s2.opt.nn.nOutput = nn.nOutput := by rw [hs2']; exact withParams_nOutput nn.layers _ _ _
  obtain ⟨train, val, l1, l2, hrep⟩ := C37_safe env c k.evalMem k.evalMemV k.sched k.schedV s2.opt.nn hwf ms rest k.n
    k.X k.Y k.nValid k.valid k.results hk.sched hk.evalMem (by rw [hi]; exact h.xlen)
    (by rw [ho]; exact h.ylen) hk.room hk.evalMemV (by rw [hi, ho]; exact hk.valid)
  have hma : ∀ st : Statics F, metricsArray st s2.opt.metrics = ms.map some ++ none :: rest := by
    intro st
    rw [hsame.2.1]; rfl
  have hpv : setupPivot rand true k.n st'.nSample calls s.opt.shuffle s.opt.pivot = .ok (k.n, some (List.range k.n), calls) := by
    have e : st'.nSample = 0 := hst
    rw [e]
    exact C25_no_shuffle rand k.n calls hk.pos
  have hep : (anyKind env c k.mem k.fuel k.n k.X k.Y).epoch { st' with nSample := k.n }
      ((AnyOpt.sgd s).setPivot (some (List.range k.n))) = .ok ({ st' with nSample := k.n }, .sgd s2) := by
    simp only [anyKind, sgdKind, AnyOpt.setPivot, he, bind, Except.bind, pure, Except.pure]
  refine ⟨_, st', s, { st' with nSample := k.n }, s2, calls, ⟨k.results.addr, train ++
    if k.valid.isSome ∧ 0 < k.nValid then val ++ k.results.data.drop (2 * ms.length)
    else k.results.data.drop ms.length⟩, ht, hnew, ?_, hs2'⟩
  simp only [EpochCall.run, runEpoch]
  have e1 : (anyKind env c k.mem k.fuel k.n k.X k.Y).opt = AnyOpt.opt := rfl
  have e2 : (anyKind env c k.mem k.fuel k.n k.X k.Y).setPivot = fun s p => s.setPivot p := rfl
  have e3 : (AnyOpt.sgd s).opt = s.opt := rfl
  have e4 : (AnyOpt.sgd s2).opt = s2.opt := rfl
  simp only [e1, e2, e3, hpv, bind, Except.bind, hep, e4, hma, hrep, pure, Except.pure]

end

/-- **C73** In exact arithmetic the training loop written out in example_01 does what one epoch of SGD does with batches of one sample in
their order: same network at the end, in every build, for every schedule of the one-sample batches. -/
theorem C73_training (env : CustomEnv ℝ) (c : Cfg) (loss : Loss) (ms : List Metric) (k : EpochCall ℝ) (nn : Net ℝ)
    (hk : k.OK c loss nn 1 ms) (h1 : nn.nOutput = 1) : SameTraining env c ms k nn :=
  sameTraining zeroLaws_real env c loss ms k nn hk h1 fun _ _ => trivial

/-- **C73** In `float` arithmetic they agree bit for bit, although SGD adds the gradient to zeros and divides by 1 first: provided that no
parameter is a negative zero at the start (`neuralnet_initialize` makes none) or a NaN with an unusual bit pattern. -/
theorem C73_training_float (L : B32.Libm) (env : CustomEnv B32) (c : Cfg) (loss : Loss) (ms : List Metric) (k : EpochCall B32)
    (nn : Net B32) (hk : @EpochCall.OK B32 c loss nn 1 ms k) (h1 : nn.nOutput = 1)
    (hp : ∀ x ∈ params nn.layers, x ≠ B32.zeroS true ∧ (x.isNan = true → x = B32.qnan)) :
    @SameTraining B32 (B32.ops L) env c ms k nn :=
  @sameTraining B32 (B32.ops L) _ (zeroLaws_b32 L) env c loss ms k nn hk h1 hp

/-! ### The accuracy -/

/-- The answer of the network for sample `i`. -/
noncomputable def Spec.answer (env : CustomEnv ℝ) (nn : Net ℝ) (X : View ℝ) (i : ℕ) : ℝ :=
  at_ (Spec.network (nn.layers.map (Layer.toSpec env)) (slice X.data (i * nn.nInput) nn.nInput)) 0

theorem network_length (env : CustomEnv ℝ) (c : Cfg) (nn : Net ℝ) (hw : nn.WF c) (x : List ℝ) (hx : nn.nInput ≤ x.length) :
    (Spec.network (nn.layers.map (Layer.toSpec env)) (x.take nn.nInput)).length = nn.nOutput := by
  obtain ⟨last, hlast, hno, hlw⟩ := exists_last hw
  rw [← netF_real env c 0 nn.layers _ hw.layer hw.chain (by
    intro l hl
    rw [Net.nInput_eq hl] at hx ⊢
    simp; omega), hno]
  exact netF_length env c 0 nn.layers _ last hlast hw.layer

open Classical in
/-- **C73** The test loop of example_01 counts the samples where answer and target are on the same side of one half. -/
theorem C73_count (env : CustomEnv ℝ) (c : Cfg) (mem : ℕ → ThreadMem ℝ) (n : ℕ) (X Y : View ℝ) (nn : Net ℝ) (hw : nn.WF c)
    (h1 : nn.nOutput = 1) (hmem : ∀ i, (mem i).workAddr % c.alignSize = 0) (hX : n * nn.nInput ≤ X.data.length)
    (hY : n ≤ Y.data.length) :
    Examples.correctCount env c mem n nn.nInput X Y nn =
      .ok ((Finset.range n).filter fun i => 1 / 2 < Spec.answer env nn X i ↔ 1 / 2 < at_ Y.data i).card := by
  have h := forN_eq (n := n) (body := Examples.countStep env c mem nn.nInput X Y nn)
    (fun j => ((Finset.range j).filter fun i => 1 / 2 < Spec.answer env nn X i ↔ 1 / 2 < at_ Y.data i).card) ?_
  · simpa [Examples.correctCount] using h
  intro i hi
  have hi1 : (i + 1) * nn.nInput ≤ n * nn.nInput := Nat.mul_le_mul_right _ hi
  rw [Nat.succ_mul] at hi1
  have hx : nn.nInput ≤ (X.offset (i * nn.nInput)).data.length := by simp [View.offset]; omega
  have hl := network_length env c nn hw _ hx
  have hp := C01_predict env c (mem i).workAddr (mem i).junk nn (X.offset (i * nn.nInput))
    (stackArray (mem i).predAddr 1 (mem i).predJunk) hw (hmem i) hx (by rw [stackArray_length, h1])
    (by rw [h1]; exact AlignedFor.of_small (by norm_num))
  have e1 : Spec.answer env nn X i =
      at_ (Spec.network (nn.layers.map (Layer.toSpec env)) ((X.offset (i * nn.nInput)).data.take nn.nInput)) 0 := rfl
  simp only [Examples.countStep, hp, bind, Except.bind, pure, Except.pure]
  rw [h1] at hl
  obtain ⟨o, ho⟩ := List.length_eq_one_iff.mp hl
  have ea : Spec.answer env nn X i = o := by rw [e1, ho]; rfl
  have hy : Y.data.drop i = at_ Y.data i :: Y.data.drop (i + 1) := by
    rw [List.drop_eq_getElem_cons (by omega)]
    simp [at_, List.getD, show i < Y.data.length by omega]
  have hlt : ∀ x : ℝ, lt (lit 1 2) x = decide (1 / 2 < x) := by
    intro x
    rw [Bool.eq_iff_iff, RealOps.lt_iff, RealOps.lit_def]
    norm_num
  rw [ho]
  simp only [View.load, View.offset, hy, List.cons_append, List.getElem?_cons_zero, hlt, Finset.range_add_one,
    Finset.filter_insert, ea]
  by_cases hd : (1 / 2 < o ↔ 1 / 2 < at_ Y.data i)
  · rw [if_pos (by simpa using hd), if_pos hd, Finset.card_insert_of_notMem (by simp)]
  · rw [if_neg (by simpa using hd), if_neg hd]

/-- **C73** The accuracy that example_01 prints is what `evaluate` reports for `binary_accuracy`, in every build, for every schedule,
when no answer and no target is exactly one half. -/
theorem C73_accuracy (env : CustomEnv ℝ) (c : Cfg) (mem mem' : ℕ → ThreadMem ℝ) (sched : Sched) (n : ℕ) (X Y results : View ℝ)
    (nn : Net ℝ) (hw : nn.WF c) (h1 : nn.nOutput = 1) (l : Layer ℝ) (hl : nn.layers.getLast? = some l) (hact : l.act = .sigmoid)
    (hs : sched.Covers n) (hmem : ∀ i, (mem i).workAddr % c.alignSize = 0)
    (hmem' : ∀ i, (mem' i).workAddr % c.alignSize = 0 ∧ (mem' i).predAddr % c.alignSize = 0)
    (hX : n * nn.nInput ≤ X.data.length) (hY : n ≤ Y.data.length) (hr : 1 ≤ results.data.length)
    (ha : ∀ i < n, Spec.answer env nn X i ≠ 1 / 2) (ht : ∀ i < n, at_ Y.data i ≠ 1 / 2) :
    ∃ correct : ℕ, Examples.correctCount env c mem n nn.nInput X Y nn = .ok correct ∧
      evaluate env c mem' sched nn n X Y [some .binaryAccuracy, none] results =
        .ok ⟨results.addr, (correct / n : ℝ) :: results.data.drop 1⟩ := by
  classical
  refine ⟨_, C73_count env c mem n X Y nn hw h1 hmem hX hY, ?_⟩
  have h := C24_mean env c mem' sched nn n hs X Y [.binaryAccuracy] [] results hw hmem' hX (by rw [h1]; simpa using hY) hr
  simp only [List.map_cons, List.map_nil, List.cons_append, List.nil_append, List.length_cons, List.length_nil, Nat.zero_add] at h
  rw [h]
  congr 4
  rw [Finset.card_filter]
  push_cast
  refine Finset.sum_congr rfl fun i hi => ?_
  have hin : i < n := by simpa using hi
  have hrange : 0 < Spec.answer env nn X i ∧ Spec.answer env nn X i < 1 := by
    obtain ⟨ls, hls⟩ : ∃ ls, nn.layers = ls ++ [l] := ⟨_, (List.dropLast_append_getLast? l (by simp [hl])).symm⟩
    have ho : l.nOut = 1 := by rw [← h1, Net.nOutput, hl]
    simp only [Spec.answer, hls, Spec.network, List.map_append, List.map_cons, List.map_nil, List.foldl_append, List.foldl_cons,
      List.foldl_nil]
    generalize List.foldl _ _ _ = x
    have e : (Layer.toSpec env l).apply x = (_root_.Spec.affine l.nIn l.nOut l.weight.data l.bias.data x).map _root_.Spec.sigmoid := by
      show actSpec env l.act _ = _
      rw [hact]; rfl
    rw [e, at_map _ (by simp [_root_.Spec.affine, ho])]
    exact sigmoid_range _
  simp only [metricSpec, h1, Finset.sum_range_one, Nat.cast_one, div_one, Nat.mul_one]
  have e0 : at_ (slice Y.data (i * 1) 1) 0 = at_ Y.data i := by
    simp [slice, at_, List.getD, List.getElem?_drop]
  have e1 : ∀ x : ℝ, 0 ≤ min (max x 0) 1 ∧ min (max x 0) 1 ≤ 1 := fun x => ⟨le_min (le_max_right _ _) zero_le_one, min_le_right _ _⟩
  have e2 : (1 / 2 ≤ min (max (at_ Y.data i) 0) 1 ↔ 1 / 2 ≤ at_ Y.data i) := by
    rw [le_min_iff, le_max_iff]
    norm_num
  have e3 := ha i hin
  have e4 := ht i hin
  rw [Nat.mul_one] at e0
  rw [e0, roundAway_unit (e1 _).1 (e1 _).2]
  change (if _ = roundAway (Spec.answer env nn X i) then (1 : ℝ) else 0) = _
  rw [roundAway_unit hrange.1.le hrange.2.le]
  simp only [e2]
  generalize Spec.answer env nn X i = a at *
  generalize at_ Y.data i = b at *
  clear ha ht hr h e0 e1 e2 hrange
  generalize (1 / 2 : ℝ) = half at *
  rcases lt_or_gt_of_ne e3 with g | g <;> rcases lt_or_gt_of_ne e4 with g' | g' <;>
    simp [g.le, g'.le, g, g', not_lt.mpr g.le, not_lt.mpr g'.le, not_le.mpr g, not_le.mpr g']

/-! ### `local_evaluate` -/

theorem drop_flatten (m : ℕ) (tail : List ℝ) : ∀ (rows : List (List ℝ)) (i : ℕ) (r : List ℝ), rows[i]? = some r →
    (∀ r ∈ rows, r.length = m) → ∃ t, (rows.flatten ++ tail).drop (i * m) = r ++ t
  | [], i, r, h, _ => by simp at h
  | a :: rows, 0, r, h, _ => by
    simp only [List.getElem?_cons_zero, Option.some.injEq] at h
    subst h
    exact ⟨rows.flatten ++ tail, by simp⟩
  | a :: rows, i + 1, r, h, hl => by
    obtain ⟨t, ht⟩ := drop_flatten m tail rows i r (by simpa using h) (fun r hr => hl r (by simp [hr]))
    refine ⟨t, ?_⟩
    have ha := hl a (by simp)
    rw [Nat.succ_mul, Nat.add_comm, List.flatten_cons, List.append_assoc, ← List.drop_drop, ← ha, List.drop_left, ha]
    exact ht

/-- **C73** `local_evaluate` of example_02b reports what `evaluate` reports, in every build, for every schedule of either, when
`predictions`, which is not declared with an alignment, suits the network (fewer than 8 outputs, or no AVX, or by luck). -/
theorem C73_local_evaluate (env : CustomEnv ℝ) (c : Cfg) (mem : ℕ → ThreadMem ℝ) (sched : Sched) (workAddr : ℕ → ℕ)
    (junk : ℕ → ℕ → ℝ) (order : List ℕ) (predAddr : ℕ) (predJunk : ℕ → ℝ) (nn : Net ℝ) (hw : nn.WF c) (n : ℕ)
    (ho : order.Perm (List.range n)) (hs : sched.Covers n) (X Y : View ℝ) (ms : List Metric) (rest : List (Option Metric))
    (results : View ℝ) (hwa : ∀ i, workAddr i % c.alignSize = 0)
    (hmem : ∀ i, (mem i).workAddr % c.alignSize = 0 ∧ (mem i).predAddr % c.alignSize = 0)
    (hX : n * nn.nInput ≤ X.data.length) (hY : n * nn.nOutput ≤ Y.data.length) (hr : ms.length ≤ results.data.length)
    (hal : nn.nOutput < 8 ∨ (predAddr % c.alignSize = 0 ∧ nn.nOutput % c.lanes = 0) ∨ c.avx = false) :
    ∃ r, Examples.localEvaluate env c workAddr junk order predAddr predJunk nn n X Y (ms.map some ++ none :: rest) results = .ok r ∧
      evaluate env c mem sched nn n X Y (ms.map some ++ none :: rest) results = .ok r := by
  refine ⟨_, ?_, C24_mean env c mem sched nn n hs X Y ms rest results hw hmem hX hY hr⟩
  obtain ⟨last, hlast, hno, hlw⟩ := exists_last hw
  have hm : 1 ≤ nn.nOutput := by rw [hno]; exact hlw.out_pos
  have hp := C04_real_partial env c workAddr junk nn n order ho X (stackArray predAddr (nn.nOutput * n) predJunk) hw hwa hX
    (by rw [stackArray_length, Nat.mul_comm]) hal
  let out : ℕ → List ℝ := fun i => Spec.network (nn.layers.map (Layer.toSpec env)) (slice X.data (i * nn.nInput) nn.nInput)
  let v : ℕ → List ℝ := fun i => ms.map fun m => metricSpec m nn.nOutput (out i) (slice Y.data (i * nn.nOutput) nn.nOutput)
  have hol : ∀ i < n, (out i).length = nn.nOutput := by
    intro i hi
    have hi1 : (i + 1) * nn.nInput ≤ n * nn.nInput := Nat.mul_le_mul_right _ hi
    rw [Nat.succ_mul] at hi1
    exact network_length env c nn hw (X.data.drop (i * nn.nInput)) (by simp; omega)
  set p : View ℝ := ⟨predAddr, ((List.range n).map out).flatten ++
    (stackArray predAddr (nn.nOutput * n) predJunk).data.drop (n * nn.nOutput)⟩ with hpdef
  have hpd : ∀ i < n, ((p.offset (i * nn.nOutput)).data).take nn.nOutput = out i ∧
      nn.nOutput ≤ (p.offset (i * nn.nOutput)).data.length := by
    intro i hi
    have h1 : (out i).length = nn.nOutput := hol i hi
    obtain ⟨t, ht⟩ := drop_flatten nn.nOutput ((stackArray predAddr (nn.nOutput * n) predJunk).data.drop (n * nn.nOutput))
      ((List.range n).map out) i (out i) (by simp [hi]) (fun r hr => by
        obtain ⟨j, hj, rfl⟩ := List.mem_map.mp hr
        exact hol j (by simpa using hj))
    have e : (p.offset (i * nn.nOutput)).data = out i ++ t := ht
    rw [e]
    exact ⟨List.take_left' h1, by simp [h1]⟩
  have hf := forN_eq (n := n) (body := fun i res =>
    accMetrics nn.nOutput (p.offset (i * nn.nOutput)) (Y.offset (i * nn.nOutput)) ms res)
    (fun j => vsum ms.length v (List.range j)) ?_
  · have hz : (ms.map fun _ => (zero : ℝ)) = vsum ms.length v (List.range 0) := by
      apply List.ext_getElem
      · simp [vsum]
      · intro j h1 h2
        simp [vsum]
    unfold Examples.localEvaluate
    have hp' : predictBatch env c workAddr junk nn order X (stackArray predAddr (nn.nOutput * n) predJunk) = .ok p := hp
    simp only [metricList_eq, bind, Except.bind, hp', hz, hf]
    refine (writeResults n ms.length _ (vsum_length _ _ _) results hr).trans ?_
    rw [vsum_range]
    congr 3
    apply List.ext_getElem
    · simp
    · intro j h1 h2
      simp at h1
      simp [v, out, at_, List.getD, List.getElem?_eq_getElem h1]
  · intro i hi
    have h2 : (i + 1) * nn.nOutput ≤ n * nn.nOutput := Nat.mul_le_mul_right _ hi
    rw [Nat.succ_mul] at h2
    have hyl : nn.nOutput ≤ (Y.offset (i * nn.nOutput)).data.length := by simp [View.offset]; omega
    rw [accMetrics_real nn.nOutput hm _ _ (hpd i hi).2 hyl ms _ (vsum_length _ _ _), List.range_succ, vsum_append]
    congr 2
    apply List.ext_getElem
    · simp [vsum]
    · intro j h3 h4
      have hj : j < ms.length := by simpa using h3
      simp [vsum, v, at_, List.getD, List.getElem?_eq_getElem hj]
      rw [metricSpec_take _ nn.nOutput hm _ _ (hpd i hi).2 hyl, (hpd i hi).1]
      rfl

/-! ### The sizes in the example programs -/

/-- **C73** The network of example_01 and example_02 (`INT_ARRAY( train_X->shape[1], 64, 32, 1 )`) can be trained in every build: all
accesses of the backward pass are aligned. -/
theorem C73_sizes_safe {F : Type} [FloatOps F] (c : Cfg) (nn : Net F) (hw : nn.WF c) (hn : nn.layers.map (·.nOut) = [64, 32, 1]) (ga : ℕ)
    (hga : ga % c.alignSize = 0) : BackAligned c ga 0 nn.layers := by
  refine C09_safe_sizes c nn ga hga hw (.inr (.inl ?_))
  clear hw
  revert hn
  rcases nn.layers with _ | ⟨l1, _ | ⟨l2, _ | ⟨l3, _ | ⟨l4, ls⟩⟩⟩⟩ <;> intro hn <;>
    simp only [List.map_cons, List.map_nil, List.cons.injEq, and_true, reduceCtorEq, and_false] at hn
  obtain ⟨h1, h2, h3⟩ := hn
  refine ⟨?_, ?_, .inr (by omega)⟩ <;> rcases c with ⟨s, _, _⟩ <;> cases s <;> simp [h1, h2, Cfg.lanes, Cfg.alignSize]

/-- **C73** The networks of examples/test_sgd.c (61, 28, 1; the comment there says `This will fail`) and of examples/example_03.c (256, 128
and 10 for its data) cannot: in the AVX and AVX512 builds the first backpropagation faults, whatever the data. -/
theorem C73_sizes_fault {F : Type} [FloatOps F] (env : CustomEnv F) (c : Cfg) (workAddr : ℕ) (junk : ℕ → F) (nn : Net F)
    (input target grad : View F) (loss : Loss) (hn : nn.layers.map (·.nOut) = [61, 28, 1] ∨ nn.layers.map (·.nOut) = [256, 128, 10])
    (hw : nn.WF c) (hwa : workAddr % c.alignSize = 0) (hga : grad.addr % c.alignSize = 0) (hloss : nn.loss = some loss)
    (hd : ∀ l ∈ nn.layers, l.deriv ≠ none) (hin : nn.nInput ≤ input.data.length) (hout : nn.nOutput ≤ target.data.length)
    (hg : nParams nn.layers ≤ grad.data.length) (hx : c.avx = true) :
    backpropagation env c workAddr junk nn input target grad = .error .misaligned := by
  have key : ∃ i l, 0 < i ∧ nn.layers[i]? = some l ∧ 2 ≤ l.nIn ∧ 8 ≤ l.nOut ∧ l.nOut % 8 ≠ 0 := by
    have hc := hw.chain
    rcases hn with hn | hn <;> revert hc hn <;> rcases nn.layers with _ | ⟨l1, _ | ⟨l2, _ | ⟨l3, _ | ⟨l4, ls⟩⟩⟩⟩ <;> intro hc hn <;>
      simp only [List.map_cons, List.map_nil, List.cons.injEq, and_true, reduceCtorEq, and_false] at hn <;>
      obtain ⟨h1, h2, h3⟩ := hn <;> obtain ⟨c1, c2, -⟩ := hc
    · exact ⟨1, l2, by norm_num, rfl, by omega, by omega, by omega⟩
    · exact ⟨2, l3, by norm_num, rfl, by omega, by omega, by omega⟩
  obtain ⟨i, l, k1, k2, k3, k4, k5⟩ := key
  exact C09_false_rows env c workAddr junk nn input target grad loss hw hwa hga hloss hd hin hout hg hx i l k1 k2 k3 k4 k5

/-! ### Examples -/

/-- Three samples, batches of one. -/
def exHand {F : Type} [FloatOps F] (c : Cfg) (jk : ℕ → F) : EpochCall F :=
  ⟨3, ⟨20, [one, lit 2 1, zero, zero, lit (-1) 3, one]⟩, ⟨52, [one, zero, one]⟩, 0, none, ⟨200, List.replicate 2 zero⟩,
    fun i => ⟨.combine (.thread []) (.thread (List.range (batchLen 3 1 i))), fun _ => ⟨4096, jk, 8192, jk, 12⟩, 16384, jk,
      if c.avx then 16 else 0, 32768, jk⟩, 3,
    fun _ => ⟨4096, jk, 8192, jk⟩, fun _ => ⟨4096, jk, 8192, jk⟩, .thread [0, 1, 2], .thread []⟩

theorem exHand_fits {F : Type} [FloatOps F] (c : Cfg) (jk : ℕ → F) (k : ℕ) : (exHand c jk).Fits c 2 1 k 1 1 where
  pos := by simp [exHand]
  nlt := by simp [exHand]
  xlen := by simp [exHand]
  ylen := by simp [exHand]
  xfit := by simp [exHand]
  yfit := by simp [exHand]
  mem i := by
    refine ⟨?_, fun _ => align64 c 4096 rfl, fun _ => align64 c 8192 rfl, align64 c 16384 rfl, align64 c 32768 rfl, ?_⟩
    · simp only [Sched.Covers, exHand, Sched.iters, List.nil_append]
      exact List.Perm.refl _
    · simp only [exHand, nParamPadding]
      split <;> omega
  fuel := by simp [exHand]
  evalMem _ := ⟨align64 c 4096 rfl, align64 c 8192 rfl⟩
  evalMemV _ := ⟨align64 c 4096 rfl, align64 c 8192 rfl⟩
  sched := List.Perm.refl _
  room := by simp [exHand]
  valid vX vY h := by simp [exHand] at h

/-- In exact arithmetic. -/
example (c : Cfg) (jk : ℕ → ℝ) : SameTraining (noCustom ℝ) c [.mse] (exHand c jk) exTrain := by
  have hT := exTrainable c
  refine C73_training (noCustom ℝ) c .mse [.mse] (exHand c jk) exTrain
    (EpochCall.Fits.ok ?_ hT.wf hT.loss_eq hT.deriv (.inr (.inr ?_))) (by rw [exTrain_eq]; rfl)
  · rw [exTrain_eq]
    exact exHand_fits c jk _
  · rw [exTrain_eq]; simp

/-- And on floats. -/
example (c : Cfg) (jk : ℕ → B32) :
    @SameTraining B32 (B32.ops exactLibm) (@noCustom B32) c [.mse] (@exHand B32 (B32.ops exactLibm) c jk) exTrainB32 := by
  let _ := B32.ops exactLibm
  have hT := exTrainableB32 c
  refine C73_training_float exactLibm _ c .mse [.mse] (exHand c jk) exTrainB32
    (EpochCall.Fits.ok ?_ hT.wf hT.loss_eq hT.deriv (.inr (.inr ?_))) ?_ ?_
  · rw [exTrainB32_eq]
    exact exHand_fits c jk _
  · rw [exTrainB32_eq]; simp [matchPair, exNetB32, resetDeriv]
  · rw [exTrainB32_eq]; rfl
  · intro x hx
    have hv : ∀ a : B32, a.isFinite = true → 0 < a.value → a ≠ B32.zeroS true ∧ (a.isNan = true → a = B32.qnan) := by
      intro a h1 h2
      refine ⟨?_, fun h => ?_⟩
      · rintro rfl
        rw [(B32.is_zeroS true).2] at h2
        exact lt_irrefl _ h2
      · rw [B32.not_nan h1] at h; cases h
    have h1 := is_one
    have h2 := is_half
    have h4 := is_quarter
    have : x = B32.ofReal false 1 ∨ x = B32.ofReal false (1 / 2) ∨ x = B32.ofReal false (1 / 4) := by
      rw [exTrainB32_eq] at hx
      simp [matchPair, exNetB32, resetDeriv, params, -one_div] at hx
      tauto
    rcases this with rfl | rfl | rfl
    · exact hv _ h1.1 (by rw [h1.2]; norm_num)
    · exact hv _ h2.1 (by rw [h2.2]; norm_num)
    · exact hv _ h4.1 (by rw [h4.2]; norm_num)

/-- One neuron. -/
noncomputable def exNeuron : Net ℝ := ⟨[⟨1, 1, ⟨64, [1]⟩, ⟨128, [0]⟩, .sigmoid, some .sigmoid⟩], some .mse⟩

theorem exNeuron_wf (c : Cfg) : exNeuron.WF c := by
  refine ⟨by simp [exNeuron], ?_, trivial⟩
  intro l hl
  simp only [exNeuron, List.mem_cons, List.not_mem_nil, or_false] at hl
  subst hl
  exact ⟨by decide, by decide, by simp, by simp, align64 c _ rfl, align64 c _ rfl⟩

theorem exNeuron_answer (env : CustomEnv ℝ) (X : View ℝ) (i : ℕ) (hi : i < X.data.length) :
    Spec.answer env exNeuron X i = _root_.Spec.sigmoid (at_ X.data i) := by
  have e : slice X.data (i * 1) 1 = [at_ X.data i] := by
    rw [Nat.mul_one, slice, List.drop_eq_getElem_cons hi, at_, List.getD, List.getElem?_eq_getElem hi]
    rfl
  have e1 : exNeuron.nInput = 1 := rfl
  rw [Spec.answer, e1, e]
  simp [exNeuron, Spec.network, Layer.toSpec, Spec.Layer.apply, Spec.affine, actSpec, at_]

theorem sigmoid_half {x : ℝ} : 1 / 2 < _root_.Spec.sigmoid x ↔ 0 < x := by
  have := Real.exp_pos (-x)
  rw [_root_.Spec.sigmoid, div_lt_div_iff₀ (by norm_num) (by linarith), ← neg_lt_zero (a := x), ← Real.exp_lt_one_iff]
  constructor <;> intro h <;> linarith

/-- Two samples, one of them classified correctly. -/
example (env : CustomEnv ℝ) (c : Cfg) (junk : ℕ → ℝ) :
    Examples.correctCount env c (fun _ => ⟨4096, junk, 8192, junk⟩) 2 1 ⟨20, [1, -1]⟩ ⟨52, [1, 1]⟩ exNeuron = .ok 1 ∧
    evaluate env c (fun _ => ⟨4096, junk, 8192, junk⟩) (.combine (.thread [1]) (.thread [0])) exNeuron 2 ⟨20, [1, -1]⟩ ⟨52, [1, 1]⟩
      [some .binaryAccuracy, none] ⟨200, [0, 7]⟩ = .ok ⟨200, [1 / 2, 7]⟩ := by
  classical
  have hm : ∀ _ : ℕ, (⟨4096, junk, 8192, junk⟩ : ThreadMem ℝ).workAddr % c.alignSize = 0 := fun _ => align64 c 4096 rfl
  have hm' : ∀ _ : ℕ, (⟨4096, junk, 8192, junk⟩ : ThreadMem ℝ).predAddr % c.alignSize = 0 := fun _ => align64 c 8192 rfl
  have a0 := exNeuron_answer env ⟨20, [1, -1]⟩ 0 (by simp)
  have a1 := exNeuron_answer env ⟨20, [1, -1]⟩ 1 (by simp)
  simp only [at_, List.getD, List.getElem?_cons_zero, List.getElem?_cons_succ, Option.getD_some] at a0 a1
  have b0 : 1 / 2 < _root_.Spec.sigmoid 1 := sigmoid_half.mpr one_pos
  have b1 : ¬ 1 / 2 < _root_.Spec.sigmoid (-1) := fun h => by have := sigmoid_half.mp h; norm_num at this
  have b2 : _root_.Spec.sigmoid (-1) ≠ 1 / 2 := by
    rw [_root_.Spec.sigmoid, neg_neg]
    have := Real.add_one_lt_exp (x := 1) (by norm_num)
    intro h
    rw [div_eq_div_iff (by positivity) (by norm_num)] at h
    linarith
  have hc := C73_count env c (fun _ => ⟨4096, junk, 8192, junk⟩) 2 ⟨20, [1, -1]⟩ ⟨52, [1, 1]⟩ exNeuron (exNeuron_wf c) rfl hm
    (by simp [exNeuron, Net.nInput]) (by simp)
  obtain ⟨k, h1, h2⟩ := C73_accuracy env c (fun _ => ⟨4096, junk, 8192, junk⟩) (fun _ => ⟨4096, junk, 8192, junk⟩)
    (.combine (.thread [1]) (.thread [0])) 2 ⟨20, [1, -1]⟩ ⟨52, [1, 1]⟩ ⟨200, [0, 7]⟩ exNeuron (exNeuron_wf c) rfl _ rfl rfl
    (List.Perm.swap _ _ _) hm (fun i => ⟨hm i, hm' i⟩) (by simp [exNeuron, Net.nInput]) (by simp) (by simp)
    (by
      intro i hi
      interval_cases i
      · rw [a0]; exact b0.ne'
      · rw [a1]; exact b2)
    (by
      intro i hi
      interval_cases i <;> norm_num [at_])
  have hk : k = 1 := by
    rw [hc] at h1
    simp only [Except.ok.injEq] at h1
    rw [← h1]
    simp only [Finset.range_add_one, Finset.range_zero, Finset.filter_insert, a0, a1, b0, b1]
    norm_num [at_]
  subst hk
  exact ⟨h1, by simpa using h2⟩

/-- **C73 is false** for an answer of exactly one half: example_01 takes it for 0, `binary_accuracy` rounds it to 1. -/
theorem C73_accuracy_false (env : CustomEnv ℝ) (c : Cfg) (junk : ℕ → ℝ) :
    Examples.correctCount env c (fun _ => ⟨4096, junk, 8192, junk⟩) 1 1 ⟨20, [0]⟩ ⟨52, [1]⟩ exNeuron = .ok 0 ∧
    evaluate env c (fun _ => ⟨4096, junk, 8192, junk⟩) (.thread [0]) exNeuron 1 ⟨20, [0]⟩ ⟨52, [1]⟩
      [some .binaryAccuracy, none] ⟨200, [0]⟩ = .ok ⟨200, [1]⟩ := by
  classical
  have hm : ∀ _ : ℕ, (⟨4096, junk, 8192, junk⟩ : ThreadMem ℝ).workAddr % c.alignSize = 0 := fun _ => align64 c 4096 rfl
  have hm' : ∀ _ : ℕ, (⟨4096, junk, 8192, junk⟩ : ThreadMem ℝ).predAddr % c.alignSize = 0 := fun _ => align64 c 8192 rfl
  have a0 : Spec.answer env exNeuron ⟨20, [0]⟩ 0 = 1 / 2 := by
    rw [exNeuron_answer env ⟨20, [0]⟩ 0 (by simp)]
    norm_num [at_, _root_.Spec.sigmoid]
  constructor
  · have hc := C73_count env c (fun _ => ⟨4096, junk, 8192, junk⟩) 1 ⟨20, [0]⟩ ⟨52, [1]⟩ exNeuron (exNeuron_wf c) rfl hm
      (by simp [exNeuron, Net.nInput]) (by simp)
    refine hc.trans ?_
    simp only [Finset.range_one, Finset.filter_singleton, a0]
    norm_num [at_]
  · have h := C24_mean env c (fun _ => ⟨4096, junk, 8192, junk⟩) (.thread [0]) exNeuron 1 (List.Perm.refl _) ⟨20, [0]⟩ ⟨52, [1]⟩
      [.binaryAccuracy] [] ⟨200, [0]⟩ (exNeuron_wf c) (fun i => ⟨hm i, hm' i⟩) (by simp [exNeuron, Net.nInput])
      (by simp [exNeuron, Net.nOutput]) (by simp)
    refine h.trans ?_
    have e : at_ (Spec.network (exNeuron.layers.map (Layer.toSpec env)) (slice [0] (0 * exNeuron.nInput) exNeuron.nInput)) 0 = 1 / 2 := a0
    have e1 : exNeuron.nOutput = 1 := rfl
    simp only [List.map_cons, List.map_nil, Finset.sum_range_one, metricSpec, e, e1]
    norm_num [at_, slice, roundAway_unit]

/-- `local_evaluate` and `evaluate` for two samples, with different schedules. -/
example (env : CustomEnv ℝ) (c : Cfg) (junk : ℕ → ℝ) : ∃ r,
    Examples.localEvaluate env c (fun _ => 4096) (fun _ => junk) [1, 0] 36 junk exNeuron 2 ⟨20, [1, -1]⟩ ⟨52, [1, 1]⟩
      [some .bce, some .binaryAccuracy, none] ⟨200, [0, 0, 7]⟩ = .ok r ∧
    evaluate env c (fun _ => ⟨4096, junk, 8192, junk⟩) (.thread [0, 1]) exNeuron 2 ⟨20, [1, -1]⟩ ⟨52, [1, 1]⟩
      [some .bce, some .binaryAccuracy, none] ⟨200, [0, 0, 7]⟩ = .ok r :=
  C73_local_evaluate env c (fun _ => ⟨4096, junk, 8192, junk⟩) (.thread [0, 1]) (fun _ => 4096) (fun _ => junk) [1, 0] 36 junk exNeuron (exNeuron_wf c) 2 (List.Perm.swap _ _ _)
    (List.Perm.refl _) ⟨20, [1, -1]⟩ ⟨52, [1, 1]⟩ [.bce, .binaryAccuracy] [] ⟨200, [0, 0, 7]⟩ (fun _ => align64 c _ rfl)
    (fun _ => ⟨align64 c 4096 rfl, align64 c 8192 rfl⟩) (by simp [exNeuron, Net.nInput]) (by simp [exNeuron, Net.nOutput]) (by simp)
    (.inl (by simp [exNeuron, Net.nOutput]))

/-- Networks of three layers for 117 features. -/
def exSized (a b d : ℕ) : Net ℝ :=
  ⟨[⟨117, a, ⟨0, List.replicate (117 * a) 1⟩, ⟨64, List.replicate a 0⟩, .relu, some .relu⟩,
    ⟨a, b, ⟨0, List.replicate (a * b) 1⟩, ⟨64, List.replicate b 0⟩, .relu, some .relu⟩,
    ⟨b, d, ⟨0, List.replicate (b * d) 1⟩, ⟨64, List.replicate d 0⟩, .sigmoid, some .sigmoid⟩], some .bce⟩

theorem exSized_wf (c : Cfg) (a b d : ℕ) (ha : 0 < a) (hb : 0 < b) (hd : 0 < d) : (exSized a b d).WF c := by
  refine ⟨by simp [exSized], ?_, rfl, rfl, trivial⟩
  intro l hl
  simp only [exSized, List.mem_cons, List.not_mem_nil, or_false] at hl
  rcases hl with rfl | rfl | rfl <;>
    exact ⟨by first | assumption | norm_num, by assumption, by simp, by simp, align64 c 0 rfl, align64 c 64 rfl⟩

example (c : Cfg) : BackAligned c 4096 0 (exSized 64 32 1).layers :=
  C73_sizes_safe c _ (exSized_wf c 64 32 1 (by norm_num) (by norm_num) (by norm_num)) rfl 4096 (align64 c _ rfl)

example (env : CustomEnv ℝ) (c : Cfg) (hx : c.avx = true) (junk : ℕ → ℝ) :
    backpropagation env c 4096 junk (exSized 61 28 1) ⟨20, List.replicate 117 1⟩ ⟨52, [1]⟩
      ⟨8192, List.replicate (nParams (exSized 61 28 1).layers) 0⟩ = .error .misaligned :=
  C73_sizes_fault env c 4096 junk (exSized 61 28 1) _ _ _ .bce (.inl rfl)
    (exSized_wf c 61 28 1 (by norm_num) (by norm_num) (by norm_num)) (align64 c _ rfl) (align64 c 8192 rfl) rfl
    (by
      intro l hl
      simp only [exSized, List.mem_cons, List.not_mem_nil, or_false] at hl
      rcases hl with rfl | rfl | rfl <;> exact Option.some_ne_none _)
    (by rw [List.length_replicate]; exact le_refl 117) (le_refl 1) (by rw [List.length_replicate]) hx

end NN
