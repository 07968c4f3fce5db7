import Verif.Model.TestSgd
import Verif.Properties.EvalFloat
import Verif.Proofs.Trainer
/-
Lemmas about examples/test_sgd.c.
-/
set_option linter.unusedSimpArgs false

namespace NN.TestSgd
open FloatOps Trainer
variable {F : Type}

theorem strncmpEq_iff (b : Bytes) : ∀ a : Bytes, strncmpEq a b b.length = true ↔ b <+: a := by
  induction b with
  | nil => intro a; cases a <;> simp [strncmpEq]
  | cons y b ih =>
    intro a
    cases a with
    | nil => simp [strncmpEq]
    | cons x a =>
      simp only [List.length_cons, strncmpEq, Bool.and_eq_true, beq_iff_eq, ih, List.cons_prefix_cons]
      exact and_congr_left fun _ => eq_comm

variable [FloatOps F]

theorem loop_runEpochs (env : CustomEnv F) (c : Cfg) (r : ℕ → ℕ) : ∀ (ks : List (EpochCall F)) (x : Statics F × AnyOpt F × ℕ),
    (loop env c r ks x).map Prod.snd = runEpochs env c r ks x
  | [], _ => rfl
  | k :: ks, (st, s, q) => by
    simp only [loop, runEpochs, bind, Except.bind]
    cases k.run env c r q st s with
    | error e => rfl
    | ok v =>
      obtain ⟨st1, s1, q1, res⟩ := v
      simp only []
      rw [← loop_runEpochs env c r ks (st1, s1, q1)]
      cases loop env c r ks (st1, s1, q1) <;> rfl

/-- What the program does, as a job (see C63). -/
def job (sys : Sys F) (rnd : Rand) (fuel : ℕ) (lr : F) (k : ℕ) (data : Data F) : Job F where
  sizes := [k, 61, 28, 1]
  funcs := [some "relu", some "relu", some "sigmoid"]
  inits := some [some "kaiming", some "kaiming", some "kaiming"]
  loss := "binary_crossentropy"
  shuffle := true
  batchsize := 16
  metrics := some [some .bce, some .categoricalAccuracy, none]
  settings := .sgd lr zero zero false
  calls := (List.range 10).map (call sys data 2)
  file := "after-10-epochs.npz"
  ok := sys.ok
  addr := sys.addr
  junk := sys.junk
  vec1 := sys.vec1
  vec2 := sys.vec2
  dl := sys.dl
  rand := rnd
  fuel := fuel

abbrev metrics : List Metric := [.bce, .categoricalAccuracy]

theorem newAny_metrics {st st' : Statics F} {nn : Net F} {sh : Bool} {bs : ℤ} {l : List (Option Metric)} {a a' : Option ℕ}
    {se : Settings F} {s : AnyOpt F} (h : newAny st nn sh bs (some l) a a' se = .ok (st', s)) : metricsArray st' s.opt.metrics = l := by
  cases se <;> cases a <;> cases a' <;>
  · simp only [newAny, newSgd, newAdagrad, newRmsProp, newAdam, zeroVec, newOpt] at h
    cases hl : nn.loss with
    | none => rw [hl] at h; simp [bind, Except.bind, pure, Except.pure] at h
    | some loss =>
      simp only [hl] at h
      by_cases hb : 0 < bs
      · simp [hb, bind, Except.bind, pure, Except.pure] at h <;> try (obtain ⟨rfl, rfl⟩ := h; rfl)
      · simp [hb, bind, Except.bind, pure, Except.pure] at h

/-- The data of the program. -/
abbrev dataOf (lb : Lib F) (sys : Sys F) (n nV : ℕ) (tX tY vX vY : NpyArray) : Data F :=
  ⟨n, floats lb.bits sys.trainX tX, floats lb.bits sys.trainY tY, nV, floats lb.bits sys.verifyX vX, floats lb.bits sys.verifyY vY⟩

theorem main_job (lb : Lib F) (fm : Format F) (sys : Sys F) (rnd : Rand) (fuel : ℕ) (recs : List ActRecord) (h : Heap) (rs : RandState F)
    (st : Statics F) (d : Disk) (o : Opts F) {tX tY vX vY : NpyArray} (hl : loadData lb.zip d sys.mem = .ok (tX, tY, vX, vY))
    (hk : dim tX 1 < 2 ^ 31) :
    (main lb fm sys rnd fuel recs h rs st d o).map (fun r => (r.nn, r.d)) =
      (job sys rnd fuel o.learningRate (dim tX 1) (dataOf lb sys (dim tX 0 % 2 ^ 32) (dim vX 0 % 2 ^ 32) tX tY vX vY)).run lb.env
        lb.c lb.zip lb.bits recs h rs st d := by
  have hlr : (checkNesterov o).1.learningRate = o.learningRate := by unfold checkNesterov; split_ifs <;> rfl
  simp only [main, Job.run, job, hl, castInt_eq hk, bind, Except.bind, List.map_cons, List.map_nil, Int.ofNat_eq_natCast, List.length_cons,
    List.length_nil, hlr]
  norm_num
  cases createNN sys.ok sys.dl 3 [(dim tX 1 : ℤ), 61, 28, 1] (some [some "relu", some "relu", some "sigmoid"]) recs h with
  | error e => rfl
  | ok v =>
    obtain ⟨_ | net, recs1, h1⟩ := v
    · rfl
    simp only []
    cases initializeNN rnd fuel recs1 (some [some "kaiming", some "kaiming", some "kaiming"]) (some (net.toNet sys.addr sys.junk)) rs with
    | error e => rfl
    | ok v =>
      obtain ⟨_ | nn, rs1⟩ := v
      · rfl
      have hloss := (C11_sets recs1 nn "binary_crossentropy" .bce (by decide)).1
      simp only [hloss, show getMetricFunc (getLossName (some Loss.bce)) = some Metric.bce by decide,
        show getMetricFunc "categorical_accuracy" = some Metric.categoricalAccuracy by decide]
      cases hn : newAny st (setLoss recs1 nn "binary_crossentropy") true 16 (some [some .bce, some .categoricalAccuracy, none]) sys.vec1
        sys.vec2 (.sgd o.learningRate zero zero false) with
      | error e => rfl
      | ok v =>
        obtain ⟨st1, s1⟩ := v
        simp only [newAny_metrics hn, show metricList [some Metric.bce, some .categoricalAccuracy, none] = .ok metrics from
          metricList_eq metrics []]
        rw [← loop_runEpochs]
        simp only [List.length_cons, List.length_nil]
        cases loop lb.env lb.c rnd.r ((List.range 10).map (call sys (dataOf lb sys (dim tX 0 % 2 ^ 32) (dim vX 0 % 2 ^ 32) tX tY vX vY) 2))
          (st1, s1, rs1.k) with
        | error e => rfl
        | ok v =>
          obtain ⟨rows, st2, s2, q2⟩ := v
          simp only [Except.map]
          cases saveNN lb.zip lb.bits recs1 d (some s2.opt.nn) (some "after-10-epochs.npz") <;> rfl

/-! ### The accuracy of a network with one output -/

/-- The accuracy that `evaluate` computes when every sample counts as right. -/
def allRight (sched : Sched) (n : ℕ) : F := div (add zero (Spec.treeSum (fun _ => one) sched)) (ofNat n)

theorem accuracy_one {p y : View F} (hp : 1 ≤ p.data.length) (hy : 1 ≤ y.data.length) :
    runMetric .categoricalAccuracy 1 p y = .ok (one : F) := by
  simp [runMetric, argmaxLoop_eq 1 _ (le_refl 1) hp, argmaxLoop_eq 1 _ (le_refl 1) hy, bind, Except.bind, pure, Except.pure, argmaxF]

theorem treeSum_congr {v w : ℕ → F} : ∀ (s : Sched), (∀ i ∈ s.iters, v i = w i) → Spec.treeSum v s = Spec.treeSum w s
  | .thread is, h => by
    simp only [Spec.treeSum]
    have : ∀ (l : List ℕ) (a : F), (∀ i ∈ l, v i = w i) → l.foldl (fun s i => add s (v i)) a = l.foldl (fun s i => add s (w i)) a := by
      intro l
      induction l with
      | nil => intro a _; rfl
      | cons i l ih =>
        intro a hl
        rw [List.foldl_cons, List.foldl_cons, hl i (by simp)]
        exact ih _ fun j hj => hl j (by simp [hj])
    exact this is _ (by simpa [Sched.iters] using h)
  | .combine a b, h => by
    simp only [Spec.treeSum]
    rw [treeSum_congr a fun i hi => h i (by simp [Sched.iters, hi]), treeSum_congr b fun i hi => h i (by simp [Sched.iters, hi])]

theorem evaluate_one {env : CustomEnv F} {c : Cfg} {mem : ℕ → ThreadMem F} {sched : Sched} {nn : Net F} {n : ℕ}
    (hs : sched.Covers n) {X Y : View F} {rest : List (Option Metric)} {results : View F} (hw : nn.WF c) (ho : nn.nOutput = 1)
    (hmem : ∀ i, (mem i).workAddr % c.alignSize = 0 ∧ (mem i).predAddr % c.alignSize = 0)
    (hX : n * nn.nInput ≤ X.data.length) (hY : n * nn.nOutput ≤ Y.data.length) (hr : 2 ≤ results.data.length) :
    ∃ x, evaluate env c mem sched nn n X Y (metrics.map some ++ none :: rest) results =
      .ok ⟨results.addr, x :: allRight sched n :: results.data.drop 2⟩ := by
  obtain ⟨preds, val, -, h2, h3, h4⟩ := C68_sum env c mem sched nn n hs X Y metrics rest results hw hmem hX hY hr
  have hv : Spec.treeSum (val .categoricalAccuracy) sched = Spec.treeSum (fun _ => one) sched := by
    refine treeSum_congr sched fun i hi => ?_
    have hin : i < n := by have := (hs.mem_iff).mp hi; simpa using this
    have h5 := h3 .categoricalAccuracy i hin
    have h6 := h2 i hin
    have h7 : (i + 1) * nn.nOutput ≤ n * nn.nOutput := Nat.mul_le_mul_right _ hin
    rw [ho] at h5 h6 h7
    rw [ho] at hY
    rw [accuracy_one h6 (by simp only [View.offset, List.length_drop]; omega)] at h5
    exact (Except.ok.inj h5).symm
  refine ⟨div (add zero (Spec.treeSum (val .bce) sched)) (ofNat n), h4.trans ?_⟩
  simp only [List.map_cons, List.map_nil, hv, List.cons_append, List.nil_append, List.length_cons, List.length_nil]
  rfl

/-- The metrics of an epoch. -/
def Row (sched schedV : Sched) (n nV : ℕ) (old res : List F) : Prop :=
  ∃ x, if 0 < nV then ∃ y, res = [x, allRight sched n, y, allRight schedV nV] else res = x :: allRight sched n :: old.drop 2

theorem call_row {lb : Lib F} {loss : Loss} {nn1 : Net F} {bs : ℕ} {rest : List (Option Metric)} {sys : Sys F} {data : Data F} {i : ℕ}
    (h : (call sys data 2 i).OK lb.c loss nn1 bs metrics) (ho : nn1.nOutput = 1)
    {r : ℕ → ℕ} {q q' : ℕ} {st st' : Statics F} {s s' : AnyOpt F} {res : View F}
    (hrun : (call sys data 2 i).run lb.env lb.c r q st s = .ok (st', s', q', res)) (hR : s'.Ready lb.c nn1 bs)
    (hM : metricsArray st' s'.opt.metrics = metrics.map some ++ none :: rest) :
    Row (sys.epoch i).sched (sys.epoch i).schedV data.n data.nVerify ((List.range 4).map (sys.stack i)) res.data := by
  obtain ⟨k, hk⟩ : ∃ k, k = call sys data 2 i := ⟨_, rfl⟩
  rw [← hk] at h hrun
  obtain ⟨w, hwl, hnn⟩ := hR.nn
  have hwf := (h.train.setParams _ hwl).wf
  rw [← hnn] at hwf
  have hi : s'.opt.nn.nInput = nn1.nInput := by rw [hnn]; exact withParams_nInput nn1.layers _ _ _
  have ho' : s'.opt.nn.nOutput = nn1.nOutput := by rw [hnn]; exact withParams_nOutput nn1.layers _ _ _
  have hrep := C37_after_epoch _ lb.env lb.c _ _ _ _ _ _ _ _ _ _ _ _ _ _ _ _ _ _ _ hrun
  rw [show ((anyKind lb.env lb.c k.mem k.fuel k.n k.X k.Y).opt s') = s'.opt from rfl, hM] at hrep
  have hres : k.results.data = (List.range 4).map (sys.stack i) := by rw [hk]; rfl
  obtain ⟨x, h1⟩ := evaluate_one (env := lb.env) (c := lb.c) (rest := rest) (results := k.results) h.sched hwf (ho'.trans ho) h.evalMem
    (by rw [hi]; exact h.train.xlen) (by rw [ho']; exact h.train.ylen) (by rw [hres]; simp)
  have hv : k.valid = some (data.verifyX, data.verifyY) := by rw [hk]; rfl
  have hn : k.nValid = data.nVerify := by rw [hk]; rfl
  have hs1 : k.sched = (sys.epoch i).sched := by rw [hk]; rfl
  have hs2 : k.schedV = (sys.epoch i).schedV := by rw [hk]; rfl
  have hn1 : k.n = data.n := by rw [hk]; rfl
  refine ⟨x, ?_⟩
  by_cases hp : 0 < data.nVerify
  · rw [if_pos hp]
    have hpk : 0 < k.nValid := by rw [hn]; exact hp
    obtain ⟨v1, v2, v3⟩ := h.valid _ _ hv
    simp only [NN.report, metricList_eq, h1, bind, Except.bind, hv, hpk, if_true] at hrep
    obtain ⟨y, h2⟩ := evaluate_one (env := lb.env) (c := lb.c) (rest := rest)
      (results := (⟨k.results.addr, x :: allRight k.sched k.n :: k.results.data.drop 2⟩ : View F).offset metrics.length) v1 hwf (ho'.trans ho)
      h.evalMemV (by rw [hi]; exact v2) (by rw [ho']; exact v3) (by simp [View.offset, hres])
    rw [h2] at hrep
    simp only [pure, Except.pure, Except.ok.injEq] at hrep
    refine ⟨y, ?_⟩
    rw [← hrep, ← hn, ← hn1, ← hs1, ← hs2]
    simp [putGrad, View.offset, hres]
  · rw [if_neg hp]
    have hpk : ¬ 0 < k.nValid := by rw [hn]; exact hp
    simp only [NN.report, metricList_eq, h1, bind, Except.bind, hv, hpk, if_false] at hrep
    simp only [pure, Except.pure, Except.ok.injEq] at hrep
    rw [← hrep, ← hn1, ← hs1, hres]

/-- The loop, when all calls are valid. -/
theorem loop_ok {lb : Lib F} {loss : Loss} {nn1 : Net F} {bs : ℕ} (hbs : 1 ≤ bs) (rest : List (Option Metric)) {sys : Sys F} {data : Data F}
    (hcall : ∀ i, (call sys data 2 i).OK lb.c loss nn1 bs metrics) (ho : nn1.nOutput = 1) (r : ℕ → ℕ) : ∀ (todo i : ℕ) (st : Statics F)
    (s : AnyOpt F) (q : ℕ), s.Ready lb.c nn1 bs → PivotInv st.nSample s.opt.pivot →
    metricsArray st s.opt.metrics = metrics.map some ++ none :: rest →
    ∃ rows y, loop lb.env lb.c r ((List.range' i todo).map (call sys data 2)) (st, s, q) = .ok (rows, y) ∧ rows.length = todo ∧
      ∀ (j : ℕ) res, rows[j]? = some res → Row (sys.epoch (i + j)).sched (sys.epoch (i + j)).schedV data.n data.nVerify
        ((List.range 4).map (sys.stack (i + j))) res
  | 0, _, st, s, q, _, _, _ => ⟨[], (st, s, q), rfl, rfl, by simp⟩
  | todo + 1, i, st, s, q, hR, hP, hM => by
    obtain ⟨st1, s1, q1, res, hrun, hR1, hP1, hM1⟩ : ∃ st1 s1 q1 res, (call sys data 2 i).run lb.env lb.c r q st s =
        .ok (st1, s1, q1, res) ∧ s1.Ready lb.c nn1 bs ∧ PivotInv st1.nSample s1.opt.pivot ∧
        metricsArray st1 s1.opt.metrics = metrics.map some ++ none :: rest := by
      obtain ⟨st1, s1, q1, train, val, hrun, -, -, k⟩ := epochCall_ok lb.env lb.c loss nn1 bs hbs metrics rest
        (call sys data 2 i) (hcall i) r q st s hR hP hM
      exact ⟨_, _, _, _, hrun, k⟩
    have hrow := call_row (hcall i) ho hrun hR1 hM1
    obtain ⟨rows, y, g1, g2, g3⟩ := loop_ok hbs rest hcall ho r todo (i + 1) st1 s1 q1 hR1 hP1 hM1
    refine ⟨res.data :: rows, y, ?_, by rw [List.length_cons, g2], ?_⟩
    · rw [List.range'_succ, List.map_cons, loop, hrun]
      simp only [bind, Except.bind, g1]
      rfl
    · intro j res hj
      cases j with
      | zero =>
        simp only [List.getElem?_cons_zero, Option.some.injEq] at hj
        rw [← hj]
        exact hrow
      | succ j =>
        have := g3 j res (by simpa using hj)
        rwa [show i + 1 + j = i + (j + 1) by omega] at this

/-- In binary32 the accuracy is exactly 1, up to 2^24 samples. -/
theorem allRight_float (L : B32.Libm) {sched : Sched} {n : ℕ} (hs : sched.Covers n) (hn : 1 ≤ n) (hn24 : n ≤ 2 ^ 24) :
    B32.Is (@allRight B32 (B32.ops L) sched n) 1 := by
  let _ := B32.ops L
  have hsum : (sched.iters.map fun _ => 1).sum = n := by
    rw [covers_sum hs]; simp
  have h1 := treeSum_nat L (v := fun _ => B32.ofReal false 1) (r := fun _ => 1) sched (fun _ _ => by simpa using B32.is_one) (by omega)
  have h2 := add_nat (a := B32.zeroS false) (x := 0) (by simpa using B32.is_zeroS false) h1 (by omega)
  rw [Nat.zero_add, hsum] at h2
  have hnr : (0 : ℝ) < n := by exact_mod_cast hn
  have hofN : B32.Is (B32.ofReal false (n : ℝ)) (n : ℝ) := by
    have := B32.is_ofReal (s := false) (x := (n : ℝ)) (by
      rw [abs_of_nonneg hnr.le]; unfold B32.maxF32
      have : (n : ℝ) ≤ 2 ^ 24 := by exact_mod_cast hn24
      exact this.trans (by norm_num))
    rwa [B32.rnd_natCast hn24] at this
  have := B32.div_is h2 hofN hnr.ne' (by
    rw [div_self hnr.ne', abs_one]; unfold B32.maxF32
    norm_num)
  rw [div_self hnr.ne', show (1 : ℝ) = ((1 : ℕ) : ℝ) by simp, B32.rnd_natCast (by norm_num), Nat.cast_one] at this
  exact this

end NN.TestSgd
