import Verif.Model.Examples
import Verif.Proofs.OptEpoch
import Verif.Proofs.B32Zero
/-
The hand-written training loop of examples/example_01.c and an epoch of SGD with batches of one sample.
-/
namespace NN
open FloatOps

/-- What is needed of the arithmetic for numbers with `P`: adding zero and dividing by one change nothing, and a step does not see
the difference between `0 + x` and `x`. -/
structure ZeroLaws {F : Type} [FloatOps F] (P : F → Prop) : Prop where
  zero : P zero
  add : ∀ {x} y, P x → P (add x y)
  zero_add : ∀ {x}, P x → FloatOps.add FloatOps.zero x = x
  add_zero : ∀ {x}, P x → FloatOps.add x FloatOps.zero = x
  div_one : ∀ {x}, P x → div x (ofNat 1) = x
  step : ∀ {w} x s, P w → FloatOps.add w (mul (FloatOps.add FloatOps.zero x) s) = FloatOps.add w (mul x s)

/-- Real numbers. -/
theorem zeroLaws_real : ZeroLaws (F := ℝ) (fun _ => True) := by
  constructor <;> simp

/-- Floats that are neither the negative zero nor an unusual NaN. -/
theorem zeroLaws_b32 (L : B32.Libm) : @ZeroLaws B32 (B32.ops L) B32.Plain := by
  let _ := B32.ops L
  refine ⟨B32.plain_zero, fun y h => B32.plain_add h y, fun h => B32.zero_add' h, fun h => B32.add_zeroS h false, fun h => ?_,
    fun x s h => B32.step_zero h x s⟩
  have e : (ofNat 1 : B32) = B32.ofReal false 1 := by
    show B32.ofReal false ((1 : ℕ) : ℝ) = _
    rw [Nat.cast_one]
  rw [e]
  exact B32.div_one' h

section
variable {F : Type} [FloatOps F]

/-! ### The batch gradient of one sample -/

theorem sumF_nil {P : F → Prop} (laws : ZeroLaws P) (k pad : Nat) (v : Nat → List F) : ∀ s : Sched, s.iters = [] →
    s.sumF k pad v = List.replicate pad zero
  | .thread is, h => by
    have : is = [] := h
    subst this; rfl
  | .combine a b, h => by
    simp only [Sched.iters, List.append_eq_nil_iff] at h
    rw [Sched.sumF, sumF_nil laws k pad v a h.1, sumF_nil laws k pad v b h.2, List.zipWith_replicate, Nat.min_self,
      laws.zero_add laws.zero]

omit [FloatOps F] in
theorem zipWith_replicate_left (f : F → F → F) (z : F) (l : List F) (n : Nat) (h : l.length = n) :
    List.zipWith f (List.replicate n z) l = l.map (f z) := by
  subst h
  induction l with
  | nil => rfl
  | cons x l ih => simp [List.replicate_succ, ih]

omit [FloatOps F] in
theorem zipWith_replicate_right (f : F → F → F) (z : F) (l : List F) (n : Nat) (h : l.length = n) :
    List.zipWith f l (List.replicate n z) = l.map (f · z) := by
  subst h
  induction l with
  | nil => rfl
  | cons x l ih => simp [List.replicate_succ, ih]

omit [FloatOps F] in
theorem map_eq_self {l : List F} {f : F → F} (h : ∀ x ∈ l, f x = x) : l.map f = l := by
  conv_rhs => rw [← List.map_id l]
  exact List.map_congr_left h

theorem sumF_one {P : F → Prop} (laws : ZeroLaws P) (k pad : Nat) (v : Nat → List F) (hv : (v 0).length = k) (hk : k ≤ pad) :
    ∀ s : Sched, s.iters = [0] → s.sumF k pad v = (v 0).map (add zero) ++ List.replicate (pad - k) zero
  | .thread is, h => by
    have : is = [0] := h
    subst this
    simp only [Sched.sumF, List.foldl_cons, List.foldl_nil, List.take_replicate, List.drop_replicate, Nat.min_eq_left hk]
    rw [zipWith_replicate_left _ _ _ _ hv]
  | .combine a b, h => by
    have hP : ∀ x ∈ (v 0).map (add zero) ++ List.replicate (pad - k) zero, P x := by
      intro x hx
      simp only [List.mem_append, List.mem_map, List.mem_replicate] at hx
      rcases hx with ⟨y, _, rfl⟩ | ⟨_, rfl⟩
      · exact laws.add y laws.zero
      · exact laws.zero
    have hl : ((v 0).map (add zero) ++ List.replicate (pad - k) (zero : F)).length = pad := by simp; omega
    simp only [Sched.iters, List.append_eq_singleton_iff] at h
    rcases h with ⟨ha, hb⟩ | ⟨ha, hb⟩
    · rw [Sched.sumF, sumF_nil laws k pad v a ha, sumF_one laws k pad v hv hk b hb, zipWith_replicate_left _ _ _ _ hl]
      exact map_eq_self fun x hx => laws.zero_add (hP x hx)
    · rw [Sched.sumF, sumF_nil laws k pad v b hb, sumF_one laws k pad v hv hk a ha, zipWith_replicate_right _ _ _ _ hl]
      exact map_eq_self fun x hx => laws.add_zero (hP x hx)

/-- The batch gradient of one sample: zero plus its gradient. -/
theorem batchGradF_one {P : F → Prop} (laws : ZeroLaws P) (env : CustomEnv F) (c : Cfg) (sched : Sched) (hs : sched.Covers 1)
    (loss : Loss) (n : Nat) (X Y : View F) (nn : Net F) (h : Trainable c loss n X Y nn) (i : Nat) (hi : i < n) :
    batchGradF env c sched loss X Y nn (List.range n) i 1 = (sampleGrad env c loss X Y nn i).map (add zero) := by
  have hit : sched.iters = [0] := List.perm_singleton.mp hs
  have hg : (List.range n).getD (i + 0) 0 = i := by simp [hi]
  have hl := sampleGrad_length env c loss n X Y nn h i hi
  have hk := le_padding c (nParams nn.layers)
  simp only [batchGradF]
  rw [sumF_one laws _ _ _ (by rw [hg]; exact hl) hk sched hit, hg, List.take_left' (by simp [hl]),
    zipWith_replicate_left _ _ _ _ (by simp [hl]), List.map_map, List.map_map]
  apply List.map_congr_left
  intro x _
  have hP : P (add zero x) := laws.add x laws.zero
  simp only [Function.comp_apply]
  rw [laws.zero_add hP, laws.div_one hP]

/-- Without momentum the step of SGD sees only the gradient. -/
theorem sgd_step_one {P : F → Prop} (laws : ZeroLaws P) (m lr : F) (hm : lt zero m = false) (nesterov : Bool) (G : List F → List F)
    (g w v : List F) (hg : G w = g.map (add zero)) (hw : ∀ x ∈ w, P x) :
    (sgdF m nesterov lr G w v).1 = List.zipWith add w (g.map fun x => mul x (neg lr)) := by
  simp only [sgdF, hm, Bool.false_and, Bool.false_eq_true, if_false, hg, List.map_map]
  apply List.ext_getElem?
  intro j
  simp only [List.getElem?_zipWith, List.getElem?_map]
  rcases hj : w[j]? with _ | x
  · rfl
  · rcases g[j]? with _ | y
    · rfl
    · simp only [Option.map_some, Function.comp_apply]
      rw [laws.step y (neg lr) (hw x (List.mem_of_getElem? hj))]

namespace Examples

theorem scaleGrad_eq (k : Nat) (lr : F) (addr : Nat) (g : List F) (hg : g.length = k) :
    scaleGrad k lr ⟨addr, g⟩ = .ok ⟨addr, g.map fun x => mul x (neg lr)⟩ := by
  have h := mapLoop_eq (fun x => mul x (neg lr)) k ⟨addr, g⟩ (by simp [hg])
  rw [applyTo_map _ _ _ (by simp [hg])] at h
  have e : List.take k g = g := by rw [← hg]; exact List.take_length
  have e' : List.drop k g = [] := by rw [← hg]; exact List.drop_length
  rw [e, e', List.append_nil] at h
  exact h

/-- Parameters after `i` samples. -/
def paramsAfter (env : CustomEnv F) (c : Cfg) (loss : Loss) (lr : F) (X Y : View F) (nn : Net F) : Nat → List F
  | 0 => params nn.layers
  | i + 1 =>
    let w := paramsAfter env c loss lr X Y nn i
    List.zipWith add w ((sampleGrad env c loss X Y (nn.setParams w) i).map fun x => mul x (neg lr))

theorem paramsAfter_length (env : CustomEnv F) (c : Cfg) (loss : Loss) (lr : F) (n : Nat) (X Y : View F) (nn : Net F)
    (h : Trainable c loss n X Y nn) : ∀ i, i ≤ n → (paramsAfter env c loss lr X Y nn i).length = nParams nn.layers
  | 0, _ => params_length c _ h.wf.layer
  | i + 1, hi => by
    have hw := paramsAfter_length env c loss lr n X Y nn h i (by omega)
    have := sampleGrad_length env c loss n X Y _ (h.setParams _ hw) i (by omega)
    simp only [paramsAfter, List.length_zipWith, List.length_map, this, hw, setParams_nParams, Nat.min_self]

theorem paramsAfter_plain {P : F → Prop} (laws : ZeroLaws P) (env : CustomEnv F) (c : Cfg) (loss : Loss) (lr : F)
    (X Y : View F) (nn : Net F) (hP : ∀ x ∈ params nn.layers, P x) : ∀ i, ∀ x ∈ paramsAfter env c loss lr X Y nn i, P x
  | 0 => hP
  | i + 1 => by
    intro x hx
    simp only [paramsAfter] at hx
    obtain ⟨j, hj⟩ := List.getElem?_of_mem hx
    rw [List.getElem?_zipWith] at hj
    rcases hw : (paramsAfter env c loss lr X Y nn i)[j]? with _ | a
    · simp [hw] at hj
    · rw [hw] at hj
      rcases hg : ((sampleGrad env c loss X Y (nn.setParams (paramsAfter env c loss lr X Y nn i)) i).map
          fun x => mul x (neg lr))[j]? with _ | b
      · simp [hg] at hj
      · rw [hg] at hj
        simp only [Option.some.injEq] at hj
        rw [← hj]
        exact laws.add b (paramsAfter_plain laws env c loss lr X Y nn hP i a (List.mem_of_getElem? hw))

theorem train_eq (env : CustomEnv F) (c : Cfg) (workAddr : Nat → Nat) (junk : Nat → Nat → F) (gradAddr : Nat) (gradJunk : Nat → F)
    (lr : F) (loss : Loss) (n : Nat) (X Y : View F) (nn : Net F) (h : Trainable c loss n X Y nn) (h1 : nn.nOutput = 1)
    (hwa : ∀ i, workAddr i % c.alignSize = 0) (hga : gradAddr % c.alignSize = 0) :
    train env c workAddr junk gradAddr gradJunk lr n nn.nInput X Y nn =
      .ok (nn.setParams (paramsAfter env c loss lr X Y nn n)) := by
  let W := paramsAfter env c loss lr X Y nn
  let G : Nat → List F
    | 0 => (stackArray gradAddr (nParams nn.layers) gradJunk).data
    | i + 1 => (sampleGrad env c loss X Y (nn.setParams (W i)) i).map fun x => mul x (neg lr)
  have hG : ∀ i, i ≤ n → (G i).length = nParams nn.layers := by
    intro i hi
    cases i with
    | zero => exact stackArray_length' _ _ _
    | succ i =>
      have := sampleGrad_length env c loss n X Y _
        (h.setParams _ (paramsAfter_length env c loss lr n X Y nn h i (by omega))) i (by omega)
      simp only [G, List.length_map, W, this, setParams_nParams]
  have hf := forN_eq (n := n) (body := trainStep env c workAddr junk (nParams nn.layers) nn.nInput lr X Y)
    (fun i => (nn.setParams (W i), (⟨gradAddr, G i⟩ : View F))) (by
    intro i hi
    have hw := paramsAfter_length env c loss lr n X Y nn h i (by omega)
    have h' := h.setParams (W i) hw
    have hin : (nn.setParams (W i)).nInput = nn.nInput := withParams_nInput nn.layers _ _ _
    have hout : (nn.setParams (W i)).nOutput = nn.nOutput := withParams_nOutput nn.layers _ _ _
    have e1 : (i + 1) * nn.nInput ≤ n * nn.nInput := Nat.mul_le_mul_right _ hi
    rw [Nat.succ_mul] at e1
    have hx := h.xlen
    have hy := h.ylen
    rw [h1, Nat.mul_one] at hy
    have hgl := sampleGrad_length env c loss n X Y _ h' i hi
    rw [setParams_nParams] at hgl
    simp only [trainStep]
    rw [backpropagation_eq env c (workAddr i) (junk i) _ _ _ _ loss h'.wf (hwa i) hga h'.loss_eq h'.deriv
      (by rw [hin]; simp [View.offset]; omega) (by rw [hout, h1]; simp [View.offset]; omega)
      (by rw [setParams_nParams, hG i (by omega)]) (h'.aligned _ hga)]
    have e : gradF env c (nn.setParams (W i)) loss ((X.offset (i * nn.nInput)).data.take (nn.setParams (W i)).nInput)
        ((Y.offset i).data.take (nn.setParams (W i)).nOutput) = sampleGrad env c loss X Y (nn.setParams (W i)) i := by
      simp only [sampleGrad, hin, hout, h1, Nat.mul_one]
      rfl
    have ed : List.drop (nParams (nn.setParams (W i)).layers) (G i) = [] :=
      List.drop_of_length_le (by rw [setParams_nParams, hG i (by omega)])
    simp only [bind, Except.bind, e, ed, List.append_nil]
    rw [scaleGrad_eq _ _ _ _ hgl]
    simp only
    have hu := update_app c nn gradAddr (W i) ((sampleGrad env c loss X Y (nn.setParams (W i)) i).map fun x => mul x (neg lr)) []
      h.wf hw (by simp [hgl])
    rw [List.append_nil] at hu
    rw [hu]
    rfl)
  have h0 : (nn, stackArray gradAddr (nParams nn.layers) gradJunk) =
      (nn.setParams (W 0), (⟨gradAddr, G 0⟩ : View F)) := by
    have : nn.setParams (W 0) = nn := setParams_self c nn h.wf
    rw [this]; rfl
  simp only [train, h0, hf, bind, Except.bind, pure, Except.pure]
  rfl

theorem sgd_eq {P : F → Prop} (laws : ZeroLaws P) (env : CustomEnv F) (c : Cfg) (mem : Nat → BatchMem F) (loss : Loss)
    (n : Nat) (X Y : View F) (nn : Net F) (h : Trainable c loss n X Y nn) (hP : ∀ x ∈ params nn.layers, P x)
    (hm : ∀ i < n, (mem i).OK c (nParams nn.layers) 1) (s : Sgd F) (hbs : s.opt.batchsize = 1) (hnn : s.opt.nn = nn)
    (hpv : s.opt.pivot = some (List.range n)) (v : List F) (hv : WorkVec c (nParams nn.layers) s.velocity v)
    (hmo : lt zero s.momentum = false) (hdec : lt zero s.decay = false) (fuel : Nat) (hf : n ≤ fuel) :
    ∃ s', sgdEpoch env c mem fuel n X Y s = .ok s' ∧
      s'.opt.nn = nn.setParams (paramsAfter env c loss s.lr X Y nn n) := by
  let W := paramsAfter env c loss s.lr X Y nn
  have hbl : ∀ i < n, batchLen n 1 i = 1 := by intro i hi; unfold batchLen; split <;> omega
  have key := trainLoop_fold n 1 le_rfl (sgdStep env c mem n X Y) (List.range n) (by simp)
    (fun (j : Nat) (_ : List Nat) => j + 1)
    (fun j s' t => t = j ∧ OptAt c loss n X Y nn (List.range n) s'.opt (W j) ∧ (∃ v, WorkVec c (nParams nn.layers) s'.velocity v) ∧
      s'.momentum = s.momentum ∧ s'.decay = s.decay ∧ s'.lr = s.lr ∧ s'.opt.batchsize = 1) (by
    rintro j s' t hj ⟨rfl, ho, ⟨v, hv⟩, h1, h2, h3, h4⟩
    rw [Nat.mul_one] at hj ⊢
    obtain ⟨s2, e, r1, r2, r3, -, r5, -, r7, r8⟩ := sgdStep_eq env c mem loss n X Y nn t s' (List.range n) (W t) v ho hv
      (by rw [h4, hbl t hj]; exact hm t hj)
    rw [h4] at e
    have hlr : decayLr s'.lr s'.decay s'.nIter = s.lr := by simp [decayLr, h2, hdec, h3]
    refine ⟨s2, e, rfl, ?_, ⟨_, r2⟩, r5.trans h1, r7.trans h2, r3.trans hlr, r8.trans h4⟩
    rw [h1, hlr, h4, hbl t hj] at r1
    rw [sgd_step_one laws s.momentum s.lr hmo s'.nesterov _ (sampleGrad env c loss X Y (nn.setParams (W t)) t) (W t) v
      (batchGradF_one laws env c (mem t).sched (hm t hj).covers loss n X Y _ (h.setParams _ ho.wlen) t hj)
      (paramsAfter_plain laws env c loss s.lr X Y nn hP t)] at r1
    exact r1) s 0
    ⟨rfl, ⟨h, by rw [hnn]; exact (setParams_self c nn h.wf).symm, params_length c _ h.wf.layer, by simp,
      fun p hp => List.mem_range.mp hp, hpv⟩, ⟨v, hv⟩, rfl, rfl, rfl, hbs⟩
  obtain ⟨s', e, -, r, -⟩ := key.1 fuel (by simpa using hf)
  refine ⟨s', e, ?_⟩
  simpa using r.nn

end Examples
end
end NN
