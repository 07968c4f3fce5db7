import Verif.Model.Optimizer
import Verif.Proofs.Schedule
import Verif.Proofs.Backprop
import Verif.Proofs.Params
import Verif.Spec.Optimizer
/-
The batch gradient and the training loop as list functions.
-/
set_option linter.unusedSimpArgs false
set_option linter.unusedSectionVars false

namespace NN
open FloatOps
variable {F : Type}

/-! ### What a network keeps when its parameters change -/

theorem withParams_nInput (ls : List (Layer F)) (p : List F) (loss loss' : Option Loss) :
    (⟨withParams ls p, loss⟩ : Net F).nInput = (⟨ls, loss'⟩ : Net F).nInput := by
  cases ls <;> rfl

theorem withParams_getLast? (ls : List (Layer F)) (p : List F) :
    ((withParams ls p).getLast?).map Layer.nOut = (ls.getLast?).map Layer.nOut := by
  induction ls generalizing p with
  | nil => rfl
  | cons l ls ih =>
    rcases ls with _ | ⟨l', ls⟩
    · rfl
    · have := ih (p.drop (l.nOut + l.nIn * l.nOut))
      simp only [withParams, List.getLast?_cons_cons] at this ⊢
      exact this

theorem nOutput_of (ls : List (Layer F)) (loss : Option Loss) :
    (⟨ls, loss⟩ : Net F).nOutput = ((ls.getLast?).map Layer.nOut).getD 0 := by
  simp only [Net.nOutput]
  cases ls.getLast? <;> rfl

theorem withParams_nOutput (ls : List (Layer F)) (p : List F) (loss loss' : Option Loss) :
    (⟨withParams ls p, loss⟩ : Net F).nOutput = (⟨ls, loss'⟩ : Net F).nOutput := by
  rw [nOutput_of, nOutput_of, withParams_getLast?]

theorem withParams_deriv (ls : List (Layer F)) (p : List F) (h : ∀ l ∈ ls, l.deriv ≠ none) :
    ∀ l ∈ withParams ls p, l.deriv ≠ none := by
  induction ls generalizing p with
  | nil => simp [withParams]
  | cons l ls ih =>
    intro m hm
    simp only [withParams, List.mem_cons] at hm
    rcases hm with rfl | hm
    · exact h l (by simp)
    · exact ih _ (fun m hm => h m (by simp [hm])) m hm

theorem withParams_backAligned (c : Cfg) (ga gb : Nat) (ls : List (Layer F)) (p : List F)
    (h : BackAligned c ga gb ls) : BackAligned c ga gb (withParams ls p) := by
  induction ls generalizing gb p with
  | nil => trivial
  | cons l ls ih =>
    rcases ls with _ | ⟨l', ls⟩
    · exact h
    · exact ⟨h.1, h.2.1, ih _ _ h.2.2⟩

/-! ### The hypotheses of training -/

/-- What a call of an epoch function needs: a well-formed network with loss and derivatives, whose layer
sizes cause no misaligned access in backpropagation (see C09), and data for `n` samples. -/
structure Trainable (c : Cfg) (loss : Loss) (n : Nat) (X Y : View F) (nn : Net F) : Prop where
  wf : nn.WF c
  loss_eq : nn.loss = some loss
  deriv : ∀ l ∈ nn.layers, l.deriv ≠ none
  aligned : ∀ ga, ga % c.alignSize = 0 → BackAligned c ga 0 nn.layers
  nlt : n < 2 ^ 31
  xlen : n * nn.nInput ≤ X.data.length
  ylen : n * nn.nOutput ≤ Y.data.length
  xfit : n * nn.nInput ≤ 2 ^ 32
  yfit : n * nn.nOutput ≤ 2 ^ 32

/-- The environment of a batch with `batch` samples for a network with `k` parameters. -/
structure BatchMem.OK (c : Cfg) (k batch : Nat) (mem : BatchMem F) : Prop where
  covers : mem.sched.Covers batch
  work : ∀ b, (mem.thread b).workAddr % c.alignSize = 0
  grad : ∀ b, (mem.thread b).gradAddr % c.alignSize = 0
  buf : mem.gradAddr % c.alignSize = 0
  tmp : mem.tmpAddr % c.alignSize = 0
  room : nParamPadding c k ≤ k + mem.slack

/-- The network with other parameters. -/
def Net.setParams (nn : Net F) (w : List F) : Net F := ⟨withParams nn.layers w, nn.loss⟩

theorem Trainable.setParams {c : Cfg} {loss : Loss} {n : Nat} {X Y : View F} {nn : Net F}
    (h : Trainable c loss n X Y nn) (w : List F) (hw : w.length = nParams nn.layers) :
    Trainable c loss n X Y (nn.setParams w) := by
  have hi : (nn.setParams w).nInput = nn.nInput := withParams_nInput nn.layers w _ _
  have ho : (nn.setParams w).nOutput = nn.nOutput := withParams_nOutput nn.layers w _ _
  refine ⟨⟨?_, withParams_wf c _ _ hw h.wf.layer, withParams_chained _ _ h.wf.chain⟩, h.loss_eq,
    withParams_deriv _ _ h.deriv, fun ga hga => withParams_backAligned c ga 0 _ _ (h.aligned ga hga),
    h.nlt, by rw [hi]; exact h.xlen, by rw [ho]; exact h.ylen, by rw [hi]; exact h.xfit,
    by rw [ho]; exact h.yfit⟩
  have := h.wf.ne
  simp only [Net.setParams]
  cases hl : nn.layers with
  | nil => exact absurd hl this
  | cons a b => simp [withParams]

theorem setParams_nParams (nn : Net F) (w : List F) : nParams (nn.setParams w).layers = nParams nn.layers :=
  nParams_withParams _ _

theorem setParams_setParams (nn : Net F) (w w' : List F) : (nn.setParams w).setParams w' = nn.setParams w' := by
  simp [Net.setParams, withParams_withParams]

theorem setParams_params (nn : Net F) (w : List F) (hw : w.length = nParams nn.layers) :
    params (nn.setParams w).layers = w := params_withParams _ _ hw

theorem setParams_self (c : Cfg) (nn : Net F) (h : nn.WF c) : nn.setParams (params nn.layers) = nn := by
  simp [Net.setParams, withParams_params c nn.layers h.layer]

section
variable [FloatOps F]

theorem update_setParams (c : Cfg) (nn : Net F) (w : List F) (delta : View F) (h : nn.WF c)
    (hw : w.length = nParams nn.layers) (hd : nParams nn.layers ≤ delta.data.length) :
    update c (nn.setParams w) delta = .ok (nn.setParams (List.zipWith add w delta.data)) := by
  rw [update_eq c _ delta (withParams_wf c _ _ hw h.layer) (by rw [setParams_nParams]; exact hd),
    setParams_params nn w hw]
  simp [Net.setParams, withParams_withParams]

/-! ### The batch gradient -/

/-- Gradient of sample `p`. -/
def sampleGrad (env : CustomEnv F) (c : Cfg) (loss : Loss) (X Y : View F) (nn : Net F) (p : Nat) : List F :=
  gradF env c nn loss (slice X.data (p * nn.nInput) nn.nInput) (slice Y.data (p * nn.nOutput) nn.nOutput)

/-- The private copies combined. -/
def Sched.sumF (k pad : Nat) (v : Nat → List F) : Sched → List F
  | .thread is => is.foldl (fun acc b => List.zipWith add (acc.take k) (v b) ++ acc.drop k)
      (List.replicate pad zero)
  | .combine a b => List.zipWith add (a.sumF k pad v) (b.sumF k pad v)

/-- The batch gradient computed with schedule `sched`. -/
def batchGradF (env : CustomEnv F) (c : Cfg) (sched : Sched) (loss : Loss) (X Y : View F) (nn : Net F)
    (pivot : List Nat) (i batch : Nat) : List F :=
  let k := nParams nn.layers
  (List.zipWith add (List.replicate k zero)
    ((sched.sumF k (nParamPadding c k) (fun b => sampleGrad env c loss X Y nn (pivot.getD (i + b) 0))).take k)).map
    fun x => div x (ofNat batch)

theorem le_padding (c : Cfg) (k : Nat) : k ≤ nParamPadding c k := by
  unfold nParamPadding; split <;> omega

theorem stackArray_length' (addr n : Nat) (junk : Nat → F) : (stackArray addr n junk).data.length = n := by
  simp [stackArray]

theorem sampleGrad_length (env : CustomEnv F) (c : Cfg) (loss : Loss) (n : Nat) (X Y : View F) (nn : Net F)
    (h : Trainable c loss n X Y nn) (p : Nat) (hp : p < n) :
    (sampleGrad env c loss X Y nn p).length = nParams nn.layers := by
  apply gradF_length env c nn loss _ _ h.wf
  have h2 : (p + 1) * nn.nOutput ≤ n * nn.nOutput := Nat.mul_le_mul_right _ hp
  have h3 := h.ylen
  rw [Nat.succ_mul] at h2
  simp [slice]; omega

theorem nInput_pos {c : Cfg} {nn : Net F} (h : nn.WF c) : 1 ≤ nn.nInput := by
  have := h.ne
  rcases hl : nn.layers with _ | ⟨l, ls⟩
  · exact absurd hl this
  · have := (h.layer l (by simp [hl])).in_pos
    simp [Net.nInput, hl]; omega

theorem nOutput_pos {c : Cfg} {nn : Net F} (h : nn.WF c) : 1 ≤ nn.nOutput := by
  obtain ⟨last, hlast, hno, hwl⟩ := exists_last h
  rw [hno]; exact hwl.out_pos

theorem batchBody_eq (env : CustomEnv F) (c : Cfg) (mem : BatchMem F) (loss : Loss) (n : Nat) (X Y : View F)
    (nn : Net F) (h : Trainable c loss n X Y nn) (k batch : Nat) (hm : mem.OK c k batch)
    (pivot : List Nat) (i b : Nat) (acc : List F)
    (hib : i + b < pivot.length) (hpiv : ∀ p ∈ pivot, p < n) (hacc : nParams nn.layers ≤ acc.length) :
    batchBody env c mem.thread nn (some pivot) X Y i b acc =
      .ok (List.zipWith add (acc.take (nParams nn.layers))
        (sampleGrad env c loss X Y nn (pivot.getD (i + b) 0)) ++ acc.drop (nParams nn.layers)) := by
  have hp : pivot.getD (i + b) 0 < n := by
    rw [List.getD_eq_getElem?_getD, List.getElem?_eq_getElem hib]
    exact hpiv _ (List.getElem_mem hib)
  have hpe : pivot[i + b]? = some (pivot.getD (i + b) 0) := by
    rw [List.getD_eq_getElem?_getD, List.getElem?_eq_getElem hib]; rfl
  generalize pivot.getD (i + b) 0 = p at hp hpe
  have hi := nInput_pos h.wf
  have ho := nOutput_pos h.wf
  have e1 : (p + 1) * nn.nInput ≤ n * nn.nInput := Nat.mul_le_mul_right _ hp
  have e2 : (p + 1) * nn.nOutput ≤ n * nn.nOutput := Nat.mul_le_mul_right _ hp
  rw [Nat.succ_mul] at e1 e2
  have h1 := h.xlen
  have h2 := h.ylen
  have h3 := h.xfit
  have h4 := h.yfit
  have hgl := sampleGrad_length env c loss n X Y nn h p hp
  simp only [batchBody, readPivot, hpe, bind, Except.bind]
  rw [Nat.mod_eq_of_lt (by omega), Nat.mod_eq_of_lt (by omega)]
  rw [backpropagation_eq env c _ _ nn _ _ _ loss h.wf (hm.work b) (hm.grad b) h.loss_eq h.deriv
    (by simp [View.offset]; omega) (by simp [View.offset]; omega)
    (by rw [stackArray_length']) (h.aligned _ (hm.grad b))]
  simp only
  have e3 : gradF env c nn loss ((X.offset (p * nn.nInput)).data.take nn.nInput)
      ((Y.offset (p * nn.nOutput)).data.take nn.nOutput) = sampleGrad env c loss X Y nn p := rfl
  rw [e3]
  rw [vectorAccumulateUnaligned_eq c _ _ _ hacc (by simp [hgl]), applyTo_zip _ _ _ _ (by simp [hgl]) hacc]
  simp only [pure, Except.pure]
  rw [List.take_left' hgl]

theorem sumF_length (k pad : Nat) (v : Nat → List F) (P : Nat → Prop) (hv : ∀ b, P b → (v b).length = k)
    (hk : k ≤ pad) : ∀ s : Sched, (∀ b ∈ s.iters, P b) → (s.sumF k pad v).length = pad
  | .thread is, hs => by
    simp only [Sched.sumF]
    have : ∀ (is : List Nat) (acc : List F), (∀ b ∈ is, P b) → acc.length = pad →
        (is.foldl (fun acc b => List.zipWith add (acc.take k) (v b) ++ acc.drop k) acc).length = pad := by
      intro is
      induction is with
      | nil => intro acc _ h; exact h
      | cons b is ih =>
        intro acc hs h
        rw [List.foldl_cons]
        have := hv b (hs b (by simp))
        exact ih _ (fun b' hb => hs b' (by simp [hb])) (by simp; omega)
    exact this is _ hs (by simp)
  | .combine a b, hs => by
    simp only [Sched.sumF, List.length_zipWith,
      sumF_length k pad v P hv hk a (fun i hi => hs i (by simp [Sched.iters, hi])),
      sumF_length k pad v P hv hk b (fun i hi => hs i (by simp [Sched.iters, hi]))]
    simp

theorem reduce_sumF (k pad : Nat) (v : Nat → List F) (P : Nat → Prop) (body : Nat → List F → M (List F))
    (hv : ∀ b, P b → (v b).length = k) (hk : k ≤ pad)
    (hb : ∀ b acc, P b → acc.length = pad →
      body b acc = .ok (List.zipWith add (acc.take k) (v b) ++ acc.drop k)) :
    ∀ s : Sched, (∀ b ∈ s.iters, P b) →
      s.reduce (List.replicate pad zero) body (List.zipWith add) = .ok (s.sumF k pad v)
  | .thread is, hs => by
    simp only [Sched.reduce, Sched.sumF]
    have : ∀ (is : List Nat) (acc : List F), (∀ b ∈ is, P b) → acc.length = pad →
        is.foldlM (fun s i => body i s) acc =
          .ok (is.foldl (fun acc b => List.zipWith add (acc.take k) (v b) ++ acc.drop k) acc) := by
      intro is
      induction is with
      | nil => intro acc _ _; rfl
      | cons b is ih =>
        intro acc hs h
        rw [List.foldlM_cons, List.foldl_cons, hb b acc (hs b (by simp)) h]
        have := hv b (hs b (by simp))
        exact ih _ (fun b' hb => hs b' (by simp [hb])) (by simp; omega)
    exact this is _ hs (by simp)
  | .combine a b, hs => by
    simp only [Sched.reduce, Sched.sumF,
      reduce_sumF k pad v P body hv hk hb a (fun i hi => hs i (by simp [Sched.iters, hi])),
      reduce_sumF k pad v P body hv hk hb b (fun i hi => hs i (by simp [Sched.iters, hi])),
      bind, Except.bind, pure, Except.pure]

theorem batchLen_le (n bs i : Nat) : batchLen n bs i ≤ n - i := by unfold batchLen; split <;> omega

theorem batchLen_pos (n bs i : Nat) (h : i < n) (hb : 1 ≤ bs) : 1 ≤ batchLen n bs i := by
  unfold batchLen; split <;> omega

theorem batchGradF_length (env : CustomEnv F) (c : Cfg) (mem : BatchMem F) (loss : Loss) (n : Nat)
    (X Y : View F) (nn : Net F) (h : Trainable c loss n X Y nn) (bs i : Nat)
    (hm : mem.OK c (nParams nn.layers) (batchLen n bs i)) (pivot : List Nat) (hlen : pivot.length = n)
    (hpiv : ∀ p ∈ pivot, p < n) (batch : Nat) :
    (batchGradF env c mem.sched loss X Y nn pivot i batch).length = nParams nn.layers := by
  have hit : ∀ b ∈ mem.sched.iters, i + b < n := by
    intro b hb
    have := List.mem_range.mp (hm.covers.mem_iff.mp hb)
    have := batchLen_le n bs i
    omega
  have := sumF_length (nParams nn.layers) (nParamPadding c (nParams nn.layers))
    (fun b => sampleGrad env c loss X Y nn (pivot.getD (i + b) 0)) (fun b => i + b < n)
    (fun b hb => sampleGrad_length env c loss n X Y nn h _ (by
      rw [List.getD_eq_getElem?_getD, List.getElem?_eq_getElem (by omega)]
      exact hpiv _ (List.getElem_mem _))) (le_padding c _) mem.sched hit
  simp only [batchGradF, List.length_map, List.length_zipWith, List.length_replicate, List.length_take, this]
  have := le_padding c (nParams nn.layers)
  omega

/-- `optimizer_calc_batch_gradient` refines `batchGradF`; floats behind the parameters may be changed. -/
theorem calcBatchGradient_eq (env : CustomEnv F) (c : Cfg) (mem : BatchMem F) (loss : Loss) (n : Nat)
    (X Y : View F) (nn : Net F) (h : Trainable c loss n X Y nn) (bs i : Nat)
    (hm : mem.OK c (nParams nn.layers) (batchLen n bs i)) (pivot : List Nat) (hlen : pivot.length = n)
    (hpiv : ∀ p ∈ pivot, p < n) (buf : View F) (hbuf : buf.addr % c.alignSize = 0)
    (hroom : nParamPadding c (nParams nn.layers) ≤ buf.data.length) :
    ∃ tail, calcBatchGradient env c mem.thread mem.sched nn (some pivot) bs n X Y i buf =
      .ok (i + batchLen n bs i, ⟨buf.addr, batchGradF env c mem.sched loss X Y nn pivot i (batchLen n bs i) ++ tail⟩) ∧
      (nParams nn.layers + tail.length = buf.data.length) ∧
      tail.drop (nParamPadding c (nParams nn.layers) - nParams nn.layers) =
        buf.data.drop (nParamPadding c (nParams nn.layers)) := by
  have hle := le_padding c (nParams nn.layers)
  have hit : ∀ b ∈ mem.sched.iters, i + b < n := by
    intro b hb
    have := List.mem_range.mp (hm.covers.mem_iff.mp hb)
    have := batchLen_le n bs i
    omega
  have hv : ∀ b, i + b < n → (sampleGrad env c loss X Y nn (pivot.getD (i + b) 0)).length = nParams nn.layers :=
    fun b hb => sampleGrad_length env c loss n X Y nn h _ (by
      rw [List.getD_eq_getElem?_getD, List.getElem?_eq_getElem (by omega)]
      exact hpiv _ (List.getElem_mem _))
  have hred := reduce_sumF (nParams nn.layers) (nParamPadding c (nParams nn.layers))
    (fun b => sampleGrad env c loss X Y nn (pivot.getD (i + b) 0)) (fun b => i + b < n)
    (batchBody env c mem.thread nn (some pivot) X Y i) hv hle
    (fun b acc hb ha => batchBody_eq env c mem loss n X Y nn h _ _ hm pivot i b acc (by omega) hpiv
      (by omega)) mem.sched hit
  have hsl := sumF_length (nParams nn.layers) (nParamPadding c (nParams nn.layers))
    (fun b => sampleGrad env c loss X Y nn (pivot.getD (i + b) 0)) (fun b => i + b < n) hv hle mem.sched hit
  unfold calcBatchGradient
  simp only [h.nlt, if_true]
  have hms : memsetZero buf (nParams nn.layers) = .ok ⟨buf.addr, List.replicate (nParams nn.layers) zero ++
      buf.data.drop (nParams nn.layers)⟩ := by
    rw [memsetZero, if_pos (by omega)]
  have hml : (List.replicate (nParams nn.layers) (zero : F) ++ buf.data.drop (nParams nn.layers)).length =
      buf.data.length := by simp; omega
  simp only [hms, bind, Except.bind, hml, hroom, if_true, hred]
  have hgl := batchGradF_length env c mem loss n X Y nn h bs i hm pivot hlen hpiv (batchLen n bs i)
  rw [batchGradF] at hgl ⊢
  generalize Sched.sumF (F := F) _ _ _ _ = total at hsl hgl ⊢
  generalize hk : nParams nn.layers = k at hle hroom hsl hgl hml ⊢
  generalize nParamPadding c k = pad at hle hroom hsl ⊢
  rw [vectorDivideByScalar_eq c k _ _ (by exact AlignedFor.of_aligned hbuf) (by simp; omega)]
  simp only
  rw [applyTo_map _ _ _ (by simp; omega)]
  simp only [pure, Except.pure]
  refine ⟨(List.zipWith add ((List.replicate k (zero : F) ++ buf.data.drop k).take pad) total ++
    (List.replicate k (zero : F) ++ buf.data.drop k).drop pad).drop k, ?_, ?_, ?_⟩
  · congr 4
    rw [List.take_append_of_le_length (by simp; omega)]
    rw [List.take_zipWith, List.take_take, Nat.min_eq_left hle, List.take_left' (by simp)]
  · simp; omega
  · rw [List.drop_drop, show k + (pad - k) = pad by omega, List.drop_left' (by simp; omega),
      List.drop_append, List.drop_of_length_le (by simp; omega)]
    simp [List.drop_drop]
    congr 1; omega

/-- The same for a call from an epoch function. -/
theorem batchGradient_eq (env : CustomEnv F) (c : Cfg) (mem : BatchMem F) (loss : Loss) (n : Nat)
    (X Y : View F) (o : Opt F) (h : Trainable c loss n X Y o.nn) (i : Nat)
    (hm : mem.OK c (nParams o.nn.layers) (batchLen n o.batchsize i)) (pivot : List Nat)
    (hpv : o.pivot = some pivot) (hlen : pivot.length = n) (hpiv : ∀ p ∈ pivot, p < n) :
    ∃ tail, o.batchGradient env c mem n X Y i =
      .ok (i + batchLen n o.batchsize i, ⟨mem.gradAddr,
        batchGradF env c mem.sched loss X Y o.nn pivot i (batchLen n o.batchsize i) ++ tail⟩) := by
  obtain ⟨tail, h1, -, -⟩ := calcBatchGradient_eq env c mem loss n X Y o.nn h o.batchsize i hm pivot hlen hpiv
    (stackArray mem.gradAddr (nParams o.nn.layers + mem.slack) mem.gradJunk) hm.buf
    (by rw [stackArray_length']; exact hm.room)
  exact ⟨tail, by rw [Opt.batchGradient, hpv]; exact h1⟩

end

/-! ### The loop -/

/-- The training loop is a fold over the batch starts `0, bs, 2 bs, …`: if each step succeeds from states in
`I`, so does the loop, with exactly `ceil((n-i)/bs)` steps. -/
theorem trainLoop_inv {σ : Type} (n bs : Nat) (hbs : 1 ≤ bs) (step : Nat → σ → M (Nat × σ)) (I : Nat → σ → Prop)
    (hstep : ∀ i s, i < n → I i s → ∃ s', step i s = .ok (i + batchLen n bs i, s') ∧ I (i + batchLen n bs i) s') :
    ∀ fuel i s, I i s → i ≤ n → (n - i + bs - 1) / bs ≤ fuel → ∃ s', trainLoop n step fuel i s = .ok s' ∧ I n s' := by
  intro fuel
  induction fuel with
  | zero =>
    intro i s hI hi hf
    have h0 : n - i + bs - 1 < bs := by
      rcases Nat.lt_or_ge (n - i + bs - 1) bs with h | h
      · exact h
      · have := Nat.div_pos h hbs; omega
    have : i = n := by omega
    subst this
    exact ⟨s, by simp [trainLoop, pure, Except.pure], hI⟩
  | succ fuel ih =>
    intro i s hI hi hf
    by_cases hin : i < n
    · obtain ⟨s1, h1, h2⟩ := hstep i s hin hI
      have hb := batchLen_le n bs i
      obtain ⟨s2, h3, h4⟩ := ih (i + batchLen n bs i) s1 h2 (by omega) (by
        unfold batchLen
        split
        · rename_i hlt
          have : n - (i + (n - i)) + bs - 1 = bs - 1 := by omega
          rw [this, Nat.div_eq_of_lt (by omega)]
          omega
        · rename_i hge
          have : n - i + bs - 1 = n - (i + bs) + bs - 1 + bs := by omega
          rw [this, Nat.add_div_right _ hbs] at hf
          omega)
      exact ⟨s2, by simp only [trainLoop, if_pos hin, h1, bind, Except.bind]; exact h3, h4⟩
    · have : i = n := by omega
      subst this
      exact ⟨s, by simp [trainLoop, pure, Except.pure], hI⟩

/-- With less fuel the loop is not finished: exactly `ceil((n-i)/bs)` steps are made. -/
theorem trainLoop_short {σ : Type} (n bs : Nat) (hbs : 1 ≤ bs) (step : Nat → σ → M (Nat × σ)) (I : Nat → σ → Prop)
    (hstep : ∀ i s, i < n → I i s → ∃ s', step i s = .ok (i + batchLen n bs i, s') ∧ I (i + batchLen n bs i) s') :
    ∀ fuel i s, I i s → i ≤ n → fuel < (n - i + bs - 1) / bs → trainLoop n step fuel i s = .error .diverge := by
  intro fuel
  induction fuel with
  | zero =>
    intro i s hI hi hf
    have h0 : bs ≤ n - i + bs - 1 := by
      by_contra hc
      rw [Nat.div_eq_of_lt (by omega)] at hf; omega
    simp [trainLoop, show i < n by omega]
  | succ fuel ih =>
    intro i s hI hi hf
    have hin : i < n := by
      by_contra hc
      rw [Nat.div_eq_of_lt (by omega)] at hf; omega
    obtain ⟨s1, h1, h2⟩ := hstep i s hin hI
    have hb := batchLen_le n bs i
    simp only [trainLoop, if_pos hin, h1, bind, Except.bind]
    refine ih _ s1 h2 (by omega) ?_
    unfold batchLen
    split
    · rename_i hlt
      have : (n - i + bs - 1) / bs ≤ 1 := by
        rw [show n - i + bs - 1 = n - i - 1 + bs by omega, Nat.add_div_right _ hbs,
          Nat.div_eq_of_lt (by omega)]
      omega
    · rename_i hge
      have : n - i + bs - 1 = n - (i + bs) + bs - 1 + bs := by omega
      rw [this, Nat.add_div_right _ hbs] at hf
      omega

end NN
