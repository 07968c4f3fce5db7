import Verif.Proofs.BatchFloat
import Verif.Properties.BackFloat
import Verif.Properties.OptFloat
/-
C71: the batch gradient, and a step of gradient descent, in `float` arithmetic and for every distribution of the samples over threads.
-/
namespace NN
open B32 Finset _root_.Spec

/-- The exact gradients are those of exact backpropagation. -/
theorem gradient_gradF (envR : CustomEnv ℝ) (c : Cfg) (recs : List ActRecord) (nn : Net B32) (name : String) (loss : Loss) (hw : nn.WF c)
    (hname : getLossFunc name = some loss) (hal : BackAligned c 0 0 (setLoss recs nn name).layers) (x y : List B32) (lx : x.length = nn.nInput)
    (ly : y.length = nn.nOutput) (hs : TrainSafe envR (setLoss recs nn name) loss x y)
    (hreg : Regular envR loss (y.map B32.value) nn.values.layers (x.map B32.value)) (addr : ℕ) (g : List ℝ)
    (hg : IsGradient envR c (setLoss recs nn.values name) (fun p => objective loss nn.nOutput p (y.map B32.value)) ⟨addr, x.map B32.value⟩ g) :
    ∀ k < nParams nn.layers, at_ g k = at_ (gradF envR c (setLoss recs nn name).values loss (x.map B32.value) (y.map B32.value)) k := by
  have hwv := Net.values_wf hw
  have h0 : 0 % c.alignSize = 0 := Nat.zero_mod _
  have hnv : nParams nn.values.layers = nParams nn.layers := nParams_values _
  have htx : (x.map B32.value).take nn.nInput = x.map B32.value := List.take_of_length_le (by simp [lx])
  have hty : (y.map B32.value).take nn.nOutput = y.map B32.value := List.take_of_length_le (by simp [ly])
  have hal' : BackAligned c 0 0 (setLoss recs nn.values name).layers := by rw [← Net.values_setLoss]; exact (BackAligned_values c _ _ _).2 hal
  obtain ⟨gR, r1, r2⟩ := C07_gradient envR c recs 0 (fun _ => 0) nn.values name loss ⟨addr, x.map B32.value⟩
    ⟨0, y.map B32.value⟩ ⟨0, List.replicate (nParams nn.layers) 0⟩ hwv hname h0 h0 (by rw [Net.values_nInput]; simp [lx])
    (by rw [Net.values_nOutput]; simp [ly]) (by rw [hnv]; simp) hal' (by rw [Net.values_nInput, htx]; exact hreg)
  obtain ⟨n1, n2, n3⟩ := setLoss_sizes recs nn.values name
  have hfit := safe_fits envR _ _ _ _ _ hs.1 hs.2.2
  have hb := backpropagation_eq envR c 0 (fun _ => 0) (setLoss recs nn.values name) ⟨addr, x.map B32.value⟩
    ⟨0, y.map B32.value⟩ ⟨0, List.replicate (nParams nn.layers) 0⟩ loss (setLoss_wf recs c nn.values name hwv) h0 h0
    (C11_sets recs nn.values name loss hname).1
    (by
      intro l hl h
      rw [← Net.values_setLoss] at hl
      rcases (hfit l hl).2 with h' | h' | h' <;> rw [h] at h' <;> simp at h')
    (by rw [n2, Net.values_nInput]; simp [lx]) (by rw [n3, Net.values_nOutput]; simp [ly]) (by rw [n1, hnv]; simp) hal'
  rw [r1, n1, n2, n3, Net.values_nInput, Net.values_nOutput, hnv] at hb
  have hgR : gR = gradF envR c (setLoss recs nn.values name) loss (x.map B32.value) (y.map B32.value) := by
    have e := congrArg View.data (Except.ok.inj hb)
    simp only [htx, hty] at e
    rwa [List.drop_of_length_le (by simp), List.append_nil] at e
  rw [Net.values_nOutput] at r2
  intro k hk
  rw [Net.values_setLoss, ← hgR]
  exact hg.unique r2 k (by rw [n1, hnv]; exact hk)

/-- What is assumed about a batch: the samples `batch` have exact gradients `G`, and nothing overflows. -/
structure BatchSafe (envR : CustomEnv ℝ) (c : Cfg) (recs : List ActRecord) (nn : Net B32) (name : String) (loss : Loss) (X Y : View B32) (batch : List ℕ)
    (G : ℕ → List ℝ) (depth : ℕ) : Prop where
  finite : ∀ l ∈ nn.layers, l.Finite
  finX : ∀ x ∈ X.data, x.isFinite = true
  finY : ∀ y ∈ Y.data, y.isFinite = true
  size : batch.length ≤ 2 ^ 24
  safe : ∀ p ∈ batch, TrainSafe envR (setLoss recs nn name) loss (sampleIn nn X p) (sampleOut nn Y p)
  regular : ∀ p ∈ batch, Regular envR loss ((sampleOut nn Y p).map B32.value) nn.values.layers ((sampleIn nn X p).map B32.value)
  gradient : ∀ p ∈ batch, IsGradient envR c (setLoss recs nn.values name)
    (fun o => objective loss nn.nOutput o ((sampleOut nn Y p).map B32.value)) ⟨X.addr + 4 * (p * nn.nInput), (sampleIn nn X p).map B32.value⟩ (G p)
  peak : ∀ k < nParams nn.layers, _root_.Spec.peak (depth + 2) 0 (sumAbs envR (setLoss recs nn name) loss X Y batch G k) ≤ max32

theorem take_bs {n bs i : ℕ} (order : List ℕ) (hlen : order.length = n) : (order.drop i).take (batchLen n bs i) = (order.drop i).take bs := by
  unfold batchLen
  split
  · rw [List.take_of_length_le (by simp; omega), List.take_of_length_le (by simp; omega)]
  · rfl

theorem gradAt_within (env : CustomEnv B32) (envR : CustomEnv ℝ) {L : Libm} (hL : L.Accurate) (c : Cfg) (recs : List ActRecord) (sched : Sched)
    (nn : Net B32) (name : String) (loss : Loss) (hw : nn.WF c) (hname : getLossFunc name = some loss) (n : ℕ) (X Y : View B32)
    (h : Trainable c loss n X Y (setLoss recs nn name)) (bs i : ℕ) (hbs : 1 ≤ bs) (hi : i < n) (hc : sched.Covers (batchLen n bs i)) (order : List ℕ)
    (hlen : order.length = n) (hlt : ∀ p ∈ order, p < n) (G : ℕ → List ℝ)
    (hs : BatchSafe envR c recs nn name loss X Y ((order.drop i).take bs) G (Spec.depth sched)) :
    ∀ k < nParams nn.layers, ∃ a, (@batchGradF B32 (ops L) env c sched loss X Y (setLoss recs nn name) order i (batchLen n bs i))[k]? = some a ∧
      a.isFinite = true ∧ |a.value - at_ (meanGrad (nParams nn.layers) G ((order.drop i).take bs)) k| ≤
        batchError envR (setLoss recs nn name) loss X Y ((order.drop i).take bs) G (Spec.depth sched) k := by
  obtain ⟨n1, n2, n3⟩ := setLoss_sizes recs nn name
  have hbl : 1 ≤ batchLen n bs i ∧ i + batchLen n bs i ≤ n := by unfold batchLen; split <;> omega
  have htk := take_bs (n := n) (bs := bs) (i := i) order hlen
  have hbl2 : batchLen n bs i = ((order.drop i).take bs).length := by
    rw [← htk, List.length_take, List.length_drop]; omega
  have hsi : ∀ p, sampleIn (setLoss recs nn name) X p = sampleIn nn X p := fun p => by simp only [sampleIn, n2]
  have hso : ∀ p, sampleOut (setLoss recs nn name) Y p = sampleOut nn Y p := fun p => by simp only [sampleOut, n3]
  have hp : ∀ p ∈ (order.drop i).take bs, (sampleIn nn X p).length = nn.nInput ∧ (sampleOut nn Y p).length = nn.nOutput := by
    intro p hp
    have hpn := hlt p (List.mem_of_mem_drop (List.mem_of_mem_take hp))
    have h1 : (p + 1) * nn.nInput ≤ n * nn.nInput := Nat.mul_le_mul_right _ hpn
    have h2 : (p + 1) * nn.nOutput ≤ n * nn.nOutput := Nat.mul_le_mul_right _ hpn
    rw [Nat.succ_mul] at h1 h2
    have hx := h.xlen
    have hy := h.ylen
    rw [n2] at hx
    rw [n3] at hy
    simp only [sampleIn, sampleOut, List.length_take, List.length_drop]
    constructor <;> omega
  have := batch_within env envR hL c sched loss n X Y (setLoss recs nn name) h order hlt i (batchLen n bs i) (by omega) hc hbl.1
    (by rw [hbl2]; exact hs.size) (setLoss_finite recs nn name hs.finite) hs.finX hs.finY
    (by rw [htk]; intro p hp'; rw [hsi, hso]; exact hs.safe p hp') G
    (by
      rw [htk, n1]
      intro p hp' k hk
      rw [hsi, hso]
      exact gradient_gradF envR c recs nn name loss hw hname (h.aligned 0 (Nat.zero_mod _)) _ _ (hp p hp').1 (hp p hp').2 (hs.safe p hp')
        (hs.regular p hp') _ _ (hs.gradient p hp') k hk)
    (by rw [htk, n1]; exact hs.peak)
  rw [htk, n1] at this
  exact this

/-- **C71** `optimizer_calc_batch_gradient` in IEEE binary32 arithmetic, for every schedule of the samples on threads, every build and every C
library accurate to 2 units in the last place: if nothing overflows and no kink is too close (`BatchSafe`), the call succeeds and leaves finite
numbers, each within `batchError` of the mean of the exact gradients `G` of the samples. -/
theorem C71_mean (env : CustomEnv B32) (envR : CustomEnv ℝ) {L : Libm} (hL : L.Accurate) (c : Cfg) (recs : List ActRecord) (mem : BatchMem B32)
    (nn : Net B32) (name : String) (loss : Loss) (hw : nn.WF c) (hname : getLossFunc name = some loss) (n : ℕ) (X Y : View B32)
    (h : Trainable c loss n X Y (setLoss recs nn name)) (bs i : ℕ) (hbs : 1 ≤ bs) (hi : i < n)
    (hm : mem.OK c (nParams nn.layers) (batchLen n bs i)) (order : List ℕ) (hlen : order.length = n) (hlt : ∀ p ∈ order, p < n) (buf : View B32)
    (hbuf : buf.addr % c.alignSize = 0) (hroom : nParamPadding c (nParams nn.layers) ≤ buf.data.length) (G : ℕ → List ℝ)
    (hs : BatchSafe envR c recs nn name loss X Y ((order.drop i).take bs) G (Spec.depth mem.sched)) :
    ∃ g tail, @calcBatchGradient B32 (ops L) env c mem.thread mem.sched (setLoss recs nn name) (some order) bs n X Y i buf =
        .ok (min (i + bs) n, ⟨buf.addr, g ++ tail⟩) ∧ g.length = nParams nn.layers ∧
      ∀ k < nParams nn.layers, ∃ a, g[k]? = some a ∧ a.isFinite = true ∧
        |a.value - at_ (meanGrad (nParams nn.layers) G ((order.drop i).take bs)) k| ≤
          batchError envR (setLoss recs nn name) loss X Y ((order.drop i).take bs) G (Spec.depth mem.sched) k := by
  obtain ⟨n1, -, -⟩ := setLoss_sizes recs nn name
  rw [← n1] at hm hroom
  obtain ⟨tail, h1, -, -⟩ := @calcBatchGradient_eq B32 (ops L) env c mem loss n X Y _ h bs i hm order hlen hlt buf hbuf hroom
  refine ⟨_, tail, ?_, ?_, gradAt_within env envR hL c recs mem.sched nn name loss hw hname n X Y h bs i hbs hi hm.covers order hlen hlt G hs⟩
  · rw [h1]
    have : i + batchLen n bs i = min (i + bs) n := by unfold batchLen; split <;> omega
    rw [this]
  · rw [@batchGradF_length B32 (ops L) env c mem loss n X Y _ h bs i hm order hlen hlt, n1]

/-- **C71** Runs on different numbers of threads, with different schedules, builds, stacks and buffers: the gradients agree up to the two bounds. -/
theorem C71_runs (env : CustomEnv B32) (envR : CustomEnv ℝ) {L : Libm} (hL : L.Accurate) (c c' : Cfg) (recs : List ActRecord) (mem mem' : BatchMem B32)
    (nn : Net B32) (name : String) (loss : Loss) (hw : nn.WF c) (hw' : nn.WF c') (hname : getLossFunc name = some loss) (n : ℕ) (X Y : View B32)
    (h : Trainable c loss n X Y (setLoss recs nn name)) (h' : Trainable c' loss n X Y (setLoss recs nn name)) (bs i : ℕ) (hbs : 1 ≤ bs) (hi : i < n)
    (hm : mem.OK c (nParams nn.layers) (batchLen n bs i)) (hm' : mem'.OK c' (nParams nn.layers) (batchLen n bs i))
    (order : List ℕ) (hlen : order.length = n) (hlt : ∀ p ∈ order, p < n) (buf buf' : View B32)
    (hbuf : buf.addr % c.alignSize = 0) (hbuf' : buf'.addr % c'.alignSize = 0) (hroom : nParamPadding c (nParams nn.layers) ≤ buf.data.length)
    (hroom' : nParamPadding c' (nParams nn.layers) ≤ buf'.data.length) (G : ℕ → List ℝ)
    (hs : BatchSafe envR c recs nn name loss X Y ((order.drop i).take bs) G (Spec.depth mem.sched))
    (hs' : BatchSafe envR c' recs nn name loss X Y ((order.drop i).take bs) G (Spec.depth mem'.sched)) :
    ∃ g g' tail tail', @calcBatchGradient B32 (ops L) env c mem.thread mem.sched (setLoss recs nn name) (some order) bs n X Y i buf =
        .ok (min (i + bs) n, ⟨buf.addr, g ++ tail⟩) ∧
      @calcBatchGradient B32 (ops L) env c' mem'.thread mem'.sched (setLoss recs nn name) (some order) bs n X Y i buf' =
        .ok (min (i + bs) n, ⟨buf'.addr, g' ++ tail'⟩) ∧ g.length = nParams nn.layers ∧ g'.length = nParams nn.layers ∧
      ∀ k < nParams nn.layers, ∃ a a', g[k]? = some a ∧ g'[k]? = some a' ∧ a.isFinite = true ∧ a'.isFinite = true ∧
        |a.value - a'.value| ≤ batchError envR (setLoss recs nn name) loss X Y ((order.drop i).take bs) G (Spec.depth mem.sched) k +
          batchError envR (setLoss recs nn name) loss X Y ((order.drop i).take bs) G (Spec.depth mem'.sched) k := by
  obtain ⟨g, t, e1, e2, e3⟩ := C71_mean env envR hL c recs mem nn name loss hw hname n X Y h bs i hbs hi hm order hlen hlt buf hbuf hroom G hs
  obtain ⟨g', t', f1, f2, f3⟩ := C71_mean env envR hL c' recs mem' nn name loss hw' hname n X Y h' bs i hbs hi hm' order hlen hlt buf' hbuf' hroom' G hs'
  refine ⟨g, g', t, t', e1, f1, e2, f2, fun k hk => ?_⟩
  obtain ⟨a, a1, a2, a3⟩ := e3 k hk
  obtain ⟨b, b1, b2, b3⟩ := f3 k hk
  refine ⟨a, b, a1, b1, a2, b2, ?_⟩
  have := abs_tri a.value (at_ (meanGrad (nParams nn.layers) G ((order.drop i).take bs)) k) b.value
  rw [abs_sub_comm] at b3
  linarith

theorem list_sum_le {l : List ℕ} {f : ℕ → ℝ} {B : ℝ} (h : ∀ p ∈ l, f p ≤ B) : (l.map f).sum ≤ l.length * B := by
  induction l with
  | nil => simp
  | cons a l ih =>
    have h1 := h a (by simp)
    have h2 := ih fun p hp => h p (by simp [hp])
    simp only [List.map_cons, List.sum_cons, List.length_cons, Nat.cast_add, Nat.cast_one]
    linarith

/-- Networks with smooth squashing activation functions meet the conditions of `BatchSafe`, with closed bounds. -/
theorem smooth_batch (envR : CustomEnv ℝ) (c : Cfg) (recs : List ActRecord) (nn : Net B32) (name : String) (loss : Loss) (hw : nn.WF c)
    (hname : getLossFunc name = some loss) (hloss : loss = .mse ∨ (loss = .bce ∧ ∀ l, nn.layers.getLast? = some l → l.act = .sigmoid))
    (n : ℕ) (X Y : View B32) (h : Trainable c loss n X Y (setLoss recs nn name)) (hf : ∀ l ∈ nn.layers, l.Finite)
    (hfx : ∀ x ∈ X.data, x.isFinite = true ∧ |x.value| ≤ 1) (hfy : ∀ y ∈ Y.data, y.isFinite = true ∧ |y.value| ≤ 1)
    (N : ℕ) (R E κ : ℝ) (hN : N + 6 ≤ 2 ^ 20) (hR : 1 ≤ R) (hR' : R ≤ 2 ^ 100) (hsm : ∀ l ∈ nn.layers, SmoothLayer N R l.values)
    (hE : E = ((N + 1) * R * 2 ^ (-22 : ℤ) + 1 / 10 ^ 6) * ∑ i ∈ range nn.layers.length, (2 * R) ^ i) (hE1 : E ≤ 1)
    (hκ : κ = 2 * E + (N + 7) * 2 ^ (-23 : ℤ) + 2 ^ (-19 : ℤ)) (batch : List ℕ) (hb : batch ≠ []) (hsize : batch.length ≤ 2 ^ 24)
    (hlt : ∀ p ∈ batch, p < n) (depth : ℕ) (hd : depth + 2 ≤ 2 ^ 20)
    (hmax : batch.length * (4 * R ^ (nn.layers.length - 1) * (1 + κ) ^ (2 * nn.layers.length + 1)) ≤ 2 ^ 126) :
    ∃ G, BatchSafe envR c recs nn name loss X Y batch G depth ∧ (∀ p ∈ batch, ∀ k < nParams nn.layers, |at_ (G p) k| ≤ 4 * R ^ (nn.layers.length - 1)) ∧
      ∀ k < nParams nn.layers, batchError envR (setLoss recs nn name) loss X Y batch G depth k ≤
        4 * R ^ (nn.layers.length - 1) * ((1 + κ) ^ (2 * nn.layers.length + 1) - 1) +
          (depth + 2) * 2 ^ (-23 : ℤ) * (4 * R ^ (nn.layers.length - 1) * (1 + κ) ^ (2 * nn.layers.length + 1)) + 2 ^ (-150 : ℤ) := by
  obtain ⟨n1, n2, n3⟩ := setLoss_sizes recs nn name
  have hwv := Net.values_wf hw
  have h0 : 0 % c.alignSize = 0 := Nat.zero_mod _
  have hnv : nParams nn.values.layers = nParams nn.layers := nParams_values _
  have hsi : ∀ p, sampleIn (setLoss recs nn name) X p = sampleIn nn X p := fun p => by simp only [sampleIn, n2]
  have hso : ∀ p, sampleOut (setLoss recs nn name) Y p = sampleOut nn Y p := fun p => by simp only [sampleOut, n3]
  have hp : ∀ p ∈ batch, (sampleIn nn X p).length = nn.nInput ∧ (sampleOut nn Y p).length = nn.nOutput := by
    intro p hp
    have hpn := hlt p hp
    have h1 : (p + 1) * nn.nInput ≤ n * nn.nInput := Nat.mul_le_mul_right _ hpn
    have h2 : (p + 1) * nn.nOutput ≤ n * nn.nOutput := Nat.mul_le_mul_right _ hpn
    rw [Nat.succ_mul] at h1 h2
    have hx := h.xlen
    have hy := h.ylen
    rw [n2] at hx
    rw [n3] at hy
    simp only [sampleIn, sampleOut, List.length_take, List.length_drop]
    constructor <;> omega
  have hb1 : (1 : ℝ) ≤ batch.length := by
    have := List.length_pos_iff.2 hb
    exact_mod_cast this
  have hE0 : 0 ≤ E := by rw [hE]; positivity
  have hκ0 : 0 ≤ κ := by rw [hκ]; positivity
  set D := nn.layers.length with hD
  obtain ⟨B, hB⟩ : ∃ B, B = 4 * R ^ (D - 1) := ⟨_, rfl⟩
  obtain ⟨K, hK⟩ : ∃ K, K = (1 + κ) ^ (2 * D + 1) := ⟨_, rfl⟩
  rw [← hB, ← hK] at hmax ⊢
  have hB0 : 0 ≤ B := by rw [hB]; positivity
  have hK1 : 1 ≤ K := by rw [hK]; exact one_le_pow₀ (by linarith)
  have hBK0 : 0 ≤ B * K := mul_nonneg hB0 (by linarith)
  have hBK : B * K ≤ batch.length * (B * K) := le_mul_of_one_le_left hBK0 hb1
  have key : ∀ p ∈ batch, TrainSafe envR (setLoss recs nn name) loss (sampleIn nn X p) (sampleOut nn Y p) ∧
      Regular envR loss ((sampleOut nn Y p).map B32.value) nn.values.layers ((sampleIn nn X p).map B32.value) ∧
      (∀ k, k < nParams nn.layers → at_ (gradError envR (setLoss recs nn name) loss (sampleIn nn X p) (sampleOut nn Y p)) k ≤ B * (K - 1)) ∧
      ∀ k, |at_ (gradF envR c (setLoss recs nn name).values loss ((sampleIn nn X p).map B32.value) ((sampleOut nn Y p).map B32.value)) k| ≤ B := by
    intro p hpb
    have := smooth_train envR c recs nn name loss (sampleIn nn X p) (sampleOut nn Y p) hw hname hloss (hp p hpb).1 (hp p hpb).2
      (fun x hx => hfx x (List.mem_of_mem_drop (List.mem_of_mem_take hx))) (fun y hy => hfy y (List.mem_of_mem_drop (List.mem_of_mem_take hy)))
      N R E κ hN hR hR' hsm hE hE1 hκ (by
        rw [← hB, ← hK]
        have : (2 : ℝ) ^ 126 ≤ 2 ^ 127 := by norm_num
        linarith)
    rw [← hB, ← hK] at this
    exact this
  have hex : ∀ p, ∃ g, p ∈ batch → IsGradient envR c (setLoss recs nn.values name)
      (fun o => objective loss nn.nOutput o ((sampleOut nn Y p).map B32.value)) ⟨X.addr + 4 * (p * nn.nInput), (sampleIn nn X p).map B32.value⟩ g := by
    intro p
    by_cases hpb : p ∈ batch
    · have htx : ((sampleIn nn X p).map B32.value).take nn.nInput = (sampleIn nn X p).map B32.value := List.take_of_length_le (by simp [(hp p hpb).1])
      obtain ⟨gR, -, r2⟩ := C07_gradient envR c recs 0 (fun _ => 0) nn.values name loss ⟨X.addr + 4 * (p * nn.nInput), (sampleIn nn X p).map B32.value⟩
        ⟨0, (sampleOut nn Y p).map B32.value⟩ ⟨0, List.replicate (nParams nn.layers) 0⟩ hwv hname h0 h0 (by rw [Net.values_nInput]; simp [(hp p hpb).1])
        (by rw [Net.values_nOutput]; simp [(hp p hpb).2]) (by rw [hnv]; simp)
        (by rw [← Net.values_setLoss]; exact (BackAligned_values c _ _ _).2 (h.aligned 0 h0)) (by rw [Net.values_nInput, htx]; exact (key p hpb).2.1)
      rw [Net.values_nOutput] at r2
      exact ⟨gR, fun _ => r2⟩
    · exact ⟨[], fun h' => absurd h' hpb⟩
  choose G hG using hex
  have hGb : ∀ p ∈ batch, ∀ k < nParams nn.layers, |at_ (G p) k| ≤ B := by
    intro p hpb k hk
    rw [gradient_gradF envR c recs nn name loss hw hname (h.aligned 0 h0) _ _ (hp p hpb).1 (hp p hpb).2 (key p hpb).1 (key p hpb).2.1 _ _ (hG p hpb) k hk]
    exact (key p hpb).2.2.2 k
  have hP1 : (1 : ℝ) ≤ (1 + u32) ^ (depth + 2) := one_le_pow₀ (by unfold u32; norm_num)
  have hdr : ((depth + 2 : ℕ) : ℝ) ≤ 2 ^ 20 := by exact_mod_cast hd
  have hP3 : (1 + u32) ^ (depth + 2) ≤ 1 + (depth + 2) * 2 ^ (-23 : ℤ) := by
    have hr := (pow_rel hd).1
    have hy0 : (0 : ℝ) ≤ ((depth + 2 : ℕ) : ℝ) * 2 ^ (-24 : ℤ) := by positivity
    have e : u32 = (2 : ℝ) ^ (-24 : ℤ) := rfl
    rw [e]
    have e2 : ((depth : ℝ) + 2) * 2 ^ (-23 : ℤ) = 2 * (((depth + 2 : ℕ) : ℝ) * 2 ^ (-24 : ℤ)) := by push_cast; norm_num; ring
    rw [e2]
    generalize (1 + (2 : ℝ) ^ (-24 : ℤ)) ^ (depth + 2) = p at *
    generalize ((depth + 2 : ℕ) : ℝ) * 2 ^ (-24 : ℤ) = y at *
    linarith
  have hP2 : (1 + u32) ^ (depth + 2) ≤ 2 := by
    refine hP3.trans ?_
    push_cast at hdr
    norm_num at hdr ⊢
    linarith
  have hS1 : ∀ k < nParams nn.layers, sumError envR (setLoss recs nn name) loss X Y batch k ≤ batch.length * (B * (K - 1)) := by
    intro k hk
    exact list_sum_le fun p hpb => by rw [hsi, hso]; exact (key p hpb).2.2.1 k hk
  have hS2 : ∀ k < nParams nn.layers, sumAbs envR (setLoss recs nn name) loss X Y batch G k ≤ batch.length * (B * K) := by
    intro k hk
    refine list_sum_le fun p hpb => ?_
    rw [hsi, hso]
    have h1 := (key p hpb).2.2.1 k hk
    have h2 := hGb p hpb k hk
    linarith
  refine ⟨G, ⟨hf, fun x hx => (hfx x hx).1, fun y hy => (hfy y hy).1, hsize, fun p hpb => (key p hpb).1, fun p hpb => (key p hpb).2.1, hG, ?_⟩, hGb, ?_⟩
  · intro k hk
    simp only [_root_.Spec.peak, Nat.cast_zero, zero_mul, add_zero]
    have h1 := hS2 k hk
    calc (1 + u32) ^ (depth + 2) * sumAbs envR (setLoss recs nn name) loss X Y batch G k
        ≤ (1 + u32) ^ (depth + 2) * (batch.length * (B * K)) := mul_le_mul_of_nonneg_left h1 (by linarith)
      _ ≤ 2 * 2 ^ 126 := mul_le_mul hP2 hmax (by positivity) (by norm_num)
      _ ≤ max32 := by norm_num [max32]
  · intro k hk
    have h1 := hS1 k hk
    have h2 := hS2 k hk
    unfold batchError
    simp only [slack, Nat.cast_zero, zero_mul, add_zero]
    have h3 : ((1 + u32) ^ (depth + 2) - 1) * sumAbs envR (setLoss recs nn name) loss X Y batch G k ≤
        ((depth + 2) * 2 ^ (-23 : ℤ)) * (batch.length * (B * K)) := by
      have a1 : ((1 + u32) ^ (depth + 2) - 1) * sumAbs envR (setLoss recs nn name) loss X Y batch G k ≤ ((1 + u32) ^ (depth + 2) - 1) * (batch.length * (B * K)) :=
        mul_le_mul_of_nonneg_left h2 (by linarith)
      have a2 : ((1 + u32) ^ (depth + 2) - 1) * (batch.length * (B * K)) ≤ ((depth + 2) * 2 ^ (-23 : ℤ)) * (batch.length * (B * K)) :=
        mul_le_mul_of_nonneg_right (by linarith) (by positivity)
      linarith
    have h4 : (sumError envR (setLoss recs nn name) loss X Y batch k + ((1 + u32) ^ (depth + 2) - 1) * sumAbs envR (setLoss recs nn name) loss X Y batch G k) /
        batch.length ≤ B * (K - 1) + (depth + 2) * 2 ^ (-23 : ℤ) * (B * K) := by
      rw [div_le_iff₀ (by linarith)]
      calc _ ≤ batch.length * (B * (K - 1)) + ((depth + 2) * 2 ^ (-23 : ℤ)) * (batch.length * (B * K)) := add_le_add h1 h3
        _ = _ := by ring
    have h5 : η32 = 2 ^ (-150 : ℤ) := rfl
    rw [h5]
    linarith

/-- **C71** A closed form for networks with smooth squashing activation functions (C70_bounded) and data in `[-1, 1]`: no assumption about overflow or
kinks is left.  With `B = 4 R^(D-1)` a bound on the exact gradients, the error is at most `B ((1+κ)^(2D+1) - 1)`, the bound for one sample, plus
`(depth + 2) 2⁻²³ B (1+κ)^(2D+1)` for adding and dividing — whatever the number of samples. -/
theorem C71_bounded (env : CustomEnv B32) (envR : CustomEnv ℝ) {L : Libm} (hL : L.Accurate) (c : Cfg) (recs : List ActRecord) (mem : BatchMem B32)
    (nn : Net B32) (name : String) (loss : Loss) (hw : nn.WF c) (hname : getLossFunc name = some loss)
    (hloss : loss = .mse ∨ (loss = .bce ∧ ∀ l, nn.layers.getLast? = some l → l.act = .sigmoid)) (n : ℕ) (X Y : View B32)
    (h : Trainable c loss n X Y (setLoss recs nn name)) (hf : ∀ l ∈ nn.layers, l.Finite)
    (hfx : ∀ x ∈ X.data, x.isFinite = true ∧ |x.value| ≤ 1) (hfy : ∀ y ∈ Y.data, y.isFinite = true ∧ |y.value| ≤ 1)
    (N : ℕ) (R E κ : ℝ) (hN : N + 6 ≤ 2 ^ 20) (hR : 1 ≤ R) (hR' : R ≤ 2 ^ 100) (hsm : ∀ l ∈ nn.layers, SmoothLayer N R l.values)
    (hE : E = ((N + 1) * R * 2 ^ (-22 : ℤ) + 1 / 10 ^ 6) * ∑ i ∈ range nn.layers.length, (2 * R) ^ i) (hE1 : E ≤ 1)
    (hκ : κ = 2 * E + (N + 7) * 2 ^ (-23 : ℤ) + 2 ^ (-19 : ℤ)) (bs i : ℕ) (hbs : 1 ≤ bs) (hi : i < n) (hsize : bs ≤ 2 ^ 24)
    (hd : Spec.depth mem.sched + 2 ≤ 2 ^ 20)
    (hmax : bs * (4 * R ^ (nn.layers.length - 1) * (1 + κ) ^ (2 * nn.layers.length + 1)) ≤ 2 ^ 126)
    (hm : mem.OK c (nParams nn.layers) (batchLen n bs i)) (order : List ℕ) (hlen : order.length = n) (hlt : ∀ p ∈ order, p < n) (buf : View B32)
    (hbuf : buf.addr % c.alignSize = 0) (hroom : nParamPadding c (nParams nn.layers) ≤ buf.data.length) :
    ∃ G g tail, (∀ p ∈ (order.drop i).take bs, IsGradient envR c (setLoss recs nn.values name)
        (fun o => objective loss nn.nOutput o ((sampleOut nn Y p).map B32.value)) ⟨X.addr + 4 * (p * nn.nInput), (sampleIn nn X p).map B32.value⟩ (G p)) ∧
      @calcBatchGradient B32 (ops L) env c mem.thread mem.sched (setLoss recs nn name) (some order) bs n X Y i buf =
        .ok (min (i + bs) n, ⟨buf.addr, g ++ tail⟩) ∧ g.length = nParams nn.layers ∧
      ∀ k < nParams nn.layers, ∃ a, g[k]? = some a ∧ a.isFinite = true ∧
        |a.value - at_ (meanGrad (nParams nn.layers) G ((order.drop i).take bs)) k| ≤
          4 * R ^ (nn.layers.length - 1) * ((1 + κ) ^ (2 * nn.layers.length + 1) - 1) +
            (Spec.depth mem.sched + 2) * 2 ^ (-23 : ℤ) * (4 * R ^ (nn.layers.length - 1) * (1 + κ) ^ (2 * nn.layers.length + 1)) + 2 ^ (-150 : ℤ) := by
  have hl1 : ((order.drop i).take bs).length ≤ bs := by simp
  have hE0 : 0 ≤ E := by rw [hE]; positivity
  have hκ0 : 0 ≤ κ := by rw [hκ]; positivity
  obtain ⟨G, h1, -, h2⟩ := smooth_batch envR c recs nn name loss hw hname hloss n X Y h hf hfx hfy N R E κ hN hR hR' hsm hE hE1 hκ ((order.drop i).take bs)
    (by rw [← List.length_pos_iff, List.length_take, List.length_drop]; omega) (hl1.trans hsize)
    (fun p hp => hlt p (List.mem_of_mem_drop (List.mem_of_mem_take hp))) _ hd
    (le_trans (mul_le_mul_of_nonneg_right (by exact_mod_cast hl1) (by positivity)) hmax)
  obtain ⟨g, tail, e1, e2, e3⟩ := C71_mean env envR hL c recs mem nn name loss hw hname n X Y h bs i hbs hi hm order hlen hlt buf hbuf hroom G h1
  refine ⟨G, g, tail, h1.gradient, e1, e2, fun k hk => ?_⟩
  obtain ⟨a, a1, a2, a3⟩ := e3 k hk
  exact ⟨a, a1, a2, a3.trans (h2 k hk)⟩

/-- The float step `w + g * (-lr)`. -/
theorem sgd_elem {w g lr : B32} {x l z E : ℝ} (hw : Is w x) (hl : Is lr l) (l0 : 0 ≤ l) (hg : g.isFinite = true) (hE : |g.value - z| ≤ E)
    (hmax : |x| + 2 * (l * (|z| + E)) ≤ 2 ^ 126) :
    (B32.add w (B32.mul g (B32.neg lr))).isFinite = true ∧
      |(B32.add w (B32.mul g (B32.neg lr))).value - (x - l * z)| ≤ l * E + 2 ^ (-24 : ℤ) * (|x| + 3 * (l * (|z| + E))) + 2 ^ (-148 : ℤ) := by
  have hng : Is (B32.neg lr) (-l) := is_neg hl
  set y := g.value with hy
  have hyz : |y| ≤ |z| + E := by
    have := abs_add_le (y - z) z
    simp at this; linarith
  set P := l * (|z| + E) with hP
  have hly : l * |y| ≤ P := mul_le_mul_of_nonneg_left hyz l0
  have hP0 : 0 ≤ P := (mul_nonneg l0 (abs_nonneg y)).trans hly
  have hx0 := abs_nonneg x
  have hm : (2 : ℝ) ^ 127 ≤ maxF32 := by unfold maxF32; norm_num
  have hprod : |y * -l| = l * |y| := by rw [abs_mul, abs_neg, abs_of_nonneg l0, mul_comm]
  have hmul := mul_is (a := g) (b := B32.neg lr) ⟨hg, rfl⟩ hng (by
    rw [← hy, hprod]
    refine le_trans ?_ hm
    have : (2 : ℝ) ^ 126 ≤ 2 ^ 127 := by norm_num
    linarith)
  rw [← hy] at hmul
  set q := rnd (y * -l) with hq
  have e1 : |q - y * -l| ≤ l * |y| * 2 ^ (-24 : ℤ) + 2 ^ (-150 : ℤ) := by
    have := rnd_abs (y * -l)
    rw [hprod] at this; linarith
  have hqa : |q| ≤ P * (1 + 2 ^ (-24 : ℤ)) + 2 ^ (-150 : ℤ) := by
    have := abs_rnd_le (y * -l)
    rw [hprod] at this
    refine this.trans ?_
    have : l * |y| * (1 + 2 ^ (-24 : ℤ)) ≤ P * (1 + 2 ^ (-24 : ℤ)) := mul_le_mul_of_nonneg_right hly (by norm_num)
    linarith
  have hsum : |x + q| ≤ |x| + P * (1 + 2 ^ (-24 : ℤ)) + 2 ^ (-150 : ℤ) := by
    have := abs_add_le x q; linarith
  have hadd := add_is hw hmul (by
    refine hsum.trans (le_trans ?_ hm)
    have h1 : P * (1 + 2 ^ (-24 : ℤ)) ≤ P * 2 := mul_le_mul_of_nonneg_left (by norm_num) hP0
    have h2 : (2 : ℝ) ^ (-150 : ℤ) + 2 ^ 126 ≤ 2 ^ 127 := by norm_num
    linarith)
  refine ⟨hadd.1, ?_⟩
  rw [hadd.2]
  have e2 : |rnd (x + q) - (x + q)| ≤ |x + q| * 2 ^ (-24 : ℤ) + 2 ^ (-150 : ℤ) := (rnd_abs _).trans (by rw [mul_comm])
  have e3 : |y * -l - -(l * z)| ≤ l * E := by
    have : y * -l - -(l * z) = -(l * (y - z)) := by ring
    rw [this, abs_neg, abs_mul, abs_of_nonneg l0]
    exact mul_le_mul_of_nonneg_left hE l0
  have e4 : |rnd (x + q) - (x - l * z)| ≤ |rnd (x + q) - (x + q)| + |q - y * -l| + |y * -l - -(l * z)| := by
    have : rnd (x + q) - (x - l * z) = (rnd (x + q) - (x + q)) + (q - y * -l) + (y * -l - -(l * z)) := by ring
    rw [this]
    exact (abs_add_le _ _).trans (by have := abs_add_le (rnd (x + q) - (x + q)) (q - y * -l); linarith)
  have e5 : |x + q| * 2 ^ (-24 : ℤ) ≤ (|x| + P * (1 + 2 ^ (-24 : ℤ)) + 2 ^ (-150 : ℤ)) * 2 ^ (-24 : ℤ) := mul_le_mul_of_nonneg_right hsum (by positivity)
  have e6 : l * |y| * 2 ^ (-24 : ℤ) ≤ P * 2 ^ (-24 : ℤ) := mul_le_mul_of_nonneg_right hly (by positivity)
  norm_num at e1 e2 e3 e4 e5 e6 ⊢
  linarith

/-- **C71** A step of SGD without momentum in float arithmetic is a step of gradient descent with the exact mean gradient, up to the error of the batch
gradient times the learning rate and two roundings.  Everything stays finite, and the learning rate does not rise. -/
theorem C71_sgd (env : CustomEnv B32) (envR : CustomEnv ℝ) {L : Libm} (hL : L.Accurate) (c : Cfg) (recs : List ActRecord) (mem : ℕ → BatchMem B32)
    (nn : Net B32) (name : String) (loss : Loss) (hw : nn.WF c) (hname : getLossFunc name = some loss) (n : ℕ) (X Y : View B32)
    (h : Trainable c loss n X Y (setLoss recs nn name)) (i : ℕ) (hi : i < n) (s : Sgd B32) (hnn : s.opt.nn = setLoss recs nn name)
    (hbs : 1 ≤ s.opt.batchsize) (hmom : @FloatOps.lt B32 (ops L) (@FloatOps.zero B32 (ops L)) s.momentum = false) (v : List B32)
    (hv : WorkVec c (nParams nn.layers) s.velocity v) (hm : (mem i).OK c (nParams nn.layers) (batchLen n s.opt.batchsize i)) (order : List ℕ)
    (hpv : s.opt.pivot = some order) (hlen : order.length = n) (hlt : ∀ p ∈ order, p < n) (hlr : s.lr.Within 0 (2 ^ 100))
    (hdec : s.decay.Within 0 (2 ^ 90)) (hit : s.nIter < 2 ^ 32) (G : ℕ → List ℝ)
    (hs : BatchSafe envR c recs nn name loss X Y ((order.drop i).take s.opt.batchsize) G (Spec.depth (mem i).sched))
    (hmax : ∀ k < nParams nn.layers, ∀ a, (params nn.layers)[k]? = some a →
      |a.value| + 2 * (s.lr.value * (|at_ (meanGrad (nParams nn.layers) G ((order.drop i).take s.opt.batchsize)) k| +
        batchError envR (setLoss recs nn name) loss X Y ((order.drop i).take s.opt.batchsize) G (Spec.depth (mem i).sched) k)) ≤ 2 ^ 126) :
    ∃ s', @sgdStep B32 (ops L) env c mem n X Y i s = .ok (min (i + s.opt.batchsize) n, s') ∧ s'.lr.Within 0 s.lr.value ∧ s'.nIter = (s.nIter + 1) % 2 ^ 32 ∧
      ∀ k < nParams nn.layers, ∃ a b, (params nn.layers)[k]? = some a ∧ (params s'.opt.nn.layers)[k]? = some b ∧ a.isFinite = true ∧ b.isFinite = true ∧
        |b.value - (a.value - s'.lr.value * at_ (meanGrad (nParams nn.layers) G ((order.drop i).take s.opt.batchsize)) k)| ≤
          s'.lr.value * batchError envR (setLoss recs nn name) loss X Y ((order.drop i).take s.opt.batchsize) G (Spec.depth (mem i).sched) k +
            2 ^ (-24 : ℤ) * (|a.value| + 3 * (s'.lr.value * (|at_ (meanGrad (nParams nn.layers) G ((order.drop i).take s.opt.batchsize)) k| +
              batchError envR (setLoss recs nn name) loss X Y ((order.drop i).take s.opt.batchsize) G (Spec.depth (mem i).sched) k))) + 2 ^ (-148 : ℤ) := by
  let _ := ops L
  obtain ⟨n1, -, -⟩ := setLoss_sizes recs nn name
  have hwm := setLoss_wf recs c nn name hw
  have hpe : params (setLoss recs nn name).layers = params nn.layers := by
    have he := setLoss_erase recs nn name
    have hp : ∀ m : Net B32, params m.layers = params (eraseDeriv m) := by
      intro m; simp [params, eraseDeriv, List.flatMap_map]
    rw [hp, hp nn, he]
  have hpl : (params (setLoss recs nn name).layers).length = nParams (setLoss recs nn name).layers := params_length c _ hwm.layer
  have hat : OptAt c loss n X Y (setLoss recs nn name) order s.opt (params (setLoss recs nn name).layers) :=
    ⟨h, by rw [hnn, setParams_self c _ hwm], hpl, hlen, hlt, hpv⟩
  rw [← n1] at hv hm
  obtain ⟨s', e1, e2, e3, e4, e5, -, -, -, -⟩ := sgdStep_eq env c mem loss n X Y _ i s order _ v hat hv hm
  obtain ⟨l', hl', l0, l1⟩ := decay_float L (lr := s.lr) (decay := s.decay) ⟨hlr.1, rfl⟩ hlr.2.1 ⟨hdec.1, rfl⟩ hdec.2.1 hdec.2.2 hit
  have hgw := gradAt_within env envR hL c recs (mem i).sched nn name loss hw hname n X Y h s.opt.batchsize i hbs hi hm.covers order hlen hlt G hs
  refine ⟨s', ?_, ?_, e5, ?_⟩
  · rw [e1]
    have : i + batchLen n s.opt.batchsize i = min (i + s.opt.batchsize) n := by unfold batchLen; split <;> omega
    rw [this]
  · rw [e4]
    exact ⟨hl'.1, by rw [hl'.2]; exact l0, by rw [hl'.2]; exact l1⟩
  have hw2 : params s'.opt.nn.layers = List.zipWith FloatOps.add (params nn.layers)
      ((batchGradF env c (mem i).sched loss X Y (setLoss recs nn name) order i (batchLen n s.opt.batchsize i)).map
        fun x => FloatOps.mul x (FloatOps.neg (decayLr s.lr s.decay s.nIter))) := by
    rw [← hpe, e2.nn, setParams_params _ _ e2.wlen]
    simp only [sgdF, hmom, Bool.false_and, Bool.false_eq_true, if_false, gradAt, setParams_self c _ hwm]
  intro k hk
  obtain ⟨g, g1, g2, g3⟩ := hgw k hk
  have hka : k < (params nn.layers).length := by rw [← hpe, hpl, n1]; exact hk
  have hfin : (params nn.layers)[k].isFinite = true := by
    have hmem := List.getElem_mem hka
    simp only [params, List.mem_flatMap] at hmem
    obtain ⟨l, hl, hmem⟩ := hmem
    have := hs.finite l hl
    rcases List.mem_append.mp hmem with h' | h'
    · exact this.2 _ h'
    · exact this.1 _ h'
  refine ⟨(params nn.layers)[k], B32.add (params nn.layers)[k] (B32.mul g (B32.neg (decayLr s.lr s.decay s.nIter))), List.getElem?_eq_getElem hka, ?_, hfin, ?_⟩
  · rw [hw2, List.getElem?_zipWith, List.getElem?_map, g1, List.getElem?_eq_getElem hka]
    rfl
  · have hmx := hmax k hk _ (List.getElem?_eq_getElem hka)
    have hE0 : 0 ≤ |at_ (meanGrad (nParams nn.layers) G ((order.drop i).take s.opt.batchsize)) k| +
        batchError envR (setLoss recs nn name) loss X Y ((order.drop i).take s.opt.batchsize) G (Spec.depth (mem i).sched) k :=
      add_nonneg (abs_nonneg _) ((abs_nonneg _).trans g3)
    rw [e4, hl'.2]
    refine sgd_elem ⟨hfin, rfl⟩ hl' l0 g2 g3 (le_trans ?_ hmx)
    have := mul_le_mul_of_nonneg_right l1 hE0
    linarith

/-! ### Example: two samples on two threads -/

/-- The example network with mean squared error. -/
noncomputable def exTrainB32 : Net B32 := setLoss [] exNetB32 "mean_squared_error"

theorem is_one : B32.Is (ofReal false 1) 1 := is_exact 1 0 (by norm_num) (by norm_num) (by norm_num) (by norm_num [max32])
theorem is_half : B32.Is (ofReal false (1 / 2)) (1 / 2) := is_exact 1 (-1) (by norm_num) (by norm_num) (by norm_num) (by norm_num [max32])
theorem is_quarter : B32.Is (ofReal false (1 / 4)) (1 / 4) := is_exact 1 (-2) (by norm_num) (by norm_num) (by norm_num) (by norm_num [max32])

/-- Inputs of two samples. -/
noncomputable def exXs : View B32 := ⟨20, [ofReal false (1 / 2), ofReal false 1, ofReal false 1, ofReal false (1 / 4)]⟩
/-- Their targets. -/
noncomputable def exYs : View B32 := ⟨36, [ofReal false (1 / 4), ofReal false (1 / 2)]⟩

theorem exTrainB32_eq : exTrainB32 = ⟨matchPair .mse (exNetB32.layers.map (resetDeriv [])), some .mse⟩ := by
  have : getLossFunc "mean_squared_error" = some .mse := by decide
  simp [exTrainB32, setLoss, this]

theorem exTrainableB32 (c : Cfg) : Trainable c .mse 2 exXs exYs exTrainB32 := by
  have hname : getLossFunc "mean_squared_error" = some .mse := by decide
  refine ⟨setLoss_wf _ _ _ _ (exNetB32_wf c), by rw [exTrainB32_eq], ?_, fun ga _ => ?_, by norm_num, ?_, ?_, ?_, ?_⟩
  · rw [exTrainB32_eq]
    simp [matchPair, exNetB32, resetDeriv, getActivationDerivative]
  · apply backAligned_of_small
    rw [exTrainB32_eq]
    simp [matchPair, exNetB32, resetDeriv]
  all_goals rw [exTrainB32_eq]; simp [Net.nInput, Net.nOutput, matchPair, exNetB32, resetDeriv, exXs, exYs]

theorem exSmooth : ∀ l ∈ exNetB32.layers, SmoothLayer 2 2 l.values := by
  have h1 := is_one
  have h2 := is_half
  have h4 := is_quarter
  intro l hl
  simp only [exNetB32, List.mem_cons, List.not_mem_nil, or_false] at hl
  rcases hl with rfl | rfl
  · refine ⟨⟨by simp [Squashing, Layer.values], le_rfl, ?_⟩, by simp [Layer.values], le_rfl, ?_⟩
    · intro k hk
      simp only [Layer.values] at hk
      interval_cases k <;> simp [Layer.values, at_, sum_range_succ, -one_div, h1.2, h2.2, h4.2] <;> norm_num [abs_of_pos]
    · intro k hk
      simp only [Layer.values] at hk
      interval_cases k <;> simp [Layer.values, at_, sum_range_succ, -one_div, h1.2, h2.2, h4.2] <;> norm_num [abs_of_pos]
  · refine ⟨⟨by simp [Squashing, Layer.values], le_rfl, ?_⟩, by simp [Layer.values], by simp [Layer.values], ?_⟩
    · intro k hk
      simp only [Layer.values] at hk
      interval_cases k
      simp [Layer.values, at_, sum_range_succ, -one_div, h1.2, h2.2, h4.2]
      norm_num [abs_of_pos]
    · intro k hk
      simp only [Layer.values] at hk
      interval_cases k <;> simp [Layer.values, at_, -one_div, h1.2, h2.2, h4.2] <;> norm_num [abs_of_pos]

theorem exFinite : ∀ l ∈ exNetB32.layers, l.Finite := by
  intro l hl
  simp only [exNetB32, List.mem_cons, List.not_mem_nil, or_false] at hl
  rcases hl with rfl | rfl <;> simp [Layer.Finite, -one_div, is_one.1, is_half.1, is_quarter.1]

theorem exData : (∀ x ∈ exXs.data, x.isFinite = true ∧ |x.value| ≤ 1) ∧ ∀ y ∈ exYs.data, y.isFinite = true ∧ |y.value| ≤ 1 := by
  have h1 := is_one
  have h2 := is_half
  have h4 := is_quarter
  constructor
  · intro x hx
    simp only [exXs, List.mem_cons, List.not_mem_nil, or_false] at hx
    rcases hx with rfl | rfl | rfl | rfl
    · exact ⟨h2.1, by rw [h2.2]; norm_num [abs_of_pos]⟩
    · exact ⟨h1.1, by rw [h1.2]; norm_num⟩
    · exact ⟨h1.1, by rw [h1.2]; norm_num⟩
    · exact ⟨h4.1, by rw [h4.2]; norm_num [abs_of_pos]⟩
  · intro y hy
    simp only [exYs, List.mem_cons, List.not_mem_nil, or_false] at hy
    rcases hy with rfl | rfl
    · exact ⟨h4.1, by rw [h4.2]; norm_num [abs_of_pos]⟩
    · exact ⟨h2.1, by rw [h2.2]; norm_num [abs_of_pos]⟩

/-- Two threads, each with one sample; the second one finishes first. -/
noncomputable def exMemB32 (c : Cfg) (jk : ℕ → B32) : BatchMem B32 :=
  ⟨.combine (.thread [1]) (.thread [0]), fun _ => ⟨4096, jk, 8192, jk, 12⟩, 16384, jk, if c.avx then 16 else 0, 32768, jk⟩

theorem exNetB32_nParams : nParams exNetB32.layers = 9 := by simp [exNetB32, nParams]

theorem exMemB32_ok (c : Cfg) (jk : ℕ → B32) : (exMemB32 c jk).OK c (nParams exNetB32.layers) (batchLen 2 2 0) := by
  refine ⟨?_, fun _ => align64 c 4096 rfl, fun _ => align64 c 8192 rfl, align64 c 16384 rfl, align64 c 32768 rfl, ?_⟩
  · simp only [Sched.Covers, exMemB32, Sched.iters]
    exact List.Perm.swap _ _ _
  · simp only [exMemB32, nParamPadding, exNetB32_nParams]
    split <;> simp [*]

/-- The mean gradient of two samples on two threads, in the order 1, 0 and in every build: error at most 3e-3. -/
example (c : Cfg) (jk : ℕ → B32) : ∃ (G : ℕ → List ℝ) (g tail : List B32),
    (∀ p ∈ [1, 0], IsGradient (noCustom ℝ) c (setLoss [] exNetB32.values "mean_squared_error")
      (fun o => Spec.mse exNetB32.nOutput o ((sampleOut exNetB32 exYs p).map B32.value)) ⟨20 + 4 * (p * exNetB32.nInput), (sampleIn exNetB32 exXs p).map B32.value⟩ (G p)) ∧
    @calcBatchGradient B32 (ops exactLibm) (@noCustom B32) c (exMemB32 c jk).thread (exMemB32 c jk).sched exTrainB32 (some [1, 0]) 2 2 exXs exYs 0
      ⟨65536, List.replicate 25 qnan⟩ = .ok (2, ⟨65536, g ++ tail⟩) ∧ g.length = 9 ∧
    ∀ k < 9, ∃ a, g[k]? = some a ∧ a.isFinite = true ∧ |a.value - (at_ (G 1) k + at_ (G 0) k) / 2| ≤ 3 / 10 ^ 3 := by
  obtain ⟨G, g, tail, h1, h2, h3, h4⟩ := C71_bounded (@noCustom B32) (noCustom ℝ) exactLibm_accurate c [] (exMemB32 c jk) exNetB32 "mean_squared_error" .mse
    (exNetB32_wf c) (by decide) (Or.inl rfl) 2 exXs exYs (exTrainableB32 c) exFinite exData.1 exData.2 2 2 _ _ (by norm_num) (by norm_num) (by norm_num)
    exSmooth rfl (by norm_num [exNetB32, sum_range_succ]) rfl 2 0 (by norm_num) (by norm_num) (by norm_num) (by simp [exMemB32, Spec.depth])
    (by norm_num [exNetB32, sum_range_succ]) (exMemB32_ok c jk) [1, 0] rfl (by decide) ⟨65536, List.replicate 25 qnan⟩ (align64 c _ rfl)
    (by rw [exNetB32_nParams, nParamPadding]; split <;> simp)
  rw [exNetB32_nParams] at h3 h4
  refine ⟨G, g, tail, h1, h2, h3, fun k hk => ?_⟩
  obtain ⟨a, a1, a2, a3⟩ := h4 k hk
  refine ⟨a, a1, a2, ?_⟩
  have e : at_ (meanGrad 9 G (([1, 0] : List ℕ).drop 0 |>.take 2)) k = (at_ (G 1) k + at_ (G 0) k) / 2 := by
    rw [meanGrad, at_range_map hk]
    simp [at_]
  rw [← e]
  refine a3.trans ?_
  norm_num [exNetB32, sum_range_succ, exMemB32, Spec.depth]

/-- A step of SGD for the same batch: every parameter moves by `-lr` times the mean gradient, up to 1e-3 at learning rate 1/4. -/
example (c : Cfg) (jk : ℕ → B32) : ∃ (G : ℕ → List ℝ) (s' : Sgd B32),
    @sgdStep B32 (ops exactLibm) (@noCustom B32) c (fun _ => exMemB32 c jk) 2 exXs exYs 0
      ⟨⟨exTrainB32, false, 2, .static, some [1, 0]⟩, ofReal false (1 / 4), zeroS false, zeroS false, false, 0, ⟨128, List.replicate 9 (zeroS false)⟩⟩ = .ok (2, s') ∧
    (∀ p ∈ [1, 0], IsGradient (noCustom ℝ) c (setLoss [] exNetB32.values "mean_squared_error")
      (fun o => Spec.mse exNetB32.nOutput o ((sampleOut exNetB32 exYs p).map B32.value)) ⟨20 + 4 * (p * exNetB32.nInput), (sampleIn exNetB32 exXs p).map B32.value⟩ (G p)) ∧
    ∀ k < 9, ∃ a b, (params exNetB32.layers)[k]? = some a ∧ (params s'.opt.nn.layers)[k]? = some b ∧
      |b.value - (a.value - s'.lr.value * ((at_ (G 1) k + at_ (G 0) k) / 2))| ≤ 1 / 10 ^ 3 := by
  have hname : getLossFunc "mean_squared_error" = some .mse := by decide
  obtain ⟨G, h1, hB, h2⟩ := smooth_batch (noCustom ℝ) c [] exNetB32 "mean_squared_error" .mse (exNetB32_wf c) hname (Or.inl rfl) 2 exXs exYs
    (exTrainableB32 c) exFinite exData.1 exData.2 2 2 _ _ (by norm_num) (by norm_num) (by norm_num) exSmooth rfl (by norm_num [exNetB32, sum_range_succ]) rfl
    [1, 0] (by simp) (by norm_num) (by decide) 2 (by norm_num) (by norm_num [exNetB32, sum_range_succ])
  have hd : Spec.depth (exMemB32 c jk).sched = 2 := by simp [exMemB32, Spec.depth]
  have hq := is_quarter
  have hz : (zeroS false).Within 0 (2 ^ 90) := ⟨(is_zeroS false).1, by rw [(is_zeroS false).2], by rw [(is_zeroS false).2]; norm_num⟩
  have hlt : B32.lt (zeroS false) (zeroS false) = false := by
    rw [← Bool.not_eq_true, B32.lt_iff (is_zeroS false) (is_zeroS false)]; norm_num
  have hmean : ∀ k < 9, at_ (meanGrad 9 G [1, 0]) k = (at_ (G 1) k + at_ (G 0) k) / 2 := by
    intro k hk
    rw [meanGrad, at_range_map hk]
    simp [at_]
  have hEb : ∀ k < 9, batchError (noCustom ℝ) (setLoss [] exNetB32 "mean_squared_error") .mse exXs exYs [1, 0] G 2 k ≤ 3 / 10 ^ 3 := by
    intro k hk
    refine (h2 k (by rw [exNetB32_nParams]; exact hk)).trans ?_
    norm_num [exNetB32, sum_range_succ]
  have hGb : ∀ k < 9, |(at_ (G 1) k + at_ (G 0) k) / 2| ≤ 8 := by
    intro k hk
    have a1 := hB 1 (by simp) k (by rw [exNetB32_nParams]; exact hk)
    have a0 := hB 0 (by simp) k (by rw [exNetB32_nParams]; exact hk)
    norm_num [exNetB32] at a1 a0
    rw [abs_le] at a1 a0 ⊢
    constructor <;> linarith [a1.1, a1.2, a0.1, a0.2]
  have hpa : ∀ (k : ℕ) (a : B32), (params exNetB32.layers)[k]? = some a → |a.value| ≤ 1 := by
    intro k a ha
    have := List.mem_of_getElem? ha
    simp [params, exNetB32, -one_div] at this
    have hv : a.value = 1 ∨ a.value = 1 / 2 ∨ a.value = 1 / 4 := by
      have hc : a = ofReal false 1 ∨ a = ofReal false (1 / 2) ∨ a = ofReal false (1 / 4) := by tauto
      rcases hc with h | h | h <;> rw [h] <;> simp only [is_one.2, is_half.2, is_quarter.2, true_or, or_true]
    rcases hv with h | h | h <;> rw [h] <;> norm_num [abs_of_pos]
  obtain ⟨s', e1, e2, -, e4⟩ := C71_sgd (@noCustom B32) (noCustom ℝ) exactLibm_accurate c [] (fun _ => exMemB32 c jk) exNetB32 "mean_squared_error" .mse (exNetB32_wf c) hname 2
    exXs exYs (exTrainableB32 c) 0 (by norm_num)
    ⟨⟨exTrainB32, false, 2, .static, some [1, 0]⟩, ofReal false (1 / 4), zeroS false, zeroS false, false, 0, ⟨128, List.replicate 9 (zeroS false)⟩⟩ rfl
    (by norm_num) hlt (List.replicate 9 (zeroS false)) ⟨align64 c 128 rfl, rfl, by rw [exNetB32_nParams]; simp⟩ (exMemB32_ok c jk) [1, 0] rfl rfl (by decide)
    ⟨hq.1, by simp only []; rw [hq.2]; norm_num, by simp only []; rw [hq.2]; norm_num⟩ hz (by norm_num) G (by rw [hd]; exact h1)
    (by
      intro k hk a ha
      rw [exNetB32_nParams] at hk ⊢
      rw [hd]
      have b1 := hpa k a ha
      have b2 := hEb k hk
      have b3 := hGb k hk
      rw [← hmean k hk] at b3
      show |a.value| + 2 * ((ofReal false (1 / 4)).value * (|at_ (meanGrad 9 G [1, 0]) k| +
        batchError (noCustom ℝ) (setLoss [] exNetB32 "mean_squared_error") .mse exXs exYs [1, 0] G 2 k)) ≤ 2 ^ 126
      rw [hq.2]
      norm_num at b2 ⊢
      linarith)
  refine ⟨G, s', e1, h1.gradient, fun k hk => ?_⟩
  obtain ⟨a, b, a1, a2, -, -, a5⟩ := e4 k (by rw [exNetB32_nParams]; exact hk)
  refine ⟨a, b, a1, a2, ?_⟩
  rw [exNetB32_nParams, hd] at a5
  have b1 := hpa k a a1
  have b2 := hEb k hk
  have b3 := hGb k hk
  rw [← hmean k hk] at b3 ⊢
  obtain ⟨-, l0, l1⟩ := e2
  simp only [hq.2] at l1
  have b4 : s'.lr.value * batchError (noCustom ℝ) (setLoss [] exNetB32 "mean_squared_error") .mse exXs exYs [1, 0] G 2 k ≤ 1 / 4 * (3 / 10 ^ 3) := by
    refine (mul_le_mul_of_nonneg_left b2 l0).trans (mul_le_mul_of_nonneg_right l1 (by norm_num))
  have b5 : s'.lr.value * |at_ (meanGrad 9 G [1, 0]) k| ≤ 1 / 4 * 8 := mul_le_mul l1 b3 (abs_nonneg _) (by norm_num)
  refine a5.trans ?_
  show s'.lr.value * batchError (noCustom ℝ) (setLoss [] exNetB32 "mean_squared_error") .mse exXs exYs [1, 0] G 2 k + 2 ^ (-24 : ℤ) * (|a.value| + 3 *
    (s'.lr.value * (|at_ (meanGrad 9 G [1, 0]) k| + batchError (noCustom ℝ) (setLoss [] exNetB32 "mean_squared_error") .mse exXs exYs [1, 0] G 2 k))) + 2 ^ (-148 : ℤ) ≤ _
  rw [mul_add]
  norm_num at b4 b5 ⊢
  linarith

end NN
