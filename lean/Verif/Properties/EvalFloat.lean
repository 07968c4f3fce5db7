import Verif.Properties.Evaluate
import Verif.Properties.Progress
import Verif.Properties.Rounding
import Verif.Proofs.ExpFloat
import Verif.Proofs.ActFloat
/-
C68: the results of evaluate in `float` arithmetic, for every distribution of the samples over threads.
-/
set_option linter.unusedSectionVars false

namespace NN
open FloatOps _root_.Spec

/-! ### Specification -/

section
variable {F : Type} [FloatOps F]

/-- The sum of `v i` in the order of a schedule: every thread starts at zero and adds its samples, then the sums of the threads are
combined. -/
def Spec.treeSum (v : ℕ → F) : Sched → F
  | .thread is => is.foldl (fun s i => add s (v i)) zero
  | .combine a b => add (treeSum v a) (treeSum v b)

/-- The largest number of additions an element takes part in. -/
def Spec.depth : Sched → ℕ
  | .thread is => is.length
  | .combine a b => max (depth a) (depth b) + 1

/-- `preds i` is what the network answers for sample `i`. -/
def Spec.Predicts (env : CustomEnv F) (c : Cfg) (mem : ℕ → ThreadMem F) (nn : Net F) (n : ℕ) (X : View F) (preds : ℕ → View F) : Prop :=
  ∀ i < n, predict env c (mem i).workAddr (mem i).junk nn (X.offset (i * nn.nInput))
    (stackArray (mem i).predAddr nn.nOutput (mem i).predJunk) = .ok (preds i)

/-! ### Any float operations -/

theorem accMetrics_vals (n : ℕ) (p y : View F) (f : Metric → F) : ∀ (ms : List Metric) (res : List F),
    (∀ m ∈ ms, runMetric m n p y = .ok (f m)) → res.length = ms.length →
    accMetrics n p y ms res = .ok (List.zipWith add res (ms.map f))
  | [], res, _, h => by cases res <;> simp_all [accMetrics, pure, Except.pure]
  | m :: ms, [], _, h => by simp at h
  | m :: ms, r :: res, hm, h => by
    simp [accMetrics, hm m (by simp), accMetrics_vals n p y f ms res (fun m' h' => hm m' (by simp [h'])) (by simpa using h), bind,
      Except.bind, pure, Except.pure]

theorem foldlM_tree (k : ℕ) (val : ℕ → ℕ → F) (body : ℕ → List F → M (List F)) : ∀ (is : List ℕ) (g : ℕ → F),
    (∀ i ∈ is, ∀ s : List F, s.length = k → body i s = .ok (List.zipWith add s ((List.range k).map fun j => val j i))) →
    is.foldlM (fun s i => body i s) ((List.range k).map g) =
      .ok ((List.range k).map fun j => is.foldl (fun s i => add s (val j i)) (g j))
  | [], g, _ => rfl
  | i :: is, g, h => by
    rw [List.foldlM_cons, h i (by simp) _ (by simp)]
    simp only [bind, Except.bind]
    rw [List.zipWith_map, List.zipWith_self]
    exact foldlM_tree k val body is (fun j => add (g j) (val j i)) fun i' hi' => h i' (by simp [hi'])

theorem reduce_tree (k : ℕ) (val : ℕ → ℕ → F) (body : ℕ → List F → M (List F)) : ∀ sched : Sched,
    (∀ i ∈ sched.iters, ∀ s : List F, s.length = k → body i s = .ok (List.zipWith add s ((List.range k).map fun j => val j i))) →
    sched.reduce ((List.range k).map fun _ => zero) body (List.zipWith add) = .ok ((List.range k).map fun j => Spec.treeSum (val j) sched)
  | .thread is, h => by
    rw [Sched.reduce, foldlM_tree k val body is _ h]
    rfl
  | .combine a b, h => by
    rw [Sched.reduce, reduce_tree k val body a fun i hi => h i (by simp [Sched.iters, hi]),
      reduce_tree k val body b fun i hi => h i (by simp [Sched.iters, hi])]
    simp only [bind, Except.bind, pure, Except.pure, List.zipWith_map, List.zipWith_self]
    rfl

theorem Spec.Predicts.unique {env : CustomEnv F} {c : Cfg} {mem : ℕ → ThreadMem F} {nn : Net F} {n : ℕ} {X : View F} {p q : ℕ → View F}
    (hp : Spec.Predicts env c mem nn n X p) (hq : Spec.Predicts env c mem nn n X q) : ∀ i < n, p i = q i := by
  intro i hi
  have := (hp i hi).symm.trans (hq i hi)
  exact Except.ok.inj this

/-- **C68** For any float operations: result `j` of `evaluate` is the sum, in the order of the schedule, of the values of metric `j` on
the predictions, divided by the number of samples. -/
theorem C68_sum (env : CustomEnv F) (c : Cfg) (mem : ℕ → ThreadMem F) (sched : Sched) (nn : Net F) (n : ℕ)
    (hs : sched.Covers n) (X Y : View F) (ms : List Metric) (rest : List (Option Metric)) (results : View F)
    (hw : nn.WF c) (hmem : ∀ i, (mem i).workAddr % c.alignSize = 0 ∧ (mem i).predAddr % c.alignSize = 0)
    (hX : n * nn.nInput ≤ X.data.length) (hY : n * nn.nOutput ≤ Y.data.length) (hr : ms.length ≤ results.data.length) :
    ∃ (preds : ℕ → View F) (val : Metric → ℕ → F), Spec.Predicts env c mem nn n X preds ∧
      (∀ i < n, nn.nOutput ≤ (preds i).data.length) ∧
      (∀ m, ∀ i < n, runMetric m nn.nOutput (preds i) (Y.offset (i * nn.nOutput)) = .ok (val m i)) ∧
      evaluate env c mem sched nn n X Y (ms.map some ++ none :: rest) results =
        .ok ⟨results.addr, (ms.map fun m => div (add zero (Spec.treeSum (val m) sched)) (ofNat n)) ++ results.data.drop ms.length⟩ := by
  obtain ⟨last, hlast, hno, hlw⟩ := exists_last hw
  have hm : 1 ≤ nn.nOutput := by rw [hno]; exact hlw.out_pos
  have hoff : ∀ i < n, nn.nInput ≤ (X.offset (i * nn.nInput)).data.length ∧ nn.nOutput ≤ (Y.offset (i * nn.nOutput)).data.length := by
    intro i hi
    have h1 : (i + 1) * nn.nInput ≤ n * nn.nInput := Nat.mul_le_mul_right _ hi
    have h2 : (i + 1) * nn.nOutput ≤ n * nn.nOutput := Nat.mul_le_mul_right _ hi
    rw [Nat.succ_mul] at h1 h2
    constructor <;> simp only [View.offset, List.length_drop] <;> omega
  let preds : ℕ → View F := fun i => ⟨(mem i).predAddr, netF env c (mem i).predAddr nn.layers ((X.offset (i * nn.nInput)).data.take nn.nInput) ++
    (stackArray (mem i).predAddr nn.nOutput (mem i).predJunk).data.drop nn.nOutput⟩
  have hpred : Spec.Predicts env c mem nn n X preds := fun i hi =>
    predict_netF env c _ _ nn _ _ hw (hmem i).1 (hoff i hi).1 (by rw [stackArray_length]) (AlignedFor.of_aligned (hmem i).2)
  have hplen : ∀ i < n, nn.nOutput ≤ (preds i).data.length := by
    intro i hi
    have := netF_length env c (mem i).predAddr nn.layers (List.take nn.nInput (X.offset (i * nn.nInput)).data) last hlast hw.layer
    simp only [preds, List.length_append]
    rw [this, hno]; omega
  have hval : ∀ m i, ∃ r, i < n → runMetric m nn.nOutput (preds i) (Y.offset (i * nn.nOutput)) = .ok r := by
    intro m i
    by_cases hi : i < n
    · obtain ⟨r, h⟩ := runMetric_ok m nn.nOutput hm (preds i) _ (hplen i hi) (hoff i hi).2
      exact ⟨r, fun _ => h⟩
    · exact ⟨zero, fun h => absurd h hi⟩
  choose val hval using hval
  refine ⟨preds, val, hpred, hplen, fun m i hi => hval m i hi, ?_⟩
  have hred := reduce_tree ms.length (fun j i => val (ms.getD j .mse) i) (evaluateBody env c mem nn X Y ms) sched (by
    intro i hi s hsl
    have hin : i < n := by have := (hs.mem_iff).mp hi; simpa using this
    unfold evaluateBody
    rw [hpred i hin]
    simp only [bind, Except.bind]
    rw [accMetrics_vals nn.nOutput (preds i) _ (fun m => val m i) ms s (fun m _ => hval m i hin) hsl]
    congr 2
    apply List.ext_getElem
    · simp
    · intro j h1 h2
      simp at h1
      simp [h1])
  have hz : (ms.map fun _ => (zero : F)) = (List.range ms.length).map fun _ => zero := by
    simp [List.map_const']
  unfold evaluate
  simp only [metricList_eq, bind, Except.bind, hz, hred]
  rw [writeResults n ms.length _ (by simp) results hr]
  congr 3
  rw [List.zipWith_map, List.zipWith_self, List.map_map]
  apply List.ext_getElem
  · simp
  · intro j h1 h2
    simp at h1
    simp [h1]

end

/-! ### Rounding errors -/

/-- A sum in the order of a schedule, in the standard model of floats. -/
theorem near_treeSum {F : Type} [FloatOps F] {P : FloatModel F} {v : ℕ → F} {r : ℕ → ℝ} {K : ℕ} {T : ℝ} (hΩ : (1 + P.u) ^ K * T ≤ P.Ω) :
    ∀ sched : Sched, (∀ i ∈ sched.iters, P.Is (v i) (r i)) → Spec.depth sched ≤ K → (sched.iters.map fun i => |r i|).sum ≤ T →
      P.Near (Spec.depth sched) 0 (sched.iters.map fun i => |r i|).sum (sched.iters.map r).sum (Spec.treeSum v sched)
  | .thread is, h, hK, hT => by
    have key : ∀ (is : List ℕ) (k : ℕ) (S y : ℝ) (a : F), (∀ i ∈ is, P.Is (v i) (r i)) → P.Near k 0 S y a →
        k + is.length ≤ K → S + (is.map fun i => |r i|).sum ≤ T →
        P.Near (k + is.length) 0 (S + (is.map fun i => |r i|).sum) (y + (is.map r).sum) (is.foldl (fun s i => add s (v i)) a) := by
      intro is
      induction is with
      | nil => intro k S y a _ h _ _; simpa using h
      | cons i is ih =>
        intro k S y a h ha hk hS
        simp only [List.length_cons, List.map_cons, List.sum_cons, List.foldl_cons] at hk hS ⊢
        have hS0 : 0 ≤ S := ha.nonneg
        have hrest : 0 ≤ (is.map fun i => |r i|).sum := List.sum_nonneg (by simp only [List.mem_map]; rintro _ ⟨_, _, rfl⟩; exact abs_nonneg _)
        have h1 : P.Near k 0 |r i| (r i) (v i) :=
          (FloatModel.near_exact (h i (by simp))).mono le_rfl (by omega) le_rfl le_rfl
        have h2 := ha.add h1 (by
          refine le_trans ?_ hΩ
          have p := P.pow_mono (show k ≤ K by omega)
          have p0 := P.one_le_pow k
          have : S + |r i| + (0 + 0) * P.η ≤ T := by linarith
          exact mul_le_mul p this (by have := abs_nonneg (r i); linarith) (by linarith [P.one_le_pow K]))
        have h3 := ih (k + 1) (S + |r i|) (y + r i) _ (fun j hj => h j (by simp [hj])) (by simpa using h2) (by omega) (by linarith)
        rw [show k + (is.length + 1) = k + 1 + is.length by omega, ← add_assoc, ← add_assoc]
        exact h3
    have := key is 0 0 0 zero h (by simpa using FloatModel.near_exact P.zero) (by simpa [Spec.depth] using hK) (by simpa [Sched.iters] using hT)
    simpa [Spec.depth, Sched.iters, Spec.treeSum] using this
  | .combine a b, h, hK, hT => by
    simp only [Spec.depth] at hK
    simp only [Sched.iters, List.map_append, List.sum_append] at hT ⊢
    have na : 0 ≤ (a.iters.map fun i => |r i|).sum := List.sum_nonneg (by simp only [List.mem_map]; rintro _ ⟨_, _, rfl⟩; exact abs_nonneg _)
    have nb : 0 ≤ (b.iters.map fun i => |r i|).sum := List.sum_nonneg (by simp only [List.mem_map]; rintro _ ⟨_, _, rfl⟩; exact abs_nonneg _)
    have ha := near_treeSum hΩ a (fun i hi => h i (by simp [Sched.iters, hi])) (by omega) (by linarith)
    have hb := near_treeSum hΩ b (fun i hi => h i (by simp [Sched.iters, hi])) (by omega) (by linarith)
    have := (ha.mono le_rfl (le_max_left _ (Spec.depth b)) le_rfl le_rfl).add (hb.mono le_rfl (le_max_right (Spec.depth a) _) le_rfl le_rfl) (by
      refine le_trans ?_ hΩ
      have p := P.pow_mono (show max (Spec.depth a) (Spec.depth b) ≤ K by omega)
      refine mul_le_mul p (by linarith) (by linarith) (by linarith [P.one_le_pow K]))
    simpa [Spec.depth, Spec.treeSum] using this

theorem covers_sum {A : Type} [AddCommMonoid A] {sched : Sched} {n : ℕ} (h : sched.Covers n) (f : ℕ → A) :
    (sched.iters.map f).sum = ∑ i ∈ Finset.range n, f i := by
  rw [(h.map f).sum_eq]
  induction n generalizing sched with
  | zero => simp
  | succ n ih =>
    rw [List.range_succ, List.map_append, List.sum_append, Finset.sum_range_succ, ih (sched := .thread (List.range n)) (.refl _)]
    simp

/-- The mean of finite numbers, summed in the order of a schedule. -/
theorem mean_float (L : B32.Libm) {sched : Sched} {n : ℕ} (hs : sched.Covers n) (hn : 1 ≤ n) (hn24 : n ≤ 2 ^ 24) {v : ℕ → B32} {r : ℕ → ℝ}
    (hv : ∀ i < n, B32.Is (v i) (r i)) (hpeak : peak (Spec.depth sched + 2) 0 (∑ i ∈ Finset.range n, |r i|) ≤ max32) :
    letI := B32.ops L
    (div (add zero (Spec.treeSum v sched)) (ofNat n) : B32).isFinite = true ∧
      |(div (add zero (Spec.treeSum v sched)) (ofNat n) : B32).value - (∑ i ∈ Finset.range n, r i) / n| ≤
        slack (Spec.depth sched + 2) 0 (∑ i ∈ Finset.range n, |r i|) / n + η32 := by
  let _ := B32.ops L
  have hval : ∀ i ∈ sched.iters, (B32.model L).Is (v i) (r i) := fun i hi => hv i (by simpa using (hs.mem_iff).mp hi)
  set S := ∑ i ∈ Finset.range n, |r i| with hS
  have hS0 : 0 ≤ S := Finset.sum_nonneg fun _ _ => abs_nonneg _
  have hpk : (1 + u32) ^ (Spec.depth sched + 2) * S ≤ max32 := by simpa [peak] using hpeak
  have hΩ : (1 + (B32.model L).u) ^ (Spec.depth sched + 2) * S ≤ (B32.model L).Ω := hpk
  have h1 := near_treeSum (P := B32.model L) (v := v) (r := r) (K := Spec.depth sched + 2) (T := S) hΩ sched hval (by omega)
    (by rw [covers_sum hs])
  rw [covers_sum hs, covers_sum hs, ← hS] at h1
  have h2 := ((FloatModel.near_exact (P := B32.model L) (B32.model L).zero).mono le_rfl (Nat.zero_le (Spec.depth sched)) le_rfl le_rfl).add h1 (by
    refine le_trans ?_ hΩ
    refine mul_le_mul ((B32.model L).pow_mono (by omega)) (by simp) (by simpa using hS0) (by linarith [(B32.model L).one_le_pow (Spec.depth sched + 2)]))
  simp only [abs_zero, zero_add] at h2
  obtain ⟨z, i1, i2, i3, i4⟩ := h2.bound
  simp only [zero_mul, add_zero] at i3 i4
  have hnr : (0 : ℝ) < n := by exact_mod_cast hn
  have hofN : B32.Is (B32.ofReal false (n : ℝ)) (n : ℝ) := by
    have := B32.is_ofReal (s := false) (x := (n : ℝ)) (by
      rw [abs_of_nonneg hnr.le]; unfold B32.maxF32
      have : (n : ℝ) ≤ 2 ^ 24 := by exact_mod_cast hn24
      exact this.trans (by norm_num))
    rwa [B32.rnd_natCast hn24] at this
  have hzle : |z| ≤ max32 := by
    refine i4.trans (le_trans ?_ hpk)
    exact mul_le_mul_of_nonneg_right ((B32.model L).pow_mono (by omega)) hS0
  have hn1 : (1 : ℝ) ≤ n := by exact_mod_cast hn
  have hq : |z / n| ≤ B32.maxF32 := by
    rw [abs_div, abs_of_pos hnr]
    exact (div_le_self (abs_nonneg _) hn1).trans hzle
  obtain ⟨q, iq, eq⟩ := (B32.model L).div i1 hofN hnr.ne' hq
  refine ⟨iq.1, ?_⟩
  rw [show (div (add zero (Spec.treeSum (v) sched)) (ofNat n) : B32).value = q from iq.2]
  have hu : (B32.model L).u = u32 := rfl
  have hη : (B32.model L).η = η32 := rfl
  rw [hu] at i3 i4 eq
  rw [hη] at eq
  have hu0 : 0 ≤ u32 := (B32.model L).u_nonneg
  rw [abs_div, abs_of_pos hnr] at eq
  have e1 : |q - (∑ i ∈ Finset.range n, r i) / n| ≤ |q - z / n| + |z - ∑ i ∈ Finset.range n, r i| / n := by
    have : q - (∑ i ∈ Finset.range n, r i) / n = (q - z / n) + (z - ∑ i ∈ Finset.range n, r i) / n := by ring
    rw [this]
    refine (abs_add_le _ _).trans ?_
    rw [abs_div, abs_of_pos hnr]
  have e2 : u32 * (|z| / n) + |z - ∑ i ∈ Finset.range n, r i| / n ≤ slack (Spec.depth sched + 2) 0 S / n := by
    rw [← mul_div_assoc, ← add_div]
    refine div_le_div_of_nonneg_right ?_ hnr.le
    have := mul_le_mul_of_nonneg_left i4 hu0
    simp only [slack, Nat.cast_zero, zero_mul, add_zero]
    rw [pow_succ (1 + u32) (Spec.depth sched + 1)]
    linarith
  linarith

/-- **C68** In binary32: if the values of a metric on the samples are finite, the reported mean is finite and differs from the
exact mean of these values by at most the bound for `depth + 2` roundings.  The depth is at most the number of samples of the
busiest thread plus the number of combinations. -/
theorem C68_error (L : B32.Libm) (env : CustomEnv B32) (c : Cfg) (mem : ℕ → ThreadMem B32) (sched : Sched) (nn : Net B32) (n : ℕ)
    (hs : sched.Covers n) (X Y : View B32) (ms : List Metric) (rest : List (Option Metric)) (results : View B32)
    (hw : nn.WF c) (hmem : ∀ i, (mem i).workAddr % c.alignSize = 0 ∧ (mem i).predAddr % c.alignSize = 0)
    (hX : n * nn.nInput ≤ X.data.length) (hY : n * nn.nOutput ≤ Y.data.length) (hr : ms.length ≤ results.data.length)
    (hn : 1 ≤ n) (hn24 : n ≤ 2 ^ 24) (preds : ℕ → View B32) (hp : @Spec.Predicts B32 (B32.ops L) env c mem nn n X preds) :
    letI := B32.ops L
    ∃ out : List B32,
      evaluate env c mem sched nn n X Y (ms.map some ++ none :: rest) results = .ok ⟨results.addr, out ++ results.data.drop ms.length⟩ ∧
      out.length = ms.length ∧
      ∀ (j : ℕ) (m : Metric) (r : ℕ → ℝ), ms[j]? = some m →
        (∀ i < n, ∃ e, runMetric m nn.nOutput (preds i) (Y.offset (i * nn.nOutput)) = .ok e ∧ B32.Is e (r i)) →
        peak (Spec.depth sched + 2) 0 (∑ i ∈ Finset.range n, |r i|) ≤ max32 →
        ∃ a, out[j]? = some a ∧ a.isFinite = true ∧
          |a.value - (∑ i ∈ Finset.range n, r i) / n| ≤ slack (Spec.depth sched + 2) 0 (∑ i ∈ Finset.range n, |r i|) / n + η32 := by
  let _ := B32.ops L
  obtain ⟨preds', val, hp', hpl, hv, he⟩ := C68_sum env c mem sched nn n hs X Y ms rest results hw hmem hX hY hr
  refine ⟨_, he, by simp, ?_⟩
  intro j m r hj hrun hpeak
  refine ⟨div (add zero (Spec.treeSum (val m) sched)) (ofNat n), by simp [hj], ?_⟩
  refine mean_float L hs hn hn24 (fun i hin => ?_) hpeak
  obtain ⟨e, h1, h2⟩ := hrun i hin
  rw [hp.unique hp' i hin, hv m i hin] at h1
  cases h1
  exact h2

/-! ### Accuracy -/

theorem add_nat {a b : B32} {x y : ℕ} (ha : B32.Is a x) (hb : B32.Is b y) (h : x + y ≤ 2 ^ 24) :
    B32.Is (B32.add a b) ((x + y : ℕ) : ℝ) := by
  have hc : ((x + y : ℕ) : ℝ) ≤ 2 ^ 24 := by exact_mod_cast h
  have := B32.add_is ha hb (by
    rw [← Nat.cast_add, abs_of_nonneg (Nat.cast_nonneg _)]; unfold B32.maxF32
    exact hc.trans (by norm_num))
  rwa [← Nat.cast_add, B32.rnd_natCast h] at this

/-- Counting is exact up to 2^24, in every order. -/
theorem treeSum_nat (L : B32.Libm) {v : ℕ → B32} {r : ℕ → ℕ} : ∀ sched : Sched, (∀ i ∈ sched.iters, B32.Is (v i) (r i)) →
    (sched.iters.map r).sum ≤ 2 ^ 24 → B32.Is (@Spec.treeSum B32 (B32.ops L) v sched) ((sched.iters.map r).sum : ℕ)
  | .thread is, h, hs => by
    have key : ∀ (is : List ℕ) (x : ℕ) (a : B32), (∀ i ∈ is, B32.Is (v i) (r i)) → B32.Is a x → x + (is.map r).sum ≤ 2 ^ 24 →
        B32.Is (is.foldl (fun s i => B32.add s (v i)) a) ((x + (is.map r).sum : ℕ) : ℝ) := by
      intro is
      induction is with
      | nil => intro x a _ h _; simpa using h
      | cons i is ih =>
        intro x a h ha hx
        simp only [List.map_cons, List.sum_cons, List.foldl_cons] at hx ⊢
        have := ih (x + r i) _ (fun j hj => h j (by simp [hj])) (add_nat ha (h i (by simp)) (by omega)) (by omega)
        rwa [Nat.add_assoc] at this
    have := key is 0 (B32.zeroS false) h (by simpa using B32.is_zeroS false) (by simpa [Sched.iters] using hs)
    rw [Nat.zero_add] at this
    exact this
  | .combine a b, h, hs => by
    simp only [Sched.iters, List.map_append, List.sum_append] at hs ⊢
    exact add_nat (treeSum_nat L a (fun i hi => h i (by simp [Sched.iters, hi])) (by omega))
      (treeSum_nat L b (fun i hi => h i (by simp [Sched.iters, hi])) (by omega)) hs

/-- The scan of the code on finite floats. -/
theorem argmaxF_float (L : B32.Libm) (l : List B32) (m : ℕ) (hm : m ≤ l.length) (hl : ∀ a ∈ l.take m, a.isFinite = true) (k : ℕ)
    (hk : k < m) :
    letI := B32.ops L
    FirstMax (k + 1) (l.map B32.value) (argmaxF l k).2 ∧ B32.Is (argmaxF l k).1 (at_ (l.map B32.value) (argmaxF l k).2) := by
  let _ := B32.ops L
  have hat : ∀ j < m, B32.Is (l.getD j zero) (at_ (l.map B32.value) j) := by
    intro j hj
    have hjl : j < l.length := by omega
    rw [List.getD_eq_getElem?_getD, List.getElem?_eq_getElem hjl]
    refine ⟨hl _ (List.mem_take_iff_getElem.2 ⟨j, by omega, rfl⟩), ?_⟩
    simp [at_, hjl]
  induction k with
  | zero =>
    refine ⟨⟨by simp [argmaxF], ?_, by simp [argmaxF]⟩, hat 0 hk⟩
    intro j hj
    obtain rfl : j = 0 := by omega
    exact le_rfl
  | succ k ih =>
    obtain ⟨⟨h1, h2, h3⟩, h4⟩ := ih (by omega)
    have h5 := hat (k + 1) hk
    simp only [argmaxF]
    by_cases h : FloatOps.lt (argmaxF l k).1 (l.getD (k + 1) zero) = true
    · rw [if_pos h]
      have hlt := (B32.lt_iff h4 h5).1 h
      refine ⟨⟨by simp, ?_, ?_⟩, h5⟩
      · intro j hj
        rcases Nat.lt_succ_iff_lt_or_eq.1 hj with hj | rfl
        · exact (h2 j hj).trans hlt.le
        · exact le_rfl
      · intro j hj
        exact (h2 j hj).trans_lt hlt
    · rw [if_neg h]
      have hge := not_lt.1 fun hlt => h ((B32.lt_iff h4 h5).2 hlt)
      refine ⟨⟨by omega, ?_, h3⟩, h4⟩
      intro j hj
      rcases Nat.lt_succ_iff_lt_or_eq.1 hj with hj | rfl
      · exact h2 j hj
      · exact hge

/-- The class of the prediction, the first largest output, is the class of the target. -/
def Spec.Hit (m : ℕ) (p y : List B32) : Prop :=
  ∃ k, FirstMax m (p.map B32.value) k ∧ FirstMax m (y.map B32.value) k

open Classical in
/-- The number of samples classified as their targets. -/
noncomputable def Spec.hits (m n : ℕ) (p y : ℕ → List B32) : ℕ := ((Finset.range n).filter fun i => Spec.Hit m (p i) (y i)).card

theorem accuracy_float (L : B32.Libm) (m : ℕ) (hm : 1 ≤ m) (p y : View B32) (hp : m ≤ p.data.length) (hy : m ≤ y.data.length)
    (fp : ∀ a ∈ p.data.take m, a.isFinite = true) (fy : ∀ a ∈ y.data.take m, a.isFinite = true) :
    letI := B32.ops L
    ∃ e, runMetric .categoricalAccuracy m p y = .ok e ∧
      B32.Is e ((open Classical in if Spec.Hit m p.data y.data then 1 else 0 : ℕ) : ℝ) := by
  let _ := B32.ops L
  have h1 := (argmaxF_float L p.data m hp fp (m - 1) (by omega)).1
  have h2 := (argmaxF_float L y.data m hy fy (m - 1) (by omega)).1
  rw [Nat.sub_add_cancel hm] at h1 h2
  simp only [runMetric, argmaxLoop_eq m _ hm hp, argmaxLoop_eq m _ hm hy, bind, Except.bind, pure, Except.pure]
  refine ⟨_, rfl, ?_⟩
  by_cases h : Spec.Hit m p.data y.data
  · obtain ⟨k, k1, k2⟩ := id h
    rw [firstMax_unique h1 k1, firstMax_unique h2 k2, if_pos h]
    rw [beq_self_eq_true, if_pos rfl, Nat.cast_one]; exact B32.is_one
  · rw [if_neg h, if_neg]
    · rw [Nat.cast_zero]; exact B32.is_zeroS false
    · intro he
      refine h ⟨_, h1, ?_⟩
      rw [beq_iff_eq.1 he]
      exact h2

/-- **C68** The categorical accuracy in binary32: for up to 2^24 samples it is the float nearest to the number of samples whose
predicted class is that of the target, divided by the number of samples, whatever the number of threads and the order. -/
theorem C68_accuracy_partial (L : B32.Libm) (env : CustomEnv B32) (c : Cfg) (mem : ℕ → ThreadMem B32) (sched : Sched) (nn : Net B32) (n : ℕ)
    (hs : sched.Covers n) (X Y : View B32) (ms : List Metric) (rest : List (Option Metric)) (results : View B32)
    (hw : nn.WF c) (hmem : ∀ i, (mem i).workAddr % c.alignSize = 0 ∧ (mem i).predAddr % c.alignSize = 0)
    (hX : n * nn.nInput ≤ X.data.length) (hY : n * nn.nOutput ≤ Y.data.length) (hr : ms.length ≤ results.data.length)
    (hn : 1 ≤ n) (hn24 : n ≤ 2 ^ 24) (preds : ℕ → View B32) (hp : @Spec.Predicts B32 (B32.ops L) env c mem nn n X preds)
    (fp : ∀ i < n, ∀ a ∈ (preds i).data.take nn.nOutput, a.isFinite = true) (fy : ∀ a ∈ Y.data, a.isFinite = true) :
    letI := B32.ops L
    ∃ out : List B32,
      evaluate env c mem sched nn n X Y (ms.map some ++ none :: rest) results = .ok ⟨results.addr, out ++ results.data.drop ms.length⟩ ∧
      out.length = ms.length ∧
      ∀ j : ℕ, ms[j]? = some Metric.categoricalAccuracy → ∃ a, out[j]? = some a ∧
        B32.Is a (B32.rnd (Spec.hits nn.nOutput n (fun i => (preds i).data) (fun i => Y.data.drop (i * nn.nOutput)) / n)) := by
  classical
  let _ := B32.ops L
  obtain ⟨preds', val, hp', hpl, hv, he⟩ := C68_sum env c mem sched nn n hs X Y ms rest results hw hmem hX hY hr
  obtain ⟨last, hlast, hno, hlw⟩ := exists_last hw
  have hm : 1 ≤ nn.nOutput := by rw [hno]; exact hlw.out_pos
  refine ⟨_, he, by simp, ?_⟩
  intro j hj
  refine ⟨div (add zero (Spec.treeSum (val .categoricalAccuracy) sched)) (ofNat n), by simp [hj], ?_⟩
  let r : ℕ → ℕ := fun i => if Spec.Hit nn.nOutput (preds i).data (Y.data.drop (i * nn.nOutput)) then 1 else 0
  have hval : ∀ i ∈ sched.iters, B32.Is (val .categoricalAccuracy i) (r i) := by
    intro i hi
    have hin : i < n := by have := (hs.mem_iff).mp hi; simpa using this
    have hlen := hpl i hin
    have hu := hp.unique hp' i hin
    have h2 : (i + 1) * nn.nOutput ≤ n * nn.nOutput := Nat.mul_le_mul_right _ hin
    rw [Nat.succ_mul] at h2
    obtain ⟨e, e1, e2⟩ := accuracy_float L nn.nOutput hm (preds i) (Y.offset (i * nn.nOutput)) (by rw [hu]; exact hlen)
      (by simp only [View.offset, List.length_drop]; omega) (fp i hin)
      (fun a ha => fy a (List.mem_of_mem_drop (List.mem_of_mem_take ha)))
    have e3 := hv .categoricalAccuracy i hin
    rw [← hu] at e3
    have : e = val .categoricalAccuracy i := Except.ok.inj (e1.symm.trans e3)
    rw [← this]
    exact e2
  have hsum : (sched.iters.map r).sum = Spec.hits nn.nOutput n (fun i => (preds i).data) (fun i => Y.data.drop (i * nn.nOutput)) := by
    rw [covers_sum hs, Spec.hits, Finset.card_filter]
  have hcard : (sched.iters.map r).sum ≤ n := by
    rw [hsum, Spec.hits]
    exact (Finset.card_filter_le _ _).trans (by simp)
  have h1 := treeSum_nat L (v := val .categoricalAccuracy) (r := r) sched hval (by omega)
  have h2 := add_nat (a := B32.zeroS false) (x := 0) (by simpa using B32.is_zeroS false) h1 (by omega)
  rw [Nat.zero_add] at h2
  have hnr : (0 : ℝ) < n := by exact_mod_cast hn
  have hofN : B32.Is (B32.ofReal false (n : ℝ)) (n : ℝ) := by
    have := B32.is_ofReal (s := false) (x := (n : ℝ)) (by
      rw [abs_of_nonneg hnr.le]; unfold B32.maxF32
      have : (n : ℝ) ≤ 2 ^ 24 := by exact_mod_cast hn24
      exact this.trans (by norm_num))
    rwa [B32.rnd_natCast hn24] at this
  have hle : ((sched.iters.map r).sum : ℝ) / n ≤ 1 := by
    rw [div_le_one hnr]; exact_mod_cast hcard
  have := B32.div_is h2 hofN hnr.ne' (by
    rw [abs_of_nonneg (by positivity)]; unfold B32.maxF32
    exact hle.trans (by norm_num))
  rw [hsum] at this
  exact this

/-- Adding ones stops at 2^24. -/
theorem count_saturates (v : ℕ → B32) : ∀ (is : List ℕ) (x : ℕ) (a : B32), (∀ i ∈ is, B32.Is (v i) 1) → B32.Is a x → x ≤ 2 ^ 24 →
    B32.Is (is.foldl (fun s i => B32.add s (v i)) a) ((min (x + is.length) (2 ^ 24) : ℕ) : ℝ)
  | [], x, a, _, ha, hx => by
    rw [List.foldl_nil, List.length_nil, Nat.add_zero, Nat.min_eq_left hx]; exact ha
  | i :: is, x, a, h, ha, hx => by
    rw [List.foldl_cons, List.length_cons]
    have h1 : B32.Is (v i) ((1 : ℕ) : ℝ) := by simpa using h i (by simp)
    rcases lt_or_eq_of_le hx with hlt | heq
    · have := count_saturates v is (x + 1) _ (fun j hj => h j (by simp [hj])) (add_nat ha h1 hlt) hlt
      rwa [show x + (is.length + 1) = x + 1 + is.length by omega]
    · have hs : B32.Is (B32.add a (v i)) ((2 ^ 24 : ℕ) : ℝ) := by
        have := B32.add_is ha h1 (by
          rw [heq]; unfold B32.maxF32; push_cast; rw [abs_of_nonneg (by norm_num)]; norm_num)
        rw [heq, ← Nat.cast_add, B32.rnd_tie] at this
        rwa [Nat.cast_pow, Nat.cast_ofNat]
      have := count_saturates v is (2 ^ 24) _ (fun j hj => h j (by simp [hj])) hs le_rfl
      rwa [show min (x + (is.length + 1)) (2 ^ 24) = min (2 ^ 24 + is.length) (2 ^ 24) by omega]

/-- **C68 is false** for large data sets: a single thread counts to 2^24 only.  With 2^25 samples and one output, every sample counts
as right, but the reported accuracy is 1/2. -/
theorem C68_saturate_false (L : B32.Libm) (env : CustomEnv B32) (c : Cfg) (mem : ℕ → ThreadMem B32) (nn : Net B32)
    (X Y : View B32) (rest : List (Option Metric)) (results : View B32) (hw : nn.WF c) (hout : nn.nOutput = 1)
    (hmem : ∀ i, (mem i).workAddr % c.alignSize = 0 ∧ (mem i).predAddr % c.alignSize = 0)
    (hX : 2 ^ 25 * nn.nInput ≤ X.data.length) (hY : 2 ^ 25 * nn.nOutput ≤ Y.data.length) (hr : 1 ≤ results.data.length)
    (preds : ℕ → View B32) (hp : @Spec.Predicts B32 (B32.ops L) env c mem nn (2 ^ 25) X preds)
    (fp : ∀ i < 2 ^ 25, ∀ a ∈ (preds i).data.take 1, a.isFinite = true) (fy : ∀ a ∈ Y.data, a.isFinite = true) :
    letI := B32.ops L
    Spec.hits nn.nOutput (2 ^ 25) (fun i => (preds i).data) (fun i => Y.data.drop (i * nn.nOutput)) = 2 ^ 25 ∧
    ∃ a, evaluate env c mem (.thread (List.range (2 ^ 25))) nn (2 ^ 25) X Y (some .categoricalAccuracy :: none :: rest) results =
        .ok ⟨results.addr, a :: results.data.drop 1⟩ ∧ B32.Is a (1 / 2) := by
  classical
  let _ := B32.ops L
  have hit : ∀ p y : List B32, Spec.Hit 1 p y := by
    intro p y
    have : ∀ l : List ℝ, FirstMax 1 l 0 := fun l =>
      ⟨by omega, fun j hj => by obtain rfl : j = 0 := by omega
                                exact le_rfl, fun j hj => by omega⟩
    exact ⟨0, this _, this _⟩
  obtain ⟨preds', val, hp', hpl, hv, he⟩ := C68_sum env c mem (.thread (List.range (2 ^ 25))) nn (2 ^ 25) (.refl _) X Y
    [.categoricalAccuracy] rest results hw hmem hX hY hr
  refine ⟨?_, _, by simpa using he, ?_⟩
  · rw [Spec.hits, hout, Finset.filter_true_of_mem fun i _ => hit _ _, Finset.card_range]
  · have hval : ∀ i ∈ List.range (2 ^ 25), B32.Is (val .categoricalAccuracy i) 1 := by
      intro i hi
      have hin : i < 2 ^ 25 := by simpa using hi
      have hlen := hpl i hin
      have hu := hp.unique hp' i hin
      rw [hout] at hlen hY
      obtain ⟨e, e1, e2⟩ := accuracy_float L 1 le_rfl (preds i) (Y.offset (i * 1)) (by rw [hu]; exact hlen)
        (by simp only [View.offset, List.length_drop]; omega) (fp i hin)
        (fun a ha => fy a (List.mem_of_mem_drop (List.mem_of_mem_take ha)))
      have e3 := hv .categoricalAccuracy i hin
      rw [← hu, hout] at e3
      have : e = val .categoricalAccuracy i := Except.ok.inj (e1.symm.trans e3)
      rw [← this]
      rw [if_pos (hit _ _), Nat.cast_one] at e2
      exact e2
    have h1 := count_saturates (val .categoricalAccuracy) (List.range (2 ^ 25)) 0 (B32.zeroS false) hval
      (by simpa using B32.is_zeroS false) (by norm_num)
    rw [List.length_range, Nat.zero_add, Nat.min_eq_right (by norm_num)] at h1
    have h2 := add_nat (a := B32.zeroS false) (x := 0) (by simpa using B32.is_zeroS false) h1 (by norm_num)
    rw [Nat.zero_add] at h2
    have hofN : B32.Is (B32.ofReal false ((2 ^ 25 : ℕ) : ℝ)) ((2 ^ 25 : ℕ) : ℝ) := by
      have := B32.is_ofReal (s := false) (x := ((2 ^ 25 : ℕ) : ℝ)) (by
        rw [abs_of_nonneg (Nat.cast_nonneg _)]; unfold B32.maxF32; push_cast; norm_num)
      rwa [B32.rnd_exact (k := 1) (j := 25) (by push_cast; norm_num) (by norm_num) (by norm_num)] at this
    have e : ((2 ^ 24 : ℕ) : ℝ) / ((2 ^ 25 : ℕ) : ℝ) = 1 / 2 := by push_cast; norm_num
    have h3 := B32.div_is h2 hofN (by positivity) (by rw [e, abs_of_nonneg (by norm_num)]; unfold B32.maxF32; norm_num)
    rw [e, B32.rnd_exact (k := 1) (j := -1) (by norm_num) (by norm_num) (by norm_num)] at h3
    exact h3

/-! ### Examples -/

/-- Two outputs, 1/2 and 1/4 for the input 0. -/
noncomputable def exClassifier : Net B32 :=
  ⟨[⟨1, 2, ⟨64, [B32.ofReal false 1, B32.ofReal false 1]⟩, ⟨128, [B32.ofReal false (1 / 2), B32.ofReal false (1 / 4)]⟩, .linear, none⟩], none⟩

theorem exClassifier_wf (c : Cfg) : exClassifier.WF c := by
  have h : ∀ n, n % 64 = 0 → n % c.alignSize = 0 := by
    intro n hn
    rcases c with ⟨s, _, _⟩
    cases s <;> simp [Cfg.alignSize] <;> omega
  refine ⟨by simp [exClassifier], ?_, trivial⟩
  intro l hl
  simp only [exClassifier, List.mem_cons, List.not_mem_nil, or_false] at hl
  subst hl
  exact ⟨by decide, by decide, by simp, by simp, h _ (by decide), h _ (by decide)⟩

theorem exClassifier_predict (L : B32.Libm) (c : Cfg) (a : ℕ) (ha : a % c.alignSize = 0) (junk j' : ℕ → B32) (b : ℕ) (rest : List B32) :
    @predict B32 (B32.ops L) (@noCustom B32) c a junk exClassifier ⟨b, B32.zeroS false :: rest⟩ (stackArray a 2 j') =
      .ok ⟨a, [B32.ofReal false (1 / 2), B32.ofReal false (1 / 4)]⟩ := by
  let _ := B32.ops L
  have hz : FloatOps.eq (B32.zeroS false) (zero : B32) = true := (B32.eq_iff (B32.is_zeroS false) (B32.is_zeroS false)).2 rfl
  rw [predict_netF _ c a junk exClassifier _ _ (exClassifier_wf c) ha (by simp [exClassifier, Net.nInput]) (by rw [stackArray_length]; rfl)
    (AlignedFor.of_aligned ha)]
  simp [exClassifier, netF, layerF, vmmF, vmmElem, vmmStep, activateF, Net.nInput, Net.nOutput, hz, stackArray, List.range_succ]

/-- One of two samples is right: the reported accuracy is 1/2 in every build, for every schedule. -/
example (c : Cfg) (sched : Sched) (hs : sched.Covers 2) (junk : ℕ → B32) : ∃ a : B32,
    @evaluate B32 (B32.ops exactLibm) (@noCustom B32) c (fun _ => ⟨4096, junk, 4096, junk⟩) sched exClassifier 2
      ⟨20, [B32.zeroS false, B32.zeroS false]⟩
      ⟨40, [B32.ofReal false 1, B32.zeroS false, B32.zeroS false, B32.ofReal false 1]⟩ [some .categoricalAccuracy, none] ⟨60, [B32.qnan]⟩ =
      .ok ⟨60, [a]⟩ ∧ B32.Is a (1 / 2) := by
  let _ := B32.ops exactLibm
  have ha : 4096 % c.alignSize = 0 := by
    rcases c with ⟨s, _, _⟩
    cases s <;> simp [Cfg.alignSize]
  have i1 : B32.Is (B32.ofReal false 1) 1 := B32.is_one
  have i0 := B32.is_zeroS false
  have i2 : B32.Is (B32.ofReal false (1 / 2)) (1 / 2) := by
    have := B32.is_lit (p := 1) (q := 2) 1 (by norm_num) (by norm_num) (by norm_num)
    simpa using this
  have i4 : B32.Is (B32.ofReal false (1 / 4)) (1 / 4) := by
    have := B32.is_lit (p := 1) (q := 4) 2 (by norm_num) (by norm_num) (by norm_num)
    simpa using this
  have hp : Spec.Predicts (@noCustom B32) c (fun _ => ⟨4096, junk, 4096, junk⟩) exClassifier 2 ⟨20, [B32.zeroS false, B32.zeroS false]⟩
      (fun _ => ⟨4096, [B32.ofReal false (1 / 2), B32.ofReal false (1 / 4)]⟩) := by
    intro i hi
    interval_cases i
    · exact exClassifier_predict _ c 4096 ha junk junk 20 [B32.zeroS false]
    · exact exClassifier_predict _ c 4096 ha junk junk 24 []
  obtain ⟨out, h1, h2, h3⟩ := C68_accuracy_partial exactLibm (@noCustom B32) c (fun _ => ⟨4096, junk, 4096, junk⟩) sched exClassifier 2 hs
    ⟨20, [B32.zeroS false, B32.zeroS false]⟩ ⟨40, [B32.ofReal false 1, B32.zeroS false, B32.zeroS false, B32.ofReal false 1]⟩
    [.categoricalAccuracy] [] ⟨60, [B32.qnan]⟩ (exClassifier_wf c) (fun _ => ⟨ha, ha⟩) (by simp [exClassifier, Net.nInput])
    (by simp [exClassifier, Net.nOutput]) (by simp) (by norm_num) (by norm_num) _ hp
    (by
      intro i _ a h
      simp only [exClassifier, Net.nOutput, List.getLast?_singleton, List.take_succ_cons, List.take_zero, List.mem_cons, List.not_mem_nil,
        or_false] at h
      rcases h with rfl | rfl
      · exact i2.1
      · exact i4.1)
    (by
      intro a h
      simp only [List.mem_cons, List.not_mem_nil, or_false] at h
      rcases h with rfl | rfl | rfl | rfl
      · exact i1.1
      · exact i0.1
      · exact i0.1
      · exact i1.1)
  obtain ⟨a, g1, g2⟩ := h3 0 rfl
  have ho : out = [a] := by
    match out, h2, g1 with
    | [x], _, g => simpa using g
  subst ho
  refine ⟨a, by simpa using h1, ?_⟩
  have f2 : FirstMax 2 [1 / 2, 1 / 4] 0 := ⟨by decide, by intro j hj; interval_cases j <;> simp [at_]; norm_num, by simp⟩
  have f10 : FirstMax 2 [1, 0, 0, 1] 0 := ⟨by decide, by intro j hj; interval_cases j <;> simp [at_], by simp⟩
  have f01 : FirstMax 2 [0, 1] 1 := ⟨by decide, by intro j hj; interval_cases j <;> simp [at_], by
    intro j hj; interval_cases j; simp [at_]⟩
  have e : Spec.hits exClassifier.nOutput 2 (fun _ => [B32.ofReal false (1 / 2), B32.ofReal false (1 / 4)])
      (fun i => [B32.ofReal false 1, B32.zeroS false, B32.zeroS false, B32.ofReal false 1].drop (i * exClassifier.nOutput)) = 1 := by
    have n2 : exClassifier.nOutput = 2 := rfl
    have v1 := i1.2
    have v0 := i0.2
    have v2 := i2.2
    have v4 := i4.2
    have t0 : Spec.Hit 2 [B32.ofReal false (1 / 2), B32.ofReal false (1 / 4)]
        [B32.ofReal false 1, B32.zeroS false, B32.zeroS false, B32.ofReal false 1] := by
      refine ⟨0, ?_, ?_⟩
      · simpa only [List.map_cons, List.map_nil, v2, v4] using f2
      · simpa only [List.map_cons, List.map_nil, v1, v0] using f10
    have t1 : ¬ Spec.Hit 2 [B32.ofReal false (1 / 2), B32.ofReal false (1 / 4)] [B32.zeroS false, B32.ofReal false 1] := by
      rintro ⟨k, k1, k2⟩
      simp only [List.map_cons, List.map_nil, v1, v0, v2, v4] at k1 k2
      have := (firstMax_unique k1 f2).symm.trans (firstMax_unique k2 f01)
      omega
    rw [n2, Spec.hits, Finset.card_eq_one]
    refine ⟨0, ?_⟩
    ext i
    simp only [Finset.mem_filter, Finset.mem_range, Finset.mem_singleton]
    constructor
    · rintro ⟨hi, hh⟩
      interval_cases i
      · rfl
      · exact absurd hh t1
    · rintro rfl
      exact ⟨by norm_num, t0⟩
  rw [e] at g2
  rwa [show ((1 : ℕ) : ℝ) / ((2 : ℕ) : ℝ) = 1 / 2 by norm_num,
    B32.rnd_exact (k := 1) (j := -1) (by norm_num) (by norm_num) (by norm_num)] at g2
