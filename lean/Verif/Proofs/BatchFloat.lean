import Verif.Spec.BatchFloat
import Verif.Proofs.BackFloat
import Verif.Proofs.OptReal
import Verif.Properties.EvalFloat
import Verif.Properties.Gradient
/-
The batch gradient in `float` arithmetic, for every schedule.
-/
namespace NN
open FloatOps _root_.Spec

section
variable {F : Type} [FloatOps F]

/-- Entry `j` of the combined private copies is the sum in the order of the schedule. -/
theorem sumF_tree (k pad : ℕ) (hk : k ≤ pad) (v : ℕ → List F) (P : ℕ → Prop) (hv : ∀ b, P b → (v b).length = k) :
    ∀ s : Sched, (∀ b ∈ s.iters, P b) → (s.sumF k pad v).take k = (List.range k).map fun j => Spec.treeSum (fun b => (v b).getD j zero) s
  | .thread is, hs => by
    have key : ∀ (is : List ℕ) (acc : List F) (g : ℕ → F), (∀ b ∈ is, P b) → acc.length = pad → acc.take k = (List.range k).map g →
        (is.foldl (fun acc b => List.zipWith add (acc.take k) (v b) ++ acc.drop k) acc).take k =
          (List.range k).map fun j => is.foldl (fun s b => add s ((v b).getD j zero)) (g j) := by
      intro is
      induction is with
      | nil => intro acc g _ _ h; simpa using h
      | cons b is ih =>
        intro acc g hs hl ha
        have hb := hv b (hs b (by simp))
        rw [List.foldl_cons, ih _ (fun j => add (g j) ((v b).getD j zero)) (fun i hi => hs i (by simp [hi]))]
        · rfl
        · simp; omega
        · rw [List.take_left' (by simp; omega), ha]
          apply List.ext_getElem
          · simp [hb]
          · intro j h1 h2
            simp at h1
            simp [List.getD_eq_getElem?_getD, h1]
    simp only [Sched.sumF, Spec.treeSum]
    exact key is _ (fun _ => zero) hs (by simp) (by simp [List.take_replicate, Nat.min_eq_left hk, List.map_const'])
  | .combine a b, hs => by
    rw [Sched.sumF, List.take_zipWith, sumF_tree k pad hk v P hv a (fun i hi => hs i (by simp [Sched.iters, hi])),
      sumF_tree k pad hk v P hv b (fun i hi => hs i (by simp [Sched.iters, hi]))]
    simp only [List.zipWith_map, List.zipWith_self]
    rfl

theorem batchGradF_get (env : CustomEnv F) (c : Cfg) (sched : Sched) (loss : Loss) (X Y : View F) (nn : Net F) (pivot : List ℕ) (i batch : ℕ)
    (hc : sched.Covers batch) (hl : ∀ b, b < batch → (sampleGrad env c loss X Y nn (pivot.getD (i + b) 0)).length = nParams nn.layers)
    (j : ℕ) (hj : j < nParams nn.layers) :
    (batchGradF env c sched loss X Y nn pivot i batch)[j]? =
      some (div (add zero (Spec.treeSum (fun b => (sampleGrad env c loss X Y nn (pivot.getD (i + b) 0)).getD j zero) sched)) (ofNat batch)) := by
  unfold batchGradF
  simp only
  rw [sumF_tree _ _ (le_padding c _) _ (fun b => b < batch) hl sched (fun b hb => List.mem_range.mp (hc.mem_iff.mp hb))]
  simp [hj]

end

theorem take_batch (pivot : List ℕ) (i batch : ℕ) (hib : i + batch ≤ pivot.length) :
    (pivot.drop i).take batch = (List.range batch).map fun b => pivot.getD (i + b) 0 := by
  apply List.ext_getElem
  · simp; omega
  · intro j h1 h2
    simp at h2
    simp [List.getD_eq_getElem?_getD, show i + j < pivot.length by omega]

theorem slack_sum_mono {N : ℕ} {S T : ℝ} (h : S ≤ T) : slack N 0 S ≤ slack N 0 T := by
  have h1 : (0 : ℝ) ≤ (1 + u32) ^ N - 1 := by
    have := one_le_pow₀ (n := N) (show (1 : ℝ) ≤ 1 + u32 by unfold u32; norm_num)
    linarith
  simp only [slack, Nat.cast_zero, zero_mul, add_zero]
  exact mul_le_mul_of_nonneg_left h h1

theorem peak_sum_mono {N : ℕ} {S T : ℝ} (h : S ≤ T) : peak N 0 S ≤ peak N 0 T := by
  simp only [peak, Nat.cast_zero, zero_mul, add_zero]
  exact mul_le_mul_of_nonneg_left h (pow_nonneg (by unfold u32; norm_num) _)

/-- The batch gradient in binary32. -/
theorem batch_within (env : CustomEnv B32) (envR : CustomEnv ℝ) {L : B32.Libm} (hL : L.Accurate) (c : Cfg) (sched : Sched) (loss : Loss) (n : ℕ)
    (X Y : View B32) (nn : Net B32) (h : Trainable c loss n X Y nn) (pivot : List ℕ) (hlt : ∀ p ∈ pivot, p < n) (i batch : ℕ)
    (hib : i + batch ≤ pivot.length) (hc : sched.Covers batch) (hb : 1 ≤ batch) (hb24 : batch ≤ 2 ^ 24) (hf : ∀ l ∈ nn.layers, l.Finite)
    (hX : ∀ x ∈ X.data, x.isFinite = true) (hY : ∀ y ∈ Y.data, y.isFinite = true)
    (hs : ∀ p ∈ (pivot.drop i).take batch, TrainSafe envR nn loss (sampleIn nn X p) (sampleOut nn Y p)) (G : ℕ → List ℝ)
    (hG : ∀ p ∈ (pivot.drop i).take batch, ∀ k < nParams nn.layers,
      at_ (G p) k = at_ (gradF envR c nn.values loss ((sampleIn nn X p).map B32.value) ((sampleOut nn Y p).map B32.value)) k)
    (hpk : ∀ k < nParams nn.layers, peak (Spec.depth sched + 2) 0 (sumAbs envR nn loss X Y ((pivot.drop i).take batch) G k) ≤ max32) :
    ∀ k < nParams nn.layers, ∃ a, (@batchGradF B32 (B32.ops L) env c sched loss X Y nn pivot i batch)[k]? = some a ∧ a.isFinite = true ∧
      |a.value - at_ (meanGrad (nParams nn.layers) G ((pivot.drop i).take batch)) k| ≤
        batchError envR nn loss X Y ((pivot.drop i).take batch) G (Spec.depth sched) k := by
  let _ := B32.ops L
  intro k hk
  have htb := take_batch pivot i batch hib
  have hmem : ∀ b < batch, pivot.getD (i + b) 0 ∈ (pivot.drop i).take batch := by
    intro b hb'; rw [htb]; exact List.mem_map.mpr ⟨b, List.mem_range.mpr hb', rfl⟩
  have hp : ∀ b < batch, pivot.getD (i + b) 0 < n := fun b hb' => hlt _ (List.mem_of_mem_drop (List.mem_of_mem_take (hmem b hb')))
  have hlen : ∀ b, b < batch → (sampleGrad env c loss X Y nn (pivot.getD (i + b) 0)).length = nParams nn.layers :=
    fun b hb' => sampleGrad_length env c loss n X Y nn h _ (hp b hb')
  refine ⟨_, batchGradF_get env c sched loss X Y nn pivot i batch hc hlen k hk, ?_⟩
  -- the samples
  have hsample : ∀ b < batch, ∃ a, (sampleGrad env c loss X Y nn (pivot.getD (i + b) 0)).getD k zero = a ∧ a.isFinite = true ∧
      |a.value - at_ (G (pivot.getD (i + b) 0)) k| ≤
        at_ (gradError envR nn loss (sampleIn nn X (pivot.getD (i + b) 0)) (sampleOut nn Y (pivot.getD (i + b) 0))) k := by
    intro b hb'
    have hpn := hp b hb'
    have hm := hmem b hb'
    generalize pivot.getD (i + b) 0 = p at hpn hm
    have h1 : (p + 1) * nn.nInput ≤ n * nn.nInput := Nat.mul_le_mul_right _ hpn
    have h2 : (p + 1) * nn.nOutput ≤ n * nn.nOutput := Nat.mul_le_mul_right _ hpn
    rw [Nat.succ_mul] at h1 h2
    have hx := h.xlen
    have hy := h.ylen
    obtain ⟨g1, -⟩ := gradF_within env envR hL c nn h.wf hf loss (sampleIn nn X p) (sampleOut nn Y p)
      (by simp only [sampleIn, List.length_take, List.length_drop]; omega) (by simp only [sampleOut, List.length_take, List.length_drop]; omega)
      (fun x hx => hX x (List.mem_of_mem_drop (List.mem_of_mem_take hx))) (fun y hy => hY y (List.mem_of_mem_drop (List.mem_of_mem_take hy)))
      (hs p hm)
    obtain ⟨a, a1, a2, a3⟩ := g1 k hk
    refine ⟨a, ?_, a2, by rw [hG p hm k hk]; exact a3⟩
    have : (sampleGrad env c loss X Y nn p)[k]? = some a := a1
    rw [List.getD_eq_getElem?_getD, this]; rfl
  set e : ℕ → ℝ := fun b => at_ (gradError envR nn loss (sampleIn nn X (pivot.getD (i + b) 0)) (sampleOut nn Y (pivot.getD (i + b) 0))) k with he
  set z : ℕ → ℝ := fun b => at_ (G (pivot.getD (i + b) 0)) k with hz
  set v : ℕ → B32 := fun b => (sampleGrad env c loss X Y nn (pivot.getD (i + b) 0)).getD k zero with hv
  have hval : ∀ b < batch, B32.Is (v b) (v b).value ∧ |(v b).value - z b| ≤ e b := by
    intro b hb'
    obtain ⟨a, a1, a2, a3⟩ := hsample b hb'
    have : v b = a := a1
    rw [this]
    exact ⟨⟨a2, rfl⟩, a3⟩
  have hsumE : sumError envR nn loss X Y ((pivot.drop i).take batch) k = ∑ b ∈ Finset.range batch, e b := by
    rw [sumError, htb, List.map_map, sum_map_range]; rfl
  have hsumA : sumAbs envR nn loss X Y ((pivot.drop i).take batch) G k = ∑ b ∈ Finset.range batch, (|z b| + e b) := by
    rw [sumAbs, htb, List.map_map, sum_map_range]; rfl
  have hle : ∑ b ∈ Finset.range batch, |(v b).value| ≤ ∑ b ∈ Finset.range batch, (|z b| + e b) := by
    refine Finset.sum_le_sum fun b hb' => ?_
    have := (hval b (Finset.mem_range.mp hb')).2
    have h3 : |(v b).value| ≤ |(v b).value - z b| + |z b| := by
      have := abs_add_le ((v b).value - z b) (z b); simpa using this
    linarith
  have hpk' := hpk k hk
  rw [hsumA] at hpk'
  obtain ⟨m1, m2⟩ := mean_float L hc hb hb24 (v := v) (r := fun b => (v b).value) (fun b hb' => (hval b hb').1) ((peak_sum_mono hle).trans hpk')
  refine ⟨m1, ?_⟩
  have hlenb : ((pivot.drop i).take batch).length = batch := by rw [htb]; simp
  have hmean : at_ (meanGrad (nParams nn.layers) G ((pivot.drop i).take batch)) k = (∑ b ∈ Finset.range batch, z b) / batch := by
    rw [meanGrad, at_range_map hk, hlenb, htb, List.map_map, sum_map_range]; rfl
  rw [hmean, batchError, hsumE, hsumA, hlenb]
  have hbr : (0 : ℝ) < batch := by exact_mod_cast hb
  have hd : |(∑ b ∈ Finset.range batch, (v b).value) / batch - (∑ b ∈ Finset.range batch, z b) / batch| ≤ (∑ b ∈ Finset.range batch, e b) / batch := by
    rw [← sub_div, ← Finset.sum_sub_distrib, abs_div, abs_of_pos hbr]
    refine div_le_div_of_nonneg_right ((Finset.abs_sum_le_sum_abs _ _).trans ?_) hbr.le
    exact Finset.sum_le_sum fun b hb' => (hval b (Finset.mem_range.mp hb')).2
  have hsl : slack (Spec.depth sched + 2) 0 (∑ b ∈ Finset.range batch, |(v b).value|) / batch ≤
      slack (Spec.depth sched + 2) 0 (∑ b ∈ Finset.range batch, (|z b| + e b)) / batch := div_le_div_of_nonneg_right (slack_sum_mono hle) hbr.le
  have htri := abs_tri (div (add zero (Spec.treeSum v sched)) (ofNat batch) : B32).value ((∑ b ∈ Finset.range batch, (v b).value) / batch)
    ((∑ b ∈ Finset.range batch, z b) / batch)
  rw [add_div]
  linarith

/-- A gradient is unique. -/
theorem IsGradient.unique {env : CustomEnv ℝ} {c : Cfg} {nn : Net ℝ} {J : List ℝ → ℝ} {input : View ℝ} {g g' : List ℝ}
    (h : IsGradient env c nn J input g) (h' : IsGradient env c nn J input g') : ∀ k < nParams nn.layers, at_ g k = at_ g' k := by
  intro k hk
  let d : List ℝ := (List.range (nParams nn.layers)).map fun j => if j = k then 1 else 0
  have hd : d.length = nParams nn.layers := by simp [d]
  obtain ⟨p, p1, p2⟩ := h d hd 0 0 (fun _ => 0) ⟨0, List.replicate nn.nOutput 0⟩ (Nat.zero_mod _) (Nat.zero_mod _) (by simp)
  obtain ⟨q, q1, q2⟩ := h' d hd 0 0 (fun _ => 0) ⟨0, List.replicate nn.nOutput 0⟩ (Nat.zero_mod _) (Nat.zero_mod _) (by simp)
  have hpq : p = q := by
    funext t
    obtain ⟨nn', a1, a2⟩ := p1 t
    obtain ⟨nn'', b1, b2⟩ := q1 t
    rw [a1] at b1
    cases b1
    rw [a2] at b2
    exact congrArg View.data (Except.ok.inj b2)
  have hdot : ∀ g : List ℝ, dot (nParams nn.layers) g d = at_ g k := by
    intro g
    rw [dot, Finset.sum_eq_single k]
    · rw [at_range_map hk]; simp
    · intro b hb hbk
      rw [at_range_map (Finset.mem_range.mp hb), if_neg hbk, mul_zero]
    · intro hn; exact absurd (Finset.mem_range.mpr hk) hn
  rw [hpq] at p2
  have := p2.unique q2
  rwa [hdot, hdot] at this

end NN
