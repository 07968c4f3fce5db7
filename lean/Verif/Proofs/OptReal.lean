import Verif.Proofs.OptSteps
import Verif.Model.RealOps
/-
The steps of the optimizers over ℝ are the steps of the specification.
-/
set_option linter.unusedSimpArgs false

namespace NN
open FloatOps Spec

theorem schedSum_real (k pad : ℕ) (hk : k ≤ pad) (v : ℕ → List ℝ) (P : ℕ → Prop)
    (hv : ∀ b, P b → (v b).length = k) : ∀ s : Sched, (∀ b ∈ s.iters, P b) →
      (s.sumF k pad v).take k = vsum k v s.iters ∧ (s.sumF k pad v).length = pad
  | .thread is, hs => by
    have : ∀ (is done : List ℕ) (acc : List ℝ), (∀ b ∈ is, P b) → acc.length = pad →
        acc.take k = vsum k v done →
        (is.foldl (fun acc b => List.zipWith add (acc.take k) (v b) ++ acc.drop k) acc).take k =
          vsum k v (done ++ is) := by
      intro is
      induction is with
      | nil => intro done acc _ _ h; simpa using h
      | cons b is ih =>
        intro done acc hs hl ha
        have hb := hv b (hs b (by simp))
        rw [List.foldl_cons, ih (done ++ [b]) _ (fun i hi => hs i (by simp [hi]))]
        · simp
        · simp; omega
        · rw [List.take_left' (by simp; omega), vsum_snoc _ _ _ _ hb, ha]
    refine ⟨?_, sumF_length k pad v P hv hk _ hs⟩
    have h := this is [] (List.replicate pad zero) hs (by simp) (by
      simp [vsum, List.take_replicate, Nat.min_eq_left hk])
    simpa [Sched.sumF, Sched.iters] using h
  | .combine a b, hs => by
    obtain ⟨ha, hal⟩ := schedSum_real k pad hk v P hv a (fun i hi => hs i (by simp [Sched.iters, hi]))
    obtain ⟨hb, hbl⟩ := schedSum_real k pad hk v P hv b (fun i hi => hs i (by simp [Sched.iters, hi]))
    refine ⟨?_, sumF_length k pad v P hv hk _ hs⟩
    rw [Sched.sumF, List.take_zipWith, ha, hb, Sched.iters, vsum_append]

/-- The batch gradient is the mean, for every schedule. -/
theorem batchGradF_real (env : CustomEnv ℝ) (c : Cfg) (sched : Sched) (loss : Loss) (X Y : View ℝ) (nn : Net ℝ)
    (pivot : List ℕ) (i batch : ℕ) (hc : sched.Covers batch) (hib : i + batch ≤ pivot.length)
    (hl : ∀ b, b < batch → (sampleGrad env c loss X Y nn (pivot.getD (i + b) 0)).length = nParams nn.layers) :
    batchGradF env c sched loss X Y nn pivot i batch =
      meanGrad (nParams nn.layers) (sampleGrad env c loss X Y nn) ((pivot.drop i).take batch) := by
  have hsub : (pivot.drop i).take batch = (List.range batch).map fun b => pivot.getD (i + b) 0 := by
    apply List.ext_getElem
    · simp; omega
    · intro j h1 h2
      simp at h2
      simp [List.getD_eq_getElem?_getD, show i + j < pivot.length by omega]
  unfold batchGradF
  simp only
  rw [(schedSum_real (nParams nn.layers) _ (le_padding c _) _ (fun b => b < batch) hl sched
    (fun b hb => List.mem_range.mp (hc.mem_iff.mp hb))).1, vsum_perm _ _ hc, hsub]
  simp only [meanGrad, vsum, List.map_map, List.length_map, List.length_range]
  apply List.ext_getElem
  · simp
  · intro j h1 h2
    simp [Function.comp_def]

theorem sgdF_real (m d lr : ℝ) (nest : Bool) (t : ℕ) (G : List ℝ → List ℝ) (w v : List ℝ) (k : ℕ)
    (hw : w.length = k) (hv : v.length = k) (hG : ∀ w, w.length = k → (G w).length = k) :
    sgdF m nest (decayLr lr d t) G w v =
      ((Spec.sgdStep m d nest ⟨w, v, lr, t⟩ G).w, (Spec.sgdStep m d nest ⟨w, v, lr, t⟩ G).v) ∧
    decayLr lr d t = (Spec.sgdStep m d nest ⟨w, v, lr, t⟩ G).lr := by
  have hlr : decayLr lr d t = nextLr lr d t := by
    simp only [decayLr, nextLr, RealOps.lt_iff]
    simp [div_eq_mul_inv]
  rw [hlr]
  have hsc : v.map (fun x => mul x m) = vscale m v := by simp [vscale, mul_comm]
  have hgs : ∀ g : List ℝ, g.map (fun x => mul x (neg (nextLr lr d t))) = vscale (-nextLr lr d t) g := by
    intro g; simp [vscale, mul_comm]
  have hva : ∀ a b : List ℝ, List.zipWith add a b = vadd a b := fun a b => rfl
  simp only [sgdF, Spec.sgdStep, hsc, hgs, hva]
  by_cases hm : (0:ℝ) < m
  · have hlt : lt (zero : ℝ) m = true := by simp [hm]
    cases nest
    · simp [hm]
    · simp only [hlt, hm, decide_true, if_true, Bool.and_self, Bool.not_true,
        Bool.and_false, Bool.false_eq_true, if_false]
      constructor
      · congr 1
        have hgl : (G (vadd w (vscale m v))).length = k := hG _ (by simp [vadd, vscale, hw, hv])
        apply List.ext_getElem
        · simp [vadd, vscale, hw, hv, hgl]
        · intro j h1 h2
          simp [vadd, add_assoc]
      · trivial
  · simp [hm]

theorem decayLr_real (lr d : ℝ) (t : ℕ) : decayLr lr d t = nextLr lr d t := by
  simp only [decayLr, nextLr, RealOps.lt_iff]
  simp [div_eq_mul_inv]

theorem scaled_real (lr : ℝ) (g r : List ℝ) : List.zipWith (scaledElem lr) g r = scaledStep lr g r := by
  simp only [scaledStep]
  congr 1
  funext x y
  simp only [scaledElem, epsUpdate]
  simp
  ring

theorem adagrad_real (d lr : ℝ) (t : ℕ) (G : List ℝ → List ℝ) (w r : List ℝ) :
    let r' := List.zipWith (fun x y => add x (mul y y)) r (G w)
    let q := Spec.adagradStep d ⟨w, r, lr, t⟩ G
    List.zipWith add w (List.zipWith (scaledElem (decayLr lr d t)) (G w) r') = q.w ∧ r' = q.r ∧
      decayLr lr d t = q.lr := by
  have h : List.zipWith (fun x y => add x (mul y y)) r (G w) =
      List.zipWith (fun r g => r + g ^ 2) r (G w) := by
    congr 1; funext x y; simp; ring
  simp only [h, scaled_real, decayLr_real, Spec.adagradStep]
  exact ⟨rfl, trivial, trivial⟩

theorem rmsprop_real (c : Cfg) (rho m d lr : ℝ) (nest : Bool) (t : ℕ) (G : List ℝ → List ℝ) (w v r : List ℝ) (k : ℕ)
    (hw : w.length = k) (hv : v.length = k) (hr : r.length = k) (hG : ∀ w, w.length = k → (G w).length = k) :
    let q := Spec.rmspropStep rho m d nest ⟨w, v, r, lr, t⟩ G
    rmspropF c m rho nest (decayLr lr d t) G w v r = (q.w, q.v, q.r) ∧ decayLr lr d t = q.lr := by
  have hsc : v.map (fun x => mul x m) = vscale m v := by simp [vscale, mul_comm]
  have hva : ∀ a b : List ℝ, List.zipWith add a b = vadd a b := fun a b => rfl
  have hcz : ∀ g : List ℝ, g.length = k → cutZip c (fun x y => add (mul x rho) (mul (sub one rho) y))
        (fun x y => add (mul rho x) (mul (sub one rho) y)) r (g.map (fun y => mul y y)) =
        List.zipWith (fun r g => rho * r + (1 - rho) * g ^ 2) r g := by
    intro g hg
    rw [cutZip_eq _ _ _ _ _ (by simp [hr, hg]) (by intro x y; simp; ring), List.zipWith_map_right]
    congr 1; funext x y
    simp only [RealOps.add_def, RealOps.mul_def, RealOps.sub_def, RealOps.one_def]; ring
  have hg1 := hG w hw
  have hg2 := hG (vadd w (vscale m v)) (by simp [vadd, vscale, hw, hv])
  simp only [rmspropF, Spec.rmspropStep, hsc, hva, scaled_real, decayLr_real]
  by_cases hm : (0:ℝ) < m
  · have hlt : lt (zero : ℝ) m = true := by simp [hm]
    cases nest
    · simp only [hlt, hm, Bool.true_and, Bool.and_false, Bool.false_eq_true, if_false, if_true, Bool.not_false, and_false, hcz _ hg1, and_self]
    · simp only [hlt, hm, decide_true, if_true, Bool.and_self, Bool.not_true,
        Bool.and_false, Bool.false_eq_true, if_false, and_self, hcz _ hg2]
      refine ⟨?_, trivial⟩
      congr 1
      apply List.ext_getElem
      · simp [vadd, vscale, scaledStep, hw, hv, hr, hg2]
      · intro j h1 h2
        simp [vadd, add_assoc]
  · have hlt : lt (zero : ℝ) m = false := by
      rw [← Bool.not_eq_true]; simpa using hm
    simp only [hlt, hm, Bool.false_and, Bool.false_eq_true, if_false, false_and, hcz _ hg1, and_self]

theorem adam_real (c : Cfg) (b1 b2 lr wd : ℝ) (t : ℕ) (G : List ℝ → List ℝ) (w s r : List ℝ) (k : ℕ)
    (hw : w.length = k) (hs : s.length = k) (hr : r.length = k) (hG : (G w).length = k) :
    let q := Spec.adamStep lr b1 b2 wd ⟨w, s, r, t⟩ G
    adamF c b1 b2 lr wd (mul (b1 ^ t) b1) (mul (b2 ^ t) b2) (G w) w s r = (q.w, q.m, q.v) := by
  have hva : ∀ a b : List ℝ, List.zipWith add a b = vadd a b := fun a b => rfl
  have h1 : cutZip c (fun x y => add (mul x b1) (mul y (sub one b1)))
        (fun x y => add (mul b1 x) (mul (sub one b1) y)) s (G w) =
      List.zipWith (fun m g => b1 * m + (1 - b1) * g) s (G w) := by
    rw [cutZip_eq _ _ _ _ _ (by simp [hs, hG]) (by intro x y; simp; ring)]
    congr 1
  have h2 : cutZip c (fun x y => add (mul x b2) (mul (mul y y) (sub one b2)))
        (fun x y => add (mul b2 x) (mul (mul (sub one b2) y) y)) r (G w) =
      List.zipWith (fun v g => b2 * v + (1 - b2) * g ^ 2) r (G w) := by
    rw [cutZip_eq _ _ _ _ _ (by simp [hr, hG]) (by intro x y; simp; ring)]
    congr 1; funext x y; simp; ring
  have h3 : adamElem (mul (b1 ^ t) b1) (mul (b2 ^ t) b2) lr = fun m v : ℝ =>
      -lr * (m / (1 - b1 ^ (t + 1))) / (Real.sqrt (v / (1 - b2 ^ (t + 1))) + 1 / 100000000) := by
    funext x y
    simp [adamElem, epsAdam, pow_succ]
  simp only [adamF, Spec.adamStep, h1, h2, h3, hva]
  by_cases hwd : (0:ℝ) < wd
  · have hlt : lt (zero : ℝ) wd = true := by simp [hwd]
    simp only [hlt, hwd, decide_true, if_true]
    congr 1
    apply List.ext_getElem
    · simp [vadd, vscale, hw, hs, hr, hG]
    · intro j h1 h2
      simp [vadd, vscale, add_assoc]
  · simp [hwd]

end NN
