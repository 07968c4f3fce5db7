import Verif.Proofs.OptEpoch
import Mathlib.Algebra.BigOperators.Intervals
/-
Consequences of the update rules of the specification, for all sequences of batches.  The theorems C31-C34, C36 about the
code are in `Verif/Properties/TrainCode.lean`.
-/
set_option linter.unusedSimpArgs false

namespace NN
open Spec

theorem at_zw (f : ℝ → ℝ → ℝ) (a b : List ℝ) (i : ℕ) (ha : i < a.length) (hb : i < b.length) :
    at_ (List.zipWith f a b) i = f (at_ a i) (at_ b i) := by
  simp [at_, List.getD, List.getElem?_zipWith, List.getElem?_eq_getElem ha, List.getElem?_eq_getElem hb]

theorem at_vscale (c : ℝ) (a : List ℝ) (i : ℕ) : at_ (vscale c a) i = c * at_ a i := by
  simp only [at_, vscale, List.getD, List.getElem?_map]
  cases a[i]? <;> simp

theorem at_vadd (a b : List ℝ) (i : ℕ) (ha : i < a.length) (hb : i < b.length) :
    at_ (vadd a b) i = at_ a i + at_ b i := at_zw _ a b i ha hb

theorem vadd_length (a b : List ℝ) : (vadd a b).length = min a.length b.length := by simp [vadd]

theorem vscale_length (c : ℝ) (a : List ℝ) : (vscale c a).length = a.length := by simp [vscale]

theorem scaledStep_length (lr : ℝ) (g r : List ℝ) : (scaledStep lr g r).length = min g.length r.length := by
  simp [scaledStep]

/-! ### C31, C32: SGD -/

/-- Without momentum the step is `-lr` times the gradient at the current parameters, with and without the
`nesterov` flag; the velocity is not used. -/
theorem sgd_plain_rule (m d : ℝ) (hm : m ≤ 0) (nest : Bool) (s : SgdState) (G : List ℝ → List ℝ) (i : ℕ)
    (hi : i < s.w.length) (hG : (G s.w).length = s.w.length) :
    at_ (Spec.sgdStep m d nest s G).w i = at_ s.w i - nextLr s.lr d s.t * at_ (G s.w) i ∧
    (Spec.sgdStep m d nest s G).v = s.v := by
  simp only [Spec.sgdStep, if_neg (not_lt.mpr hm)]
  refine ⟨?_, trivial⟩
  rw [at_vadd _ _ _ hi (by simp [vscale, hG, hi]), at_vscale]
  ring

/-- With momentum `m > 0`: `v' = m v - lr g`, `w' = w + v'`, `g` being the gradient at `w` (classic) or at
`w + m v` (Nesterov). -/
theorem sgd_momentum_rule (m d : ℝ) (hm : 0 < m) (nest : Bool) (s : SgdState) (G : List ℝ → List ℝ) (i : ℕ)
    (hi : i < s.w.length) (hv : s.v.length = s.w.length) (hG : ∀ w, (G w).length = s.w.length) :
    let g := G (if nest then vadd s.w (vscale m s.v) else s.w)
    let s' := Spec.sgdStep m d nest s G
    at_ s'.v i = m * at_ s.v i - nextLr s.lr d s.t * at_ g i ∧ at_ s'.w i = at_ s.w i + at_ s'.v i := by
  simp only [Spec.sgdStep, if_pos hm]
  constructor
  · rw [at_vadd _ _ _ (by simp [vscale, hv, hi]) (by simp [vscale, hG, hi]), at_vscale, at_vscale]
    ring
  · rw [at_vadd _ _ _ hi (by simp [vscale, vadd, hv, hG, hi])]

/-! ### C33: learning rate -/

/-- The learning rate after the batches `t, …, t+k-1`. -/
theorem nextLr_fold {S : Type} (lr : S → ℝ) (t : S → ℕ) (step : S → (List ℝ → List ℝ) → S) (d : ℝ) (hd : 0 ≤ d)
    (h1 : ∀ s G, lr (step s G) = nextLr (lr s) d (t s)) (h2 : ∀ s G, t (step s G) = t s + 1)
    (Gs : List (List ℝ → List ℝ)) (s : S) :
    lr (Gs.foldl step s) = lr s / ∏ j ∈ Finset.range Gs.length, (1 + d * ((t s + j : ℕ) : ℝ)) ∧
    t (Gs.foldl step s) = t s + Gs.length := by
  induction Gs generalizing s with
  | nil => simp
  | cons G Gs ih =>
    obtain ⟨e1, e2⟩ := ih (step s G)
    rw [List.foldl_cons, e1, e2, h1, h2]
    refine ⟨?_, by simp; omega⟩
    rw [List.length_cons, Finset.prod_range_succ', nextLr]
    have hp : (∏ j ∈ Finset.range Gs.length, (1 + d * ((t s + 1 + j : ℕ) : ℝ))) =
        ∏ j ∈ Finset.range Gs.length, (1 + d * ((t s + (j + 1) : ℕ) : ℝ)) :=
      Finset.prod_congr rfl fun j _ => by rw [Nat.add_assoc, Nat.add_comm 1 j]
    rw [hp]
    split
    · rw [div_div, mul_comm]; rfl
    · have : d = 0 := by linarith
      simp [this]

/-- SGD: the learning rate after `k` batches is `lr0 / ∏_{j<k} (1 + d j)`. -/
theorem sgd_lr (m d : ℝ) (hd : 0 ≤ d) (nest : Bool) (w v : List ℝ) (lr0 : ℝ) (Gs : List (List ℝ → List ℝ)) :
    (Gs.foldl (Spec.sgdStep m d nest) ⟨w, v, lr0, 0⟩).lr = lr0 / ∏ j ∈ Finset.range Gs.length, (1 + d * (j : ℝ)) := by
  have := (nextLr_fold SgdState.lr SgdState.t (Spec.sgdStep m d nest) d hd
    (by intro s G; simp only [Spec.sgdStep]; split <;> rfl) (by intro s G; simp only [Spec.sgdStep]; split <;> rfl)
    Gs ⟨w, v, lr0, 0⟩).1
  simpa using this

/-- RMSprop. -/
theorem rmsprop_lr (rho m d : ℝ) (hd : 0 ≤ d) (nest : Bool) (w v r : List ℝ) (lr0 : ℝ)
    (Gs : List (List ℝ → List ℝ)) :
    (Gs.foldl (Spec.rmspropStep rho m d nest) ⟨w, v, r, lr0, 0⟩).lr =
      lr0 / ∏ j ∈ Finset.range Gs.length, (1 + d * (j : ℝ)) := by
  have := (nextLr_fold RmsPropState.lr RmsPropState.t (Spec.rmspropStep rho m d nest) d hd
    (by intro s G; simp only [Spec.rmspropStep]; split <;> rfl)
    (by intro s G; simp only [Spec.rmspropStep]; split <;> rfl) Gs ⟨w, v, r, lr0, 0⟩).1
  simpa using this

/-- Adagrad. -/
theorem adagrad_lr (d : ℝ) (hd : 0 ≤ d) (w r : List ℝ) (lr0 : ℝ) (Gs : List (List ℝ → List ℝ)) :
    (Gs.foldl (Spec.adagradStep d) ⟨w, r, lr0, 0⟩).lr = lr0 / ∏ j ∈ Finset.range Gs.length, (1 + d * (j : ℝ)) := by
  have := (nextLr_fold AdagradState.lr AdagradState.t (Spec.adagradStep d) d hd
    (by intro s G; rfl) (by intro s G; rfl) Gs ⟨w, r, lr0, 0⟩).1
  simpa using this

/-- The learning rate after `k` batches. -/
noncomputable def lrAfter (lr0 d : ℝ) (k : ℕ) : ℝ := lr0 / ∏ j ∈ Finset.range k, (1 + d * (j : ℝ))

theorem prod_pos' (d : ℝ) (hd : 0 ≤ d) (k : ℕ) : 0 < ∏ j ∈ Finset.range k, (1 + d * (j : ℝ)) :=
  Finset.prod_pos fun j _ => by positivity

/-- It stays positive and never increases, and is constant without decay. -/
theorem lrAfter_facts (lr0 d : ℝ) (hl : 0 < lr0) (hd : 0 ≤ d) :
    (∀ k, 0 < lrAfter lr0 d k) ∧ (∀ k k', k ≤ k' → lrAfter lr0 d k' ≤ lrAfter lr0 d k) ∧
    (d = 0 → ∀ k, lrAfter lr0 d k = lr0) := by
  refine ⟨fun k => div_pos hl (prod_pos' d hd k), fun k k' h => ?_, fun h k => by simp [lrAfter, h]⟩
  induction k', h using Nat.le_induction with
  | base => exact le_rfl
  | succ m hm ih =>
    refine le_trans ?_ ih
    rw [lrAfter, lrAfter, Finset.prod_range_succ]
    apply div_le_div_of_nonneg_left hl.le (prod_pos' d hd m)
    exact le_mul_of_one_le_right (prod_pos' d hd m).le (by nlinarith [Nat.cast_nonneg (α := ℝ) m])

/-- The learning rate of batch number `k` (from 0) is `lrAfter lr0 d (k+1)`.  With time-based decay it would be
`lr0 / (1 + d k)`; that is right for the first two batches, from the third on the rate of the code is smaller. -/
theorem lrAfter_not_time_based (lr0 d : ℝ) (hl : 0 < lr0) (hd : 0 < d) :
    lrAfter lr0 d 1 = lr0 ∧ lrAfter lr0 d 2 = lr0 / (1 + d * 1) ∧
    ∀ k, 2 ≤ k → lrAfter lr0 d (k + 1) < lr0 / (1 + d * k) := by
  refine ⟨by simp [lrAfter], by simp [lrAfter, Finset.prod_range_succ], fun k hk => ?_⟩
  rw [lrAfter, Finset.prod_range_succ]
  have hk0 : (0 : ℝ) < 1 + d * k := by positivity
  have h1 : 1 < ∏ j ∈ Finset.range k, (1 + d * (j : ℝ)) := by
    obtain ⟨m, rfl⟩ : ∃ m, k = m + 2 := ⟨k - 2, by omega⟩
    clear hk hk0
    induction m with
    | zero => simp [Finset.prod_range_succ, hd]
    | succ m ih =>
      rw [show m + 1 + 2 = (m + 2) + 1 by omega, Finset.prod_range_succ]
      have : (1 : ℝ) ≤ 1 + d * ((m + 2 : ℕ) : ℝ) := by
        have : 0 ≤ d * ((m + 2 : ℕ) : ℝ) := by positivity
        linarith
      nlinarith
  apply div_lt_div_of_pos_left hl hk0
  nlinarith

/-- Example: `lr0 = 1`, `d = 1`: 1, 1/2, 1/6 instead of 1, 1/2, 1/3. -/
example : lrAfter 1 1 1 = 1 ∧ lrAfter 1 1 2 = 1 / 2 ∧ lrAfter 1 1 3 = 1 / 6 := by
  norm_num [lrAfter, Finset.prod_range_succ]

/-! ### Trajectories -/

/-- The state before batch `j`. -/
def traj {S : Type} (step : S → (List ℝ → List ℝ) → S) (s : S) (Gs : List (List ℝ → List ℝ)) (j : ℕ) : S :=
  (Gs.take j).foldl step s

/-- Batch `j`. -/
def batchAt (Gs : List (List ℝ → List ℝ)) (j : ℕ) : List ℝ → List ℝ := Gs.getD j (fun _ => [])

theorem traj_succ {S : Type} (step : S → (List ℝ → List ℝ) → S) (s : S) (Gs : List (List ℝ → List ℝ)) (j : ℕ)
    (h : j < Gs.length) : traj step s Gs (j + 1) = step (traj step s Gs j) (batchAt Gs j) := by
  rw [traj, List.take_add_one, List.getElem?_eq_getElem h, List.foldl_append, batchAt, List.getD_eq_getElem?_getD,
    List.getElem?_eq_getElem h]
  rfl

theorem traj_length {S : Type} (step : S → (List ℝ → List ℝ) → S) (s : S) (Gs : List (List ℝ → List ℝ)) :
    traj step s Gs Gs.length = Gs.foldl step s := by simp [traj]

theorem batchAt_mem {Gs : List (List ℝ → List ℝ)} {j : ℕ} (h : j < Gs.length) : batchAt Gs j ∈ Gs := by
  rw [batchAt, List.getD_eq_getElem?_getD, List.getElem?_eq_getElem h]
  exact List.getElem_mem h

/-- `x' = b x + (1-b) y` from `x = 0`. -/
theorem ewma (b : ℝ) (x y : ℕ → ℝ) (N : ℕ) (h0 : x 0 = 0) (h : ∀ j < N, x (j + 1) = b * x j + (1 - b) * y j) :
    ∀ t ≤ N, x t = (1 - b) * ∑ j ∈ Finset.range t, b ^ (t - 1 - j) * y j := by
  intro t
  induction t with
  | zero => intro _; simp [h0]
  | succ t ih =>
    intro ht
    rw [h t (by omega), ih (by omega), Finset.sum_range_succ]
    simp only [Nat.add_sub_cancel, Nat.sub_self, pow_zero, one_mul]
    rw [mul_add, Finset.mul_sum, Finset.mul_sum, Finset.mul_sum]
    congr 1
    refine Finset.sum_congr rfl fun j hj => ?_
    have hj' := Finset.mem_range.mp hj
    rw [show t - j = (t - 1 - j) + 1 by omega, pow_succ]
    ring

/-! ### C34: Adam -/

section
variable (k : ℕ) (Gs : List (List ℝ → List ℝ)) (hG : ∀ G ∈ Gs, ∀ w : List ℝ, w.length = k → (G w).length = k)
include hG

theorem adam_lengths (lr b1 b2 wd : ℝ) (s : AdamState) (hw : s.w.length = k) (hm : s.m.length = k)
    (hv : s.v.length = k) : ∀ t ≤ Gs.length,
    (traj (Spec.adamStep lr b1 b2 wd) s Gs t).w.length = k ∧ (traj (Spec.adamStep lr b1 b2 wd) s Gs t).m.length = k ∧
    (traj (Spec.adamStep lr b1 b2 wd) s Gs t).v.length = k ∧ (traj (Spec.adamStep lr b1 b2 wd) s Gs t).t = s.t + t := by
  intro t
  induction t with
  | zero => intro _; exact ⟨hw, hm, hv, rfl⟩
  | succ t ih =>
    intro ht
    obtain ⟨h1, h2, h3, h4⟩ := ih (by omega)
    rw [traj_succ _ _ _ _ (by omega)]
    have hg := hG _ (batchAt_mem (show t < Gs.length by omega)) _ h1
    refine ⟨?_, by simp [Spec.adamStep, h2, hg], by simp [Spec.adamStep, h3, hg], by simp [Spec.adamStep, h4]; omega⟩
    simp only [Spec.adamStep]
    split <;> simp [vadd, vscale, h1, h2, h3, hg]

/-- The moments of the published algorithm: before batch `t` (from 0), with `g_j` the gradient of batch `j` at
the parameters of that time, `m = (1-b1) ∑_{j<t} b1^(t-1-j) g_j` and `v = (1-b2) ∑_{j<t} b2^(t-1-j) g_j^2`. -/
theorem adam_moments (lr b1 b2 wd : ℝ) (w : List ℝ) (hw : w.length = k) (t : ℕ) (ht : t ≤ Gs.length) (i : ℕ)
    (hi : i < k) :
    let σ := traj (Spec.adamStep lr b1 b2 wd) ⟨w, List.replicate k 0, List.replicate k 0, 0⟩ Gs
    let g := fun j => at_ (batchAt Gs j (σ j).w) i
    at_ (σ t).m i = (1 - b1) * ∑ j ∈ Finset.range t, b1 ^ (t - 1 - j) * g j ∧
    at_ (σ t).v i = (1 - b2) * ∑ j ∈ Finset.range t, b2 ^ (t - 1 - j) * g j ^ 2 ∧ (σ t).t = t := by
  intro σ g
  have hlen := adam_lengths k Gs hG lr b1 b2 wd ⟨w, List.replicate k 0, List.replicate k 0, 0⟩ hw (by simp) (by simp)
  have hstep : ∀ j < Gs.length, at_ (σ (j + 1)).m i = b1 * at_ (σ j).m i + (1 - b1) * g j ∧
      at_ (σ (j + 1)).v i = b2 * at_ (σ j).v i + (1 - b2) * g j ^ 2 := by
    intro j hj
    obtain ⟨h1, h2, h3, -⟩ := hlen j hj.le
    have hg := hG _ (batchAt_mem hj) _ h1
    simp only [σ, g]
    rw [traj_succ _ _ _ _ hj]
    simp only [Spec.adamStep]
    exact ⟨at_zw _ _ _ i (by omega) (by omega), at_zw _ _ _ i (by omega) (by omega)⟩
  have h0 : at_ (σ 0).m i = 0 ∧ at_ (σ 0).v i = 0 := by
    simp [σ, traj, at_, List.getD, List.getElem?_replicate, hi]
  exact ⟨ewma b1 (fun j => at_ (σ j).m i) g Gs.length h0.1 (fun j hj => (hstep j hj).1) t ht,
    ewma b2 (fun j => at_ (σ j).v i) (fun j => g j ^ 2) Gs.length h0.2 (fun j hj => (hstep j hj).2) t ht,
    by have := (hlen t ht).2.2.2; simp only [zero_add] at this; exact this⟩

/-- The update of batch `t` (from 0): with `m`, `v` of `adam_moments` after the batch,
`w' = w - lr (m/(1-b1^(t+1))) / (sqrt (v/(1-b2^(t+1))) + eps)`, and `- wd w` in addition with weight decay. -/
theorem adam_update (lr b1 b2 wd : ℝ) (w : List ℝ) (hw : w.length = k) (t : ℕ) (ht : t < Gs.length) (i : ℕ)
    (hi : i < k) :
    let σ := traj (Spec.adamStep lr b1 b2 wd) ⟨w, List.replicate k 0, List.replicate k 0, 0⟩ Gs
    at_ (σ (t + 1)).w i = at_ (σ t).w i
      - lr * (at_ (σ (t + 1)).m i / (1 - b1 ^ (t + 1))) /
        (Real.sqrt (at_ (σ (t + 1)).v i / (1 - b2 ^ (t + 1))) + 1 / 100000000)
      - (if 0 < wd then wd * at_ (σ t).w i else 0) := by
  intro σ
  have hlen := adam_lengths k Gs hG lr b1 b2 wd ⟨w, List.replicate k 0, List.replicate k 0, 0⟩ hw (by simp) (by simp)
  obtain ⟨h1, h2, h3, h4⟩ := hlen t ht.le
  have hg := hG _ (batchAt_mem ht) _ h1
  simp only [σ]
  rw [traj_succ _ _ _ _ ht]
  generalize traj (Spec.adamStep lr b1 b2 wd) ⟨w, List.replicate k 0, List.replicate k 0, 0⟩ Gs t = s at *
  simp only [zero_add] at h4
  simp only [Spec.adamStep, h4]
  split
  · rw [at_vadd _ _ _ (by simp [vadd, h1, h2, h3, hg, hi]) (by simp [vscale, h1, hi]),
      at_vadd _ _ _ (by omega) (by simp [h1, h2, h3, hg, hi]), at_vscale, at_zw _ _ _ _ (by simp [h2, hg, hi]) (by simp [h3, hg, hi])]
    ring
  · rw [at_vadd _ _ _ (by omega) (by simp [h1, h2, h3, hg, hi]), at_zw _ _ _ _ (by simp [h2, hg, hi]) (by simp [h3, hg, hi])]
    ring

/-! ### C36: Adagrad and RMSprop -/

theorem adagrad_lengths (d : ℝ) (s : AdagradState) (hw : s.w.length = k) (hr : s.r.length = k) : ∀ t ≤ Gs.length,
    (traj (Spec.adagradStep d) s Gs t).w.length = k ∧ (traj (Spec.adagradStep d) s Gs t).r.length = k := by
  intro t
  induction t with
  | zero => intro _; exact ⟨hw, hr⟩
  | succ t ih =>
    intro ht
    obtain ⟨h1, h2⟩ := ih (by omega)
    rw [traj_succ _ _ _ _ (by omega)]
    have hg := hG _ (batchAt_mem (show t < Gs.length by omega)) _ h1
    simp [Spec.adagradStep, vadd, scaledStep, h1, h2, hg]

/-- Adagrad: the accumulator is the sum of the squared batch gradients and never decreases; the step is
`-lr g / (eps + sqrt r)`, at most `lr` in absolute value. -/
theorem adagrad_rule (d lr0 : ℝ) (w : List ℝ) (hw : w.length = k) (t : ℕ) (ht : t < Gs.length) (i : ℕ) (hi : i < k) :
    let σ := traj (Spec.adagradStep d) ⟨w, List.replicate k 0, lr0, 0⟩ Gs
    let g := fun j => at_ (batchAt Gs j (σ j).w) i
    at_ (σ (t + 1)).r i = ∑ j ∈ Finset.range (t + 1), g j ^ 2 ∧ at_ (σ t).r i ≤ at_ (σ (t + 1)).r i ∧
    at_ (σ (t + 1)).w i = at_ (σ t).w i - (σ (t + 1)).lr * g t / (1 / 10000000 + Real.sqrt (at_ (σ (t + 1)).r i)) ∧
    |at_ (σ (t + 1)).w i - at_ (σ t).w i| ≤ |(σ (t + 1)).lr| := by
  intro σ g
  have hlen := adagrad_lengths k Gs hG d ⟨w, List.replicate k 0, lr0, 0⟩ hw (by simp)
  have hstep : ∀ j < Gs.length, at_ (σ (j + 1)).r i = at_ (σ j).r i + g j ^ 2 ∧
      at_ (σ (j + 1)).w i = at_ (σ j).w i - (σ (j + 1)).lr * g j /
        (1 / 10000000 + Real.sqrt (at_ (σ (j + 1)).r i)) := by
    intro j hj
    obtain ⟨h1, h2⟩ := hlen j hj.le
    have hg := hG _ (batchAt_mem hj) _ h1
    simp only [σ, g]
    rw [traj_succ _ _ _ _ hj]
    simp only [Spec.adagradStep]
    refine ⟨at_zw _ _ _ i (by omega) (by omega), ?_⟩
    rw [at_vadd _ _ _ (by omega) (by simp [scaledStep, h1, h2, hg, hi]), scaledStep,
      at_zw _ _ _ i (by omega) (by simp [h2, hg, hi])]
    ring
  have hsum : ∀ t ≤ Gs.length, at_ (σ t).r i = ∑ j ∈ Finset.range t, g j ^ 2 := by
    intro t
    induction t with
    | zero => intro _; simp [σ, traj, at_, List.getD, List.getElem?_replicate, hi]
    | succ t ih => intro ht; rw [(hstep t ht).1, ih (by omega), Finset.sum_range_succ]
  have hr := (hstep t ht).1
  have hw' := (hstep t ht).2
  refine ⟨hsum (t + 1) ht, by rw [hr]; nlinarith [sq_nonneg (g t)], hw', ?_⟩
  have hge : g t ^ 2 ≤ at_ (σ (t + 1)).r i := by
    rw [hr, hsum t ht.le]
    have : 0 ≤ ∑ j ∈ Finset.range t, g j ^ 2 := Finset.sum_nonneg fun j _ => sq_nonneg _
    linarith
  have habs : |g t| ≤ 1 / 10000000 + Real.sqrt (at_ (σ (t + 1)).r i) := by
    have := Real.abs_le_sqrt hge
    linarith
  have hpos : 0 < 1 / 10000000 + Real.sqrt (at_ (σ (t + 1)).r i) := by
    have := Real.sqrt_nonneg (at_ (σ (t + 1)).r i); positivity
  rw [hw', show at_ (σ t).w i - (σ (t + 1)).lr * g t / (1 / 10000000 + Real.sqrt (at_ (σ (t + 1)).r i)) - at_ (σ t).w i =
    -((σ (t + 1)).lr * (g t / (1 / 10000000 + Real.sqrt (at_ (σ (t + 1)).r i)))) by ring, abs_neg, abs_mul]
  have h1 : |g t / (1 / 10000000 + Real.sqrt (at_ (σ (t + 1)).r i))| ≤ 1 := by
    rw [abs_div, abs_of_pos hpos, div_le_one hpos]; exact habs
  calc |(σ (t + 1)).lr| * _ ≤ |(σ (t + 1)).lr| * 1 := mul_le_mul_of_nonneg_left h1 (abs_nonneg _)
    _ = _ := mul_one _

theorem rmsprop_lengths (rho m d : ℝ) (nest : Bool) (s : RmsPropState) (hw : s.w.length = k) (hv : s.v.length = k)
    (hr : s.r.length = k) : ∀ t ≤ Gs.length,
    (traj (Spec.rmspropStep rho m d nest) s Gs t).w.length = k ∧
    (traj (Spec.rmspropStep rho m d nest) s Gs t).v.length = k ∧
    (traj (Spec.rmspropStep rho m d nest) s Gs t).r.length = k := by
  intro t
  induction t with
  | zero => intro _; exact ⟨hw, hv, hr⟩
  | succ t ih =>
    intro ht
    obtain ⟨h1, h2, h3⟩ := ih (by omega)
    rw [traj_succ _ _ _ _ (by omega)]
    generalize traj (Spec.rmspropStep rho m d nest) s Gs t = s at *
    have hg := hG _ (batchAt_mem (show t < Gs.length by omega))
      (if 0 < m ∧ nest = true then vadd s.w (vscale m s.v) else s.w)
      (by split <;> simp [vadd, vscale, h1, h2])
    simp only [Spec.rmspropStep]
    split <;> simp [vadd_length, vscale_length, scaledStep_length, h1, h2, h3, hg]

/-- RMSprop: with `g_j` the gradient used for batch `j` (at `w`, or at `w + m v` with Nesterov momentum), the
accumulator is `(1-rho) ∑_{j<t} rho^(t-1-j) g_j^2` and non-negative for `0 ≤ rho ≤ 1`; the step is
`-lr g / (eps + sqrt r)`, applied directly or through the velocity. -/
theorem rmsprop_rule (rho m d lr0 : ℝ) (nest : Bool) (w : List ℝ) (hw : w.length = k) (t : ℕ) (ht : t < Gs.length)
    (i : ℕ) (hi : i < k) :
    let σ := traj (Spec.rmspropStep rho m d nest) ⟨w, List.replicate k 0, List.replicate k 0, lr0, 0⟩ Gs
    let g := fun j => at_ (batchAt Gs j (if 0 < m ∧ nest then vadd (σ j).w (vscale m (σ j).v) else (σ j).w)) i
    let step := -(σ (t + 1)).lr * g t / (1 / 10000000 + Real.sqrt (at_ (σ (t + 1)).r i))
    at_ (σ (t + 1)).r i = (1 - rho) * ∑ j ∈ Finset.range (t + 1), rho ^ (t - j) * g j ^ 2 ∧
    (0 ≤ rho → rho ≤ 1 → 0 ≤ at_ (σ (t + 1)).r i) ∧
    (m ≤ 0 → at_ (σ (t + 1)).w i = at_ (σ t).w i + step) ∧
    (0 < m → at_ (σ (t + 1)).v i = m * at_ (σ t).v i + step ∧
      at_ (σ (t + 1)).w i = at_ (σ t).w i + at_ (σ (t + 1)).v i) := by
  intro σ g step
  have hlen := rmsprop_lengths k Gs hG rho m d nest ⟨w, List.replicate k 0, List.replicate k 0, lr0, 0⟩ hw (by simp)
    (by simp)
  have hstep : ∀ j < Gs.length, at_ (σ (j + 1)).r i = rho * at_ (σ j).r i + (1 - rho) * g j ^ 2 := by
    intro j hj
    obtain ⟨h1, h2, h3⟩ := hlen j hj.le
    have hg := hG _ (batchAt_mem hj) (if 0 < m ∧ nest = true then vadd (σ j).w (vscale m (σ j).v) else (σ j).w)
      (by split <;> simp [vadd, vscale, h1, h2, σ])
    simp only [σ, g] at hg ⊢
    rw [traj_succ _ _ _ _ hj]
    have : ∀ s G, (Spec.rmspropStep rho m d nest s G).r = List.zipWith (fun r g => rho * r + (1 - rho) * g ^ 2) s.r
        (G (if 0 < m ∧ nest then vadd s.w (vscale m s.v) else s.w)) := by
      intro s G; simp only [Spec.rmspropStep]; split <;> rfl
    rw [this]
    exact at_zw _ _ _ i (by omega) (by omega)
  have h0 : at_ (σ 0).r i = 0 := by simp [σ, traj, at_, List.getD, List.getElem?_replicate, hi]
  have hr := ewma rho (fun j => at_ (σ j).r i) (fun j => g j ^ 2) Gs.length h0 hstep (t + 1) ht
  simp only [Nat.add_sub_cancel] at hr
  obtain ⟨h1, h2, h3⟩ := hlen t ht.le
  have hg := hG _ (batchAt_mem ht) (if 0 < m ∧ nest = true then vadd (σ t).w (vscale m (σ t).v) else (σ t).w)
    (by split <;> simp [vadd, vscale, h1, h2, σ])
  refine ⟨hr, fun h4 h5 => ?_, fun hm => ?_, fun hm => ?_⟩
  · rw [hr]
    exact mul_nonneg (by linarith) (Finset.sum_nonneg fun j _ => mul_nonneg (pow_nonneg h4 _) (sq_nonneg _))
  · simp only [step, σ, g] at hg ⊢
    rw [traj_succ _ _ _ _ ht]
    generalize traj (Spec.rmspropStep rho m d nest) _ Gs t = s at *
    simp only [Spec.rmspropStep, if_neg (not_lt.mpr hm)]
    rw [at_vadd _ _ _ (by omega) (by simp [scaledStep, h3, hg, hi]), scaledStep,
      at_zw _ _ _ i (by omega) (by simp [h3, hg, hi])]
  · simp only [step, σ, g] at hg ⊢
    rw [traj_succ _ _ _ _ ht]
    generalize traj (Spec.rmspropStep rho m d nest) _ Gs t = s at *
    simp only [Spec.rmspropStep, if_pos hm]
    constructor
    · rw [at_vadd _ _ _ (by simp [vscale, h2, hi]) (by simp [scaledStep, h3, hg, hi]), scaledStep,
        at_zw _ _ _ i (by omega) (by simp [h3, hg, hi]), at_vscale]
    · rw [at_vadd _ _ _ (by omega) (by simp [vadd_length, vscale_length, scaledStep_length, h2, h3, hg, hi])]

end

/-- Example: two batches with constant gradients 3 and 4 in Adagrad: the accumulator is 25. -/
example : at_ (([fun _ => [3], fun _ => [4]] : List (List ℝ → List ℝ)).foldl (Spec.adagradStep 0) ⟨[7], [0], 1, 0⟩).r 0
    = 25 := by
  have h := (adagrad_rule 1 [fun _ => [3], fun _ => [4]] (by simp) 0 1 [7] rfl 1 (by simp) 0 (by simp)).1
  simp only [Nat.reduceAdd] at h
  have e := traj_length (Spec.adagradStep 0) ⟨[7], List.replicate 1 0, 1, 0⟩
    ([fun _ => [3], fun _ => [4]] : List (List ℝ → List ℝ))
  simp only [List.length_cons, List.length_nil, Nat.reduceAdd] at e
  rw [e] at h
  simp only [List.replicate_one] at h
  rw [h]
  simp [Finset.sum_range_succ, batchAt, at_, List.getD]
  norm_num

end NN
