import Verif.Proofs.RoundErr
/-
Rounding errors of one row of `matrix_vector_multiply`.
-/
namespace NN
open FloatOps Finset
variable {F : Type} [FloatOps F]

/-- Number of roundings a product can go through in one row of `matrix_vector_multiply` with `n` columns. -/
def rowDepth (c : Cfg) (n : ℕ) : ℕ :=
  if c.avx512 then n / 16 + n % 8 + 6 else if c.avx then n / 8 + n % 8 + 5 else n + 1

theorem sum_lanes (w t : ℕ) (g : ℕ → ℝ) : ∑ l ∈ range w, ∑ s ∈ range t, g (w * s + l) = ∑ k ∈ range (w * t), g k := by
  induction t with
  | zero => simp
  | succ t ih =>
    rw [show w * (t + 1) = w * t + w by ring, sum_range_add, ← ih, ← sum_add_distrib]
    apply sum_congr rfl
    intro l _
    rw [sum_range_succ]

theorem sum_abs_le {g : ℕ → ℝ} {a n m : ℕ} (h : a + n ≤ m) : ∑ k ∈ range n, |g (a + k)| ≤ ∑ j ∈ range m, |g j| := by
  have h1 : ∑ k ∈ range a, |g k| + ∑ k ∈ range n, |g (a + k)| = ∑ k ∈ range (a + n), |g k| := by rw [sum_range_add]
  have h2 : ∑ k ∈ range (a + n), |g k| ≤ ∑ j ∈ range m, |g j| :=
    sum_le_sum_of_subset_of_nonneg (range_subset_range.2 h) (fun _ _ _ => abs_nonneg _)
  have h3 : 0 ≤ ∑ k ∈ range a, |g k| := sum_nonneg fun _ _ => abs_nonneg _
  linarith

namespace FloatModel
variable {P : FloatModel F}

theorem lanesAcc_length (c : Cfg) {w j0 t : ℕ} {row v : List F} (hv : j0 + w * t ≤ v.length) (hr : j0 + w * t ≤ row.length) :
    (lanesAcc c w j0 row v t).length = w := by
  induction t with
  | zero => simp [lanesAcc, set1]
  | succ t ih =>
    have e : w * (t + 1) = w * t + w := by ring
    rw [e] at hv hr
    have ih := ih (by omega) (by omega)
    simp only [lanesAcc]
    split
    · simp [vfma, ih]; omega
    · simp [vop2, ih]; omega

/-- One lane. -/
theorem near_lane (c : Cfg) {K : ℕ} {T d : ℝ} (hΩ : (1 + P.u) ^ K * (T + d * P.η) ≤ P.Ω) {row v : List F} {rr vr : List ℝ}
    (hr : P.IsL row rr) (hv : P.IsL v vr) {w j0 l : ℕ} (hl : l < w) {t : ℕ} (htv : j0 + w * t ≤ vr.length) (htr : j0 + w * t ≤ rr.length)
    (hK : t ≤ K) (hd : (t : ℝ) ≤ d)
    (hT : ∑ s ∈ range t, |Spec.at_ vr (j0 + (w * s + l)) * Spec.at_ rr (j0 + (w * s + l))| ≤ T) :
    ∃ a, (lanesAcc c w j0 row v t)[l]? = some a ∧
      P.Near (t + 1) t (∑ s ∈ range t, |Spec.at_ vr (j0 + (w * s + l)) * Spec.at_ rr (j0 + (w * s + l))|)
        (∑ s ∈ range t, Spec.at_ vr (j0 + (w * s + l)) * Spec.at_ rr (j0 + (w * s + l))) a := by
  induction t with
  | zero =>
    refine ⟨FloatOps.zero, by simp [lanesAcc, set1, hl], ?_⟩
    have := (near_exact P.zero).mono (l := 1) (d := 0) (T := 0) le_rfl (by omega) le_rfl (by simp)
    simpa using this
  | succ t ih =>
    have e : w * (t + 1) = w * t + w := by ring
    rw [e] at htv htr
    rw [sum_range_succ] at hT ⊢
    set X := Spec.at_ vr (j0 + (w * t + l))
    set Y := Spec.at_ rr (j0 + (w * t + l))
    have hab := abs_nonneg (X * Y)
    push_cast at hd
    have hS0 : 0 ≤ ∑ s ∈ range t, |Spec.at_ vr (j0 + (w * s + l)) * Spec.at_ rr (j0 + (w * s + l))| :=
      sum_nonneg fun _ _ => abs_nonneg _
    obtain ⟨a, h1, h2⟩ := ih (by omega) (by omega) (by omega) (by linarith) (by linarith)
    obtain ⟨p, hp1, hp2⟩ := hv.get (i := j0 + (w * t + l)) (by omega)
    obtain ⟨q, hq1, hq2⟩ := hr.get (i := j0 + (w * t + l)) (by omega)
    have hp1' : v[j0 + w * t + l]? = some p := by rw [Nat.add_assoc]; exact hp1
    have hq1' : row[j0 + w * t + l]? = some q := by rw [Nat.add_assoc]; exact hq1
    have ht0 : (0 : ℝ) ≤ t := Nat.cast_nonneg _
    rw [sum_range_succ]
    simp only [lanesAcc]
    push_cast
    split
    · refine ⟨FloatOps.fma p q a, by simp [vfma_getElem?, slice_getElem?, hl, h1, hp1', hq1'], ?_⟩
      exact Near.fma hp2 hq2 h2 (omega_mono hΩ (by omega) hT (by linarith) (by linarith) ht0)
    · refine ⟨FloatOps.add a (FloatOps.mul p q), by simp [vop2, List.getElem?_zipWith, slice_getElem?, hl, h1, hp1', hq1'], ?_⟩
      have hm := (near_mul hp2 hq2 (omega_zero hΩ (by linarith) hab (by linarith))).mono (l := t + 1) (d := 1) (T := |X * Y|)
        (by norm_num) (by omega) le_rfl le_rfl
      exact Near.addB hΩ h2 hm (by omega) ht0 (by norm_num) hd hT

/-- The scalar tail. -/
theorem near_tail {K : ℕ} {T d : ℝ} (hΩ : (1 + P.u) ^ K * (T + d * P.η) ≤ P.Ω) {row v : List F} {rr vr : List ℝ}
    (hr : P.IsL row rr) (hv : P.IsL v vr) {k : ℕ} {c S y : ℝ} {a : F} (h : P.Near k c S y a) (hk : 1 ≤ k) (hc : 0 ≤ c) {j0 t : ℕ}
    (htv : j0 + t ≤ vr.length) (htr : j0 + t ≤ rr.length) (hK : k + t ≤ K) (hd : c + t ≤ d)
    (hT : S + ∑ s ∈ range t, |Spec.at_ vr (j0 + s) * Spec.at_ rr (j0 + s)| ≤ T) :
    P.Near (k + t) (c + t) (S + ∑ s ∈ range t, |Spec.at_ vr (j0 + s) * Spec.at_ rr (j0 + s)|)
      (y + ∑ s ∈ range t, Spec.at_ vr (j0 + s) * Spec.at_ rr (j0 + s)) (tailAcc j0 row v a t) := by
  induction t with
  | zero => simpa [tailAcc] using h
  | succ t ih =>
    rw [sum_range_succ, ← add_assoc] at hT ⊢
    rw [sum_range_succ, ← add_assoc, ← add_assoc]
    set X := Spec.at_ vr (j0 + t)
    set Y := Spec.at_ rr (j0 + t)
    have hab := abs_nonneg (X * Y)
    have hS := h.nonneg
    have hS0 : 0 ≤ ∑ s ∈ range t, |Spec.at_ vr (j0 + s) * Spec.at_ rr (j0 + s)| := sum_nonneg fun _ _ => abs_nonneg _
    push_cast at hd ⊢
    have h2 := ih (by omega) (by omega) (by omega) (by linarith) (by linarith)
    obtain ⟨p, hp1, hp2⟩ := hv.get (i := j0 + t) (by omega)
    obtain ⟨q, hq1, hq2⟩ := hr.get (i := j0 + t) (by omega)
    have ht0 : (0 : ℝ) ≤ t := Nat.cast_nonneg _
    have hm := (near_mul hp2 hq2 (omega_zero hΩ (by linarith) hab (by linarith))).mono (l := k + t) (d := 1) (T := |X * Y|)
      (by norm_num) (by omega) le_rfl le_rfl
    simp only [tailAcc, hp1, hq1]
    rw [← add_assoc]
    exact Near.addB hΩ h2 hm (by omega) (by linarith) (by norm_num) (by linarith) hT

/-- The lanes together: `w` of them, `t` steps. -/
theorem near_lanes (c : Cfg) {K : ℕ} {T d : ℝ} (hΩ : (1 + P.u) ^ K * (T + d * P.η) ≤ P.Ω) {row v : List F} {rr vr : List ℝ}
    (hr : P.IsL row rr) (hv : P.IsL v vr) {w j0 t n : ℕ} (hw : 1 ≤ w) (htn : j0 + w * t ≤ n) (hnv : n ≤ vr.length) (hnr : n ≤ rr.length)
    (hK : t ≤ K) (hd : (n : ℝ) ≤ d) (hT : ∑ j ∈ range n, |Spec.at_ vr j * Spec.at_ rr j| ≤ T) :
    ∀ l, l < w → ∃ a, (lanesAcc c w j0 row v t)[l]? = some a ∧
      P.Near (t + 1) t (∑ s ∈ range t, |Spec.at_ vr (j0 + (w * s + l)) * Spec.at_ rr (j0 + (w * s + l))|)
        (∑ s ∈ range t, Spec.at_ vr (j0 + (w * s + l)) * Spec.at_ rr (j0 + (w * s + l))) a := by
  intro l hl
  have htw : t ≤ w * t := Nat.le_mul_of_pos_left _ hw
  refine near_lane c hΩ hr hv hl (by omega) (by omega) hK ?_ ?_
  · refine le_trans ?_ hd
    exact_mod_cast (show t ≤ n by omega)
  · refine le_trans ?_ hT
    refine le_trans ?_ (sum_abs_le (g := fun j => Spec.at_ vr j * Spec.at_ rr j) htn)
    rw [← sum_lanes w t (fun k => |Spec.at_ vr (j0 + k) * Spec.at_ rr (j0 + k)|)]
    exact single_le_sum (f := fun l => ∑ s ∈ range t, |Spec.at_ vr (j0 + (w * s + l)) * Spec.at_ rr (j0 + (w * s + l))|)
      (fun _ _ => sum_nonneg fun _ _ => abs_nonneg _) (mem_range.2 hl)

/-- The 256 bit loop and its horizontal sum. -/
theorem near_part8 (c : Cfg) {K : ℕ} {T d : ℝ} (hΩ : (1 + P.u) ^ K * (T + d * P.η) ≤ P.Ω) {row v : List F} {rr vr : List ℝ}
    (hr : P.IsL row rr) (hv : P.IsL v vr) {j0 t n : ℕ} (htn : j0 + 8 * t ≤ n) (hnv : n ≤ vr.length) (hnr : n ≤ rr.length)
    (hK : t + 3 ≤ K) (hd : (n : ℝ) ≤ d) (hT : ∑ j ∈ range n, |Spec.at_ vr j * Spec.at_ rr j| ≤ T) :
    P.Near (t + 4) (8 * t) (∑ k ∈ range (8 * t), |Spec.at_ vr (j0 + k) * Spec.at_ rr (j0 + k)|)
      (∑ k ∈ range (8 * t), Spec.at_ vr (j0 + k) * Spec.at_ rr (j0 + k)) (horizontalsumAvx (lanesAcc c 8 j0 row v t)) := by
  have hlr := hr.length
  have hlv := hv.length
  have ht0 : (0 : ℝ) ≤ t := Nat.cast_nonneg _
  have h8 : (8 * t : ℝ) ≤ d := le_trans (by exact_mod_cast (show 8 * t ≤ n by omega)) hd
  have hle := (sum_abs_le (g := fun j => Spec.at_ vr j * Spec.at_ rr j) htn).trans hT
  have hh := near_hsum8 ht0 (lanesAcc_length c (by omega) (by omega))
    (near_lanes c hΩ hr hv (by norm_num) htn hnv hnr (by omega) hd hT)
    (by
      rw [sum_lanes 8 t (fun k => |Spec.at_ vr (j0 + k) * Spec.at_ rr (j0 + k)|)]
      exact omega_mono hΩ (by omega) hle (sum_nonneg fun _ _ => abs_nonneg _) h8 (by linarith))
  rwa [sum_lanes 8 t (fun k => |Spec.at_ vr (j0 + k) * Spec.at_ rr (j0 + k)|),
    sum_lanes 8 t (fun k => Spec.at_ vr (j0 + k) * Spec.at_ rr (j0 + k))] at hh

/-- The 512 bit loop and its horizontal sum. -/
theorem near_part16 (c : Cfg) {K : ℕ} {T d : ℝ} (hΩ : (1 + P.u) ^ K * (T + d * P.η) ≤ P.Ω) {row v : List F} {rr vr : List ℝ}
    (hr : P.IsL row rr) (hv : P.IsL v vr) {j0 t n : ℕ} (htn : j0 + 16 * t ≤ n) (hnv : n ≤ vr.length) (hnr : n ≤ rr.length)
    (hK : t + 4 ≤ K) (hd : (n : ℝ) ≤ d) (hT : ∑ j ∈ range n, |Spec.at_ vr j * Spec.at_ rr j| ≤ T) :
    P.Near (t + 5) (16 * t) (∑ k ∈ range (16 * t), |Spec.at_ vr (j0 + k) * Spec.at_ rr (j0 + k)|)
      (∑ k ∈ range (16 * t), Spec.at_ vr (j0 + k) * Spec.at_ rr (j0 + k)) (reduceAdd512 (lanesAcc c 16 j0 row v t)) := by
  have hlr := hr.length
  have hlv := hv.length
  have ht0 : (0 : ℝ) ≤ t := Nat.cast_nonneg _
  have h8 : (16 * t : ℝ) ≤ d := le_trans (by exact_mod_cast (show 16 * t ≤ n by omega)) hd
  have hle := (sum_abs_le (g := fun j => Spec.at_ vr j * Spec.at_ rr j) htn).trans hT
  have hh := near_reduce16 ht0 (lanesAcc_length c (by omega) (by omega))
    (near_lanes c hΩ hr hv (by norm_num) htn hnv hnr (by omega) hd hT)
    (by
      rw [sum_lanes 16 t (fun k => |Spec.at_ vr (j0 + k) * Spec.at_ rr (j0 + k)|)]
      exact omega_mono hΩ (by omega) hle (sum_nonneg fun _ _ => abs_nonneg _) h8 (by linarith))
  rwa [sum_lanes 16 t (fun k => |Spec.at_ vr (j0 + k) * Spec.at_ rr (j0 + k)|),
    sum_lanes 16 t (fun k => Spec.at_ vr (j0 + k) * Spec.at_ rr (j0 + k))] at hh

/-- One row. -/
theorem near_dotF (c : Cfg) {row v : List F} {rr vr : List ℝ} (hr : P.IsL row rr) (hv : P.IsL v vr) {n : ℕ} (hnv : n ≤ vr.length)
    (hnr : n ≤ rr.length) {y : F} {y0 : ℝ} (hy : c.avx512 = false → P.Is y y0)
    (hΩ : (1 + P.u) ^ rowDepth c n * ((if c.avx512 then 0 else |y0|) + ∑ j ∈ range n, |Spec.at_ vr j * Spec.at_ rr j| + n * P.η) ≤ P.Ω) :
    P.Near (rowDepth c n) n ((if c.avx512 then 0 else |y0|) + ∑ j ∈ range n, |Spec.at_ vr j * Spec.at_ rr j|)
      ((if c.avx512 then 0 else y0) + ∑ j ∈ range n, Spec.at_ vr j * Spec.at_ rr j) (dotF c n row v y) := by
  have hlr := hr.length
  have hlv := hv.length
  set f : ℕ → ℝ := fun j => Spec.at_ vr j * Spec.at_ rr j with hf
  have hsplit : ∀ (g : ℕ → ℝ) a b, a + b = n → ∑ j ∈ range n, g j = ∑ j ∈ range a, g j + ∑ k ∈ range b, g (a + k) := by
    intro g a b h; rw [← h, sum_range_add]
  have h512 := @Cfg.avx_of_avx512 c
  have hmod : n % 8 = n - 8 * (n / 8) := by omega
  cases h5 : c.avx512 <;> cases hx : c.avx <;> simp only [h5, hx] at h512 <;>
    simp only [dotF, rowDepth, h5, hx, if_true, if_false, Bool.false_eq_true] at hΩ ⊢
  · -- scalar
    have h0 := (near_exact (hy h5)).mono (l := 1) (d := 0) (T := |y0|) le_rfl (by omega) le_rfl le_rfl
    have := near_tail hΩ hr hv h0 le_rfl le_rfl (j0 := 0) (t := n - 0) (by omega) (by omega) (by omega) (by simp) (by simp)
    simpa [hf, Nat.add_comm 1 n] using this
  · -- 8 lanes
    set t := (n - 0) / 8 with ht
    have ht0 : (0 : ℝ) ≤ t := Nat.cast_nonneg _
    have h8 : (8 * t : ℝ) ≤ n := by exact_mod_cast (show 8 * t ≤ n by omega)
    have hy0 := abs_nonneg y0
    have hh := near_part8 c hΩ hr hv (j0 := 0) (t := t) (n := n) (by omega) hnv hnr (by omega) le_rfl (by linarith)
    have e1 := hsplit (fun j => |f j|) (8 * t) (n - 8 * t) (by omega)
    have e2 := hsplit f (8 * t) (n - 8 * t) (by omega)
    have hs0 : 0 ≤ ∑ k ∈ range (n - 8 * t), |f (8 * t + k)| := sum_nonneg fun _ _ => abs_nonneg _
    have hcast : ((n - 8 * t : ℕ) : ℝ) = n - 8 * t := by rw [Nat.cast_sub (by omega)]; push_cast; ring
    simp only [zero_add] at hh ⊢
    have h0 := (near_exact (hy h5)).mono (l := t + 4) (d := 0) (T := |y0|) le_rfl (by omega) le_rfl le_rfl
    have h2 := Near.addB hΩ h0 hh (by omega) le_rfl (by linarith) (by linarith) (by rw [e1]; linarith)
    have h3 := near_tail hΩ hr hv h2 (by omega) (by linarith) (j0 := 8 * t) (t := n - 8 * t) (by omega) (by omega) (by omega)
      (by rw [hcast]; linarith) (by rw [e1]; linarith)
    rw [hcast] at h3
    rw [e1, e2]
    convert h3.mono (l := n / 8 + n % 8 + 5) (by linarith) (by omega) le_rfl le_rfl using 1 <;> ring
  · simp at h512
  · -- 16 lanes
    set t := n / 16 with ht
    set t8 := (n - 16 * t) / 8 with ht8
    have ht0 : (0 : ℝ) ≤ t := Nat.cast_nonneg _
    have ht80 : (0 : ℝ) ≤ t8 := Nat.cast_nonneg _
    have h16 : (16 * t + 8 * t8 : ℝ) ≤ n := by exact_mod_cast (show 16 * t + 8 * t8 ≤ n by omega)
    have hhA := near_part16 c hΩ hr hv (j0 := 0) (t := t) (n := n) (by omega) hnv hnr (by omega) le_rfl (by linarith)
    have hhB := near_part8 c hΩ hr hv (j0 := 16 * t) (t := t8) (n := n) (by omega) hnv hnr (by omega) le_rfl (by linarith)
    have e1 := hsplit (fun j => |f j|) (16 * t + 8 * t8) (n - (16 * t + 8 * t8)) (by omega)
    have e2 := hsplit f (16 * t + 8 * t8) (n - (16 * t + 8 * t8)) (by omega)
    rw [sum_range_add] at e1 e2
    have hs0 : 0 ≤ ∑ k ∈ range (n - (16 * t + 8 * t8)), |f (16 * t + 8 * t8 + k)| := sum_nonneg fun _ _ => abs_nonneg _
    have hcast : ((n - (16 * t + 8 * t8) : ℕ) : ℝ) = n - (16 * t + 8 * t8) := by rw [Nat.cast_sub (by omega)]; push_cast; ring
    simp only [zero_add] at hhA ⊢
    have hhB' := hhB.mono (l := t + 5) (by linarith) (by omega) le_rfl le_rfl
    have h2 := Near.addB hΩ hhA hhB' (by omega) (by linarith) (by linarith) (by linarith) (by rw [zero_add, e1]; linarith)
    have h3 := near_tail hΩ hr hv h2 (by omega) (by linarith) (j0 := 16 * t + 8 * t8) (t := n - (16 * t + 8 * t8)) (by omega) (by omega)
      (by omega) (by rw [hcast]; linarith) (by rw [zero_add, e1])
    rw [hcast] at h3
    rw [e1, e2]
    convert h3.mono (l := t + n % 8 + 6) (by linarith) (by omega) le_rfl le_rfl using 1 <;> ring

end FloatModel
end NN
