import Verif.Model.Loss
import Verif.Model.RealOps
import Verif.Model.NanOps
import Verif.Spec.Metrics
import Verif.Proofs.Loops
import Verif.Proofs.Elem
import Verif.Proofs.KernelsReal
/-
The metrics: sums over the outputs, first maxima.
-/
set_option linter.unusedSimpArgs false
set_option linter.unusedSectionVars false

namespace NN
open FloatOps Spec

section
variable {F : Type} [FloatOps F]

/-- The metric sums as a fold. -/
def sumF (f : F → F → F) (n : ℕ) (p y : List F) : F :=
  ((p.take n).zip (y.take n)).foldl (fun s q => add s (f q.1 q.2)) zero

theorem sumLoop_eq (f : F → F → F) (n : ℕ) (p y : View F) (hp : n ≤ p.data.length)
    (hy : n ≤ y.data.length) : sumLoop f n p y = .ok (sumF f n p.data y.data) := by
  unfold sumLoop
  have h := forN_eq (n := n) (body := fun i err => do
    let p ← p.load i
    let y ← y.load i
    pure (add err (f p y))) (fun k => sumF f k p.data y.data) (fun k hk => by
      rw [load_ok (show k < p.data.length by omega), load_ok (show k < y.data.length by omega)]
      simp only [bind, Except.bind, pure, Except.pure, sumF]
      rw [List.take_succ_eq_append_getElem (show k < p.data.length by omega),
        List.take_succ_eq_append_getElem (show k < y.data.length by omega),
        List.zip_append (by simp; omega), List.foldl_append]
      rfl)
  simpa [sumF] using h

/-- First maximum so far. -/
def argmaxF (l : List F) : ℕ → F × ℕ
  | 0 => (l.getD 0 zero, 0)
  | k + 1 => let s := argmaxF l k
    if lt s.1 (l.getD (k + 1) zero) then (l.getD (k + 1) zero, k + 1) else s

theorem argmaxLoop_eq (n : ℕ) (v : View F) (hn : 1 ≤ n) (hv : n ≤ v.data.length) :
    argmaxLoop n v = .ok (argmaxF v.data (n - 1)).2 := by
  unfold argmaxLoop
  rw [load_ok (show 0 < v.data.length by omega)]
  simp only [bind, Except.bind]
  have h := stripLe_eq (W := 1) (n := n) (j := 1) (body := fun i (s : F × ℕ) => do
    let x ← v.load i
    pure (if lt s.1 x then (x, i) else s)) (fun k => argmaxF v.data (k - 1)) (by decide)
    (fun k hk _ hkn => by
      rw [load_ok (show k < v.data.length by omega)]
      obtain ⟨j, rfl⟩ : ∃ j, k = j + 1 := ⟨k - 1, by omega⟩
      simp only [bind, Except.bind, pure, Except.pure, Nat.add_sub_cancel, argmaxF]
      have : v.data.getD (j + 1) zero = v.data[j + 1] := by
        simp [List.getD, List.getElem?_eq_getElem (show j + 1 < v.data.length by omega)]
      rw [this])
  have h0 : argmaxF v.data (1 - 1) = (v.data[0], 0) := by
    simp [argmaxF, List.getD, List.getElem?_eq_getElem (show 0 < v.data.length by omega)]
  rw [h0] at h
  simp only [bind, Except.bind] at h
  rw [h]
  simp only [pure, Except.pure]
  have : 1 + 1 * ((n - 1) / 1) - 1 = n - 1 := by omega
  rw [this]

end

theorem sumF_real (f : ℝ → ℝ → ℝ) (n : ℕ) (p y : List ℝ) (hp : n ≤ p.length) (hy : n ≤ y.length) :
    sumF f n p y = ∑ k ∈ Finset.range n, f (at_ p k) (at_ y k) := by
  induction n with
  | zero => simp [sumF]
  | succ k ih =>
    rw [Finset.sum_range_succ, ← ih (by omega) (by omega), at_eq (show k < p.length by omega),
      at_eq (show k < y.length by omega)]
    simp only [sumF]
    rw [List.take_succ_eq_append_getElem (show k < p.length by omega),
        List.take_succ_eq_append_getElem (show k < y.length by omega),
        List.zip_append (by simp; omega), List.foldl_append]
    rfl

theorem argmaxF_real (l : List ℝ) (k : ℕ) :
    FirstMax (k + 1) l (argmaxF l k).2 ∧ (argmaxF l k).1 = at_ l (argmaxF l k).2 := by
  induction k with
  | zero => exact ⟨⟨by simp [argmaxF], by simp [argmaxF], by simp [argmaxF]⟩, rfl⟩
  | succ k ih =>
    obtain ⟨⟨h1, h2, h3⟩, h4⟩ := ih
    have e : l.getD (k + 1) zero = at_ l (k + 1) := rfl
    simp only [argmaxF, e]
    by_cases h : FloatOps.lt (argmaxF l k).1 (at_ l (k + 1)) = true
    · rw [if_pos h]
      rw [RealOps.lt_iff, h4] at h
      refine ⟨⟨by simp, ?_, ?_⟩, rfl⟩
      · intro j hj
        rcases Nat.lt_succ_iff_lt_or_eq.mp hj with hj | rfl
        · exact (h2 j hj).trans h.le
        · exact le_rfl
      · intro j hj
        exact (h2 j hj).trans_lt h
    · rw [if_neg h]
      rw [RealOps.lt_iff, h4, not_lt] at h
      refine ⟨⟨by omega, ?_, h3⟩, h4⟩
      intro j hj
      rcases Nat.lt_succ_iff_lt_or_eq.mp hj with hj | rfl
      · exact h2 j hj
      · exact h

theorem firstMax_unique {n : ℕ} {l : List ℝ} {i j : ℕ} (hi : FirstMax n l i) (hj : FirstMax n l j) : i = j := by
  rcases lt_trichotomy i j with h | h | h
  · exact absurd (hj.2.2 i h) (not_lt.mpr (hi.2.1 j hj.1))
  · exact h
  · exact absurd (hi.2.2 j h) (not_lt.mpr (hj.2.1 i hi.1))

theorem clip_real (p : ℝ) : clip p = Spec.clip (1 / 10000000) p := by
  simp [NN.clip, Spec.clip, epsilon]

theorem roundAway_spec (x : ℝ) : ∃ k : ℤ, roundAway x = k ∧ IsRound x k := by
  unfold roundAway IsRound
  by_cases h : 0 ≤ x
  · refine ⟨⌊x + 1 / 2⌋, by rw [if_pos h], ?_⟩
    rw [if_pos h]
    have h1 := Int.floor_le (x + 1 / 2)
    have h2 := Int.lt_floor_add_one (x + 1 / 2)
    constructor <;> linarith
  · refine ⟨-⌊-x + 1 / 2⌋, by rw [if_neg h]; push_cast; rfl, ?_⟩
    rw [if_neg h]
    have h1 := Int.floor_le (-x + 1 / 2)
    have h2 := Int.lt_floor_add_one (-x + 1 / 2)
    push_cast
    constructor <;> linarith

end NN
