import Verif.Model.Basic
/-
Loop lemmas: strips, heads and ladders whose bodies follow a state function `f` (state after the
first `k` elements) end in the state for all elements.
-/
namespace NN

theorem stripLe_eq {σ : Type} {W n j : Nat} {body : Nat → σ → M σ} (f : Nat → σ) (hW : 0 < W)
    (h : ∀ k, j ≤ k → (k - j) % W = 0 → k + W ≤ n → body k (f k) = .ok (f (k + W))) :
    stripLe W n body j (f j) = .ok (j + W * ((n - j) / W), f (j + W * ((n - j) / W))) := by
  induction hm : n - j using Nat.strongRecOn generalizing j with
  | _ d ih =>
    unfold stripLe
    by_cases hc : j + W ≤ n
    · have hb := h j (Nat.le_refl _) (by simp) hc
      simp only [hW, hc, and_self, if_true, hb]
      have := ih (n - (j + W)) (by omega) (j := j + W) (fun k hk hm' hkn => by
        apply h k (by omega) _ hkn
        have : k - j = (k - (j + W)) + W := by omega
        rw [this, Nat.add_mod_right]; exact hm') rfl
      rw [this]
      have e : (d / W) = (n - (j + W)) / W + 1 := by
        have : d = (n - (j + W)) + W := by omega
        rw [this, Nat.add_div_right _ hW]
      rw [e]
      have : j + W + W * ((n - (j + W)) / W) = j + W * ((n - (j + W)) / W + 1) := by
        rw [Nat.mul_add]; omega
      rw [this]
    · have e : d / W = 0 := Nat.div_eq_of_lt (by omega)
      simp [hc, e]

theorem stripLt_eq_stripLe {σ : Type} {W n j : Nat} {body : Nat → σ → M σ} (s : σ) (hW : 0 < W) :
    stripLt W n body j s = stripLe W (n - 1) body j s := by
  induction hm : n - j using Nat.strongRecOn generalizing j s with
  | _ d ih =>
    unfold stripLt stripLe
    have : (0 < W ∧ j + W < n) ↔ (0 < W ∧ j + W ≤ n - 1) := by omega
    simp only [this]
    split
    · rename_i hc
      split
      · exact ih (n - (j + W)) (by omega) _ rfl
      · rfl
    · rfl

/-- Where a head loop stops. -/
def headEnd (p : Nat → Bool) (n j : Nat) : Nat :=
  if p j ∧ j < n then headEnd p n (j + 1) else j
termination_by n - j

theorem headEnd_le {p : Nat → Bool} {n j : Nat} (hj : j ≤ n) : headEnd p n j ≤ n := by
  induction hm : n - j using Nat.strongRecOn generalizing j with
  | _ d ih =>
    unfold headEnd
    split
    · exact ih (n - (j+1)) (by omega) (by omega) rfl
    · exact hj

theorem le_headEnd {p : Nat → Bool} {n j : Nat} : j ≤ headEnd p n j := by
  induction hm : n - j using Nat.strongRecOn generalizing j with
  | _ d ih =>
    unfold headEnd
    split
    · have := ih (n - (j+1)) (by omega) (j := j+1) rfl
      omega
    · exact Nat.le_refl _

theorem headEnd_stop {p : Nat → Bool} {n j : Nat} (h : headEnd p n j < n) :
    p (headEnd p n j) = false := by
  induction hm : n - j using Nat.strongRecOn generalizing j with
  | _ d ih =>
    unfold headEnd at h ⊢
    split
    · rename_i hc
      rw [if_pos hc] at h
      exact ih (n - (j+1)) (by omega) h rfl
    · rename_i hc
      rw [if_neg hc] at h
      cases hp : p j
      · rfl
      · exact absurd ⟨hp, h⟩ hc

theorem headEnd_of_not {p : Nat → Bool} {n j : Nat} (h : p j = false) : headEnd p n j = j := by
  unfold headEnd; simp [h]

theorem headLoop_eq {σ : Type} {p : Nat → Bool} {n j : Nat} {body : Nat → σ → M σ} (f : Nat → σ)
    (h : ∀ k, j ≤ k → k < headEnd p n j → body k (f k) = .ok (f (k + 1))) :
    headLoop p n body j (f j) = .ok (headEnd p n j, f (headEnd p n j)) := by
  induction hm : n - j using Nat.strongRecOn generalizing j with
  | _ d ih =>
    by_cases hc : p j ∧ j < n
    · have e : headEnd p n j = headEnd p n (j + 1) := by
        rw [headEnd, if_pos hc]
      have hj1 : j + 1 ≤ headEnd p n (j + 1) := le_headEnd
      unfold headLoop
      rw [if_pos hc, h j (Nat.le_refl _) (by omega)]
      simp only
      rw [ih (n - (j+1)) (by omega) (fun k hk hk2 => h k (by omega) (by omega)) rfl, e]
    · have e : headEnd p n j = j := by rw [headEnd, if_neg hc]
      unfold headLoop
      rw [if_neg hc, e]

theorem forN_eq {σ : Type} {n : Nat} {body : Nat → σ → M σ} (f : Nat → σ)
    (h : ∀ k, k < n → body k (f k) = .ok (f (k + 1))) :
    forN n body (f 0) = .ok (f n) := by
  unfold forN
  rw [stripLe_eq f (by decide) (fun k _ _ hk => h k (by omega))]
  simp [bind, Except.bind, pure, Except.pure, Nat.div_one]

/-- Number of elements handled by vector instructions in a `ladder`. -/
def vcut (c : Cfg) (n : Nat) : Nat := if c.avx then 8 * (n / 8) else 0

theorem Cfg.avx_of_avx512 {c : Cfg} (h : c.avx512 = true) : c.avx = true := by
  rcases c with ⟨s, _, _⟩
  cases s <;> simp_all [Cfg.avx, Cfg.avx512]

theorem vcut_le (c : Cfg) (n : Nat) : vcut c n ≤ n := by
  unfold vcut; split <;> omega

theorem ladder_eq {σ : Type} {c : Cfg} {n : Nat} {vec : Nat → Nat → σ → M σ} {b1 : Nat → σ → M σ}
    (f : Nat → σ)
    (h16 : c.avx512 = true → ∀ k, 16 ∣ k → k + 16 ≤ n → k + 16 ≤ vcut c n →
      vec 16 k (f k) = .ok (f (k + 16)))
    (h8 : c.avx = true → ∀ k, 8 ∣ k → k + 8 ≤ n → k + 8 ≤ vcut c n → vec 8 k (f k) = .ok (f (k + 8)))
    (h1 : ∀ k, k < n → vcut c n ≤ k → b1 k (f k) = .ok (f (k + 1))) :
    ladder c n vec b1 (f 0) = .ok (f n) := by
  unfold ladder
  have h512 := @Cfg.avx_of_avx512 c
  cases h5 : c.avx512 <;> cases ha : c.avx <;> simp only [h5, ha] at h512 ⊢
  · have hv : vcut c n = 0 := by simp [vcut, ha]
    simp only [Bool.false_eq_true, if_false, bind, Except.bind, pure, Except.pure]
    rw [stripLe_eq f (by decide) (fun k _ _ hk => h1 k (by omega) (by omega))]
    simp [Nat.div_one]
  · have hv : vcut c n = 8 * (n / 8) := by simp [vcut, ha]
    simp only [Bool.false_eq_true, if_false, if_true, bind, Except.bind, pure, Except.pure]
    rw [stripLe_eq (n := n) (j := 0) f (by decide) (fun k _ hm hk => h8 ha k (by omega) (by omega) (by omega))]
    simp only [Nat.zero_add, Nat.sub_zero]
    rw [stripLe_eq f (by decide) (fun k _ _ hk => h1 k (by omega) (by omega))]
    have : 8 * (n / 8) + 1 * ((n - 8 * (n / 8)) / 1) = n := by omega
    simp only [this]
  · simp at h512
  · have hv : vcut c n = 8 * (n / 8) := by simp [vcut, ha]
    simp only [if_true, bind, Except.bind, pure, Except.pure]
    rw [stripLe_eq (n := n) (j := 0) f (by decide) (fun k _ hm hk => h16 h5 k (by omega) (by omega) (by omega))]
    simp only [Nat.zero_add, Nat.sub_zero]
    rw [stripLe_eq (n := n) (j := 16 * (n / 16)) f (by decide) (fun k _ hm hk => h8 ha k (by omega) (by omega) (by omega))]
    simp only
    rw [stripLe_eq f (by decide) (fun k _ _ hk => h1 k (by omega) (by omega))]
    have : 16 * (n / 16) + 8 * ((n - 16 * (n / 16)) / 8) +
        1 * ((n - (16 * (n / 16) + 8 * ((n - 16 * (n / 16)) / 8))) / 1) = n := by omega
    simp only [this]

/-- Number of elements handled by vector instructions in a `ladderLt`. -/
def vcutLt (c : Cfg) (n : Nat) : Nat := if c.avx then 8 * ((n - 1) / 8) else 0

theorem vcutLt_le (c : Cfg) (n : Nat) : vcutLt c n ≤ n := by
  unfold vcutLt; split <;> omega

theorem ladderLt_eq {σ : Type} {c : Cfg} {n : Nat} {vec : Nat → Nat → σ → M σ} {b1 : Nat → σ → M σ}
    (f : Nat → σ)
    (h16 : c.avx512 = true → ∀ k, 16 ∣ k → k + 16 ≤ n → k + 16 ≤ vcutLt c n →
      vec 16 k (f k) = .ok (f (k + 16)))
    (h8 : c.avx = true → ∀ k, 8 ∣ k → k + 8 ≤ n → k + 8 ≤ vcutLt c n → vec 8 k (f k) = .ok (f (k + 8)))
    (h1 : ∀ k, k < n → vcutLt c n ≤ k → b1 k (f k) = .ok (f (k + 1))) :
    ladderLt c n vec b1 (f 0) = .ok (f n) := by
  unfold ladderLt
  have h512 := @Cfg.avx_of_avx512 c
  cases h5 : c.avx512 <;> cases ha : c.avx <;> simp only [h5, ha] at h512 ⊢
  · have hv : vcutLt c n = 0 := by simp [vcutLt, ha]
    simp only [Bool.false_eq_true, if_false, bind, Except.bind, pure, Except.pure]
    rw [stripLe_eq f (by decide) (fun k _ _ hk => h1 k (by omega) (by omega))]
    simp [Nat.div_one]
  · have hv : vcutLt c n = 8 * ((n - 1) / 8) := by simp [vcutLt, ha]
    simp only [Bool.false_eq_true, if_false, if_true, bind, Except.bind, pure, Except.pure]
    rw [stripLt_eq_stripLe _ (by decide),
      stripLe_eq (n := n - 1) (j := 0) f (by decide) (fun k _ hm hk => h8 ha k (by omega) (by omega) (by omega))]
    simp only [Nat.zero_add, Nat.sub_zero]
    rw [stripLe_eq f (by decide) (fun k _ _ hk => h1 k (by omega) (by omega))]
    have : 8 * ((n - 1) / 8) + 1 * ((n - 8 * ((n - 1) / 8)) / 1) = n := by omega
    simp only [this]
  · simp at h512
  · have hv : vcutLt c n = 8 * ((n - 1) / 8) := by simp [vcutLt, ha]
    simp only [if_true, bind, Except.bind, pure, Except.pure]
    rw [stripLt_eq_stripLe _ (by decide),
      stripLe_eq (n := n - 1) (j := 0) f (by decide) (fun k _ hm hk => h16 h5 k (by omega) (by omega) (by omega))]
    simp only [Nat.zero_add, Nat.sub_zero]
    rw [stripLt_eq_stripLe _ (by decide),
      stripLe_eq (n := n - 1) (j := 16 * ((n - 1) / 16)) f (by decide) (fun k _ hm hk => h8 ha k (by omega) (by omega) (by omega))]
    simp only
    rw [stripLe_eq f (by decide) (fun k _ _ hk => h1 k (by omega) (by omega))]
    have : 16 * ((n - 1) / 16) + 8 * ((n - 1 - 16 * ((n - 1) / 16)) / 8) +
        1 * ((n - (16 * ((n - 1) / 16) + 8 * ((n - 1 - 16 * ((n - 1) / 16)) / 8))) / 1) = n := by
      omega
    simp only [this]

end NN
