import Verif.Proofs.ActFloat
import Verif.Proofs.ActivationReal
import Verif.Proofs.RoundDot
import Verif.Spec.NetError
import Mathlib.Tactic.IntervalCases
/-
Softmax in `float` arithmetic.
-/
namespace NN
open B32 Finset

/-! ### Sums of nonnegative numbers -/

/-- `a` is a float sum of nonnegative numbers adding up to `s`, each rounded at most `k` times, and not below any number in `A`. -/
def SumOf (k : ℕ) (s : ℝ) (A : Set ℝ) (a : B32) : Prop :=
  ∃ z, Is a z ∧ 0 ≤ s ∧ |z - s| ≤ ((1 + 2 ^ (-24 : ℤ)) ^ k - 1) * s ∧ 0 ≤ z ∧ ∀ e ∈ A, e ≤ z

theorem SumOf.mono {k l : ℕ} {s : ℝ} {A B : Set ℝ} {a : B32} (h : SumOf k s A a) (hk : k ≤ l) (hB : B ⊆ A) : SumOf l s B a := by
  obtain ⟨z, h1, h2, h3, h4, h5⟩ := h
  refine ⟨z, h1, h2, h3.trans ?_, h4, fun e he => h5 e (hB he)⟩
  have : (1 + (2 : ℝ) ^ (-24 : ℤ)) ^ k ≤ (1 + 2 ^ (-24 : ℤ)) ^ l := pow_le_pow_right₀ (by norm_num) hk
  gcongr

theorem sumOf_single {a : B32} {x : ℝ} (h : Is a x) (h0 : 0 ≤ x) (k : ℕ) : SumOf k x {x} a := by
  have : SumOf 0 x {x} a := ⟨x, h, h0, by simp, h0, by simp⟩
  exact this.mono (Nat.zero_le _) subset_rfl

theorem sumOf_zero (k : ℕ) : SumOf k 0 ∅ (zeroS false) :=
  (sumOf_single (is_zeroS false) le_rfl k).mono le_rfl (Set.empty_subset _)

theorem SumOf.add {K : ℕ} {T : ℝ} (hB : (1 + 2 ^ (-24 : ℤ)) ^ K * T ≤ maxF32) {k : ℕ} {s t : ℝ} {A B : Set ℝ} {a b : B32}
    (h : SumOf k s A a) (h' : SumOf k t B b) (hk : k ≤ K) (hT : s + t ≤ T) : SumOf (k + 1) (s + t) (A ∪ B) (B32.add a b) := by
  obtain ⟨z, h1, h2, h3, h4, h5⟩ := h
  obtain ⟨w, g1, g2, g3, g4, g5⟩ := h'
  have hp : (1 : ℝ) ≤ (1 + 2 ^ (-24 : ℤ)) ^ k := one_le_pow₀ (by norm_num)
  have hpK : (1 + (2 : ℝ) ^ (-24 : ℤ)) ^ k ≤ (1 + 2 ^ (-24 : ℤ)) ^ K := pow_le_pow_right₀ (by norm_num) hk
  have hz := (abs_le.1 h3).2
  have hw := (abs_le.1 g3).2
  have hd : |z + w - (s + t)| ≤ ((1 + 2 ^ (-24 : ℤ)) ^ k - 1) * (s + t) := by
    rw [show z + w - (s + t) = (z - s) + (w - t) by ring]
    exact (abs_add_le _ _).trans (by linarith)
  have hzw : z + w ≤ (1 + 2 ^ (-24 : ℤ)) ^ k * (s + t) := by linarith
  have hmax : z + w ≤ maxF32 := by
    refine hzw.trans (le_trans ?_ hB)
    apply mul_le_mul hpK hT (by linarith) (by linarith)
  obtain ⟨m, hm⟩ := add_grid h1 g1
  have hr := rnd_grid hm
  rw [abs_of_nonneg (by linarith : 0 ≤ z + w)] at hr
  refine ⟨rnd (z + w), add_is h1 g1 (by rwa [abs_of_nonneg (by linarith)]), by linarith, ?_, rnd_nonneg (by linarith), ?_⟩
  · have h6 : |rnd (z + w) - (s + t)| ≤ |rnd (z + w) - (z + w)| + |z + w - (s + t)| := by
      have := abs_add_le (rnd (z + w) - (z + w)) (z + w - (s + t)); simpa using this
    have h7 : (2 : ℝ) ^ (-24 : ℤ) * (z + w) ≤ 2 ^ (-24 : ℤ) * ((1 + 2 ^ (-24 : ℤ)) ^ k * (s + t)) :=
      mul_le_mul_of_nonneg_left hzw (by positivity)
    rw [pow_succ]
    generalize (2 : ℝ) ^ (-24 : ℤ) = u at *
    generalize (1 + u) ^ k = p at *
    linarith
  · rintro e (he | he)
    · exact (h5 e he).trans (le_rnd (by linarith) (rnd_is h1))
    · exact (g5 e he).trans (le_rnd (by linarith) (rnd_is g1))

/-- A loop `sum += e[j]`. -/
theorem sumOf_foldl {K : ℕ} {T : ℝ} (hB : (1 + 2 ^ (-24 : ℤ)) ^ K * T ≤ maxF32) {l : List B32} {r : List ℝ} (h : List.Forall₂ Is l r)
    (hr : ∀ x ∈ r, 0 ≤ x) {k : ℕ} {s : ℝ} {A : Set ℝ} {a : B32} (ha : SumOf k s A a) (hk : k + l.length ≤ K) (hT : s + r.sum ≤ T) :
    SumOf (k + l.length) (s + r.sum) (A ∪ {x | x ∈ r}) (l.foldl B32.add a) := by
  induction h generalizing k s A a with
  | nil => simpa using ha
  | @cons b x l r hb h ih =>
    simp only [List.length_cons, List.sum_cons] at hk hT
    have hx : 0 ≤ x := hr x (by simp)
    have hrs : 0 ≤ r.sum := List.sum_nonneg fun y hy => hr y (by simp [hy])
    have h1 := SumOf.add hB ha (sumOf_single hb hx k) (by omega) (by linarith)
    have h2 := ih (fun y hy => hr y (by simp [hy])) h1 (by omega) (by linarith)
    rw [List.foldl_cons, List.length_cons, List.sum_cons]
    rw [show k + (l.length + 1) = k + 1 + l.length by ring, show s + (x + r.sum) = s + x + r.sum by ring]
    refine h2.mono le_rfl ?_
    intro e he
    simp only [Set.mem_union, Set.mem_ofPred_eq, List.mem_cons, Set.mem_singleton_iff] at he ⊢
    tauto

theorem sumOf_hsum {K : ℕ} {T : ℝ} (hB : (1 + 2 ^ (-24 : ℤ)) ^ K * T ≤ maxF32) (L : Libm) {k : ℕ} {f : ℕ → ℝ} {A : ℕ → Set ℝ} {l : List B32}
    (hl : l.length = 8) (h : ∀ i, i < 8 → ∃ a, l[i]? = some a ∧ SumOf k (f i) (A i) a) (hk : k + 3 ≤ K) (hT : ∑ i ∈ range 8, f i ≤ T) :
    SumOf (k + 3) (∑ i ∈ range 8, f i) {e | ∃ i < 8, e ∈ A i} (@hsum256 B32 (ops L) l) := by
  match l, hl with
  | [a0, a1, a2, a3, a4, a5, a6, a7], _ =>
    have g : ∀ i, (hi : i < 8) → SumOf k (f i) (A i) [a0, a1, a2, a3, a4, a5, a6, a7][i] := by
      intro i hi
      obtain ⟨a, h1, h2⟩ := h i hi
      rw [List.getElem?_eq_getElem (by simpa using hi)] at h1
      simp only [Option.some.injEq] at h1
      rwa [h1]
    have g0 := g 0 (by norm_num)
    have g1 := g 1 (by norm_num)
    have g2 := g 2 (by norm_num)
    have g3 := g 3 (by norm_num)
    have g4 := g 4 (by norm_num)
    have g5 := g 5 (by norm_num)
    have g6 := g 6 (by norm_num)
    have g7 := g 7 (by norm_num)
    simp only [List.getElem_cons_zero, List.getElem_cons_succ] at g0 g1 g2 g3 g4 g5 g6 g7
    clear g h
    have nn : ∀ {i : ℕ} {a : B32}, SumOf k (f i) (A i) a → 0 ≤ f i := fun h => by obtain ⟨_, _, h, _⟩ := h; exact h
    have n0 := nn g0
    have n1 := nn g1
    have n2 := nn g2
    have n3 := nn g3
    have n4 := nn g4
    have n5 := nn g5
    have n6 := nn g6
    have n7 := nn g7
    simp only [sum_range_succ, sum_range_zero, zero_add] at hT ⊢
    have h04 := SumOf.add hB g0 g4 (by omega) (by linarith)
    have h15 := SumOf.add hB g1 g5 (by omega) (by linarith)
    have h26 := SumOf.add hB g2 g6 (by omega) (by linarith)
    have h37 := SumOf.add hB g3 g7 (by omega) (by linarith)
    have hA := SumOf.add hB h04 h15 (by omega) (by linarith)
    have hC := SumOf.add hB h26 h37 (by omega) (by linarith)
    have hD := SumOf.add hB hA hC (by omega) (by linarith)
    have hE := hD.mono le_rfl (B := {e | ∃ i < 8, e ∈ A i}) (by
      rintro e ⟨i, hi, he⟩
      simp only [Set.mem_union]
      interval_cases i <;> tauto)
    convert hE using 1
    · ring
    · rfl

/-- The lanes of the vector part. -/
theorem sumOf_lanes {K : ℕ} {T : ℝ} (hB : (1 + 2 ^ (-24 : ℤ)) ^ K * T ≤ maxF32) (L : Libm) {l : List B32} {E : ℕ → ℝ} {lo : ℕ} (t : ℕ)
    (h : ∀ j, j < l.length → ∃ a, l[j]? = some a ∧ Is a (E j)) (h0 : ∀ j, 0 ≤ E j) (hlen : lo + 8 * t ≤ l.length) (hk : t ≤ K)
    (hT : ∑ j ∈ range (8 * t), E (lo + j) ≤ T) :
    (@vsumF B32 (ops L) lo l t).length = 8 ∧ ∀ i, i < 8 → ∃ a, (@vsumF B32 (ops L) lo l t)[i]? = some a ∧
      SumOf t (∑ s ∈ range t, E (lo + (8 * s + i))) {e | ∃ s < t, e = E (lo + (8 * s + i))} a := by
  induction t with
  | zero =>
    refine ⟨by simp [vsumF, set1], ?_⟩
    intro i hi
    refine ⟨zeroS false, ?_, ?_⟩
    · simp only [vsumF, set1, List.getElem?_replicate, hi, if_true]; rfl
    · simpa using sumOf_zero 0
  | succ t ih =>
    have hT' : ∑ j ∈ range (8 * t), E (lo + j) ≤ ∑ j ∈ range (8 * (t + 1)), E (lo + j) :=
      sum_le_sum_of_subset_of_nonneg (range_subset_range.2 (by omega)) (fun _ _ _ => h0 _)
    obtain ⟨h1, h2⟩ := ih (by omega) (by omega) (hT'.trans hT)
    have hs : (slice l (lo + 8 * t) 8).length = 8 := by simp; omega
    refine ⟨by simp [vsumF, vop2, h1, hs], ?_⟩
    intro i hi
    obtain ⟨a, ha1, ha2⟩ := h2 i hi
    obtain ⟨b, hb1, hb2⟩ := h (lo + 8 * t + i) (by omega)
    refine ⟨B32.add a b, ?_, ?_⟩
    · have hsl : (slice l (lo + 8 * t) 8)[i]? = some b := by
        rw [slice_getElem?, if_pos hi]; exact hb1
      simp only [vsumF, vop2, List.getElem?_zipWith, ha1, hsl]
      rfl
    · rw [sum_range_succ]
      have e1 : lo + 8 * t + i = lo + (8 * t + i) := by ring
      rw [e1] at hb2
      have hle : ∑ s ∈ range t, E (lo + (8 * s + i)) + E (lo + (8 * t + i)) ≤ T := by
        refine le_trans ?_ hT
        rw [← sum_range_succ (f := fun s => E (lo + (8 * s + i))), ← sum_lanes 8 (t + 1) (fun j => E (lo + j))]
        exact single_le_sum (f := fun i => ∑ s ∈ range (t + 1), E (lo + (8 * s + i))) (fun _ _ => sum_nonneg fun _ _ => h0 _) (by simpa using hi)
      have := SumOf.add hB ha2 (sumOf_single hb2 (h0 _) t) (by omega) hle
      refine this.mono le_rfl ?_
      rintro e ⟨s, hs', rfl⟩
      rcases Nat.lt_succ_iff_lt_or_eq.1 hs' with hs' | rfl
      · exact .inl ⟨s, hs', rfl⟩
      · exact .inr rfl

theorem forall₂_get {l : List B32} {r : List ℝ} (h : List.Forall₂ Is l r) (j : ℕ) (hj : j < l.length) :
    ∃ a, l[j]? = some a ∧ Is a (Spec.at_ r j) := by
  have hl := h.length_eq
  refine ⟨l[j], List.getElem?_eq_getElem hj, ?_⟩
  have := (List.forall₂_iff_get.1 h).2 j hj (by omega)
  have h2 : j < r.length := by omega
  simpa [Spec.at_, h2] using this

theorem sum_at (r : List ℝ) (i n : ℕ) (h : i + n ≤ r.length) : ∑ j ∈ range n, Spec.at_ r (i + j) = (slice r i n).sum := by
  induction n with
  | zero => simp [slice]
  | succ n ih =>
    rw [sum_range_succ, ih (by omega)]
    have : slice r i (n + 1) = slice r i n ++ [Spec.at_ r (i + n)] := by
      have hlt : n < (r.drop i).length := by simp; omega
      rw [slice, slice, List.take_add_one, List.getElem?_eq_getElem hlt]
      have h3 : i + n < r.length := by omega
      simp [Spec.at_, h3]
    rw [this]; simp

/-- The sum of the second pass. -/
theorem sumOf_softmax {T : ℝ} (L : Libm) (c : Cfg) (addr : ℕ) {l : List B32} {r : List ℝ} (h : List.Forall₂ Is l r)
    (h0 : ∀ x ∈ r, 0 ≤ x) (hB : (1 + 2 ^ (-24 : ℤ)) ^ (l.length + 4) * T ≤ maxF32) (hT : r.sum ≤ T) :
    SumOf (l.length + 4) r.sum {x | x ∈ r} (@softmaxSumF B32 (ops L) c addr l.length l) := by
  have hlen := h.length_eq
  unfold softmaxSumF
  split
  · simp only
    set n := l.length with hn
    have hlo := bodyLo_le c addr n
    set lo := bodyLo c addr n with hlo'
    have hhi := bodyHi_le (w := 8) hlo
    have hhi' : bodyHi lo 8 n = lo + 8 * ((n - lo) / 8) := rfl
    set t := (n - lo) / 8 with ht
    have hE0 : ∀ j, 0 ≤ Spec.at_ r j := by
      intro j
      by_cases hj : j < r.length
      · have : Spec.at_ r j = r[j] := by simp [Spec.at_, hj]
        rw [this]
        exact h0 _ (List.getElem_mem _)
      · simp [Spec.at_, hj]
    -- head
    have hsub : ∀ {q : List ℝ}, q.Sublist r → ∀ x ∈ q, 0 ≤ x := fun hq x hx => h0 x (hq.subset hx)
    have hsum3 : r.sum = (r.take lo).sum + (slice r lo (8 * t)).sum + (r.drop (bodyHi lo 8 n)).sum := by
      have e1 : r.take (lo + 8 * t) = r.take lo ++ slice r lo (8 * t) := by rw [List.take_add]; rfl
      rw [← List.sum_append, ← e1, hhi', ← List.sum_append, List.take_append_drop]
    have p1 : 0 ≤ (r.take lo).sum := List.sum_nonneg (hsub (List.take_sublist _ _))
    have p2 : 0 ≤ (slice r lo (8 * t)).sum := List.sum_nonneg (hsub ((List.take_sublist _ _).trans (List.drop_sublist _ _)))
    have p3 : 0 ≤ (r.drop (bodyHi lo 8 n)).sum := List.sum_nonneg (hsub (List.drop_sublist _ _))
    have H1 := sumOf_foldl (K := n + 4) hB (List.forall₂_take lo h) (hsub (List.take_sublist _ _)) (sumOf_zero 0)
      (by simp; omega) (by linarith)
    have hl1 : (l.take lo).length = lo := by simp; omega
    rw [hl1, zero_add, zero_add, Set.empty_union] at H1
    -- body
    have hsl := sum_at r lo (8 * t) (by omega)
    obtain ⟨V1, V2⟩ := sumOf_lanes (K := n + 4) hB L (lo := lo) t (fun j hj => forall₂_get h j hj) hE0 (by omega) (by omega)
      (by rw [hsl]; linarith)
    have hlanes := sum_lanes 8 t (fun j => Spec.at_ r (lo + j))
    have H2 := sumOf_hsum (K := n + 4) hB L V1 V2 (by omega) (by rw [hlanes, hsl]; linarith)
    rw [hlanes, hsl] at H2
    -- together
    obtain ⟨k, hk⟩ : ∃ k, k = max lo (t + 3) := ⟨_, rfl⟩
    have H3 := SumOf.add (K := n + 4) hB (H1.mono (l := k) (by omega) subset_rfl) (H2.mono (l := k) (by omega) subset_rfl) (by omega) (by linarith)
    have htake : l.take n = l := by simp [hn]
    have H4 := sumOf_foldl (K := n + 4) hB (List.forall₂_drop (bodyHi lo 8 n) h) (hsub (List.drop_sublist _ _)) H3
      (by simp; omega) (by linarith)
    rw [htake]
    rw [← hsum3] at H4
    refine H4.mono (by simp; omega) ?_
    intro e he
    simp only [Set.mem_ofPred_eq] at he
    rw [List.mem_iff_getElem] at he
    obtain ⟨j, hj, rfl⟩ := he
    simp only [Set.mem_union, Set.mem_ofPred_eq]
    by_cases c1 : j < lo
    · left; left
      rw [List.mem_iff_getElem]
      exact ⟨j, by simp; omega, by simp⟩
    · by_cases c2 : j < lo + 8 * t
      · left; right
        refine ⟨(j - lo) % 8, by omega, (j - lo) / 8, by omega, ?_⟩
        have : lo + (8 * ((j - lo) / 8) + (j - lo) % 8) = j := by omega
        rw [this]; simp [Spec.at_, hj]
      · right
        rw [List.mem_iff_getElem]
        refine ⟨j - bodyHi lo 8 n, by simp; omega, ?_⟩
        simp only [List.getElem_drop]
        congr 1; omega
  · have H := sumOf_foldl (K := l.length + 4) hB h h0 (sumOf_zero 0) (by omega) (by linarith)
    rw [List.take_length]
    rw [zero_add, zero_add, Set.empty_union] at H
    exact H.mono (by omega) subset_rfl

/-! ### The exponentials -/

theorem maxF_float (L : Libm) (l : List B32) (h : l ≠ []) (hf : ∀ x ∈ l, x.isFinite = true) :
    @maxF B32 (ops L) l ∈ l ∧ ∀ x ∈ l, x.value ≤ (@maxF B32 (ops L) l).value := by
  have key : ∀ (l : List B32) (m : B32), m.isFinite = true → (∀ x ∈ l, x.isFinite = true) →
      (l.foldl (fun m x => if B32.lt m x then x else m) m = m ∨ l.foldl (fun m x => if B32.lt m x then x else m) m ∈ l) ∧
      m.value ≤ (l.foldl (fun m x => if B32.lt m x then x else m) m).value ∧
      ∀ x ∈ l, x.value ≤ (l.foldl (fun m x => if B32.lt m x then x else m) m).value := by
    intro l
    induction l with
    | nil => intro m _ _; simp
    | cons y l ih =>
      intro m hm hl
      rw [List.foldl_cons]
      have hy := hl y (by simp)
      have hlt : B32.lt m y = true ↔ m.value < y.value := lt_iff ⟨hm, rfl⟩ ⟨hy, rfl⟩
      obtain ⟨h1, h2, h3⟩ := ih (if B32.lt m y then y else m) (by split_ifs <;> assumption) (fun x hx => hl x (by simp [hx]))
      have hy' : y.value ≤ (if B32.lt m y = true then y else m).value := by
        split_ifs with hh
        · exact le_rfl
        · rw [hlt] at hh; linarith
      have hm' : m.value ≤ (if B32.lt m y = true then y else m).value := by
        split_ifs with hh
        · rw [hlt] at hh; linarith
        · exact le_rfl
      refine ⟨?_, hm'.trans h2, ?_⟩
      · rcases h1 with h1 | h1
        · rw [h1]
          split_ifs
          · exact .inr (by simp)
          · exact .inl rfl
        · exact .inr (by simp [h1])
      · intro x hx
        rcases List.mem_cons.1 hx with rfl | hx
        · exact hy'.trans h2
        · exact h3 x hx
  match l, h with
  | x :: l, _ =>
    obtain ⟨h1, h2, h3⟩ := key l x (hf x (by simp)) (fun y hy => hf y (by simp [hy]))
    refine ⟨?_, ?_⟩
    · rcases h1 with h1 | h1
      · exact List.mem_cons.2 (.inl h1)
      · exact List.mem_cons.2 (.inr h1)
    · intro y hy
      rcases List.mem_cons.1 hy with rfl | hy
      · exact h2
      · exact h3 y hy

/-- Rounding the argument of the exponential. -/
theorem exp_arg_rounded {d Y v : ℝ} (hd : d ≤ 0) (hY : |Y - d| ≤ 2 ^ (-24 : ℤ) * |d|)
    (hv : |v - Real.exp Y| ≤ 5 / 10 ^ 7 * Real.exp Y + 2 ^ (-126 : ℤ)) :
    |v - Real.exp d| ≤ 58 / 10 ^ 7 * Real.exp d + 2 ^ (-124 : ℤ) := by
  have e24 : (2 : ℝ) ^ (-24 : ℤ) = 1 / 16777216 := by norm_num
  have e124 : (2 : ℝ) ^ (-124 : ℤ) = 4 * 2 ^ (-126 : ℤ) := by norm_num
  rw [e24, abs_of_nonpos hd] at hY
  have hη : (0 : ℝ) < 2 ^ (-126 : ℤ) := by positivity
  have hp := Real.exp_pos d
  have hq := Real.exp_pos Y
  have ht : |v - Real.exp d| ≤ |v - Real.exp Y| + |Real.exp Y - Real.exp d| := by
    have := abs_add_le (v - Real.exp Y) (Real.exp Y - Real.exp d); simpa using this
  rw [e124]
  rcases le_or_gt (-88) d with h | h
  · have h1 : |Y - d| ≤ 52453 / 10 ^ 10 := hY.trans (by linarith)
    have h2 := Real.abs_exp_sub_one_sub_id_le (x := Y - d) (h1.trans (by norm_num))
    have h3 : |Real.exp (Y - d) - 1| ≤ 52454 / 10 ^ 10 := by
      have h4 : |Real.exp (Y - d) - 1| ≤ |Real.exp (Y - d) - 1 - (Y - d)| + |Y - d| := by
        have := abs_add_le (Real.exp (Y - d) - 1 - (Y - d)) (Y - d); simpa using this
      have h5 : (Y - d) ^ 2 ≤ (52453 / 10 ^ 10) ^ 2 := by
        rw [← sq_abs]; exact pow_le_pow_left₀ (abs_nonneg _) h1 2
      have h6 : (52453 / 10 ^ 10 : ℝ) ^ 2 ≤ 1 / 10 ^ 10 := by norm_num
      linarith
    have h7 : Real.exp Y = Real.exp d * Real.exp (Y - d) := by rw [← Real.exp_add]; ring_nf
    have h8 : |Real.exp Y - Real.exp d| ≤ 52454 / 10 ^ 10 * Real.exp d := by
      rw [h7, show Real.exp d * Real.exp (Y - d) - Real.exp d = Real.exp d * (Real.exp (Y - d) - 1) by ring, abs_mul, abs_of_pos hp,
        mul_comm]
      exact mul_le_mul_of_nonneg_right h3 hp.le
    have h9 := (abs_le.1 h8).2
    linarith
  · have h1 := (abs_le.1 hY).2
    have h2 := exp_small' (x := d) (by linarith)
    have h3 := exp_small' (x := Y) (by linarith)
    have h4 : |Real.exp Y - Real.exp d| ≤ 2 ^ (-126 : ℤ) := by
      rw [abs_le]; constructor <;> linarith
    generalize (2 : ℝ) ^ (-126 : ℤ) = η at *
    linarith

theorem softmax_elem {L : Libm} (hL : L.Accurate) {x m : B32} (hx : x.isFinite = true) (hm : m.isFinite = true) (h : x.value ≤ m.value) :
    (∃ v, Is (@FloatOps.exp8 B32 (ops L) (B32.sub x m)) v ∧ 0 ≤ v ∧
      |v - Real.exp (x.value - m.value)| ≤ 58 / 10 ^ 7 * Real.exp (x.value - m.value) + 2 ^ (-124 : ℤ)) ∧
    (∃ v, Is (L.exp (B32.sub x m)) v ∧ 0 ≤ v ∧
      |v - Real.exp (x.value - m.value)| ≤ 58 / 10 ^ 7 * Real.exp (x.value - m.value) + 2 ^ (-124 : ℤ)) := by
  have hx' : Is x x.value := ⟨hx, rfl⟩
  have hm' : Is m m.value := ⟨hm, rfl⟩
  generalize x.value = X at *
  generalize m.value = M at *
  have hd : X - M ≤ 0 := by linarith
  have hn := is_neg hm'
  by_cases hb : |X - M| < maxF32 + 2 ^ 103
  · have hs : Is (B32.sub x m) (rnd (X - M)) := by
      have := add_is' hx' hn (by rwa [← sub_eq_add_neg])
      rwa [← sub_eq_add_neg] at this
    obtain ⟨k, hk⟩ := add_grid hx' hn
    rw [← sub_eq_add_neg] at hk
    have hr := rnd_grid hk
    have hY : rnd (X - M) ≤ 0 := rnd_le hd rnd_zero
    have h1 : Real.exp (rnd (X - M)) ≤ 1 := Real.exp_le_one_iff.2 hY
    constructor
    · obtain ⟨v, hv, hv0, hA⟩ := exp8_float L hs
      rcases hA with hA | ⟨_, hA⟩
      · exact ⟨v, hv, hv0, exp_arg_rounded hd hr hA⟩
      · exfalso
        norm_num at hA
        linarith
    · have hE := hL.exp _ hs.1
      rw [hs.2] at hE
      rcases hE with ⟨g1, g2, g3⟩ | ⟨_, g2⟩
      · refine ⟨_, ⟨g1, rfl⟩, g2, exp_arg_rounded hd hr ?_⟩
        rcases libm_approx g3 with hA | ⟨_, hA⟩
        · exact hA
        · exfalso
          norm_num at hA
          linarith
      · exfalso
        norm_num at g2
        linarith
  · rw [not_lt] at hb
    have hs : B32.sub x m = inf true := by
      rw [B32.sub, B32.add]
      simp only [not_nan hx'.1, not_nan hn.1, not_inf hx'.1, not_inf hn.1, hx'.2, hn.2, Bool.or_self, Bool.false_eq_true, if_false,
        ← sub_eq_add_neg]
      rw [ofReal_inf hb]
      congr 1
      have : 0 < |X - M| := lt_of_lt_of_le (by unfold maxF32; norm_num) hb
      have : X - M ≠ 0 := abs_pos.1 this
      exact decide_eq_true (lt_of_le_of_ne hd this)
    have hsmall : Real.exp (X - M) ≤ 2 ^ (-126 : ℤ) := by
      apply exp_small'
      rw [abs_of_nonpos hd] at hb
      have : (88 : ℝ) ≤ maxF32 + 2 ^ 103 := by unfold maxF32; norm_num
      linarith
    have hp := Real.exp_pos (X - M)
    have e124 : (2 : ℝ) ^ (-124 : ℤ) = 4 * 2 ^ (-126 : ℤ) := by norm_num
    have hη : (0 : ℝ) < 2 ^ (-126 : ℤ) := by positivity
    have key : |0 - Real.exp (X - M)| ≤ 58 / 10 ^ 7 * Real.exp (X - M) + 2 ^ (-124 : ℤ) := by
      rw [zero_sub, abs_neg, abs_of_pos hp, e124]
      generalize (2 : ℝ) ^ (-126 : ℤ) = η at *
      linarith
    rw [hs]
    constructor
    · obtain ⟨v, hv, hv0, hv1, -⟩ := exp8_inf L true
      obtain rfl := hv1 rfl
      exact ⟨0, hv, le_rfl, key⟩
    · rw [hL.exp_neg_inf]
      exact ⟨0, is_zeroS false, le_rfl, key⟩

/-! ### The quotient -/

theorem pow_rel {N : ℕ} (hN : N ≤ 2 ^ 20) : (1 + (2 : ℝ) ^ (-24 : ℤ)) ^ N - 1 ≤ 17 / 16 * (N * 2 ^ (-24 : ℤ)) ∧
    (N : ℝ) * 2 ^ (-24 : ℤ) ≤ 1 / 16 := by
  have hN' : (N : ℝ) ≤ 2 ^ 20 := by exact_mod_cast hN
  have hx : (N : ℝ) * 2 ^ (-24 : ℤ) ≤ 1 / 16 := by
    have : (N : ℝ) * 2 ^ (-24 : ℤ) ≤ 2 ^ 20 * 2 ^ (-24 : ℤ) := by gcongr
    refine this.trans ?_
    norm_num
  have hx0 : 0 ≤ (N : ℝ) * 2 ^ (-24 : ℤ) := by positivity
  have hexp : (1 + (2 : ℝ) ^ (-24 : ℤ)) ^ N ≤ Real.exp (N * 2 ^ (-24 : ℤ)) := by
    rw [Real.exp_nat_mul]
    have := Real.add_one_le_exp ((2 : ℝ) ^ (-24 : ℤ))
    gcongr; linarith
  generalize (1 + (2 : ℝ) ^ (-24 : ℤ)) ^ N = p at *
  generalize (N : ℝ) * 2 ^ (-24 : ℤ) = y at *
  have hb := Real.abs_exp_sub_one_sub_id_le (x := y) (by rw [abs_of_nonneg hx0]; linarith)
  have hb' := (abs_le.1 hb).2
  exact ⟨by nlinarith, hx⟩

theorem quotient_real {E T v S V κ ω ν : ℝ} (hE0 : 0 ≤ E) (hT : 1 ≤ T) (hω : 0 ≤ ω)
    (hv : |v - E| ≤ 58 / 10 ^ 7 * E + ω) (hV : |V - T| ≤ 59 / 10 ^ 7 * T) (hS : |S - V| ≤ κ * V) (hκ0 : 0 ≤ κ)
    (hκ : κ ≤ 17 / 16 * ν) (hν : ν ≤ 1 / 16) :
    9 / 10 ≤ S ∧ |v / S - E / T| ≤ (126 / 10 ^ 7 + 114 / 100 * ν) * (E / T) + 2 * ω := by
  have hκ1 : κ ≤ 17 / 256 := by linarith
  have hT0 : 0 < T := by linarith
  obtain ⟨θ, hθ⟩ : ∃ θ, θ = 59 / 10 ^ 7 + κ * (1 + 59 / 10 ^ 7) := ⟨_, rfl⟩
  have hθ0 : 0 ≤ θ := by rw [hθ]; positivity
  have hθ1 : θ ≤ 67 / 1000 := by rw [hθ]; linarith
  have hST : |S - T| ≤ θ * T := by
    have h1 : |S - T| ≤ |S - V| + |V - T| := by
      have := abs_add_le (S - V) (V - T); simpa using this
    have h2 : V ≤ (1 + 59 / 10 ^ 7) * T := by have := (abs_le.1 hV).2; linarith
    have h3 := mul_le_mul_of_nonneg_left h2 hκ0
    rw [hθ]; linarith
  have hSl : (1 - θ) * T ≤ S := by have := (abs_le.1 hST).1; linarith
  have hS9 : 933 / 1000 * T ≤ S := by
    refine le_trans ?_ hSl
    apply mul_le_mul_of_nonneg_right _ hT0.le
    linarith
  have hS0 : 0 < S := by linarith
  refine ⟨by linarith, ?_⟩
  have hd : v / S - E / T = ((v - E) * T - E * (S - T)) / (S * T) := by field_simp; ring
  have hnum : |(v - E) * T - E * (S - T)| ≤ ((58 / 10 ^ 7 + θ) * E + ω) * T := by
    refine (abs_sub _ _).trans ?_
    rw [abs_mul, abs_mul, abs_of_pos hT0, abs_of_nonneg hE0]
    have h1 := mul_le_mul_of_nonneg_right hv hT0.le
    have h2 := mul_le_mul_of_nonneg_left hST hE0
    linarith
  rw [hd, abs_div, abs_of_pos (by positivity : 0 < S * T)]
  have hc : 0 ≤ (58 / 10 ^ 7 + θ) * E + ω := by positivity
  have h3 : |(v - E) * T - E * (S - T)| / (S * T) ≤ ((58 / 10 ^ 7 + θ) * E + ω) / S := by
    rw [div_le_div_iff₀ (by positivity) hS0]
    calc _ ≤ ((58 / 10 ^ 7 + θ) * E + ω) * T * S := mul_le_mul_of_nonneg_right hnum hS0.le
      _ = _ := by ring
  refine h3.trans ?_
  have h4 : ((58 / 10 ^ 7 + θ) * E + ω) / S ≤ ((58 / 10 ^ 7 + θ) * E + ω) / (933 / 1000 * T) := by
    apply div_le_div_of_nonneg_left hc (by positivity) hS9
  refine h4.trans ?_
  have h5 : ((58 / 10 ^ 7 + θ) * E + ω) / (933 / 1000 * T) = 1000 / 933 * ((58 / 10 ^ 7 + θ) * (E / T) + ω / T) := by field_simp
  rw [h5]
  have h6 : ω / T ≤ ω := div_le_self hω hT
  have hp : 0 ≤ E / T := by positivity
  have h7 : 1000 / 933 * (58 / 10 ^ 7 + θ) ≤ 126 / 10 ^ 7 + 114 / 100 * ν := by
    rw [hθ]; linarith
  have h8 := mul_le_mul_of_nonneg_right h7 hp
  linarith

theorem sum_close {A B : List ℝ} {c ω : ℝ} (h : List.Forall₂ (fun a b => |a - b| ≤ c * b + ω) A B) :
    |A.sum - B.sum| ≤ c * B.sum + A.length * ω := by
  induction h with
  | nil => simp
  | @cons a b A B h1 h2 ih =>
    simp only [List.sum_cons, List.length_cons]
    have : |a + A.sum - (b + B.sum)| ≤ |a - b| + |A.sum - B.sum| := by
      rw [show a + A.sum - (b + B.sum) = (a - b) + (A.sum - B.sum) by ring]; exact abs_add_le _ _
    push_cast
    linarith

theorem softmax_shift (l : List ℝ) (m : ℝ) :
    Spec.softmax l = l.map fun x => Real.exp (x - m) / (l.map fun x => Real.exp (x - m)).sum := by
  unfold Spec.softmax
  apply List.map_congr_left
  intro x _
  have hsum : (l.map (fun x => Real.exp (x - m))).sum = (l.map Real.exp).sum * Real.exp (-m) := by
    rw [← List.sum_map_mul_right]
    congr 1
    apply List.map_congr_left
    intro y _
    rw [← Real.exp_add]; ring_nf
  rw [hsum, show Real.exp (x - m) = Real.exp x * Real.exp (-m) by rw [← Real.exp_add]; ring_nf]
  have := Real.exp_pos (-m)
  rw [mul_div_mul_right _ _ this.ne']

/-- `softmax` in `float` arithmetic. -/
theorem softmaxF_float {L : Libm} (hL : L.Accurate) (c : Cfg) (addr : ℕ) (l : List B32) (hne : l ≠ []) (hlen : l.length + 4 ≤ 2 ^ 20)
    (hf : ∀ x ∈ l, x.isFinite = true) :
    List.Forall₂ (fun o p => ∃ z, Is o z ∧ 0 ≤ z ∧ z ≤ 1 ∧ |z - p| ≤ Spec.softmaxEps l.length * p + 2 ^ (-122 : ℤ))
      (@softmaxF B32 (ops L) c addr l) (Spec.softmax (l.map B32.value)) := by
  obtain ⟨hmem, hmax⟩ := maxF_float L l hne hf
  unfold softmaxF
  simp only
  obtain ⟨m, hm⟩ : ∃ m, m = @maxF B32 (ops L) l := ⟨_, rfl⟩
  rw [← hm] at hmem hmax ⊢
  have hmf := hf m hmem
  obtain ⟨exps, hexps⟩ : ∃ e, e = applyTo (@softmaxExpOp B32 (ops L) c addr l.length m) l.length l := ⟨_, rfl⟩
  rw [← hexps]
  have hel : exps.length = l.length := by simp [hexps]
  -- each exponential
  have h1 : List.Forall₂ (fun a x => ∃ v, Is a v ∧ 0 ≤ v ∧
      |v - Real.exp (x - m.value)| ≤ 58 / 10 ^ 7 * Real.exp (x - m.value) + 2 ^ (-124 : ℤ)) exps (l.map B32.value) := by
    rw [List.forall₂_map_right_iff, List.forall₂_iff_get]
    refine ⟨hel, ?_⟩
    intro i i1 i2
    have hi : exps[i]'i1 = @softmaxExpOp B32 (ops L) c addr l.length m i l[i] := by
      simp [hexps, applyTo, i2]
    simp only [List.get_eq_getElem, hi]
    obtain ⟨g1, g2⟩ := softmax_elem hL (hf _ (List.getElem_mem i2)) hmf (hmax _ (List.getElem_mem i2))
    unfold softmaxExpOp regionOp
    split
    · beta_reduce; split
      · exact g1
      · exact g2
    · exact g2
  set X := l.map B32.value with hX
  set E := X.map fun x => Real.exp (x - m.value) with hE
  set V := exps.map B32.value with hV
  have h2 : List.Forall₂ Is exps V := by
    rw [hV, List.forall₂_map_right_iff, List.forall₂_same]
    intro a ha
    obtain ⟨i, hi, rfl⟩ := List.mem_iff_getElem.1 ha
    obtain ⟨v, hv, -⟩ := (List.forall₂_iff_get.1 h1).2 i hi (by rw [← h1.length_eq]; exact hi)
    exact ⟨hv.1, rfl⟩
  have h3 : List.Forall₂ (fun v e => |v - e| ≤ 58 / 10 ^ 7 * e + 2 ^ (-124 : ℤ)) V E ∧ ∀ v ∈ V, 0 ≤ v := by
    constructor
    · rw [hV, hE, List.forall₂_map_left_iff, List.forall₂_map_right_iff]
      refine h1.imp ?_
      rintro a x ⟨v, hv, -, h⟩
      rwa [hv.2]
    · intro v hv
      obtain ⟨a, ha, rfl⟩ := List.mem_map.1 hv
      obtain ⟨i, hi, rfl⟩ := List.mem_iff_getElem.1 ha
      obtain ⟨v, hv, h0, -⟩ := (List.forall₂_iff_get.1 h1).2 i hi (by rw [← h1.length_eq]; exact hi)
      rw [List.get_eq_getElem] at hv
      rw [hv.2]; exact h0
  obtain ⟨h3, h30⟩ := h3
  -- sums
  have hE1 : ∀ e ∈ E, 0 < e ∧ e ≤ 1 := by
    intro e he
    obtain ⟨x, hx, rfl⟩ := List.mem_map.1 he
    obtain ⟨a, ha, rfl⟩ := List.mem_map.1 hx
    exact ⟨Real.exp_pos _, Real.exp_le_one_iff.2 (by have := hmax a ha; linarith)⟩
  have hT1 : 1 ≤ E.sum := by
    have h1E : (1 : ℝ) ∈ E := by
      rw [hE, List.mem_map]
      exact ⟨m.value, List.mem_map.2 ⟨m, hmem, rfl⟩, by simp⟩
    exact List.single_le_sum (fun e he => (hE1 e he).1.le) 1 h1E
  have hVl : V.length = l.length := by simp [hV, hel]
  have hEl : E.length = l.length := by simp [hE, hX]
  have hcl := sum_close h3
  have hn : (l.length : ℝ) ≤ 2 ^ 20 := by exact_mod_cast (by omega : l.length ≤ 2 ^ 20)
  have hVT : |V.sum - E.sum| ≤ 59 / 10 ^ 7 * E.sum := by
    rw [hVl] at hcl
    have : (l.length : ℝ) * 2 ^ (-124 : ℤ) ≤ 1 / 10 ^ 7 := by
      refine (mul_le_mul_of_nonneg_right hn (by positivity)).trans ?_
      norm_num
    linarith
  have hEs : E.sum ≤ 2 ^ 20 := by
    have : E.sum ≤ E.length • (1 : ℝ) := List.sum_le_card_nsmul E 1 fun e he => (hE1 e he).2
    rw [hEl, nsmul_eq_mul, mul_one] at this
    linarith
  have hVs : V.sum ≤ 2 ^ 21 := by
    have := (abs_le.1 hVT).2
    norm_num at hEs ⊢
    linarith
  obtain ⟨hk1, hk2⟩ := pow_rel hlen
  have hB : (1 + (2 : ℝ) ^ (-24 : ℤ)) ^ (exps.length + 4) * 2 ^ 21 ≤ maxF32 := by
    rw [hel]
    have : (1 + (2 : ℝ) ^ (-24 : ℤ)) ^ (l.length + 4) ≤ 2 := by
      generalize (1 + (2 : ℝ) ^ (-24 : ℤ)) ^ (l.length + 4) = p at *
      generalize ((l.length + 4 : ℕ) : ℝ) * 2 ^ (-24 : ℤ) = y at *
      linarith
    refine (mul_le_mul_of_nonneg_right this (by norm_num)).trans ?_
    unfold maxF32; norm_num
  obtain ⟨S, hS, -, hS1, hS2, hS3⟩ := sumOf_softmax L c addr h2 h30 hB hVs
  rw [hel] at hS hS1
  -- quotients
  rw [softmax_shift X m.value, List.forall₂_map_left_iff]
  have hP : (X.map fun x => Real.exp (x - m.value) / E.sum) = E.map fun e => e / E.sum := by
    conv_rhs => rw [hE, List.map_map]
    rfl
  rw [hP, List.forall₂_map_right_iff]
  rw [List.forall₂_iff_get]
  refine ⟨by rw [hel, hEl], ?_⟩
  intro i i1 i2
  rw [List.get_eq_getElem, List.get_eq_getElem]
  have iV : i < V.length := by rw [hVl, ← hel]; exact i1
  have ha : Is exps[i] V[i] := (List.forall₂_iff_get.1 h2).2 i i1 iV
  have hv := (List.forall₂_iff_get.1 h3).2 i iV i2
  rw [List.get_eq_getElem, List.get_eq_getElem] at hv
  have hv0 := h30 _ (List.getElem_mem iV)
  have hvS := hS3 _ (List.getElem_mem iV : V[i] ∈ V)
  obtain ⟨he0, he1⟩ := hE1 _ (List.getElem_mem i2)
  generalize V[i] = v at *
  generalize E[i] = e at *
  have hκ0 : 0 ≤ (1 + (2 : ℝ) ^ (-24 : ℤ)) ^ (l.length + 4) - 1 := by
    have : (1 : ℝ) ≤ (1 + 2 ^ (-24 : ℤ)) ^ (l.length + 4) := one_le_pow₀ (by norm_num)
    linarith
  obtain ⟨hS9, hq⟩ := quotient_real he0.le hT1 (by positivity) hv hVT hS1 hκ0 hk1 hk2
  have hS0 : 0 < S := by linarith
  have hq1 : v / S ≤ 1 := (div_le_one hS0).2 hvS
  have hq0 : 0 ≤ v / S := by positivity
  refine ⟨rnd (v / S), div_is ha hS hS0.ne' (by rw [abs_of_nonneg hq0]; refine hq1.trans ?_; unfold maxF32; norm_num),
    rnd_nonneg hq0, rnd_le hq1 rnd_one, ?_⟩
  have hr := rnd_abs (v / S)
  rw [abs_of_nonneg hq0] at hr
  have ht : |rnd (v / S) - e / E.sum| ≤ |rnd (v / S) - v / S| + |v / S - e / E.sum| := by
    have := abs_add_le (rnd (v / S) - v / S) (v / S - e / E.sum); simpa using this
  have hp0 : 0 ≤ e / E.sum := by positivity
  have hqq := (abs_le.1 hq).2
  have e150 : (2 : ℝ) ^ (-150 : ℤ) ≤ 2 ^ (-124 : ℤ) := zpow_le_zpow_right₀ (by norm_num) (by norm_num)
  have e122 : (2 : ℝ) ^ (-122 : ℤ) = 4 * 2 ^ (-124 : ℤ) := by norm_num
  have e24 : (2 : ℝ) ^ (-24 : ℤ) ≤ 6 / 10 ^ 8 := by norm_num
  have hw0 : (0 : ℝ) < 2 ^ (-124 : ℤ) := by positivity
  have hr2 := mul_le_mul_of_nonneg_right e24 hq0
  unfold Spec.softmaxEps
  have hν0 : 0 ≤ ((l.length + 4 : ℕ) : ℝ) * 2 ^ (-24 : ℤ) := by positivity
  generalize ((l.length + 4 : ℕ) : ℝ) * 2 ^ (-24 : ℤ) = ν at *
  rw [e122]
  generalize (2 : ℝ) ^ (-124 : ℤ) = w at *
  generalize (2 : ℝ) ^ (-150 : ℤ) = w' at *
  generalize e / E.sum = p at *
  have hνp : ν * p ≤ 1 / 16 * p := mul_le_mul_of_nonneg_right hk2 hp0
  have hνp0 := mul_nonneg hν0 hp0
  generalize (2 : ℝ) ^ (-24 : ℤ) * (v / S) = r at *
  generalize |rnd (v / S) - v / S| = r1 at *
  linarith

end NN
