import Verif.Properties.Metrics
import Verif.Properties.NanFloat
import Verif.Proofs.InitFloat
import Verif.Proofs.B32Mono
/-
C23 in IEEE single precision: the crossentropies are numbers whatever the network predicts.
-/
set_option linter.unusedSimpArgs false

namespace NN
open B32 hiding add sub mul div neg abs lt le fmax fmin

namespace MetricsFloat

theorem fmax_is {a b : B32} {x y : ℝ} (ha : Is a x) (hb : Is b y) : Is (B32.fmax a b) (max x y) := by
  simp only [B32.fmax, not_nan ha.1, not_nan hb.1, Bool.false_eq_true, if_false]
  by_cases h : x < y
  · rw [if_pos ((lt_iff ha hb).2 h), max_eq_right h.le]; exact hb
  · rw [if_neg (fun e => h ((lt_iff ha hb).1 e)), max_eq_left (not_lt.1 h)]; exact ha

theorem fmin_is {a b : B32} {x y : ℝ} (ha : Is a x) (hb : Is b y) : Is (B32.fmin a b) (min x y) := by
  simp only [B32.fmin, not_nan ha.1, not_nan hb.1, Bool.false_eq_true, if_false]
  by_cases h : y < x
  · rw [if_pos ((lt_iff hb ha).2 h), min_eq_right h.le]; exact hb
  · rw [if_neg (fun e => h ((lt_iff hb ha).1 e)), min_eq_left (not_lt.1 h)]; exact ha

theorem lt_inf {a b : B32} (ha : a.isInf = true) (hn : a.isNan = false) (hb : b.isFinite = true) :
    B32.lt a b = a.sign ∧ B32.lt b a = !a.sign := by
  obtain ⟨h1, h2⟩ := notInf_of_finite hb
  simp only [B32.lt, hn, h1, h2, extVal, ha, if_true, Bool.false_eq_true, if_false, Bool.not_false, Bool.true_and]
  cases a.sign <;> simp

/-- The kinds of bit patterns. -/
theorem kinds (a : B32) : (a.isNan = true) ∨ (a.isInf = true ∧ a.isNan = false) ∨ a.isFinite = true := by
  simp only [isNan, isInf, isFinite]
  by_cases h : a.expField = 255
  · by_cases h2 : a.mantField = 0 <;> simp_all
  · simp_all

/-- `epsilon` in single precision. -/
noncomputable def eps : ℝ := rnd (1 / 10000000)

/-- `1.0f - epsilon` in single precision. -/
noncomputable def top : ℝ := rnd (1 - eps)

theorem eps_bounds : 2 ^ (-24 : ℤ) ≤ eps ∧ eps ≤ 2 ^ (-23 : ℤ) := by
  constructor
  · exact le_rnd (by norm_num) (rnd_exact (k := 1) (j := -24) (by norm_num) (by norm_num) (by norm_num))
  · exact rnd_le (by norm_num) (rnd_exact (k := 1) (j := -23) (by norm_num) (by norm_num) (by norm_num))

theorem top_bounds : 1 - 2 ^ (-23 : ℤ) ≤ top ∧ top ≤ 1 - 2 ^ (-24 : ℤ) := by
  obtain ⟨h1, h2⟩ := eps_bounds
  constructor
  · exact le_rnd (by linarith) (rnd_exact (k := 2 ^ 23 - 1) (j := -23) (by norm_num) (by norm_num) (by norm_num))
  · exact rnd_le (by linarith) (rnd_exact (k := 2 ^ 24 - 1) (j := -24) (by norm_num) (by norm_num) (by norm_num))

theorem is_eps (L : Libm) : Is (@epsilon B32 (ops L)) eps := by
  have := is_ofReal (s := false) (x := ((1 : ℤ) : ℝ) / ((10000000 : ℕ) : ℝ)) (small_le_max (by norm_num))
  have h : ((1 : ℤ) : ℝ) / ((10000000 : ℕ) : ℝ) = 1 / 10000000 := by norm_num
  rw [eps, ← h]
  exact this

theorem is_top (L : Libm) : Is (@FloatOps.sub B32 (ops L) (@FloatOps.one B32 (ops L)) (@epsilon B32 (ops L))) top := by
  obtain ⟨h1, h2⟩ := eps_bounds
  have h3 : (0:ℝ) < 2 ^ (-24 : ℤ) := by positivity
  have h4 : (2:ℝ) ^ (-23 : ℤ) ≤ 1 := by norm_num
  exact sub_is is_one (is_eps L) (small_le_max (by
    rw [abs_of_nonneg (by linarith)]
    exact le_trans (by linarith : 1 - eps ≤ 1) (by norm_num)))

end MetricsFloat
open MetricsFloat

/-- **C23** The clipping of the crossentropies in single precision, for every bit pattern: numbers are moved into the interval (numbers
inside it keep their value); NaN and minus infinity become `epsilon`, infinity becomes `1 - epsilon` (rounded).  So the argument of
`logf` is never 0, negative, NaN or infinite, and neither is `1 - ` it. -/
theorem C23_clip_float (L : Libm) (a : B32) :
    ∃ x z, Is (@NN.clip B32 (ops L) a) x ∧ 2 ^ (-24 : ℤ) ≤ eps ∧ eps ≤ x ∧ x ≤ top ∧ top ≤ 1 - 2 ^ (-24 : ℤ) ∧
      Is (@FloatOps.sub B32 (ops L) (@FloatOps.one B32 (ops L)) (@NN.clip B32 (ops L) a)) z ∧ 2 ^ (-24 : ℤ) ≤ z ∧ z ≤ 1 ∧
      (∀ v, Is a v → x = min (max v eps) top) ∧ (a.isNan = true → x = eps) ∧
      (a.isInf = true → a.isNan = false → x = if a.sign then eps else top) := by
  have he := is_eps L
  have ht := is_top L
  obtain ⟨e1, e2⟩ := eps_bounds
  obtain ⟨t1, t2⟩ := top_bounds
  have h23 : (2:ℝ) ^ (-23 : ℤ) ≤ 1 / 4 := by norm_num
  have h24 : (0:ℝ) < 2 ^ (-24 : ℤ) := by positivity
  have het : eps ≤ top := (e2.trans h23).trans (le_trans (by norm_num) t1)
  have key : ∃ x, Is (@NN.clip B32 (ops L) a) x ∧ eps ≤ x ∧ x ≤ top ∧ (∀ v, Is a v → x = min (max v eps) top) ∧
      (a.isNan = true → x = eps) ∧ (a.isInf = true → a.isNan = false → x = if a.sign then eps else top) := by
    rcases kinds a with hn | ⟨hi, hn⟩ | hf
    · refine ⟨eps, ?_, le_rfl, het, fun v hv => ?_, fun _ => rfl, fun _ h => ?_⟩
      · have h1 : B32.fmax a (@epsilon B32 (ops L)) = @epsilon B32 (ops L) := by simp [B32.fmax, hn]
        have := fmin_is he ht
        rw [min_eq_left het] at this
        show Is (B32.fmin (B32.fmax a _) _) _
        rw [h1]
        exact this
      · rw [not_nan hv.1] at hn; cases hn
      · rw [hn] at h; cases h
    · have nf : a.isFinite = false := by
        by_contra h
        rw [(notInf_of_finite (by simpa using h)).1] at hi; cases hi
      obtain ⟨l1, -⟩ := lt_inf hi hn he.1
      obtain ⟨-, l2⟩ := lt_inf hi hn ht.1
      by_cases hs : a.sign = true
      · refine ⟨eps, ?_, le_rfl, het, fun v hv => ?_, fun _ => rfl, fun _ _ => by rw [if_pos hs]⟩
        · have h1 : B32.fmax a (@epsilon B32 (ops L)) = @epsilon B32 (ops L) := by simp [B32.fmax, hn, not_nan he.1, l1, hs]
          have := fmin_is he ht
          rw [min_eq_left het] at this
          show Is (B32.fmin (B32.fmax a _) _) _
          rw [h1]
          exact this
        · rw [hv.1] at nf; cases nf
      · have hs' : a.sign = false := by simpa using hs
        refine ⟨top, ?_, het, le_rfl, fun v hv => ?_, fun h => ?_, fun _ _ => by rw [if_neg hs]⟩
        · have h1 : B32.fmax a (@epsilon B32 (ops L)) = a := by simp [B32.fmax, hn, not_nan he.1, l1, hs']
          have h2 : B32.fmin a (@FloatOps.sub B32 (ops L) (@FloatOps.one B32 (ops L)) (@epsilon B32 (ops L))) =
              @FloatOps.sub B32 (ops L) (@FloatOps.one B32 (ops L)) (@epsilon B32 (ops L)) := by
            simp [B32.fmin, hn, not_nan ht.1, l2, hs']
          rw [show @NN.clip B32 (ops L) a = B32.fmin (B32.fmax a (@epsilon B32 (ops L)))
            (@FloatOps.sub B32 (ops L) (@FloatOps.one B32 (ops L)) (@epsilon B32 (ops L))) from rfl, h1, h2]
          exact ht
        · rw [hv.1] at nf; cases nf
        · rw [hn] at h; cases h
    · refine ⟨min (max a.value eps) top, fmin_is (fmax_is ⟨hf, rfl⟩ he) ht, le_min (le_max_right _ _) het, min_le_right _ _,
        fun v hv => by rw [hv.2], fun h => ?_, fun h _ => ?_⟩
      · rw [not_nan hf] at h; cases h
      · rw [(notInf_of_finite hf).1] at h; cases h
  obtain ⟨x, hx, h1, h2, h3⟩ := key
  have hb : |1 - x| ≤ 2 ^ 100 := by
    rw [abs_of_nonneg (by linarith)]
    exact le_trans (by linarith : 1 - x ≤ 1) (by norm_num)
  refine ⟨x, rnd (1 - x), hx, e1, h1, h2, t2, sub_is is_one hx (small_le_max hb), ?_, ?_, h3⟩
  · exact le_rnd (by linarith) (rnd_exact (k := 1) (j := -24) (by norm_num) (by norm_num) (by norm_num))
  · exact rnd_le (by linarith) rnd_one

/-- What is assumed of `logf`: on the numbers from 2^-24 to 1 its results are numbers from -17 to 0.  (The logarithms are from -16.64
to 0.) -/
def LogOk (L : Libm) : Prop := ∀ a x, Is a x → 2 ^ (-24 : ℤ) ≤ x → x ≤ 1 → ∃ v, Is (L.log a) v ∧ -17 ≤ v ∧ v ≤ 0

namespace MetricsFloat

theorem rnd_int {k : ℤ} (h : |k| < 2 ^ 24) : rnd (k : ℝ) = k := rnd_exact (k := k) (j := 0) (by simp) h (by norm_num)

/-- `y * logf( u )` -/
theorem prod_ok {y v : B32} {r t : ℝ} (hy : Is y r) (h0 : 0 ≤ r) (h1 : r ≤ 1) (hv : Is v t) (t0 : -17 ≤ t) (t1 : t ≤ 0) :
    ∃ s, Is (B32.mul y v) s ∧ -17 ≤ s ∧ s ≤ 0 := by
  have a1 : -17 ≤ r * t := by nlinarith
  have a2 : r * t ≤ 0 := by nlinarith
  refine ⟨rnd (r * t), mul_is hy hv (small_le_max ?_), ?_, ?_⟩
  · rw [abs_le]; constructor <;> norm_num <;> linarith
  · have := rnd_int (k := -17) (by norm_num)
    push_cast at this
    exact le_rnd a1 this
  · exact rnd_le a2 rnd_zero

theorem sum_ok {f : B32 → B32 → B32} {c : ℕ} : ∀ (l : List (B32 × B32)) (s : B32) (x : ℝ) (k : ℕ),
    (∀ q ∈ l, ∃ t, Is (f q.1 q.2) t ∧ -(c : ℝ) ≤ t ∧ t ≤ 0) → Is s x → -((c : ℝ) * k) ≤ x → x ≤ 0 → c * (k + l.length) < 2 ^ 24 →
    ∃ z, Is (l.foldl (fun s q => B32.add s (f q.1 q.2)) s) z ∧ -((c : ℝ) * (k + l.length : ℕ)) ≤ z ∧ z ≤ 0
  | [], s, x, k, _, hs, h1, h2, _ => ⟨x, hs, by simpa using h1, h2⟩
  | q :: l, s, x, k, hq, hs, h1, h2, hc => by
    obtain ⟨t, ht, t1, t2⟩ := hq q (by simp)
    rw [List.length_cons] at hc
    have hk : c * (k + 1) < 2 ^ 24 := lt_of_le_of_lt (Nat.mul_le_mul_left _ (by omega)) hc
    have hk' : (c : ℝ) * (k + 1) < 2 ^ 24 := by exact_mod_cast hk
    have b1 : -((c : ℝ) * (k + 1 : ℕ)) ≤ x + t := by push_cast; linarith
    have b2 : x + t ≤ 0 := by linarith
    have hi : rnd (-((c : ℝ) * (k + 1 : ℕ))) = -((c : ℝ) * (k + 1 : ℕ)) := by
      have := rnd_int (k := -((c * (k + 1) : ℕ) : ℤ)) (by rw [abs_neg, Nat.abs_cast]; exact_mod_cast hk)
      push_cast at this ⊢
      exact this
    have ha := add_is hs ht (small_le_max (by
      rw [abs_le]; push_cast at b1
      constructor
      · have : (2:ℝ) ^ 24 ≤ 2 ^ 100 := by norm_num
        linarith
      · exact le_trans b2 (by norm_num)))
    obtain ⟨z, hz, z1, z2⟩ := sum_ok l _ _ (k + 1) (fun q hq' => hq q (List.mem_cons_of_mem _ hq')) ha (le_rnd b1 hi)
      (rnd_le b2 rnd_zero) (by rw [show k + 1 + l.length = k + (l.length + 1) by omega]; exact hc)
    refine ⟨z, hz, ?_, z2⟩
    rw [List.length_cons, show k + (l.length + 1) = k + 1 + l.length by omega]; exact z1

end MetricsFloat

/-- **C23** In single precision, for every `n` up to 2^18, targets from 0 to 1 and a `logf` as in `LogOk`: whatever the predictions are,
NaN and infinities included, both crossentropies are numbers and not negative, at most 34. -/
theorem C23_float (L : Libm) (hL : LogOk L) (m : Metric) (hm : m = .bce ∨ m = .cce) (n : ℕ) (hn : 1 ≤ n) (hn2 : n ≤ 2 ^ 18)
    (p y : View B32) (hp : n ≤ p.data.length) (hy : n ≤ y.data.length)
    (ht : ∀ b ∈ y.data.take n, ∃ r, Is b r ∧ 0 ≤ r ∧ r ≤ 1) :
    ∃ v r, @runMetric B32 (ops L) m n p y = .ok v ∧ Is v r ∧ 0 ≤ r ∧ r ≤ 34 := by
  let _ := ops L
  have hlen : ((p.data.take n).zip (y.data.take n)).length = n := by simp; omega
  have hlog : ∀ a : B32, (∃ v, Is (L.log (NN.clip a)) v ∧ -17 ≤ v ∧ v ≤ 0) ∧
      ∃ v, Is (L.log (FloatOps.sub FloatOps.one (NN.clip a))) v ∧ -17 ≤ v ∧ v ≤ 0 := by
    intro a
    obtain ⟨x, z, hx, h1, h2, h3, h4, hz, z1, z2, -⟩ := C23_clip_float L a
    have h24 : (0:ℝ) < 2 ^ (-24 : ℤ) := by positivity
    exact ⟨hL _ x hx (h1.trans h2) (by linarith), hL _ z hz z1 z2⟩
  have hmem : ∀ q ∈ (p.data.take n).zip (y.data.take n), ∃ r, Is q.2 r ∧ 0 ≤ r ∧ r ≤ 1 := fun q hq => ht q.2 (List.of_mem_zip hq).2
  have fin : ∀ f : B32 → B32 → B32, (∀ q ∈ (p.data.take n).zip (y.data.take n), ∃ t, Is (f q.1 q.2) t ∧ -((34 : ℕ) : ℝ) ≤ t ∧ t ≤ 0) →
      ∃ r, Is (FloatOps.div (FloatOps.neg (sumF f n p.data y.data)) (FloatOps.ofNat n)) r ∧ 0 ≤ r ∧ r ≤ 34 := by
    intro f hf
    obtain ⟨z, hz, z1, z2⟩ := sum_ok (f := f) (c := 34) _ (zeroS false) 0 0 hf (is_zeroS false) (by simp) le_rfl (by rw [hlen]; omega)
    rw [hlen] at z1
    have hn0 : (0:ℝ) < n := by exact_mod_cast hn
    have hof : Is (FloatOps.ofNat n : B32) (n : ℝ) := by
      have h1 : |(n : ℝ)| ≤ 2 ^ 100 := by
        rw [Nat.abs_cast]
        exact le_trans (by exact_mod_cast hn2 : (n : ℝ) ≤ 2 ^ 18) (by norm_num)
      have := is_ofReal (s := false) (small_le_max h1)
      have h2 := rnd_int (k := (n : ℤ)) (by rw [Nat.abs_cast]; exact_mod_cast (by omega : n < 2 ^ 24))
      push_cast at h2
      rw [h2] at this
      exact this
    have q1 : 0 ≤ -z / n := div_nonneg (by linarith) hn0.le
    have q2 : -z / n ≤ 34 := by rw [div_le_iff₀ hn0]; push_cast at z1; simp at z1; linarith
    refine ⟨rnd (-z / n), div_is (is_neg hz) hof hn0.ne' (small_le_max (by
      rw [abs_of_nonneg q1]; exact q2.trans (by norm_num))), le_rnd q1 rnd_zero, ?_⟩
    have := rnd_int (k := 34) (by norm_num)
    push_cast at this
    exact rnd_le q2 this
  rcases hm with rfl | rfl
  · obtain ⟨r, h1, h2⟩ := fin (fun p y => FloatOps.add (FloatOps.mul y (FloatOps.log (NN.clip p)))
      (FloatOps.mul (FloatOps.sub FloatOps.one y) (FloatOps.log (FloatOps.sub FloatOps.one (NN.clip p))))) (by
      intro q hq
      obtain ⟨r, hr, r0, r1⟩ := hmem q hq
      obtain ⟨⟨v, hv, v0, v1⟩, w, hw, w0, w1⟩ := hlog q.1
      obtain ⟨s, hs, s0, s1⟩ := prod_ok hr r0 r1 hv v0 v1
      have hy1 : Is (B32.sub (ofReal false 1) q.2) (rnd (1 - r)) := sub_is is_one hr (small_le_max (by
        rw [abs_of_nonneg (by linarith)]; exact le_trans (by linarith : 1 - r ≤ 1) (by norm_num)))
      obtain ⟨t, ht', t0, t1⟩ := prod_ok hy1 (le_rnd (by linarith) rnd_zero) (rnd_le (by linarith) rnd_one) hw w0 w1
      refine ⟨rnd (s + t), add_is hs ht' (small_le_max ?_), ?_, rnd_le (by linarith) rnd_zero⟩
      · rw [abs_le]; constructor <;> norm_num <;> linarith
      · have := rnd_int (k := -34) (by norm_num)
        push_cast at this ⊢
        exact le_rnd (by linarith) this)
    refine ⟨_, r, ?_, h1, h2⟩
    simp only [runMetric, bind, Except.bind, pure, Except.pure, sumLoop_eq _ n p y hp hy]
  · obtain ⟨r, h1, h2⟩ := fin (fun p y => FloatOps.mul y (FloatOps.log (NN.clip p))) (by
      intro q hq
      obtain ⟨r, hr, r0, r1⟩ := hmem q hq
      obtain ⟨⟨v, hv, v0, v1⟩, -⟩ := hlog q.1
      obtain ⟨s, hs, s0, s1⟩ := prod_ok hr r0 r1 hv v0 v1
      exact ⟨s, hs, by push_cast; linarith, s1⟩)
    refine ⟨_, r, ?_, h1, h2⟩
    simp only [runMetric, bind, Except.bind, pure, Except.pure, sumLoop_eq _ n p y hp hy]

/-- A prediction that is NaN and one that is infinite: still a number. -/
example (L : Libm) (hL : LogOk L) : ∃ v r, @runMetric B32 (ops L) .bce 2 ⟨0, [qnan, inf false]⟩ ⟨0, [ofReal false 1, zeroS false]⟩ =
    .ok v ∧ Is v r ∧ 0 ≤ r ∧ r ≤ 34 :=
  C23_float L hL .bce (.inl rfl) 2 (by norm_num) (by norm_num) _ _ (by simp) (by simp) (by
    simp only [List.take_succ_cons, List.take_zero, List.mem_cons, List.not_mem_nil, or_false]
    rintro b (rfl | rfl)
    · exact ⟨1, is_one, zero_le_one, le_rfl⟩
    · exact ⟨0, is_zeroS false, le_rfl, zero_le_one⟩)

/-- There is such a `logf`: the rounded logarithm. -/
example (L : Libm) : LogOk { L with log := fun a => ofReal false (Real.log a.value) } := by
  intro a x ha h1 h2
  have h0 : 0 < x := lt_of_lt_of_le (by positivity) h1
  have l1 : -17 ≤ Real.log x := by
    have h3 : Real.log (2 ^ (-24 : ℤ)) ≤ Real.log x := Real.log_le_log (by positivity) h1
    rw [Real.log_zpow] at h3
    have := Real.log_two_lt_d9
    push_cast at h3
    linarith
  have l2 : Real.log x ≤ 0 := Real.log_nonpos h0.le h2
  refine ⟨rnd (Real.log x), ?_, ?_, rnd_le l2 rnd_zero⟩
  · show Is (ofReal false (Real.log a.value)) _
    rw [ha.2]
    exact is_ofReal (small_le_max (by rw [abs_le]; constructor <;> norm_num <;> linarith))
  · have := rnd_int (k := -17) (by norm_num)
    push_cast at this
    exact le_rnd l1 this

namespace MetricsFloat

/-- `roundf` gives a whole number. -/
theorem roundAway_int (x : ℝ) : ∃ k : ℤ, roundAway x = k ∧ |k| ≤ |x| + 1 / 2 ∧ (k = 1 ↔ 1 / 2 ≤ x ∧ x < 3 / 2) ∧
    (k = 0 ↔ -(1 / 2) < x ∧ x < 1 / 2) := by
  rw [roundAway]
  split
  · next h =>
    have f1 := Int.floor_le (x + 1 / 2)
    refine ⟨⌊x + 1 / 2⌋, rfl, ?_, ?_, ?_⟩
    · rw [abs_of_nonneg (Int.floor_nonneg.2 (by linarith)), abs_of_nonneg h]; exact f1
    · rw [Int.floor_eq_iff]; push_cast; constructor <;> rintro ⟨h1, h2⟩ <;> constructor <;> linarith
    · rw [Int.floor_eq_iff]; push_cast; constructor <;> rintro ⟨h1, h2⟩ <;> constructor <;> linarith
  · next h =>
    have hx := not_le.1 h
    have f1 := Int.floor_le (-x + 1 / 2)
    have f0 : 0 ≤ ⌊-x + 1 / 2⌋ := Int.floor_nonneg.2 (by linarith)
    refine ⟨-⌊-x + 1 / 2⌋, by push_cast; rfl, ?_, ?_, ?_⟩
    · rw [abs_neg, abs_of_nonneg f0, abs_of_neg hx]; exact f1
    · constructor
      · intro h1; omega
      · rintro ⟨h1, -⟩; linarith
    · rw [neg_eq_zero, Int.floor_eq_iff]; push_cast; constructor <;> rintro ⟨h1, h2⟩ <;> constructor <;> linarith

/-- `roundf` in single precision, for every number. -/
theorem round_is {a : B32} {x : ℝ} (h : Is a x) : ∃ z, Is (B32.round a) z ∧ (z = 1 ↔ 1 / 2 ≤ x ∧ x < 3 / 2) ∧
    (z = 0 ↔ -(1 / 2) < x ∧ x < 1 / 2) := by
  obtain ⟨k, hk, kb, k1, k0⟩ := roundAway_int x
  have hb : |((k : ℤ) : ℝ)| ≤ maxF32 := by
    have h1 : |x| ≤ maxF32 := h.2 ▸ value_abs_le h.1
    have h2 : maxF32 = (((2 ^ 24 - 1) * 2 ^ 104 : ℤ) : ℝ) := by unfold maxF32; norm_num
    have h3 : ((|k| : ℤ) : ℝ) < (((2 ^ 24 - 1) * 2 ^ 104 + 1 : ℤ) : ℝ) := by
      rw [Int.cast_add, ← h2]; push_cast at kb ⊢; linarith
    have h4 : |k| ≤ (2 ^ 24 - 1) * 2 ^ 104 := Int.lt_add_one_iff.1 (by exact_mod_cast h3)
    rw [← Int.cast_abs, h2]
    exact_mod_cast h4
  have e2 : rnd (2 : ℝ) = 2 := by have := rnd_int (k := 2) (by norm_num); push_cast at this; exact this
  have em : rnd (-1 : ℝ) = -1 := by have := rnd_int (k := -1) (by norm_num); push_cast at this; exact this
  refine ⟨rnd k, ?_, ?_, ?_⟩
  · rw [B32.round, if_pos h.1, h.2, hk]; exact is_ofReal hb
  · rw [← k1]
    constructor
    · intro h1
      by_contra h2
      rcases lt_or_gt_of_ne h2 with h3 | h3
      · have : rnd (k : ℝ) ≤ 0 := rnd_le (by exact_mod_cast (by omega : k ≤ 0)) rnd_zero
        linarith
      · have : 2 ≤ rnd (k : ℝ) := le_rnd (by exact_mod_cast (by omega : 2 ≤ k)) e2
        linarith
    · rintro rfl; simpa using rnd_one
  · rw [← k0]
    constructor
    · intro h1
      by_contra h2
      rcases lt_or_gt_of_ne h2 with h3 | h3
      · have : rnd (k : ℝ) ≤ -1 := rnd_le (by exact_mod_cast (by omega : k ≤ -1)) em
        linarith
      · have : 1 ≤ rnd (k : ℝ) := le_rnd (by exact_mod_cast (by omega : 1 ≤ k)) rnd_one
        linarith
    · rintro rfl; simpa using rnd_zero

/-- A prediction that `binary_accuracy` counts as right. -/
def Right (p y : B32) : Prop :=
  (Is y 1 ∧ ∃ x, Is p x ∧ 1 / 2 ≤ x ∧ x < 3 / 2) ∨ (Is y 0 ∧ ∃ x, Is p x ∧ -(1 / 2) < x ∧ x < 1 / 2)

theorem eq_nonfinite {a b : B32} (ha : a.isFinite = true) (hb : b.isFinite = false) : B32.eq a b = false := by
  obtain ⟨h1, h2⟩ := notInf_of_finite ha
  rcases kinds b with hn | ⟨hi, hn⟩ | hf
  · simp [B32.eq, hn]
  · simp only [B32.eq, hn, h2, extVal, hi, h1, if_true, Bool.false_eq_true, if_false, Bool.not_false, Bool.true_and,
      decide_eq_false_iff_not]
    cases b.sign <;> simp
  · rw [hf] at hb; cases hb

theorem right_iff (p y : B32) (hy : Is y 0 ∨ Is y 1) :
    B32.eq (B32.round (B32.fmin (B32.fmax y (zeroS false)) (ofReal false 1))) (B32.round p) = true ↔ Right p y := by
  have hr : ∃ t z, Is y t ∧ Is (B32.round (B32.fmin (B32.fmax y (zeroS false)) (ofReal false 1))) z ∧ z = t ∧ (t = 0 ∨ t = 1) := by
    rcases hy with h | h
    · have := fmin_is (fmax_is h (is_zeroS false)) is_one
      obtain ⟨z, hz, -, h0⟩ := round_is this
      exact ⟨0, z, h, hz, h0.2 (by norm_num), .inl rfl⟩
    · have := fmin_is (fmax_is h (is_zeroS false)) is_one
      obtain ⟨z, hz, h0, -⟩ := round_is this
      exact ⟨1, z, h, hz, h0.2 (by norm_num), .inr rfl⟩
  obtain ⟨t, z, ht, hz, rfl, hc⟩ := hr
  by_cases hf : p.isFinite = true
  · have hp : Is p p.value := ⟨hf, rfl⟩
    obtain ⟨w, hw, w1, w0⟩ := round_is hp
    rw [B32.eq_iff hz hw, Right]
    have e : ∀ x, Is p x ↔ x = p.value := fun x => ⟨fun h => h.2.symm, fun h => h ▸ hp⟩
    have e' : ∀ x, Is y x ↔ x = z := fun x => ⟨fun h => h.2.symm.trans ht.2, fun h => h ▸ ht⟩
    simp only [e, e', exists_eq_left]
    rcases hc with rfl | rfl
    · rw [eq_comm, w0]; norm_num
    · rw [eq_comm, w1]; norm_num
  · have hf' : p.isFinite = false := by simpa using hf
    have h1 : B32.round p = p := by rw [B32.round, if_neg hf]
    rw [h1, eq_nonfinite hz.1 hf']
    simp only [Bool.false_eq_true, false_iff, Right, not_or, not_and, not_exists]
    exact ⟨fun _ x hx => absurd hx.1 hf, fun _ x hx => absurd hx.1 hf⟩

theorem count_ok {f : B32 → B32 → B32} {P : B32 × B32 → Bool} : ∀ (l : List (B32 × B32)) (s : B32) (k : ℕ),
    (∀ q ∈ l, f q.1 q.2 = if P q then ofReal false 1 else zeroS false) → Is s (k : ℝ) → k + l.length < 2 ^ 24 →
    Is (l.foldl (fun s q => B32.add s (f q.1 q.2)) s) ((k + l.countP P : ℕ) : ℝ)
  | [], s, k, _, hs, _ => by simpa using hs
  | q :: l, s, k, hq, hs, hc => by
    rw [List.length_cons] at hc
    rw [List.foldl_cons, hq q (by simp), List.countP_cons]
    have hk : (k : ℝ) + 1 ≤ 2 ^ 24 := by exact_mod_cast (by omega : k + 1 ≤ 2 ^ 24)
    have h100 : (2:ℝ) ^ 24 ≤ 2 ^ 100 := by norm_num
    have hkk : (0:ℝ) ≤ k := Nat.cast_nonneg k
    by_cases hp : P q = true
    · rw [if_pos hp, if_pos hp]
      have ha := add_is hs is_one (small_le_max (by rw [abs_of_nonneg (by linarith)]; linarith))
      have hi := rnd_int (k := (k + 1 : ℤ)) (by rw [abs_of_nonneg (by omega)]; exact_mod_cast (by omega : k + 1 < 2 ^ 24))
      push_cast at hi
      rw [hi] at ha
      have := count_ok l _ (k + 1) (fun q hq' => hq q (List.mem_cons_of_mem _ hq')) (by push_cast; exact ha) (by omega)
      rwa [show k + (l.countP P + 1) = k + 1 + l.countP P by omega]
    · rw [if_neg hp, if_neg hp]
      have ha := add_is hs (is_zeroS false) (small_le_max (by rw [add_zero, abs_of_nonneg hkk]; linarith))
      have hi := rnd_int (k := (k : ℤ)) (by rw [abs_of_nonneg (by omega)]; exact_mod_cast (by omega : k < 2 ^ 24))
      push_cast at hi
      rw [add_zero, hi] at ha
      exact count_ok l _ k (fun q hq' => hq q (List.mem_cons_of_mem _ hq')) ha (by omega)

theorem mean_ok (L : Libm) {f : B32 → B32 → B32} {P : B32 × B32 → Bool} (n : ℕ) (hn : 1 ≤ n) (hn2 : n < 2 ^ 24) (p y : List B32)
    (hp : n ≤ p.length) (hy : n ≤ y.length)
    (hf : ∀ q ∈ (p.take n).zip (y.take n), f q.1 q.2 = if P q then ofReal false 1 else zeroS false) :
    Is (@FloatOps.div B32 (ops L) (@sumF B32 (ops L) f n p y) (@FloatOps.ofNat B32 (ops L) n))
      (rnd ((((p.take n).zip (y.take n)).countP P : ℕ) / (n : ℝ))) := by
  have hlen : ((p.take n).zip (y.take n)).length = n := by simp; omega
  have hs := count_ok _ (zeroS false) 0 hf (by simpa using is_zeroS false) (by rw [hlen]; omega)
  rw [Nat.zero_add] at hs
  have hn0 : (0:ℝ) < n := by exact_mod_cast hn
  have hof : Is (@FloatOps.ofNat B32 (ops L) n) (n : ℝ) := by
    have h1 : |(n : ℝ)| ≤ 2 ^ 100 := by
      rw [Nat.abs_cast]
      exact le_trans (by exact_mod_cast hn2.le : (n : ℝ) ≤ 2 ^ 24) (by norm_num)
    have := is_ofReal (s := false) (small_le_max h1)
    have h2 := rnd_int (k := (n : ℤ)) (by rw [Nat.abs_cast]; exact_mod_cast hn2)
    push_cast at h2
    rw [h2] at this
    exact this
  have hc : ((p.take n).zip (y.take n)).countP P ≤ n := List.countP_le_length.trans hlen.le
  exact div_is hs hof hn0.ne' (small_le_max (by
    rw [abs_of_nonneg (by positivity)]
    refine le_trans ((div_le_one hn0).2 (by exact_mod_cast hc)) (by norm_num)))

/-- What `binary_accuracy` adds for one output. -/
theorem term_eq (L : Libm) (p y : B32) (hy : Is y 0 ∨ Is y 1) (P : Bool) (hP : P = true ↔ Right p y) :
    (if @FloatOps.eq B32 (ops L) (@FloatOps.round B32 (ops L) (@FloatOps.fmin B32 (ops L) (@FloatOps.fmax B32 (ops L) y
      (@FloatOps.zero B32 (ops L))) (@FloatOps.one B32 (ops L)))) (@FloatOps.round B32 (ops L) p) then @FloatOps.one B32 (ops L)
      else @FloatOps.zero B32 (ops L)) = if P then ofReal false 1 else zeroS false := by
  have h := right_iff p y hy
  have e1 : @FloatOps.one B32 (ops L) = ofReal false 1 := rfl
  have e0 : @FloatOps.zero B32 (ops L) = zeroS false := rfl
  have e2 : @FloatOps.eq B32 (ops L) (@FloatOps.round B32 (ops L) (@FloatOps.fmin B32 (ops L) (@FloatOps.fmax B32 (ops L) y
      (zeroS false)) (ofReal false 1))) (@FloatOps.round B32 (ops L) p) =
      B32.eq (B32.round (B32.fmin (B32.fmax y (zeroS false)) (ofReal false 1))) (B32.round p) := rfl
  rw [e1, e0, e2]
  have : B32.eq (B32.round (B32.fmin (B32.fmax y (zeroS false)) (ofReal false 1))) (B32.round p) = P := by
    rw [Bool.eq_iff_iff, h, hP]
  rw [this]

end MetricsFloat

open Classical in
/-- **C23** `binary_accuracy` in single precision, for targets 0 or 1, fewer than 2^24 of them, and any predictions (NaN and infinities
included): the number of the predictions from 1/2 to below 3/2 with target 1 and of those above -1/2 and below 1/2 with target 0,
divided by `n` and rounded once. -/
theorem C23_binary_float (L : Libm) (n : ℕ) (hn : 1 ≤ n) (hn2 : n < 2 ^ 24) (p y : View B32) (hp : n ≤ p.data.length)
    (hy : n ≤ y.data.length) (ht : ∀ b ∈ y.data.take n, Is b 0 ∨ Is b 1) :
    ∃ v, @runMetric B32 (ops L) .binaryAccuracy n p y = .ok v ∧
      Is v (rnd ((((p.data.take n).zip (y.data.take n)).countP fun q => decide (Right q.1 q.2) : ℕ) / (n : ℝ))) := by
  let _ := ops L
  refine ⟨_, ?_, mean_ok L (f := fun p y =>
      if FloatOps.eq (FloatOps.round (FloatOps.fmin (FloatOps.fmax y FloatOps.zero) FloatOps.one)) (FloatOps.round p) then FloatOps.one
      else FloatOps.zero) (P := fun q => decide (Right q.1 q.2)) n hn hn2 p.data y.data hp hy (fun q hq =>
    term_eq L q.1 q.2 (ht q.2 (List.of_mem_zip hq).2) (decide (Right q.1 q.2)) (by simp))⟩
  simp only [runMetric, bind, Except.bind, pure, Except.pure, sumLoop_eq _ n p y hp hy]

/-- Targets 1 and 0, predictions 1 and NaN: one of two is right. -/
example (L : Libm) : ∃ v, @runMetric B32 (ops L) .binaryAccuracy 2 ⟨0, [ofReal false 1, qnan]⟩ ⟨0, [ofReal false 1, zeroS false]⟩ = .ok v ∧
    Is v (rnd (1 / 2)) := by
  classical
  obtain ⟨v, h1, h2⟩ := C23_binary_float L 2 (by norm_num) (by norm_num) ⟨0, [ofReal false 1, qnan]⟩ ⟨0, [ofReal false 1, zeroS false]⟩
    (by simp) (by simp) (by
      simp only [List.take_succ_cons, List.take_zero, List.mem_cons, List.not_mem_nil, or_false]
      rintro b (rfl | rfl)
      · exact .inr is_one
      · exact .inl (is_zeroS false))
  refine ⟨v, h1, ?_⟩
  have r1 : Right (ofReal false 1) (ofReal false 1) := .inl ⟨is_one, 1, is_one, by norm_num⟩
  have r2 : ¬ Right qnan (zeroS false) := by
    have hq : qnan.isFinite = false := by decide
    rintro (⟨-, x, hx, -⟩ | ⟨-, x, hx, -⟩) <;> rw [hx.1] at hq <;> cases hq
  simpa [List.countP_cons, r1, r2] using h2

end NN
