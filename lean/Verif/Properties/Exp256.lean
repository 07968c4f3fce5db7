import Verif.Proofs.Exp256
import Verif.Properties.Activation
/-
C20: the vector exponential and the activation functions that use it, in exact arithmetic.
-/
namespace NN

/-! ### The exponential -/

/-- **C20, partial** Full claim: relative error below 1e-6 on the whole clamped range, which is [-88.376.., 88.376..].
Proved: relative error at most 1e-7 from -87.683 on.  Below, the claim is false: `C20_flush_false`. -/
theorem C20_relative_partial {x : ℝ} (h1 : -(87683 / 1000) ≤ x) (h2 : x ≤ 11583653 / 131072) :
    |exp256 realExpOps x - Real.exp x| ≤ 1 / 10 ^ 7 * Real.exp x := by
  rw [exp256_inner (by linarith) h2, if_neg]
  · exact reduced_error (by linarith) h2
  · have : -126 ≤ ⌊x * (12102203 / 8388608) + 1 / 2⌋ := by
      rw [Int.le_floor]; push_cast; linarith
    omega

example : |exp256 realExpOps (-87) - Real.exp (-87)| ≤ 1 / 10 ^ 7 * Real.exp (-87) :=
  C20_relative_partial (by norm_num) (by norm_num)

/-- The clamp. -/
theorem exp256_clamp (x : ℝ) : exp256 realExpOps x =
    exp256 realExpOps (max (min x (11583653 / 131072)) (-(11583653 / 131072))) := by
  have e : ∀ x : ℝ, FloatOps.maxps (realExpOps.minps x expHi) expLo = max (min x (11583653 / 131072)) (-(11583653 / 131072)) := by
    intro x
    simp only [realExpOps, expHi, expLo, RealOps.lit_def, RealOps.maxps_def]
    push_cast
    congr 1
    norm_num
  simp only [exp256, e]
  have : max (min (max (min x (11583653 / 131072)) (-(11583653 / 131072))) (11583653 / 131072)) (-(11583653 / 131072)) =
      max (min x (11583653 / 131072)) (-(11583653 / 131072) : ℝ) := by
    rw [min_eq_left (max_le (min_le_right _ _) (by norm_num)), max_eq_left (le_max_right _ _)]
  rw [this]

/-- **C20** Above the range the value at its end is returned. -/
theorem C20_above {x : ℝ} (h : 11583653 / 131072 ≤ x) : exp256 realExpOps x = exp256 realExpOps (11583653 / 131072) := by
  rw [exp256_clamp, min_eq_right h, max_eq_left (by norm_num)]

/-- **C20 is false** at the lower end of the clamped range, and below: the result is 0, since the exponent field of the power
of two is 0. -/
theorem C20_flush_false {x : ℝ} (h : x < -(876832 / 10000)) : exp256 realExpOps x = 0 := by
  rw [exp256_clamp, min_eq_left (by linarith)]
  have hm : max x (-(11583653 / 131072)) < -(876832 / 10000) := max_lt h (by norm_num)
  have hl : -(11583653 / 131072) ≤ max x (-(11583653 / 131072)) := le_max_right _ _
  rw [exp256_inner hl (by linarith), if_pos, mul_zero]
  have h1 := (floor_range hl (by linarith)).1
  have h2 : ⌊max x (-(11583653 / 131072)) * (12102203 / 8388608) + 1 / 2⌋ < -126 := by
    rw [Int.floor_lt]; push_cast; linarith
  omega

/-- -88 is in the clamped range, and the relative error there is 1. -/
example : -(11583653 / 131072 : ℝ) ≤ -88 ∧ |exp256 realExpOps (-88) - Real.exp (-88)| = 1 * Real.exp (-88) := by
  refine ⟨by norm_num, ?_⟩
  rw [C20_flush_false (by norm_num), zero_sub, abs_neg, abs_of_pos (Real.exp_pos _), one_mul]

theorem exp_small {x : ℝ} (h : x ≤ -(876 / 10)) : Real.exp x ≤ (2 : ℝ) ^ (-126 : ℤ) := by
  have e2 : (2 : ℝ) ^ (-126 : ℤ) = Real.exp (-126 * Real.log 2) := by
    rw [mul_comm, Real.exp_mul, Real.exp_log (by norm_num)]
    rw [← Real.rpow_intCast]; norm_num
  rw [e2, Real.exp_le_exp]
  have := Real.log_two_lt_d9
  linarith

/-- **C20** Everywhere below the upper end the absolute error is at most 1e-7 of the value plus the smallest normal number. -/
theorem C20_absolute {x : ℝ} (h : x ≤ 11583653 / 131072) :
    |exp256 realExpOps x - Real.exp x| ≤ 1 / 10 ^ 7 * Real.exp x + (2 : ℝ) ^ (-126 : ℤ) := by
  have hp := Real.exp_pos x
  have h2 : (0 : ℝ) < (2 : ℝ) ^ (-126 : ℤ) := by positivity
  by_cases h1 : -(87683 / 1000) ≤ x
  · have := C20_relative_partial h1 h
    linarith
  · push Not at h1
    have hs := exp_small (x := x) (by linarith)
    by_cases hl : -(11583653 / 131072) ≤ x
    · rw [exp256_inner hl h]
      split_ifs with hn
      · rw [mul_zero, zero_sub, abs_neg, abs_of_pos hp]
        exact hs.trans (le_add_of_nonneg_left (by positivity))
      · have := reduced_error hl h
        linarith
    · push Not at hl
      rw [C20_flush_false (by linarith), zero_sub, abs_neg, abs_of_pos hp]
      exact hs.trans (le_add_of_nonneg_left (by positivity))

/-- Far below the range: the absolute error at -1000 is negligible, though the relative error is 1. -/
example : |exp256 realExpOps (-1000) - Real.exp (-1000)| ≤ 1 / 10 ^ 7 * Real.exp (-1000) + (2 : ℝ) ^ (-126 : ℤ) :=
  C20_absolute (by norm_num)

theorem exp256_nonneg (x : ℝ) : 0 ≤ exp256 realExpOps x := by
  rw [exp256_clamp]
  set y := max (min x (11583653 / 131072)) (-(11583653 / 131072) : ℝ)
  have h1 : -(11583653 / 131072) ≤ y := le_max_right _ _
  have h2 : y ≤ 11583653 / 131072 := max_le (min_le_right _ _) (by norm_num)
  rw [exp256_inner h1 h2]
  split_ifs
  · simp
  · have := reduced_error h1 h2
    have hp := Real.exp_pos y
    have := (abs_le.1 this).1
    linarith

/-! ### sigmoid and tanh -/

theorem exp_large {x : ℝ} (h : 88 ≤ x) : (2 : ℝ) ^ (126 : ℕ) ≤ Real.exp x := by
  have e2 : (2 : ℝ) ^ (126 : ℕ) = Real.exp (126 * Real.log 2) := by
    rw [mul_comm, Real.exp_mul, Real.exp_log (by norm_num)]
    rw [← Real.rpow_natCast]; norm_num
  rw [e2, Real.exp_le_exp]
  have := Real.log_two_lt_d9
  linarith

/-- The quantity both functions are made of. -/
theorem logistic_error (x : ℝ) : |1 / (1 + exp256 realExpOps x) - 1 / (1 + Real.exp x)| ≤ 11 / 10 ^ 8 := by
  have hp := Real.exp_pos x
  have hE := exp256_nonneg x
  by_cases h : x ≤ 11583653 / 131072
  · have ha := C20_absolute h
    have h2 : (2 : ℝ) ^ (-126 : ℤ) ≤ 1 / 10 ^ 8 := by norm_num
    set E := exp256 realExpOps x
    set e := Real.exp x
    have hd : 1 / (1 + E) - 1 / (1 + e) = (e - E) / ((1 + E) * (1 + e)) := by
      field_simp; ring
    have hpos : 0 < (1 + E) * (1 + e) := by positivity
    rw [hd, abs_div, abs_of_pos hpos, div_le_iff₀ hpos, abs_sub_comm]
    nlinarith [mul_nonneg hE hp.le]
  · push Not at h
    have h1 : (2 : ℝ) ^ (126 : ℕ) ≤ Real.exp x := exp_large (by linarith)
    have h2 : (2 : ℝ) ^ (126 : ℕ) / 2 ≤ exp256 realExpOps x := by
      rw [C20_above h.le]
      have h3 := C20_relative_partial (x := 11583653 / 131072) (by norm_num) le_rfl
      have h4 := exp_large (x := 11583653 / 131072) (by norm_num)
      have := (abs_le.1 h3).1
      linarith
    have b1 : 1 / (1 + exp256 realExpOps x) ≤ 1 / 10 ^ 8 :=
      one_div_le_one_div_of_le (by norm_num) (by norm_num at h2; linarith)
    have b2 : 1 / (1 + Real.exp x) ≤ 1 / 10 ^ 8 :=
      one_div_le_one_div_of_le (by norm_num) (by norm_num at h1; linarith)
    have c1 : 0 ≤ 1 / (1 + exp256 realExpOps x) := by positivity
    have c2 : 0 ≤ 1 / (1 + Real.exp x) := by positivity
    rw [abs_le]
    constructor <;> linarith

theorem sigmoidV_256 (x : ℝ) : |@sigmoidV ℝ ops256 x - Spec.sigmoid x| ≤ 11 / 10 ^ 8 := by
  have : @sigmoidV ℝ ops256 x = 1 / (1 + exp256 realExpOps (0 - x)) := rfl
  rw [this, Spec.sigmoid, zero_sub]
  exact logistic_error (-x)

theorem tanhV_256 (x : ℝ) : |@tanhV ℝ ops256 x - Real.tanh x| ≤ 22 / 10 ^ 8 := by
  have h1 : @tanhV ℝ ops256 x = ((-1 : ℤ) : ℝ) / ((1 : ℕ) : ℝ) + ((2 : ℤ) : ℝ) / ((1 : ℕ) : ℝ) /
      (1 + exp256 realExpOps (((-2 : ℤ) : ℝ) / ((1 : ℕ) : ℝ) * x)) := rfl
  have h2 : tanhV x = ((-1 : ℤ) : ℝ) / ((1 : ℕ) : ℝ) + ((2 : ℤ) : ℝ) / ((1 : ℕ) : ℝ) /
      (1 + Real.exp (((-2 : ℤ) : ℝ) / ((1 : ℕ) : ℝ) * x)) := rfl
  rw [← tanhV_real, h1, h2]
  have := logistic_error (((-2 : ℤ) : ℝ) / ((1 : ℕ) : ℝ) * x)
  set u := ((-2 : ℤ) : ℝ) / ((1 : ℕ) : ℝ) * x
  have e : ((-1 : ℤ) : ℝ) / ((1 : ℕ) : ℝ) + ((2 : ℤ) : ℝ) / ((1 : ℕ) : ℝ) / (1 + exp256 realExpOps u) -
      (((-1 : ℤ) : ℝ) / ((1 : ℕ) : ℝ) + ((2 : ℤ) : ℝ) / ((1 : ℕ) : ℝ) / (1 + Real.exp u)) =
      2 * (1 / (1 + exp256 realExpOps u) - 1 / (1 + Real.exp u)) := by
    push_cast; ring
  rw [e, abs_mul, abs_of_pos (by norm_num : (0 : ℝ) < 2)]
  linarith

theorem applyTo_forall₂ {g : ℕ → ℝ → ℝ} {R : ℝ → ℝ → Prop} (h : ∀ k x, R (g k x) x) (l : List ℝ) :
    List.Forall₂ R (applyTo g l.length l) l := by
  rw [List.forall₂_iff_get]
  refine ⟨by simp, ?_⟩
  intro i h1 h2
  have : (applyTo g l.length l)[i]'h1 = g i l[i] := by
    simp [applyTo, h2]
  simp only [List.get_eq_getElem, this]
  exact h i _

/-- **C20** Every activation function except softmax, in every build and at every address, differs from the textbook function
by at most 2.2e-7 on every real number, also outside the clamped range. -/
theorem C20_activation (env : CustomEnv ℝ) (c : Cfg) (a : Act) (f : ℝ → ℝ) (hf : textbook a = some f) (n : ℕ) (y : View ℝ)
    (hn : n ≤ y.data.length) (ha : a = .tanh → c.hasAvx2 = true → 16 ≤ n → y.addr % 32 = 0) :
    ∃ out, @activate ℝ ops256 env c a n y = .ok ⟨y.addr, out ++ y.data.drop n⟩ ∧
      List.Forall₂ (fun o x => |o - f x| ≤ 22 / 10 ^ 8) out (y.data.take n) := by
  refine ⟨_, @activate_eq' ℝ ops256 env c a n y (fun h => by subst h; simp [textbook] at hf) hn ha, ?_⟩
  have hmap : ∀ (f g : ℝ → ℝ), (∀ x, g x = f x) → List.Forall₂ (fun o x => |o - f x| ≤ 22 / 10 ^ 8) ((y.data.take n).map g) (y.data.take n) := by
    intro f g h
    rw [List.forall₂_map_left_iff, List.forall₂_same]
    intro x _
    rw [h x, sub_self, abs_zero]; norm_num
  have h0 : ∀ x : ℝ, |x - x| ≤ 22 / 10 ^ 8 := by intro x; rw [sub_self, abs_zero]; norm_num
  have hs : ∀ x, |@sigmoidS ℝ ops256 x - Spec.sigmoid x| ≤ 22 / 10 ^ 8 := by
    intro x
    rw [show @sigmoidS ℝ ops256 x = Spec.sigmoid x from sigmoidS_real x]
    exact h0 _
  cases a <;> simp only [textbook, Option.some.injEq, reduceCtorEq] at hf <;> subst hf
  · exact hmap _ _ softplusS_real
  · exact hmap _ _ softsignS_real
  · exact hmap _ _ hardSigmoidS_real
  · exact hmap _ _ fun _ => rfl
  · simpa [activateF] using hmap id id fun _ => rfl
  · refine applyTo_forall₂ ?_ _
    intro k x
    have : @reluOp ℝ ops256 c y.addr (y.data.take n).length k x = Spec.relu x := by
      unfold reluOp regionOp Spec.relu
      split
      · beta_reduce; split <;> rfl
      · rfl
    rw [this]; exact h0 _
  · refine applyTo_forall₂ ?_ _
    intro k x
    unfold sigmoidOp regionOp
    split
    · beta_reduce; split
      · exact (sigmoidV_256 x).trans (by norm_num)
      · exact hs x
    · exact hs x
  · refine applyTo_forall₂ ?_ _
    intro k x
    unfold tanhOp regionOp
    split
    · beta_reduce; split
      · exact tanhV_256 x
      · exact h0 (Real.tanh x)
    · exact h0 (Real.tanh x)

/-! ### softmax -/

theorem maxF_spec (l : List ℝ) (h : l ≠ []) : maxF l ∈ l ∧ ∀ x ∈ l, x ≤ maxF l := by
  have key : ∀ (l : List ℝ) (m : ℝ), (l.foldl (fun m x => if FloatOps.lt m x then x else m) m = m ∨
      l.foldl (fun m x => if FloatOps.lt m x then x else m) m ∈ l) ∧
      m ≤ l.foldl (fun m x => if FloatOps.lt m x then x else m) m ∧
      ∀ x ∈ l, x ≤ l.foldl (fun m x => if FloatOps.lt m x then x else m) m := by
    intro l
    induction l with
    | nil => intro m; simp
    | cons y l ih =>
      intro m
      rw [List.foldl_cons]
      obtain ⟨h1, h2, h3⟩ := ih (if FloatOps.lt m y then y else m)
      have hy : y ≤ if FloatOps.lt m y = true then y else m := by
        split_ifs with hh
        · exact le_rfl
        · rw [RealOps.lt_iff] at hh; linarith
      have hm : m ≤ if FloatOps.lt m y = true then y else m := by
        split_ifs with hh
        · rw [RealOps.lt_iff] at hh; linarith
        · exact le_rfl
      refine ⟨?_, hm.trans h2, ?_⟩
      · rcases h1 with h1 | h1
        · rw [h1]
          split_ifs
          · exact .inr (by simp)
          · exact .inl rfl
        · exact .inr (List.mem_cons_of_mem _ h1)
      · intro x hx
        rcases List.mem_cons.1 hx with rfl | hx
        · exact hy.trans h2
        · exact h3 x hx
  cases l with
  | nil => exact absurd rfl h
  | cons x l =>
    obtain ⟨h1, h2, h3⟩ := key l x
    refine ⟨?_, ?_⟩
    · rw [maxF]
      rcases h1 with h1 | h1
      · rw [h1]; simp
      · exact List.mem_cons_of_mem _ h1
    · intro y hy
      rcases List.mem_cons.1 hy with rfl | hy
      · exact h2
      · exact h3 y hy

theorem vsumF_256 (lo : ℕ) (l : List ℝ) (k : ℕ) : @vsumF ℝ ops256 lo l k = vsumF lo l k := by
  induction k with
  | zero => rfl
  | succ k ih => simp only [vsumF, ih]; rfl

theorem softmaxSumF_256 (c : Cfg) (addr : ℕ) (l : List ℝ) : @softmaxSumF ℝ ops256 c addr l.length l = l.sum := by
  rw [← softmaxSumF_real c addr l]
  unfold softmaxSumF
  simp only [vsumF_256]
  rfl

/-- Sums of approximations. -/
theorem sum_error {ε η : ℝ} {E e : List ℝ} (h : List.Forall₂ (fun a b => |a - b| ≤ ε * b + η) E e) :
    |E.sum - e.sum| ≤ ε * e.sum + e.length * η := by
  induction h with
  | nil => simp
  | cons h1 h2 ih =>
    simp only [List.sum_cons, List.length_cons]
    have := (abs_add_le _ _).trans (add_le_add h1 ih)
    rw [show ∀ a b c d : ℝ, a - b + (c - d) = a + c - (b + d) from fun a b c d => by ring] at this
    push_cast
    linarith

/-- **C20** softmax, for every build, length below 2^31 and address: within 2.1e-7 of the textbook value. -/
theorem C20_softmax (env : CustomEnv ℝ) (c : Cfg) (n : ℕ) (y : View ℝ) (h1 : 1 ≤ n) (hn : n ≤ y.data.length) (hn31 : n < 2 ^ 31) :
    ∃ out, @activate ℝ ops256 env c .softmax n y = .ok ⟨y.addr, out ++ y.data.drop n⟩ ∧
      List.Forall₂ (fun o s => |o - s| ≤ 21 / 10 ^ 8) out (Spec.softmax (y.data.take n)) := by
  refine ⟨_, @activate_eq' ℝ ops256 env c .softmax n y (fun _ => h1) hn (fun h => by simp at h), ?_⟩
  have hlen : (y.data.take n).length = n := by simp; omega
  set l := y.data.take n with hl
  have hne : l ≠ [] := by
    intro h; rw [h] at hlen; simp at hlen; omega
  obtain ⟨hmem, hmax⟩ := maxF_spec l hne
  set m := maxF l with hm
  -- the exponentials
  set E := applyTo (@softmaxExpOp ℝ ops256 c y.addr l.length m) l.length l with hE
  set e := l.map fun x => Real.exp (x - m) with he
  have hEe : List.Forall₂ (fun a b => |a - b| ≤ 1 / 10 ^ 7 * b + (2 : ℝ) ^ (-126 : ℤ)) E e ∧ ∀ b ∈ e, 0 < b ∧ b ≤ 1 := by
    constructor
    · rw [he, List.forall₂_map_right_iff, List.forall₂_iff_get]
      refine ⟨by simp [hE], ?_⟩
      intro i i1 i2
      have hi : E[i]'i1 = @softmaxExpOp ℝ ops256 c y.addr l.length m i l[i] := by
        simp [hE, applyTo, i2]
      simp only [List.get_eq_getElem, hi]
      have hx : l[i] - m ≤ 0 := by have := hmax l[i] (List.getElem_mem i2); linarith
      have hp := Real.exp_pos (l[i] - m)
      have h2 : (0 : ℝ) < (2 : ℝ) ^ (-126 : ℤ) := by positivity
      have hexact : |Real.exp (l[i] - m) - Real.exp (l[i] - m)| ≤ 1 / 10 ^ 7 * Real.exp (l[i] - m) + (2 : ℝ) ^ (-126 : ℤ) := by
        rw [sub_self, abs_zero]; positivity
      unfold softmaxExpOp regionOp
      split
      · beta_reduce; split
        · exact C20_absolute (x := l[i] - m) (by linarith)
        · exact hexact
      · exact hexact
    · intro b hb
      obtain ⟨x, hx, rfl⟩ := List.mem_map.1 hb
      refine ⟨Real.exp_pos _, ?_⟩
      rw [Real.exp_le_one_iff]
      have := hmax x hx
      linarith
  obtain ⟨hEe, hrange⟩ := hEe
  have hsum := sum_error hEe
  have hS : 1 ≤ e.sum := by
    have h1mem : (1 : ℝ) ∈ e := by
      rw [he]
      exact List.mem_map.2 ⟨m, hmem, by simp⟩
    exact List.single_le_sum (fun b hb => (hrange b hb).1.le) 1 h1mem
  have hout : @activateF ℝ ops256 env c .softmax y.addr l = E.map fun x => x / E.sum := by
    have hs : @softmaxSumF ℝ ops256 c y.addr l.length E = E.sum := by
      have hEl : E.length = l.length := by simp [hE]
      rw [← hEl]
      exact softmaxSumF_256 c y.addr E
    show (let exps := E; let sum := @softmaxSumF ℝ ops256 c y.addr l.length exps; exps.map fun x => x / sum) = _
    simp only [hs]
  have hspec : Spec.softmax l = e.map fun x => x / e.sum := by
    rw [← softmaxF_real c y.addr l]
    have hE' : applyTo (softmaxExpOp c y.addr l.length (maxF l)) l.length l = e := by
      apply applyTo_real_map
      intro k x
      unfold softmaxExpOp regionOp
      split
      · beta_reduce; split <;> simp [hm]
      · simp [hm]
    have hel : e.length = l.length := by simp [he]
    unfold softmaxF
    simp only [hE']
    rw [show softmaxSumF c y.addr l.length e = e.sum by rw [← hel]; exact softmaxSumF_real c y.addr e]
    rfl
  rw [hout, hspec, List.forall₂_map_left_iff, List.forall₂_map_right_iff]
  have hlenE : (e.length : ℝ) ≤ 2 ^ 31 := by
    have : e.length = n := by simp [he, hlen]
    rw [this]
    exact_mod_cast hn31.le
  have hη : (e.length : ℝ) * (2 : ℝ) ^ (-126 : ℤ) ≤ 1 / 10 ^ 10 := by
    calc (e.length : ℝ) * (2 : ℝ) ^ (-126 : ℤ) ≤ 2 ^ 31 * (2 : ℝ) ^ (-126 : ℤ) := by gcongr
      _ ≤ 1 / 10 ^ 10 := by norm_num
  have hη2 : (2 : ℝ) ^ (-126 : ℤ) ≤ 1 / 10 ^ 10 := by norm_num
  obtain ⟨s1, s2⟩ := abs_le.1 hsum
  set S := e.sum
  set T := E.sum
  have hT : (1 - 1 / 10 ^ 6) * S ≤ T := by norm_num at *; linarith
  have hTpos : 0 < T := by
    have : 0 < (1 - 1 / 10 ^ 6) * S := by norm_num; linarith
    linarith
  rw [List.forall₂_iff_get] at hEe ⊢
  refine ⟨hEe.1, ?_⟩
  intro i i1 i2
  have ha := hEe.2 i i1 i2
  obtain ⟨r1, r2⟩ := hrange _ (List.get_mem e ⟨i, i2⟩)
  set a := E.get ⟨i, i1⟩
  set b := e.get ⟨i, i2⟩
  have hd : a / T - b / S = ((a - b) * S + b * (S - T)) / (T * S) := by
    field_simp; ring
  have hTS : 0 < T * S := by positivity
  rw [hd, abs_div, abs_of_pos hTS, div_le_iff₀ hTS]
  have hbS : b ≤ S := r2.trans hS
  have t1 : |(a - b) * S| ≤ (1 / 10 ^ 7 * b + 1 / 10 ^ 10) * S := by
    rw [abs_mul, abs_of_pos (by linarith : 0 < S)]
    apply mul_le_mul_of_nonneg_right _ (by linarith)
    linarith
  have t2 : |b * (S - T)| ≤ 1 * (1 / 10 ^ 7 * S + 1 / 10 ^ 10) := by
    rw [abs_mul, abs_of_pos r1, abs_sub_comm]
    apply mul_le_mul r2 _ (abs_nonneg _) (by norm_num)
    linarith
  have t3 := (abs_add_le ((a - b) * S) (b * (S - T))).trans (add_le_add t1 t2)
  refine t3.trans ?_
  have t4 : (1 - 1 / 10 ^ 6) * S * S ≤ T * S := mul_le_mul_of_nonneg_right hT (by linarith)
  have t5 : b * S ≤ S := by nlinarith
  have t6 : S ≤ S * S := by nlinarith
  norm_num at *
  nlinarith

/-- A softmax of 20 numbers in an AVX2 build. -/
example (env : CustomEnv ℝ) : ∃ out, @activate ℝ ops256 env ⟨.avx, true, true⟩ .softmax 20 ⟨4, List.replicate 20 (-3)⟩ = .ok ⟨4, out ++ []⟩ ∧
    List.Forall₂ (fun o s => |o - s| ≤ 21 / 10 ^ 8) out (Spec.softmax (List.replicate 20 (-3))) := by
  have := C20_softmax env ⟨.avx, true, true⟩ 20 ⟨4, List.replicate 20 (-3)⟩ (by norm_num) (by simp) (by norm_num)
  simpa using this

/-- A sigmoid of 20 numbers at an unaligned address. -/
example (env : CustomEnv ℝ) : ∃ out, @activate ℝ ops256 env ⟨.avx, true, true⟩ .sigmoid 20 ⟨4, List.replicate 20 (-300)⟩ =
    .ok ⟨4, out ++ []⟩ ∧ List.Forall₂ (fun o x => |o - Spec.sigmoid x| ≤ 22 / 10 ^ 8) out (List.replicate 20 (-300)) := by
  have := C20_activation env ⟨.avx, true, true⟩ .sigmoid Spec.sigmoid rfl 20 ⟨4, List.replicate 20 (-300)⟩ (by simp) (by simp)
  simpa using this

end NN
