import Verif.Proofs.SoftmaxFloat
import Verif.Properties.Activation
/-
C20 in `float` arithmetic: the vector exponential and the activation functions.
-/
namespace NN
open B32

/-- **C20** `exp256_ps` in `float` arithmetic, with every operation rounded: relative error below 1e-6 (at most 5e-7) on every
float from -87.683 to the upper end of the clamped range. -/
theorem C20_float (L : Libm) (x : B32) (hx : x.isFinite = true) (h1 : -(87683 / 1000) ≤ x.value) (h2 : x.value ≤ 11583653 / 131072) :
    (@FloatOps.exp8 B32 (ops L) x).isFinite = true ∧
      |(@FloatOps.exp8 B32 (ops L) x).value - Real.exp x.value| ≤ 5 / 10 ^ 7 * Real.exp x.value := by
  obtain ⟨v, hv, -, h3, -⟩ := exp256_float L x
  have ha : expArg x = x.value := by
    rw [expArg, if_pos hx, min_eq_left h2, max_eq_left (by linarith)]
  rw [ha] at h3
  exact ⟨hv.1, by rw [show (@FloatOps.exp8 B32 (ops L) x).value = v from hv.2]; exact h3 h1⟩

/-- `exp(1)`. -/
example (L : Libm) : |(@FloatOps.exp8 B32 (ops L) (ofReal false 1)).value - Real.exp 1| ≤ 5 / 10 ^ 7 * Real.exp 1 := by
  have h := is_one
  have := (C20_float L (ofReal false 1) h.1 (by rw [h.2]; norm_num) (by rw [h.2]; norm_num)).2
  rwa [h.2] at this

/-- **C20** Every bit pattern gives a finite nonnegative result, also the infinities and NaN. -/
theorem C20_float_total (L : Libm) (x : B32) :
    (@FloatOps.exp8 B32 (ops L) x).isFinite = true ∧ 0 ≤ (@FloatOps.exp8 B32 (ops L) x).value := by
  obtain ⟨v, hv, -, -, -, -, h5, -⟩ := exp256_float L x
  exact ⟨hv.1, by rw [show (@FloatOps.exp8 B32 (ops L) x).value = v from hv.2]; exact h5⟩

/-- **C20 is false** for floats below -87.6832, most of them still inside the clamped range: the result is 0. -/
theorem C20_float_flush_false (L : Libm) (x : B32) (hx : x.isFinite = true) (h : x.value < -(876832 / 10000)) :
    (@FloatOps.exp8 B32 (ops L) x).value = 0 := by
  obtain ⟨v, hv, -, -, h4, -⟩ := exp256_float L x
  rw [show (@FloatOps.exp8 B32 (ops L) x).value = v from hv.2]
  apply h4
  rw [expArg, if_pos hx, min_eq_left (by linarith)]
  exact max_lt h (by norm_num)

/-- -88 is above the lower clamp. -/
example (L : Libm) : (@FloatOps.exp8 B32 (ops L) (ofReal false (-88))).value = 0 := by
  have h : Is (ofReal false (-88)) (-88) := by
    have := is_lit (p := -88) (q := 1) 0 (by norm_num) (by norm_num) (by norm_num)
    simpa using this
  exact C20_float_flush_false L _ h.1 (by rw [h.2]; norm_num)

/-- **C20** NaN is treated like a large number: the vector functions do not pass it on. -/
theorem C20_float_nan (L : Libm) (x : B32) (hx : x.isNan = true) :
    (@FloatOps.exp8 B32 (ops L) x).isFinite = true ∧ 2 ^ 100 ≤ (@FloatOps.exp8 B32 (ops L) x).value := by
  obtain ⟨v, hv, -, h3, -⟩ := exp256_float L x
  have hf : x.isFinite = false := by
    simp only [isNan, Bool.and_eq_true, beq_iff_eq] at hx
    simp [isFinite, hx.1]
  have hi : x.isInf = false := by
    simp only [isNan, Bool.and_eq_true, beq_iff_eq, bne_iff_ne] at hx
    simp [isInf, hx.2]
  have ha : expArg x = 11583653 / 131072 := by simp [expArg, hf, hi]
  rw [ha] at h3
  have h4 := (abs_le.1 (h3 (by norm_num))).1
  have h5 := exp_large' (x := 11583653 / 131072) (by norm_num)
  refine ⟨hv.1, ?_⟩
  rw [show (@FloatOps.exp8 B32 (ops L) x).value = v from hv.2]
  norm_num at h5 ⊢
  linarith

/-- The functions that overflow for large arguments. -/
def Unbounded (a : Act) : Prop := a = .exponential ∨ a = .softplus

/-- One number through the operation at any position. -/
def ElemOk (f : ℝ → ℝ) (o x : B32) : Prop := o.isFinite = true ∧ |o.value - f x.value| ≤ 6 / 10 ^ 7 * max 1 |f x.value|

theorem ElemOk.of_is {f : ℝ → ℝ} {o x : B32} {s ε : ℝ} (h : Is o s) (he : |s - f x.value| ≤ ε) (hε : ε ≤ 6 / 10 ^ 7 * max 1 |f x.value|) :
    ElemOk f o x := ⟨h.1, by rw [h.2]; exact he.trans hε⟩

theorem tol_one {y ε : ℝ} (h : ε ≤ 6 / 10 ^ 7) : ε ≤ 6 / 10 ^ 7 * max 1 |y| := by
  have := le_max_left 1 |y|
  linarith

theorem sigmoidV_ok (L : Libm) {x : B32} (h : x.isFinite = true) : ElemOk Spec.sigmoid (@sigmoidV B32 (ops L) x) x := by
  obtain ⟨s, hs, -, -, he⟩ := sigmoidV_float L (⟨h, rfl⟩ : Is x x.value)
  exact .of_is hs he (tol_one (by norm_num))

theorem sigmoidS_ok {L : Libm} (hL : L.Accurate) {x : B32} (h : x.isFinite = true) : ElemOk Spec.sigmoid (@sigmoidS B32 (ops L) x) x := by
  obtain ⟨s, hs, -, -, he⟩ := sigmoidS_float hL (⟨h, rfl⟩ : Is x x.value)
  exact .of_is hs he (tol_one (by norm_num))

theorem tanhV_ok (L : Libm) {x : B32} (h : x.isFinite = true) : ElemOk Real.tanh (@tanhV B32 (ops L) x) x := by
  obtain ⟨s, hs, -, -, he⟩ := tanhV_float L (⟨h, rfl⟩ : Is x x.value)
  exact .of_is hs he (tol_one le_rfl)

theorem tanhS_ok {L : Libm} (hL : L.Accurate) {x : B32} (h : x.isFinite = true) : ElemOk Real.tanh (@FloatOps.tanh B32 (ops L) x) x := by
  obtain ⟨s, hs, -, -, he⟩ := tanhS_float hL (⟨h, rfl⟩ : Is x x.value)
  exact .of_is hs he (tol_one le_rfl)

theorem exact_ok {f : ℝ → ℝ} {o x : B32} (h : Is o (f x.value)) : ElemOk f o x :=
  .of_is h (by rw [sub_self, abs_zero]) (tol_one (by norm_num))

/-- What `activateF` does at each position. -/
theorem activateF_float (env : CustomEnv B32) {L : Libm} (hL : L.Accurate) (c : Cfg) (a : Act) (f : ℝ → ℝ) (hf : textbook a = some f)
    (addr : ℕ) (l : List B32) (hx : ∀ x ∈ l, x.isFinite = true) (h88 : Unbounded a → ∀ x ∈ l, x.value ≤ 88) :
    List.Forall₂ (ElemOk f) (@activateF B32 (ops L) env c a addr l) l := by
  have hmap : ∀ (g : B32 → B32), (∀ x ∈ l, ElemOk f (g x) x) → List.Forall₂ (ElemOk f) (l.map g) l := by
    intro g h
    rw [List.forall₂_map_left_iff, List.forall₂_same]
    exact h
  have happ : ∀ (g : ℕ → B32 → B32), (∀ k, ∀ x ∈ l, ElemOk f (g k x) x) → List.Forall₂ (ElemOk f) (applyTo g l.length l) l := by
    intro g h
    rw [List.forall₂_iff_get]
    refine ⟨by simp, ?_⟩
    intro i h1 h2
    have : (applyTo g l.length l)[i]'h1 = g i l[i] := by simp [applyTo, h2]
    simp only [List.get_eq_getElem, this]
    exact h i _ (List.getElem_mem _)
  cases a <;> simp only [textbook, Option.some.injEq, reduceCtorEq] at hf <;> subst hf
  · refine hmap _ fun x hm => ?_
    obtain ⟨s, hs, he⟩ := softplus_float hL (⟨hx x hm, rfl⟩ : Is x x.value) (h88 (.inr rfl) x hm)
    refine .of_is hs he ?_
    have h1 := le_max_left 1 |Spec.softplus x.value|
    have h2 := (le_abs_self _).trans (le_max_right 1 |Spec.softplus x.value|)
    linarith
  · refine hmap _ fun x hm => ?_
    obtain ⟨s, hs, -, -, he⟩ := softsign_float L (⟨hx x hm, rfl⟩ : Is x x.value)
    exact .of_is hs he (tol_one (by norm_num))
  · refine hmap _ fun x hm => ?_
    obtain ⟨s, hs, -, -, he⟩ := hardSigmoid_float L (⟨hx x hm, rfl⟩ : Is x x.value)
    exact .of_is hs he (tol_one (by norm_num))
  · refine hmap _ fun x hm => ?_
    obtain ⟨s, hs, -, he⟩ := exponential_float hL (⟨hx x hm, rfl⟩ : Is x x.value) (h88 (.inl rfl) x hm)
    refine .of_is hs he ?_
    have h1 := le_max_left 1 |Real.exp x.value|
    have h2 := (le_abs_self _).trans (le_max_right 1 |Real.exp x.value|)
    linarith
  · simp only [activateF]
    rw [List.forall₂_same]
    exact fun x hm => exact_ok ⟨hx x hm, rfl⟩
  · refine happ _ fun k x hm => ?_
    obtain ⟨r1, r2⟩ := relu_float (⟨hx x hm, rfl⟩ : Is x x.value)
    unfold reluOp regionOp
    split
    · beta_reduce; split
      · exact exact_ok r2
      · exact exact_ok r1
    · exact exact_ok r1
  · refine happ _ fun k x hm => ?_
    unfold sigmoidOp regionOp
    split
    · beta_reduce; split
      · exact sigmoidV_ok L (hx x hm)
      · exact sigmoidS_ok hL (hx x hm)
    · exact sigmoidS_ok hL (hx x hm)
  · refine happ _ fun k x hm => ?_
    unfold tanhOp regionOp
    split
    · beta_reduce; split
      · exact tanhV_ok L (hx x hm)
      · exact tanhS_ok hL (hx x hm)
    · exact tanhS_ok hL (hx x hm)

/-- **C20** Every activation function except softmax in `float` arithmetic, in every build and at every address, scalar parts
computed by the C library (assumed accurate to 2 units in the last place): all results are finite and differ from the
textbook function by at most 6e-7, relative above 1.  `exponential` and `softplus` only up to 88, since `expf` overflows. -/
theorem C20_float_activation (env : CustomEnv B32) {L : Libm} (hL : L.Accurate) (c : Cfg) (a : Act) (f : ℝ → ℝ)
    (hf : textbook a = some f) (n : ℕ) (y : View B32) (hn : n ≤ y.data.length)
    (ha : a = .tanh → c.hasAvx2 = true → 16 ≤ n → y.addr % 32 = 0)
    (hx : ∀ x ∈ y.data.take n, x.isFinite = true) (h88 : Unbounded a → ∀ x ∈ y.data.take n, x.value ≤ 88) :
    ∃ out, @activate B32 (ops L) env c a n y = .ok ⟨y.addr, out ++ y.data.drop n⟩ ∧
      List.Forall₂ (fun o x => o.isFinite = true ∧ |o.value - f x.value| ≤ 6 / 10 ^ 7 * max 1 |f x.value|) out (y.data.take n) :=
  ⟨_, @activate_eq' B32 (ops L) env c a n y (fun h => by subst h; simp [textbook] at hf) hn ha,
    activateF_float env hL c a f hf y.addr _ hx h88⟩

/-- tanh of 16 ones in the AVX2 build, with a correctly rounded library. -/
example (env : CustomEnv B32) : ∃ out, @activate B32 (ops exactLibm) env ⟨.avx, true, true⟩ .tanh 16 ⟨32, List.replicate 16 (ofReal false 1)⟩ =
      .ok ⟨32, out ++ []⟩ ∧ List.Forall₂ (fun o x => o.isFinite = true ∧ |o.value - Real.tanh x.value| ≤ 6 / 10 ^ 7 * max 1 |Real.tanh x.value|) out
        (List.replicate 16 (ofReal false 1)) := by
  have := C20_float_activation env exactLibm_accurate ⟨.avx, true, true⟩ .tanh Real.tanh rfl 16 ⟨32, List.replicate 16 (ofReal false 1)⟩
    (by simp) (by intro _ _ _; norm_num)
    (by intro x hx; simp at hx; rw [hx]; exact is_one.1) (by rintro (h | h) <;> simp at h)
  simpa using this

/-- **C20** Softmax in `float` arithmetic, in every build and at every address, for any finite inputs: the outputs are between
0 and 1 and have a relative error of at most 1.3e-5, plus 7.2e-8 for every element summed. -/
theorem C20_float_softmax (env : CustomEnv B32) {L : Libm} (hL : L.Accurate) (c : Cfg) (n : ℕ) (y : View B32) (h1 : 1 ≤ n)
    (hn : n ≤ y.data.length) (hbig : n + 4 ≤ 2 ^ 20) (hx : ∀ x ∈ y.data.take n, x.isFinite = true) :
    ∃ out, @activate B32 (ops L) env c .softmax n y = .ok ⟨y.addr, out ++ y.data.drop n⟩ ∧
      List.Forall₂ (fun (o : B32) (p : ℝ) => o.isFinite = true ∧ 0 ≤ o.value ∧ o.value ≤ 1 ∧
        |o.value - p| ≤ (13 / 10 ^ 6 + 12 / 10 * ((n + 4 : ℕ) * 2 ^ (-24 : ℤ))) * p + 2 ^ (-122 : ℤ)) out
        (Spec.softmax ((y.data.take n).map B32.value)) := by
  refine ⟨_, @activate_eq' B32 (ops L) env c .softmax n y (fun _ => h1) hn (fun h => by simp at h), ?_⟩
  have hl : (y.data.take n).length = n := by simp; omega
  have := softmaxF_float hL c y.addr (y.data.take n) (by intro h; rw [h] at hl; simp at hl; omega) (by rw [hl]; exact hbig) hx
  rw [hl] at this
  refine this.imp ?_
  rintro o p ⟨z, hz, z0, z1, he⟩
  rw [hz.2]
  exact ⟨hz.1, z0, z1, he⟩

/-- Ten equal inputs at an unaligned address. -/
example (env : CustomEnv B32) : ∃ out, @activate B32 (ops exactLibm) env ⟨.avx, true, true⟩ .softmax 10
      ⟨20, List.replicate 10 (ofReal false 1)⟩ = .ok ⟨20, out ++ []⟩ ∧
      List.Forall₂ (fun (o : B32) (p : ℝ) => o.isFinite = true ∧ 0 ≤ o.value ∧ o.value ≤ 1 ∧
        |o.value - p| ≤ (13 / 10 ^ 6 + 12 / 10 * ((10 + 4 : ℕ) * 2 ^ (-24 : ℤ))) * p + 2 ^ (-122 : ℤ)) out
        (Spec.softmax (List.replicate 10 1)) := by
  have := C20_float_softmax env exactLibm_accurate ⟨.avx, true, true⟩ 10 ⟨20, List.replicate 10 (ofReal false 1)⟩ (by norm_num)
    (by simp) (by norm_num) (by intro x hx; simp at hx; rw [hx]; exact is_one.1)
  simpa [is_one.2] using this

/-- **C20** In `float` arithmetic the vector sigmoid stays within [0, 1] and the vector tanh within [-1, 1], for every finite
argument. -/
theorem C20_float_range (L : Libm) (x : B32) (hx : x.isFinite = true) :
    (0 ≤ (@sigmoidV B32 (ops L) x).value ∧ (@sigmoidV B32 (ops L) x).value ≤ 1) ∧
    (-1 ≤ (@tanhV B32 (ops L) x).value ∧ (@tanhV B32 (ops L) x).value ≤ 1) := by
  obtain ⟨s, hs, h1, h2, -⟩ := sigmoidV_float L (⟨hx, rfl⟩ : Is x x.value)
  obtain ⟨t, ht, h3, h4, -⟩ := tanhV_float L (⟨hx, rfl⟩ : Is x x.value)
  rw [hs.2, ht.2]
  exact ⟨⟨h1, h2⟩, h3, h4⟩

end NN
