import Verif.Proofs.ActivationReal
import Verif.Properties.Kernels
import Verif.Model.NanOps
import Mathlib.Analysis.SpecialFunctions.Log.Deriv
import Mathlib.Analysis.SpecialFunctions.ExpDeriv
import Mathlib.Analysis.SpecialFunctions.Trigonometric.DerivHyp
/-
C16 – C19: activation functions and their derivatives.
-/
set_option linter.unusedSimpArgs false

namespace NN
open FloatOps

/-! ### C18: vector code = scalar code -/
section Lawless
variable {F : Type} [FloatOps F]

/-- The scalar statement of each elementwise activation function (`none`: not elementwise). -/
def scalarStmt : Act → Option (F → F)
  | .relu => some (fun x => fmax zero x)
  | .sigmoid => some sigmoidS
  | .tanh => some FloatOps.tanh
  | .linear => some (fun x => x)
  | .exponential => some FloatOps.exp
  | .softplus => some softplusS
  | .softsign => some softsignS
  | .hardSigmoid => some hardSigmoidS
  | .softmax => none
  | .custom _ => none

/-- One lane of the vector statement, where there is one. -/
def vectorStmt : Act → Option (F → F)
  | .relu => some (fun x => maxps zero x)
  | .sigmoid => some sigmoidV
  | .tanh => some tanhV
  | _ => none

/-- **C18** Every elementwise activation function, at every address and length, for arbitrary floats:
it succeeds, changes exactly the first `n` elements, and element `k` becomes the scalar statement or
the vector statement applied to the old element `k`.  `tanh` needs an aligned buffer from 16 elements
on, see `C18_tanh_misaligned`. -/
theorem C18_elementwise (env : CustomEnv F) (c : Cfg) (a : Act) (f : F → F) (hf : scalarStmt a = some f)
    (n : ℕ) (y : View F) (hn : n ≤ y.data.length)
    (ha : a = .tanh → c.hasAvx2 = true → 16 ≤ n → y.addr % 32 = 0) :
    ∃ l, activate env c a n y = .ok ⟨y.addr, l ++ y.data.drop n⟩ ∧ l.length = n ∧
      ∀ (k : ℕ) (hk : k < n), l[k]? = some (f y.data[k]) ∨
        ∃ g, vectorStmt a = some g ∧ l[k]? = some (g y.data[k]) := by
  refine ⟨_, activate_eq' env c a n y (fun h => by subst h; simp [scalarStmt] at hf) hn ha,
    by rw [activateF_length]; simp; omega, ?_⟩
  intro k hk
  have hlen : (y.data.take n).length = n := by simp; omega
  have hkl : k < y.data.length := by omega
  have hmap : ∀ g : F → F, ((y.data.take n).map g)[k]? = some (g y.data[k]) := by
    intro g; simp [hk, hkl]
  have happ : ∀ g : ℕ → F → F, (applyTo g n (y.data.take n))[k]? = some (g k y.data[k]) := by
    intro g; rw [applyTo_getElem?]; simp [hk, hkl]
  cases a <;> simp only [scalarStmt, Option.some.injEq, reduceCtorEq] at hf <;> subst hf <;>
    simp only [activateF, hlen]
  · exact Or.inl (hmap _)
  · exact Or.inl (hmap _)
  · exact Or.inl (hmap _)
  · exact Or.inl (hmap _)
  · exact Or.inl (by simp [hk, hkl])
  · rw [happ]
    unfold reluOp regionOp
    split
    · beta_reduce; split
      · exact Or.inr ⟨_, rfl, rfl⟩
      · exact Or.inl rfl
    · exact Or.inl rfl
  · rw [happ]
    unfold sigmoidOp regionOp
    split
    · beta_reduce; split
      · exact Or.inr ⟨_, rfl, rfl⟩
      · exact Or.inl rfl
    · exact Or.inl rfl
  · rw [happ]
    unfold tanhOp regionOp
    split
    · beta_reduce; split
      · exact Or.inr ⟨_, rfl, rfl⟩
      · exact Or.inl rfl
    · exact Or.inl rfl

/-- **C18** Whenever the vector statement agrees with the scalar one, the function is the elementwise
map, for every address and build. -/
theorem C18_map (env : CustomEnv F) (c : Cfg) (a : Act) (f : F → F) (hf : scalarStmt a = some f)
    (hv : ∀ g, vectorStmt a = some g → ∀ x, g x = f x)
    (n : ℕ) (y : View F) (hn : n ≤ y.data.length)
    (ha : a = .tanh → c.hasAvx2 = true → 16 ≤ n → y.addr % 32 = 0) :
    activate env c a n y = .ok ⟨y.addr, (y.data.take n).map f ++ y.data.drop n⟩ := by
  obtain ⟨l, h1, h2, h3⟩ := C18_elementwise env c a f hf n y hn ha
  rw [h1]
  congr 3
  apply List.ext_getElem?; intro k
  by_cases hk : k < n
  · rcases h3 k hk with h | ⟨g, hg, h⟩
    · rw [h]; simp [hk, show k < y.data.length by omega]
    · rw [h, hv g hg]; simp [hk, show k < y.data.length by omega]
  · rw [List.getElem?_eq_none (by omega), List.getElem?_eq_none (by simp; omega)]

/-- **C18** In a build without AVX there is no vector code at all: bit for bit the elementwise map. -/
theorem C18_map_noavx (env : CustomEnv F) (c : Cfg) (hc : c.avx = false) (a : Act) (f : F → F)
    (hf : scalarStmt a = some f) (n : ℕ) (y : View F) (hn : n ≤ y.data.length) :
    activate env c a n y = .ok ⟨y.addr, (y.data.take n).map f ++ y.data.drop n⟩ := by
  have h2 : c.hasAvx2 = false := by simp [Cfg.hasAvx2, hc]
  have hlen : (y.data.take n).length = n := by simp; omega
  rw [activate_eq' env c a n y (fun h => by subst h; simp [scalarStmt] at hf) hn
    (fun _ h => by simp [h2] at h)]
  congr 3
  cases a <;> simp only [scalarStmt, Option.some.injEq, reduceCtorEq] at hf <;> subst hf <;>
    simp only [activateF, reluOp, sigmoidOp, tanhOp, hc, h2, Bool.false_eq_true, if_false]
  · simp
  · exact applyTo_full _ le_rfl
  · exact applyTo_full _ le_rfl
  · exact applyTo_full _ le_rfl

/-- **C18 (limit)** `tanh_act` has no unaligned head: in AVX2 builds 16 or more elements at an address
that is not 32-byte aligned are undefined behaviour. -/
theorem C18_tanh_misaligned (env : CustomEnv F) (c : Cfg) (n : ℕ) (y : View F)
    (hc : c.hasAvx2 = true) (hn : 16 ≤ n) (ha : y.addr % 32 ≠ 0) :
    activate env c .tanh n y = .error .misaligned := by
  have hb : twoRegBody tanhV 0 y = .error .misaligned := by
    unfold twoRegBody
    have : y.loada 8 0 = .error .misaligned := by
      simp [View.loada]; omega
    simp [this, bind, Except.bind]
  simp only [activate, tanhAct, hc, if_true]
  rw [stripLe, if_pos ⟨by decide, by omega⟩, hb]
  rfl

/-- The scalar factor of each derivative function (`none`: empty function or custom). -/
def derivStmt : ActDeriv → Option (F → F)
  | .relu => some reluD
  | .sigmoid => some sigmoidD
  | .tanh => some tanhD
  | .softplus => some softplusD
  | .softsign => some softsignD
  | .hardSigmoid => some hardSigmoidD
  | .exponential => some (fun a => a)
  | _ => none

/-- **C18** Derivatives multiply each element by the scalar factor (up to the order of the two factors
of the product), touch nothing else and read only the first `n` activations.  relu, sigmoid and tanh
need both buffers aligned from 16 elements on. -/
theorem C18_derivative (env : CustomEnv F) (c : Cfg) (d : ActDeriv) (f : F → F)
    (hf : derivStmt d = some f) (hmul : ∀ x y : F, mul x y = mul y x) (n : ℕ) (act ar : View F)
    (hact : n ≤ act.data.length) (hn : n ≤ ar.data.length)
    (ha : d.vectorised = true → c.avx = true → 16 ≤ n → act.addr % 32 = 0 ∧ ar.addr % 32 = 0) :
    activateDeriv env c d n act ar =
      .ok ⟨ar.addr, List.zipWith (fun x a => mul x (f a)) (ar.data.take n) (act.data.take n)
        ++ ar.data.drop n⟩ := by
  rw [activateDeriv_eq env c d n act ar hact hn ha]
  congr 3
  have h : (act.data.take n).length = (ar.data.take n).length := by simp; omega
  have hv : ∀ f : F → F, applyTo (derivOp c (ar.data.take n).length f (act.data.take n))
      (ar.data.take n).length (ar.data.take n) =
      List.zipWith (fun x a => mul x (f a)) (ar.data.take n) (act.data.take n) := by
    intro f
    apply applyTo_zip_full _ _ _ h
    intro k x y hy
    simp only [derivOp, hy]
    split
    · exact hmul _ _
    · rfl
  have hz : ∀ f : F → F, applyTo (zipOp (fun x a => mul x (f a)) (act.data.take n))
      (ar.data.take n).length (ar.data.take n) =
      List.zipWith (fun x a => mul x (f a)) (ar.data.take n) (act.data.take n) := by
    intro f
    apply applyTo_zip_full _ _ _ h
    intro k x y hy
    simp [zipOp, hy]
  cases d <;> simp only [derivStmt, Option.some.injEq, reduceCtorEq] at hf <;> subst hf <;>
    simp only [activateDerivF]
  · exact hz _
  · exact hz _
  · exact hz _
  · exact hz (fun a => a)
  · exact hv _
  · exact hv _
  · exact hv _

end Lawless

/-- The textbook function of each elementwise activation. -/
noncomputable def textbook : Act → Option (ℝ → ℝ)
  | .relu => some Spec.relu
  | .sigmoid => some Spec.sigmoid
  | .tanh => some Real.tanh
  | .linear => some (fun x => x)
  | .exponential => some Real.exp
  | .softplus => some Spec.softplus
  | .softsign => some Spec.softsign
  | .hardSigmoid => some Spec.hardSigmoid
  | .softmax => none
  | .custom _ => none

/-- **C18** In exact arithmetic every build at every address computes the textbook function. -/
theorem C18_textbook (env : CustomEnv ℝ) (c : Cfg) (a : Act) (f : ℝ → ℝ) (hf : textbook a = some f)
    (n : ℕ) (y : View ℝ) (hn : n ≤ y.data.length)
    (ha : a = .tanh → c.hasAvx2 = true → 16 ≤ n → y.addr % 32 = 0) :
    activate env c a n y = .ok ⟨y.addr, (y.data.take n).map f ++ y.data.drop n⟩ := by
  rw [activate_eq' env c a n y (fun h => by subst h; simp [textbook] at hf) hn ha, activateF_real]
  cases a <;> simp only [textbook, Option.some.injEq, reduceCtorEq] at hf <;> subst hf <;>
    simp [actSpec]

/-- **C17/C18** softmax, every build, length and address: the textbook softmax of the first `n`
elements; in particular the split into head, body and tail has no influence. -/
theorem C17_softmax_textbook (env : CustomEnv ℝ) (c : Cfg) (n : ℕ) (y : View ℝ) (h1 : 1 ≤ n)
    (hn : n ≤ y.data.length) :
    activate env c .softmax n y = .ok ⟨y.addr, Spec.softmax (y.data.take n) ++ y.data.drop n⟩ := by
  rw [activate_eq' env c .softmax n y (fun _ => h1) hn (fun h => by simp at h), activateF_real]
  rfl

/-- **C17** The same data at two addresses, in two builds, gives the same numbers. -/
theorem C17_alignment_independent (env : CustomEnv ℝ) (c c' : Cfg) (n a a' : ℕ) (l : List ℝ) (h1 : 1 ≤ n)
    (hn : n ≤ l.length) :
    ((activate env c .softmax n ⟨a, l⟩).map View.data) =
      ((activate env c' .softmax n ⟨a', l⟩).map View.data) := by
  rw [C17_softmax_textbook env c n _ h1 hn, C17_softmax_textbook env c' n _ h1 hn]
  rfl

theorem sum_exp_pos {l : List ℝ} (h : l ≠ []) : 0 < (l.map Real.exp).sum := by
  cases l with
  | nil => exact absurd rfl h
  | cons x l =>
    simp only [List.map_cons, List.sum_cons]
    have : 0 ≤ (l.map Real.exp).sum := List.sum_nonneg (by
      intro y hy
      obtain ⟨z, _, rfl⟩ := List.mem_map.1 hy
      exact (Real.exp_pos z).le)
    linarith [Real.exp_pos x]

/-- **C17** Adding a constant to all inputs does not change the output of softmax. -/
theorem C17_shift (env : CustomEnv ℝ) (c : Cfg) (n : ℕ) (y : View ℝ) (t : ℝ) (h1 : 1 ≤ n)
    (hn : n = y.data.length) :
    activate env c .softmax n ⟨y.addr, y.data.map (· + t)⟩ = activate env c .softmax n y := by
  subst hn
  rw [C17_softmax_textbook env c _ _ h1 (by simp), C17_softmax_textbook env c _ _ h1 le_rfl]
  congr 2
  have e1 : (y.data.map (· + t)).take y.data.length = y.data.map (· + t) :=
    List.take_of_length_le (by simp)
  have e2 : (y.data.map (· + t)).drop y.data.length = [] := List.drop_eq_nil_of_le (by simp)
  have e3 : y.data.drop y.data.length = [] := List.drop_eq_nil_of_le le_rfl
  simp only [e1, e2, e3, List.append_nil, List.take_length]
  unfold Spec.softmax
  rw [List.map_map]
  apply List.map_congr_left
  intro x _
  have hs : ((y.data.map (· + t)).map Real.exp).sum = (y.data.map Real.exp).sum * Real.exp t := by
    rw [List.map_map, ← List.sum_map_mul_right]
    congr 1
    apply List.map_congr_left
    intro z _
    simp [Real.exp_add]
  rw [hs]
  simp only [Function.comp_apply]
  rw [Real.exp_add, mul_div_mul_right _ _ (Real.exp_pos t).ne']

/-- **C17** softmax preserves the order of the entries (strictly, both ways). -/
theorem C17_order (env : CustomEnv ℝ) (c : Cfg) (n : ℕ) (y : View ℝ) (h1 : 1 ≤ n)
    (hn : n ≤ y.data.length) :
    ∃ l, activate env c .softmax n y = .ok ⟨y.addr, l ++ y.data.drop n⟩ ∧ ∃ hl : l.length = n,
      ∀ (i j : ℕ) (hi : i < n) (hj : j < n), l[i] < l[j] ↔ y.data[i] < y.data[j] := by
  refine ⟨_, C17_softmax_textbook env c n y h1 hn, by simp [Spec.softmax]; omega, ?_⟩
  intro i j hi hj
  have hne : y.data.take n ≠ [] := List.ne_nil_of_length_pos (by simp; omega)
  have hp := sum_exp_pos hne
  simp only [Spec.softmax, List.getElem_map, List.getElem_take]
  rw [div_lt_div_iff_of_pos_right hp, Real.exp_lt_exp]

/-- **C18 (limit)** With NaN the vector and scalar versions of relu differ, so the result depends on
the address of the buffer: sixteen NaNs at an aligned address stay NaN, at an address 4 bytes below a
boundary the first one (handled by the scalar head) becomes 0. -/
theorem C18_relu_nan_depends_on_address (env : CustomEnv NanReal) (c : Cfg) (hc : c.avx = true) :
    (∃ l, activate env c .relu 16 ⟨0, List.replicate 16 (none : NanReal)⟩ = .ok ⟨0, l⟩ ∧
      l[0]? = some none) ∧
    (∃ l, activate env c .relu 16 ⟨60, List.replicate 16 (none : NanReal)⟩ = .ok ⟨60, l⟩ ∧
      l[0]? = some (some 0)) := by
  have hlo0 : bodyLo c 0 16 = 0 := bodyLo_of_aligned (by simp)
  have hlo60 : 0 < bodyLo c 60 16 := by
    rcases Nat.eq_zero_or_pos (bodyLo c 60 16) with h | h
    · have := bodyLo_aligned (c := c) (addr := 60) (n := 16) (by omega)
      rw [h] at this
      rcases c with ⟨s, _, _⟩
      cases s <;> simp_all [Cfg.avx, Cfg.alignSize]
    · exact h
  constructor
  · refine ⟨_, activate_eq' env c .relu 16 _ (by simp) (by simp) (by simp), ?_⟩
    simp only [activateF, List.length_take, List.length_replicate, Nat.min_self]
    rw [List.getElem?_append_left (by simp), applyTo_getElem?]
    simp [reluOp, hc, regionOp, hlo0, bodyHi, maxps]
  · refine ⟨_, activate_eq' env c .relu 16 _ (by simp) (by simp) (by simp), ?_⟩
    simp only [activateF, List.length_take, List.length_replicate, Nat.min_self]
    rw [List.getElem?_append_left (by simp), applyTo_getElem?]
    have : ¬ bodyLo c 60 16 ≤ 0 := by omega
    simp only [List.getElem?_take, reluOp, hc, regionOp, if_true]
    simp [this, fmax, zero]

/-! ### C16: ranges and monotonicity -/

/-- Documented range of an activation function. -/
def InRange : Act → ℝ → Prop
  | .sigmoid, v => 0 < v ∧ v < 1
  | .tanh, v => -1 < v ∧ v < 1
  | .softsign, v => -1 < v ∧ v < 1
  | .hardSigmoid, v => 0 ≤ v ∧ v ≤ 1
  | .relu, v => 0 ≤ v
  | .exponential, v => 0 < v
  | .softplus, v => 0 < v
  | .softmax, v => 0 < v ∧ v ≤ 1
  | .linear, _ => True
  | .custom _, _ => True

theorem sigmoid_range (x : ℝ) : 0 < Spec.sigmoid x ∧ Spec.sigmoid x < 1 := by
  have := Real.exp_pos (-x)
  unfold Spec.sigmoid
  constructor
  · positivity
  · rw [div_lt_one (by positivity)]; linarith

theorem tanh_range (x : ℝ) : -1 < Real.tanh x ∧ Real.tanh x < 1 := by
  rw [← tanhV_real]
  have := Real.exp_pos (-2 * x)
  have e : tanhV x = -1 + 2 / (1 + Real.exp (-2 * x)) := by
    simp [tanhV]
  rw [e]
  constructor
  · have : 0 < 2 / (1 + Real.exp (-2 * x)) := by positivity
    linarith
  · have : 2 / (1 + Real.exp (-2 * x)) < 2 := by
      rw [div_lt_iff₀ (by positivity)]; linarith
    linarith

theorem softsign_range (x : ℝ) : -1 < Spec.softsign x ∧ Spec.softsign x < 1 := by
  unfold Spec.softsign
  have h := abs_nonneg x
  have h1 := le_abs_self x
  have h2 := neg_abs_le x
  constructor
  · rw [lt_div_iff₀ (by positivity)]; linarith
  · rw [div_lt_one (by positivity)]; linarith

theorem softmax_range {l : List ℝ} {v : ℝ} (hv : v ∈ Spec.softmax l) : 0 < v ∧ v ≤ 1 := by
  unfold Spec.softmax at hv
  obtain ⟨x, hx, rfl⟩ := List.mem_map.1 hv
  have hp := sum_exp_pos (List.ne_nil_of_mem hx)
  refine ⟨div_pos (Real.exp_pos x) hp, ?_⟩
  rw [div_le_one hp]
  exact List.single_le_sum (by
    intro y hy
    obtain ⟨z, _, rfl⟩ := List.mem_map.1 hy
    exact (Real.exp_pos z).le) _ (List.mem_map_of_mem hx)

/-- **C16** All values written by an activation function are in its documented range, for every
length, address and build. -/
theorem C16_range (env : CustomEnv ℝ) (c : Cfg) (a : Act) (n : ℕ) (y : View ℝ)
    (h1 : a = .softmax → 1 ≤ n) (hn : n ≤ y.data.length)
    (ha : a = .tanh → c.hasAvx2 = true → 16 ≤ n → y.addr % 32 = 0) :
    ∃ l, activate env c a n y = .ok ⟨y.addr, l ++ y.data.drop n⟩ ∧ l.length = n ∧
      ∀ v ∈ l, InRange a v := by
  refine ⟨_, activate_eq' env c a n y h1 hn ha, by rw [activateF_length]; simp; omega, ?_⟩
  rw [activateF_real]
  intro v hv
  have key : ∀ f : ℝ → ℝ, v ∈ (y.data.take n).map f → ∃ x, f x = v := by
    intro f h
    obtain ⟨x, _, rfl⟩ := List.mem_map.1 h
    exact ⟨x, rfl⟩
  cases a <;> simp only [actSpec] at hv <;> simp only [InRange]
  · obtain ⟨x, rfl⟩ := key _ hv
    exact Real.log_pos (by linarith [Real.exp_pos x])
  · obtain ⟨x, rfl⟩ := key _ hv
    exact softsign_range x
  · obtain ⟨x, rfl⟩ := key _ hv
    exact ⟨le_max_left _ _, max_le zero_le_one (min_le_left _ _)⟩
  · obtain ⟨x, rfl⟩ := key _ hv
    exact Real.exp_pos x
  · exact softmax_range hv
  · obtain ⟨x, rfl⟩ := key _ hv
    exact le_max_left _ _
  · obtain ⟨x, rfl⟩ := key _ hv
    exact sigmoid_range x
  · obtain ⟨x, rfl⟩ := key _ hv
    exact tanh_range x

/-- **C16** The softmax outputs sum to one. -/
theorem C16_softmax_sum (env : CustomEnv ℝ) (c : Cfg) (n : ℕ) (y : View ℝ) (h1 : 1 ≤ n)
    (hn : n ≤ y.data.length) :
    ∃ l, activate env c .softmax n y = .ok ⟨y.addr, l ++ y.data.drop n⟩ ∧ l.length = n ∧ l.sum = 1 := by
  refine ⟨_, C17_softmax_textbook env c n y h1 hn, by simp [Spec.softmax]; omega, ?_⟩
  have hne : y.data.take n ≠ [] := List.ne_nil_of_length_pos (by simp; omega)
  unfold Spec.softmax
  simp only [div_eq_mul_inv]
  rw [List.sum_map_mul_right]
  exact mul_inv_cancel₀ (sum_exp_pos hne).ne'

/-- **C16** All elementwise activation functions are monotone. -/
theorem C16_monotone (a : Act) (f : ℝ → ℝ) (hf : textbook a = some f) : Monotone f := by
  cases a <;> simp only [textbook, Option.some.injEq, reduceCtorEq] at hf <;> subst hf <;>
    intro x y hxy
  · exact Real.log_le_log (by positivity) (by have := Real.exp_le_exp.2 hxy; linarith)
  · unfold Spec.softsign
    have hx := abs_nonneg x
    have hy := abs_nonneg y
    rw [div_le_div_iff₀ (by positivity) (by positivity)]
    rcases abs_cases x with ⟨ex, _⟩ | ⟨ex, _⟩ <;> rcases abs_cases y with ⟨ey, _⟩ | ⟨ey, _⟩ <;>
      rw [ex, ey] <;> nlinarith
  · exact max_le_max le_rfl (min_le_min le_rfl (by linarith))
  · exact Real.exp_le_exp.2 hxy
  · exact hxy
  · exact max_le_max le_rfl hxy
  · unfold Spec.sigmoid
    have := Real.exp_pos (-x)
    have := Real.exp_pos (-y)
    exact one_div_le_one_div_of_le (by positivity) (by
      have := Real.exp_le_exp.2 (neg_le_neg hxy); linarith)
  · rw [← tanhV_real, ← tanhV_real]
    have e : ∀ x : ℝ, tanhV x = -1 + 2 * (1 / (1 + Real.exp (-2 * x))) := by
      intro x; simp [tanhV]; ring
    rw [e, e]
    have := Real.exp_pos (-2 * x)
    have := Real.exp_pos (-2 * y)
    have h := one_div_le_one_div_of_le (a := 1 + Real.exp (-2 * y)) (b := 1 + Real.exp (-2 * x))
      (by positivity) (by
        have := Real.exp_le_exp.2 (show -2 * y ≤ -2 * x by linarith); linarith)
    linarith

/-! ### C19: the derivatives -/

/-- The points where the derivative exists. -/
def Smooth : Act → ℝ → Prop
  | .relu, x => x ≠ 0
  | .hardSigmoid, x => x ≠ 5 / 2 ∧ x ≠ -(5 / 2)
  | _, _ => True

/-- `get_activation_derivative` on the built-in elementwise functions, src/activation.c:285-301. -/
def derivOf : Act → ActDeriv
  | .softplus => .softplus
  | .softsign => .softsign
  | .hardSigmoid => .hardSigmoid
  | .exponential => .exponential
  | .linear => .linear
  | .softmax => .softmax
  | .relu => .relu
  | .sigmoid => .sigmoid
  | .tanh => .tanh
  | .custom i => .custom i

/-- **C19** The factor computed from the activation value `f x` is the derivative of `f` at `x`. -/
theorem C19_derivative (a : Act) (f : ℝ → ℝ) (hf : textbook a = some f) (x : ℝ) (hx : Smooth a x) :
    HasDerivAt f (derivFactor (derivOf a) (f x)) x := by
  cases a <;> simp only [textbook, Option.some.injEq, reduceCtorEq] at hf <;> subst hf <;>
    simp only [derivFactor, derivOf]
  · -- softplus
    have hp := Real.exp_pos x
    have h : HasDerivAt Spec.softplus (Real.exp x / (1 + Real.exp x)) x :=
      ((Real.hasDerivAt_exp x).const_add 1).log (by positivity)
    refine HasDerivAt.congr_deriv h ?_
    simp only [softplusD, Spec.softplus, RealOps.exp_def, RealOps.div_def, RealOps.sub_def,
      RealOps.one_def]
    rw [Real.exp_log (by positivity)]; ring
  · -- softsign
    have h0 := abs_nonneg x
    have e1 : |x / (1 + |x|)| = |x| / (1 + |x|) := by
      rw [abs_div, abs_of_pos (show 0 < 1 + |x| by positivity)]
    have e2 : Spec.softsign x / (1 - |Spec.softsign x|) = x := by
      unfold Spec.softsign; rw [e1]
      have : 1 - |x| / (1 + |x|) = 1 / (1 + |x|) := by field_simp; ring
      rw [this]; field_simp
    have e3 : softsignD (Spec.softsign x) = 1 / ((1 + |x|) * (1 + |x|)) := by
      simp only [softsignD, RealOps.exp_def, RealOps.div_def, RealOps.sub_def,
        RealOps.one_def, RealOps.abs_def, RealOps.mul_def, RealOps.add_def]
      rw [e2]
    rw [e3]
    rcases lt_trichotomy x 0 with hneg | rfl | hpos
    · have h : HasDerivAt (fun y : ℝ => y / (1 - y)) (1 / ((1 + |x|) * (1 + |x|))) x := by
        have hne : 1 - x ≠ 0 := by linarith
        have := (hasDerivAt_id x).div ((hasDerivAt_id x).const_sub 1) hne
        refine HasDerivAt.congr_deriv this ?_
        rw [abs_of_neg hneg, ← sub_eq_add_neg]; simp only [id]; field_simp; ring
      apply h.congr_of_eventuallyEq
      filter_upwards [Iio_mem_nhds hneg] with y hy
      simp only [Set.mem_Iio] at hy
      unfold Spec.softsign; rw [abs_of_neg hy]; ring_nf
    · -- at 0: difference quotient 1/(1+|h|)
      rw [hasDerivAt_iff_tendsto_slope]
      have hc : Filter.Tendsto (fun y : ℝ => 1 / (1 + |y|)) (nhdsWithin 0 {0}ᶜ) (nhds (1 / (1 + |(0 : ℝ)|))) := by
        apply Filter.Tendsto.mono_left _ nhdsWithin_le_nhds
        apply ContinuousAt.tendsto
        have : (1 + |(0 : ℝ)|) ≠ 0 := by simp
        fun_prop (disch := exact this)
      simp only [abs_zero, add_zero, mul_one]
      simp only [abs_zero, add_zero] at hc
      apply hc.congr'
      filter_upwards [self_mem_nhdsWithin] with y hy
      have hy0 : y ≠ 0 := hy
      simp [slope_def_field, Spec.softsign]
      field_simp
    · have h : HasDerivAt (fun y : ℝ => y / (1 + y)) (1 / ((1 + |x|) * (1 + |x|))) x := by
        have hne : 1 + x ≠ 0 := by linarith
        have := (hasDerivAt_id x).div ((hasDerivAt_id x).const_add 1) hne
        refine HasDerivAt.congr_deriv this ?_
        rw [abs_of_pos hpos]; simp only [id]; field_simp; ring
      apply h.congr_of_eventuallyEq
      filter_upwards [Ioi_mem_nhds hpos] with y hy
      simp only [Set.mem_Ioi] at hy
      unfold Spec.softsign; rw [abs_of_pos hy]
  · -- hard_sigmoid
    obtain ⟨h1, h2⟩ := hx
    rcases lt_or_ge x (-(5 / 2)) with hlo | hlo
    · have e : Spec.hardSigmoid x = 0 := by
        unfold Spec.hardSigmoid
        exact max_eq_left (le_trans (min_le_right _ _) (by linarith))
      have : hardSigmoidD (0 : ℝ) = 0 := by simp [hardSigmoidD]
      rw [e, this]
      apply (hasDerivAt_const x (0 : ℝ)).congr_of_eventuallyEq
      filter_upwards [Iio_mem_nhds hlo] with y hy
      simp only [Set.mem_Iio] at hy
      unfold Spec.hardSigmoid
      exact max_eq_left (le_trans (min_le_right _ _) (by linarith))
    rcases lt_or_ge (5 / 2) x with hhi | hhi
    · have e : Spec.hardSigmoid x = 1 := by
        unfold Spec.hardSigmoid
        rw [min_eq_left (by linarith)]; exact max_eq_right zero_le_one
      have : hardSigmoidD (1 : ℝ) = 0 := by
        simp only [hardSigmoidD, RealOps.le_iff, RealOps.zero_def, RealOps.one_def]; simp
      rw [e, this]
      apply (hasDerivAt_const x (1 : ℝ)).congr_of_eventuallyEq
      filter_upwards [Ioi_mem_nhds hhi] with y hy
      simp only [Set.mem_Ioi] at hy
      unfold Spec.hardSigmoid
      rw [min_eq_left (by linarith)]; exact max_eq_right zero_le_one
    · have hlo' : -(5 / 2) < x := lt_of_le_of_ne hlo (Ne.symm h2)
      have hhi' : x < 5 / 2 := lt_of_le_of_ne hhi h1
      have e : Spec.hardSigmoid x = x / 5 + 1 / 2 := by
        unfold Spec.hardSigmoid
        rw [min_eq_right (by linarith), max_eq_right (by linarith)]
      have : hardSigmoidD (x / 5 + 1 / 2) = 1 / 5 := by
        simp only [hardSigmoidD, RealOps.le_iff, RealOps.zero_def, RealOps.one_def, RealOps.lit_def]
        rw [if_neg (by linarith), if_neg (by linarith)]; norm_num
      rw [e, this]
      have h : HasDerivAt (fun y : ℝ => y / 5 + 1 / 2) (1 / 5) x :=
        ((hasDerivAt_id x).div_const 5).add_const _
      apply h.congr_of_eventuallyEq
      filter_upwards [Ioo_mem_nhds hlo' hhi'] with y hy
      unfold Spec.hardSigmoid
      rw [min_eq_right (by linarith [hy.2]), max_eq_right (by linarith [hy.1])]
  · -- exponential
    exact Real.hasDerivAt_exp x
  · -- linear
    exact hasDerivAt_id x
  · -- relu
    have hx : x ≠ 0 := hx
    rcases lt_or_gt_of_ne hx with hneg | hpos
    · have e : Spec.relu x = 0 := max_eq_left hneg.le
      have : reluD (0 : ℝ) = 0 := by simp [reluD]
      rw [e, this]
      apply (hasDerivAt_const x (0 : ℝ)).congr_of_eventuallyEq
      filter_upwards [Iio_mem_nhds hneg] with y hy
      exact max_eq_left (le_of_lt hy)
    · have e : Spec.relu x = x := max_eq_right hpos.le
      have : reluD x = 1 := by
        simp only [reluD, RealOps.le_iff, RealOps.zero_def, RealOps.one_def]
        rw [if_neg (by linarith)]
      rw [e, this]
      apply (hasDerivAt_id x).congr_of_eventuallyEq
      filter_upwards [Ioi_mem_nhds hpos] with y hy
      exact max_eq_right (le_of_lt hy)
  · -- sigmoid
    have hp := Real.exp_pos (-x)
    have h1 : HasDerivAt (fun y : ℝ => 1 + Real.exp (-y)) (-Real.exp (-x)) x := by
      exact HasDerivAt.congr_deriv (((hasDerivAt_neg x).exp).const_add 1) (by ring)
    have h := (hasDerivAt_const x (1 : ℝ)).div h1 (by positivity)
    have hs : HasDerivAt Spec.sigmoid _ x := h
    refine HasDerivAt.congr_deriv hs ?_
    simp only [sigmoidD, Spec.sigmoid, RealOps.mul_def, RealOps.sub_def, RealOps.one_def]
    field_simp; ring
  · -- tanh
    have hc := Real.cosh_pos x
    have h := (Real.hasDerivAt_sinh x).div (Real.hasDerivAt_cosh x) hc.ne'
    have hs : HasDerivAt Real.tanh _ x := h.congr_of_eventuallyEq (by
      filter_upwards with y
      exact Real.tanh_eq_sinh_div_cosh y)
    refine HasDerivAt.congr_deriv hs ?_
    simp only [tanhD, RealOps.mul_def, RealOps.sub_def, RealOps.one_def]
    rw [Real.tanh_eq_sinh_div_cosh]
    field_simp

/-! ### Concrete cases -/

/-- No custom functions. -/
def noCustom (F : Type) : CustomEnv F := ⟨fun _ l => l, fun _ _ l => l, fun _ _ => rfl, fun _ _ _ => rfl⟩

/-- 20 elements at a misaligned address: head of 7, vector body of... all give relu. -/
example : activate (noCustom ℝ) cfgAvx .relu 20 ⟨36, List.replicate 20 (-3) ++ [5]⟩ =
    .ok ⟨36, List.replicate 20 0 ++ [5]⟩ := by
  rw [C18_textbook _ _ .relu Spec.relu rfl 20 _ (by simp) (by simp)]
  simp [Spec.relu]

example : activate (noCustom ℝ) cfgAvx .tanh 16 ⟨36, List.replicate 16 0⟩ = .error .misaligned :=
  C18_tanh_misaligned _ _ _ _ rfl le_rfl (by decide)

example : HasDerivAt Spec.sigmoid (derivFactor .sigmoid (Spec.sigmoid 0)) 0 :=
  C19_derivative .sigmoid _ rfl 0 trivial

example : derivFactor .sigmoid (Spec.sigmoid 0) = 1 / 4 := by
  simp [derivFactor, sigmoidD, Spec.sigmoid]; norm_num

example : activate (noCustom ℝ) cfg512 .softmax 2 ⟨4, [0, 0, 9]⟩ = .ok ⟨4, [1 / 2, 1 / 2, 9]⟩ := by
  rw [C17_softmax_textbook _ _ _ _ (by decide) (by simp)]
  simp [Spec.softmax]; norm_num

example : activateDeriv (noCustom ℝ) cfgAvx .relu 2 ⟨0, [3, 0]⟩ ⟨64, [5, 6, 7]⟩ = .ok ⟨64, [5, 0, 7]⟩ := by
  rw [C18_derivative _ _ .relu reluD rfl mul_comm _ _ _ (by simp) (by simp) (fun _ _ h => by omega)]
  simp [reluD]

end NN
