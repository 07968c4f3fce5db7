import Verif.Proofs.Activation
import Verif.Proofs.KernelsReal
import Verif.Spec.Activation
import Mathlib.Tactic.FieldSimp
/-
The list functions of `Verif/Proofs/Activation.lean` over the reals.
-/
set_option linter.unusedSimpArgs false

namespace NN
open Spec

/-- Meaning of an `activation_func` pointer in exact arithmetic. -/
noncomputable def actSpec (env : CustomEnv ℝ) : Act → List ℝ → List ℝ
  | .relu => List.map Spec.relu
  | .sigmoid => List.map Spec.sigmoid
  | .tanh => List.map Real.tanh
  | .linear => id
  | .exponential => List.map Real.exp
  | .softplus => List.map Spec.softplus
  | .softsign => List.map Spec.softsign
  | .hardSigmoid => List.map Spec.hardSigmoid
  | .softmax => Spec.softmax
  | .custom i => env.act i

theorem actSpec_length (env : CustomEnv ℝ) (a : Act) (l : List ℝ) :
    (actSpec env a l).length = l.length := by
  cases a <;> simp [actSpec, Spec.softmax, env.act_length]

theorem sigmoidS_real (x : ℝ) : sigmoidS x = Spec.sigmoid x := by
  simp [sigmoidS, Spec.sigmoid]

theorem sigmoidV_real (x : ℝ) : sigmoidV x = Spec.sigmoid x := by
  simp [sigmoidV, Spec.sigmoid]

theorem tanhV_real (x : ℝ) : tanhV x = Real.tanh x := by
  simp only [tanhV, RealOps.add_def, RealOps.lit_def, RealOps.div_def, RealOps.one_def,
    RealOps.exp8_def, RealOps.mul_def]
  rw [Real.tanh_eq_sinh_div_cosh, Real.sinh_eq, Real.cosh_eq]
  have h1 : Real.exp (-2 * x) = Real.exp (-x) * Real.exp (-x) := by
    rw [← Real.exp_add]; ring_nf
  have h2 : Real.exp x * Real.exp (-x) = 1 := by rw [← Real.exp_add]; simp
  have hp := Real.exp_pos x
  have hn := Real.exp_pos (-x)
  have e : ((-2 : ℤ) : ℝ) / ((1 : ℕ) : ℝ) * x = -2 * x := by norm_num
  have hs : Real.exp x + Real.exp (-x) ≠ 0 := by positivity
  have hs2 : 1 + Real.exp (-x) * Real.exp (-x) ≠ 0 := by positivity
  rw [e, h1]
  push_cast
  field_simp
  nlinarith

theorem hardSigmoidS_real (x : ℝ) : hardSigmoidS x = Spec.hardSigmoid x := by
  unfold hardSigmoidS Spec.hardSigmoid
  by_cases h1 : x < -(5 / 2)
  · have : FloatOps.lt x (FloatOps.lit (-5) 2) = true := by
      rw [RealOps.lt_iff, RealOps.lit_def]; push_cast; linarith
    simp only [this, if_true, RealOps.zero_def]
    rw [max_eq_left]
    exact le_trans (min_le_right _ _) (by linarith)
  · have n1 : ¬ FloatOps.lt x (FloatOps.lit (-5) 2) = true := by
      rw [RealOps.lt_iff, RealOps.lit_def]; push_cast; linarith
    by_cases h2 : 5 / 2 < x
    · have : FloatOps.lt (FloatOps.lit 5 2) x = true := by
        rw [RealOps.lt_iff, RealOps.lit_def]; push_cast; linarith
      rw [if_neg n1, if_pos this, RealOps.one_def]
      rw [min_eq_left (by linarith), max_eq_right zero_le_one]
    · have n2 : ¬ FloatOps.lt (FloatOps.lit 5 2) x = true := by
        rw [RealOps.lt_iff, RealOps.lit_def]; push_cast; linarith
      rw [if_neg n1, if_neg n2, RealOps.add_def, RealOps.mul_def, RealOps.lit_def, RealOps.lit_def]
      rw [min_eq_right (by linarith), max_eq_right (by linarith)]
      push_cast; ring

theorem softplusS_real (x : ℝ) : softplusS x = Spec.softplus x := by
  simp [softplusS, Spec.softplus, add_comm]

theorem softsignS_real (x : ℝ) : softsignS x = Spec.softsign x := by
  simp [softsignS, Spec.softsign, add_comm]

theorem applyTo_real_map {g : ℕ → ℝ → ℝ} {f : ℝ → ℝ} (h : ∀ k x, g k x = f x) (l : List ℝ) :
    applyTo g l.length l = l.map f := by
  rw [applyTo_congr (g' := fun _ => f) (fun k _ x _ => h k x), applyTo_full f le_rfl]

/-! ### softmax -/

theorem foldl_add_sum (l : List ℝ) (s : ℝ) : l.foldl FloatOps.add s = s + l.sum := by
  induction l generalizing s with
  | nil => simp
  | cons x l ih => simp only [List.foldl_cons, List.sum_cons]; rw [ih]; simp; ring

theorem hsum256_real {l : List ℝ} (h : l.length = 8) : hsum256 l = l.sum := by
  match l, h with
  | [x0, x1, x2, x3, x4, x5, x6, x7], _ => simp [hsum256]; ring

theorem slice_split (l : List ℝ) (i w : ℕ) :
    (l.take (i + w)).sum = (l.take i).sum + (slice l i w).sum := by
  rw [List.take_add, List.sum_append]; rfl

theorem vsumF_real (lo : ℕ) (l : List ℝ) (t : ℕ) (h : lo + 8 * t ≤ l.length) :
    (vsumF lo l t).length = 8 ∧ (l.take lo).sum + (vsumF lo l t).sum = (l.take (lo + 8 * t)).sum := by
  induction t with
  | zero => simp [vsumF, set1]
  | succ t ih =>
    obtain ⟨h1, h2⟩ := ih (by omega)
    have hs : (slice l (lo + 8 * t) 8).length = 8 := by simp; omega
    constructor
    · simp [vsumF, vop2, h1, hs]
    · have : vsumF lo l (t + 1) = List.zipWith (fun x y => x + y) (vsumF lo l t) (slice l (lo + 8 * t) 8) := rfl
      rw [this, zipWith_add_sum (by rw [h1, hs]), ← add_assoc, h2, ← slice_split]
      congr 2

theorem softmaxSumF_real (c : Cfg) (addr : ℕ) (l : List ℝ) :
    softmaxSumF c addr l.length l = l.sum := by
  unfold softmaxSumF
  split
  · simp only [foldl_add_sum, RealOps.zero_def, zero_add, RealOps.add_def, List.take_length]
    have hlo := bodyLo_le c addr l.length
    obtain ⟨h1, h2⟩ := vsumF_real (bodyLo c addr l.length) l ((l.length - bodyLo c addr l.length) / 8)
      (by omega)
    rw [hsum256_real h1, h2]
    have : bodyLo c addr l.length + 8 * ((l.length - bodyLo c addr l.length) / 8) =
        bodyHi (bodyLo c addr l.length) 8 l.length := rfl
    rw [this, ← List.sum_append, List.take_append_drop]
  · simp [foldl_add_sum]

theorem softmaxF_real (c : Cfg) (addr : ℕ) (l : List ℝ) : softmaxF c addr l = Spec.softmax l := by
  unfold softmaxF
  have hE : applyTo (softmaxExpOp c addr l.length (maxF l)) l.length l =
      l.map (fun x => Real.exp (x - maxF l)) := by
    apply applyTo_real_map
    intro k x
    unfold softmaxExpOp regionOp
    split
    · beta_reduce; split <;> simp
    · simp
  rw [hE]
  have hl : l.length = (l.map (fun x => Real.exp (x - maxF l))).length := by simp
  simp only
  rw [show softmaxSumF c addr l.length (l.map (fun x => Real.exp (x - maxF l))) =
    (l.map (fun x => Real.exp (x - maxF l))).sum by
      conv_lhs => rw [hl]
      exact softmaxSumF_real c addr _]
  unfold Spec.softmax
  rw [List.map_map]
  apply List.map_congr_left
  intro x hx
  have hsum : (l.map (fun x => Real.exp (x - maxF l))).sum =
      (l.map Real.exp).sum * Real.exp (-maxF l) := by
    rw [← List.sum_map_mul_right]
    congr 1
    apply List.map_congr_left
    intro y _
    rw [← Real.exp_add]; rfl
  simp only [Function.comp_apply, RealOps.div_def]
  rw [hsum, sub_eq_add_neg, Real.exp_add, mul_div_mul_right _ _ (Real.exp_pos _).ne']

/-- Every build, at every address, computes the textbook function. -/
theorem activateF_real (env : CustomEnv ℝ) (c : Cfg) (a : Act) (addr : ℕ) (l : List ℝ) :
    activateF env c a addr l = actSpec env a l := by
  cases a <;> simp only [activateF, actSpec]
  · exact List.map_congr_left (fun x _ => softplusS_real x)
  · exact List.map_congr_left (fun x _ => softsignS_real x)
  · exact List.map_congr_left (fun x _ => hardSigmoidS_real x)
  · rfl
  · rfl
  · exact softmaxF_real c addr l
  · apply applyTo_real_map
    intro k x
    unfold reluOp regionOp Spec.relu
    split
    · beta_reduce; split <;> simp
    · simp
  · apply applyTo_real_map
    intro k x
    unfold sigmoidOp regionOp
    split
    · beta_reduce; split
      · exact sigmoidV_real x
      · exact sigmoidS_real x
    · exact sigmoidS_real x
  · apply applyTo_real_map
    intro k x
    unfold tanhOp regionOp
    split
    · beta_reduce; split
      · exact tanhV_real x
      · rfl
    · rfl

/-! ### Derivatives -/

/-- Factor by which a derivative function multiplies, as a function of the activation value; `none`
for the empty and the custom ones. -/
noncomputable def derivFactor : ActDeriv → ℝ → ℝ
  | .relu => reluD
  | .sigmoid => sigmoidD
  | .tanh => tanhD
  | .softplus => softplusD
  | .softsign => softsignD
  | .hardSigmoid => hardSigmoidD
  | .exponential => fun a => a
  | .linear => fun _ => 1
  | .softmax => fun _ => 1
  | .custom _ => fun _ => 1

theorem applyTo_zip_full {F : Type} {g : ℕ → F → F} (f : F → F → F) (b l : List F) (hb : b.length = l.length)
    (hg : ∀ k x y, b[k]? = some y → g k x = f x y) :
    applyTo g l.length l = List.zipWith f l b := by
  apply List.ext_getElem?; intro i
  rw [applyTo_getElem?, List.getElem?_zipWith]
  by_cases hi : i < l.length
  · have hi2 : i < b.length := by omega
    simp [hi, hi2, hg i l[i] b[i] (List.getElem?_eq_getElem hi2)]
  · simp [hi]

theorem activateDerivF_real (env : CustomEnv ℝ) (c : Cfg) (d : ActDeriv) (act l : List ℝ)
    (h : act.length = l.length) (hd : ∀ i, d ≠ .custom i) :
    activateDerivF env c d act l = List.zipWith (fun x a => x * derivFactor d a) l act := by
  have hv : ∀ f : ℝ → ℝ, applyTo (derivOp c l.length f act) l.length l =
      List.zipWith (fun x a => x * f a) l act := by
    intro f
    apply applyTo_zip_full _ _ _ h
    intro k x y hy
    simp only [derivOp, hy]
    split
    · exact mul_comm _ _
    · rfl
  have hz : ∀ f : ℝ → ℝ, applyTo (zipOp (fun x a => FloatOps.mul x (f a)) act) l.length l =
      List.zipWith (fun x a => x * f a) l act := by
    intro f
    apply applyTo_zip_full _ _ _ h
    intro k x y hy
    simp [zipOp, hy]
  have hone : l = List.zipWith (fun x _ => x * 1) l act := by
    apply List.ext_getElem?; intro i
    rw [List.getElem?_zipWith]
    by_cases hi : i < l.length
    · have hi2 : i < act.length := by omega
      simp [hi, hi2]
    · simp [hi]
  cases d <;> simp only [activateDerivF, derivFactor]
  · exact hz _
  · exact hz _
  · exact hz _
  · exact hz (fun a => a)
  · exact hone
  · exact hone
  · exact hv _
  · exact hv _
  · exact hv _
  · rename_i i; exact absurd rfl (hd i)

end NN
