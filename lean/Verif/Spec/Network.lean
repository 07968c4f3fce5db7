import Verif.Spec.Linear
import Verif.Spec.Activation
/-
Specification of a feed forward network on reals.
-/
namespace Spec

/-- A dense layer: `W` is `nIn × nOut`, row-major. -/
structure Layer where
  nIn : ℕ
  nOut : ℕ
  W : List ℝ
  b : List ℝ
  act : List ℝ → List ℝ

/-- `act (Wᵀ x + b)` -/
noncomputable def Layer.apply (l : Layer) (x : List ℝ) : List ℝ :=
  l.act (affine l.nIn l.nOut l.W l.b x)

/-- `act_L(W_Lᵀ ... act_1(W_1ᵀ x + b_1) ... + b_L)` -/
noncomputable def network (ls : List Layer) (x : List ℝ) : List ℝ :=
  ls.foldl (fun x l => l.apply x) x

end Spec
