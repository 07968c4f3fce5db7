import Verif.Properties.Exp256Float
import Verif.Proofs.ForwardReal
import Verif.Spec.NetError
/-
Specification of the float forward pass: error bounds and conditions against overflow, layer by layer.
-/
namespace NN
open B32 Finset Spec

/-- The layer with the values of its weights and biases. -/
noncomputable def Layer.values (l : Layer B32) : Layer ℝ :=
  ⟨l.nIn, l.nOut, ⟨l.weight.addr, l.weight.data.map B32.value⟩, ⟨l.bias.addr, l.bias.data.map B32.value⟩, l.act, l.deriv⟩

/-- All parameters are finite. -/
def Layer.Finite (l : Layer B32) : Prop := (∀ w ∈ l.weight.data, w.isFinite = true) ∧ ∀ b ∈ l.bias.data, b.isFinite = true

/-- Bounds on the errors of an activation function applied to `y` known up to `d`. -/
noncomputable def actError (a : Act) (y d : List ℝ) : List ℝ :=
  match a, textbook a with
  | .softmax, _ => (Spec.softmax y).map fun p => softmaxError y.length p (maxEntry d)
  | .exponential, _ => (List.range y.length).map fun k => expError (at_ y k) (at_ d k)
  | _, some f => (List.range y.length).map fun k => lipError f (at_ y k) (at_ d k)
  | _, none => []

/-- Bounds on the errors of a layer applied to `x` known up to `e`. -/
noncomputable def layerError (l : Layer ℝ) (x e : List ℝ) : List ℝ :=
  actError l.act (affine l.nIn l.nOut l.weight.data l.bias.data x) (affineError l.nIn l.nOut l.weight.data l.bias.data x e)

/-- No overflow in this layer, and a built-in activation function. -/
def LayerSafe (l : Layer ℝ) (x e : List ℝ) : Prop :=
  (∀ k, k < l.nOut → peak (l.nIn + 1) l.nIn (absAffineErr l.nIn l.nOut l.weight.data l.bias.data x e k) ≤ max32) ∧
  (Unbounded l.act → ∀ k, k < l.nOut → at_ (affine l.nIn l.nOut l.weight.data l.bias.data x) k +
    at_ (affineError l.nIn l.nOut l.weight.data l.bias.data x e) k ≤ 88) ∧
  (l.act = .softmax → l.nOut + 4 ≤ 2 ^ 20) ∧ ∀ i, l.act ≠ .custom i

/-- Bounds on the errors of a network applied to `x` known up to `e`. -/
noncomputable def netError (env : CustomEnv ℝ) : List (Layer ℝ) → List ℝ → List ℝ → List ℝ
  | [], _, e => e
  | l :: ls, x, e => netError env ls ((l.toSpec env).apply x) (layerError l x e)

/-- No overflow in the network, and built-in activation functions. -/
def NetSafe (env : CustomEnv ℝ) : List (Layer ℝ) → List ℝ → List ℝ → Prop
  | [], _, _ => True
  | l :: ls, x, e => LayerSafe l x e ∧ NetSafe env ls ((l.toSpec env).apply x) (layerError l x e)

/-- Activation functions with values in [-1, 1]. -/
def Squashing (a : Act) : Prop := a = .sigmoid ∨ a = .tanh ∨ a = .softsign ∨ a = .hardSigmoid

/-- A layer with a squashing activation function, at most `N` inputs, and absolute values of the weights and bias of each output
adding up to at most `R`. -/
def SmallLayer (N : ℕ) (R : ℝ) (l : Layer ℝ) : Prop :=
  Squashing l.act ∧ l.nIn ≤ N ∧ ∀ k, k < l.nOut → |at_ l.bias.data k| + ∑ i ∈ range l.nIn, |at_ l.weight.data (i * l.nOut + k)| ≤ R

end NN
