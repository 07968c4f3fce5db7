import Verif.Spec.NetFloat
/-
Specification of the float backward pass: error bounds and conditions, layer by layer.

`x`, `y`, `u`, `δ` are exact vectors, `e`, `ye`, `ue`, `δe` bounds on the errors of their float versions.
-/
namespace NN
open B32 Finset Spec

/-- The derivative of an activation function, as a function of the activation `y`. -/
noncomputable def slope (d : ActDeriv) (y : ℝ) : ℝ :=
  match d with
  | .relu => if 0 < y then 1 else 0
  | .sigmoid => y * (1 - y)
  | .tanh => 1 - y ^ 2
  | .softplus => 1 - Real.exp (-y)
  | .softsign => (1 - |y|) ^ 2
  | .hardSigmoid => if 0 < y ∧ y < 1 then 1 / 5 else 0
  | .exponential => y
  | .linear | .softmax | .custom _ => 1

/-- Error of the derivative if the activation is known up to `e`. -/
noncomputable def slopeError (d : ActDeriv) (e : ℝ) : ℝ :=
  match d with
  | .relu => 0
  | .exponential => e
  | _ => 2 * e + 2 ^ (-20 : ℤ)

/-- The derivative is known: pre-activation `z` up to `ze` and activation `y` up to `e` are on one side of the kinks;
no overflow in `expf`. -/
def SlopeSafe (d : ActDeriv) (z ze y e : ℝ) : Prop :=
  match d with
  | .relu => z + ze ≤ 0 ∨ 0 < z - ze
  | .hardSigmoid => z + ze < -5 / 2 ∨ 5 / 2 < z - ze ∨ (0 < y - e ∧ y + e < 1)
  | .softplus => y + e ≤ 88
  | .custom _ => False
  | _ => True

/-- The error signal `u` times the derivative. -/
noncomputable def signal (d : ActDeriv) (y u : List ℝ) : List ℝ :=
  (List.range u.length).map fun k => at_ u k * slope d (at_ y k)

/-- Error of a rounded product. -/
noncomputable def mulError (x e y f : ℝ) : ℝ :=
  e * |y| + (|x| + e) * f + u32 * ((|x| + e) * (|y| + f)) + η32

/-- Error of `signal`. -/
noncomputable def signalError (d : ActDeriv) (y ye u ue : List ℝ) : List ℝ :=
  match d with
  | .linear | .softmax => ue
  | _ => (List.range u.length).map fun k => mulError (at_ u k) (at_ ue k) (slope d (at_ y k)) (slopeError d (at_ ye k))

/-- Upper bound for the sum of the absolute values of the terms of entry `i` of `W δ`. -/
noncomputable def absMatVecErr (m : ℕ) (W δ δe : List ℝ) (i : ℕ) : ℝ := ∑ j ∈ range m, |at_ W (i * m + j)| * (|at_ δ j| + at_ δe j)

/-- Error of `W δ`: inherited errors and rounding. -/
noncomputable def matVecError (n m : ℕ) (W δ δe : List ℝ) : List ℝ :=
  (List.range n).map fun i => ∑ j ∈ range m, |at_ W (i * m + j)| * at_ δe j + slack (m + 6) m (absMatVecErr m W δ δe i)

/-- Error of the outer product. -/
noncomputable def outerError (n m : ℕ) (x e δ δe : List ℝ) : List ℝ :=
  (List.range (n * m)).map fun k => mulError (at_ x (k / m)) (at_ e (k / m)) (at_ δ (k % m)) (at_ δe (k % m))

/-- The derivative called for a layer. -/
def Layer.slopeOf {F : Type} (l : Layer F) : ActDeriv := l.deriv.getD .linear

/-- Backward pass through layers with input `x` (known up to `e`) and derivative `g` of the loss (known up to `ge`):
the error signal of the first layer, its error, and the errors of the gradient. -/
noncomputable def backError (env : CustomEnv ℝ) : List (Layer ℝ) → List ℝ → List ℝ → List ℝ → List ℝ → List ℝ × List ℝ × List ℝ
  | [], _, _, _, _ => ([], [], [])
  | [l], x, e, g, ge =>
    let δ := signal l.slopeOf ((l.toSpec env).apply x) g
    let δe := signalError l.slopeOf ((l.toSpec env).apply x) (layerError l x e) g ge
    (δ, δe, δe ++ outerError l.nIn l.nOut x e δ δe)
  | l :: l' :: ls, x, e, g, ge =>
    let r := backError env (l' :: ls) ((l.toSpec env).apply x) (layerError l x e) g ge
    let u := matVec l'.nIn l'.nOut l'.weight.data r.1
    let ue := matVecError l'.nIn l'.nOut l'.weight.data r.1 r.2.1
    let δ := signal l.slopeOf ((l.toSpec env).apply x) u
    let δe := signalError l.slopeOf ((l.toSpec env).apply x) (layerError l x e) u ue
    (δ, δe, δe ++ outerError l.nIn l.nOut x e δ δe ++ r.2.2)

/-- The derivative function called belongs to the activation function, or does nothing. -/
def SlopeFits (l : Layer ℝ) : Prop :=
  l.deriv = some (derivOf l.act) ∨ l.deriv = some .linear ∨ l.deriv = some .softmax

/-- Nothing overflows in the backward step of a layer with incoming signal `u`, and the derivatives are known. -/
def StepSafe (env : CustomEnv ℝ) (l : Layer ℝ) (x e u ue : List ℝ) : Prop :=
  let y := (l.toSpec env).apply x
  let ye := layerError l x e
  SlopeFits l ∧
  (∀ k, k < l.nOut → SlopeSafe l.slopeOf (at_ (affine l.nIn l.nOut l.weight.data l.bias.data x) k)
    (at_ (affineError l.nIn l.nOut l.weight.data l.bias.data x e) k) (at_ y k) (at_ ye k)) ∧
  (∀ k, k < l.nOut → (|at_ u k| + at_ ue k) * (|slope l.slopeOf (at_ y k)| + slopeError l.slopeOf (at_ ye k)) ≤ max32) ∧
  ∀ i k, i < l.nIn → k < l.nOut → (|at_ x i| + at_ e i) * (|at_ (signal l.slopeOf y u) k| + at_ (signalError l.slopeOf y ye u ue) k) ≤ max32

/-- Nothing overflows in the backward pass, and the derivatives are known. -/
def BackSafe (env : CustomEnv ℝ) : List (Layer ℝ) → List ℝ → List ℝ → List ℝ → List ℝ → Prop
  | [], _, _, _, _ => True
  | [l], x, e, g, ge => StepSafe env l x e g ge
  | l :: l' :: ls, x, e, g, ge =>
    let r := backError env (l' :: ls) ((l.toSpec env).apply x) (layerError l x e) g ge
    BackSafe env (l' :: ls) ((l.toSpec env).apply x) (layerError l x e) g ge ∧
    (∀ i, i < l'.nIn → peak (l'.nOut + 6) l'.nOut (absMatVecErr l'.nOut l'.weight.data r.1 r.2.1 i) ≤ max32) ∧
    StepSafe env l x e (matVec l'.nIn l'.nOut l'.weight.data r.1) (matVecError l'.nIn l'.nOut l'.weight.data r.1 r.2.1)

/-- The derivative of the loss with respect to one entry `p` of the prediction, for target `y`. -/
noncomputable def lossSlope (loss : Loss) (n : ℕ) (p y : ℝ) : ℝ :=
  match loss with
  | .mse => 2 * (p - y) / n
  | .mae => (if y ≤ p then 1 else -1) / n
  | .mape => (if y ≤ p then 100 else -100) / (max y (1 / 10 ^ 7) * n)
  | .cce => p - y
  | .bce => (p - y) / n

/-- Error of `lossSlope` if the prediction is known up to `e`. -/
noncomputable def lossSlopeError (loss : Loss) (n : ℕ) (p e y : ℝ) : ℝ :=
  match loss with
  | .mse => (2 * e + 2 ^ (-21 : ℤ) * (|p - y| + e)) / n + 2 ^ (-140 : ℤ)
  | .mae => 2 ^ (-21 : ℤ) / n + 2 ^ (-140 : ℤ)
  | .mape => 0
  | .cce => e + 2 ^ (-21 : ℤ) * (|p - y| + e) + 2 ^ (-140 : ℤ)
  | .bce => (e + 2 ^ (-21 : ℤ) * (|p - y| + e)) / n + 2 ^ (-140 : ℤ)

/-- The derivative of the loss with respect to the prediction. -/
noncomputable def lossGrad (loss : Loss) (n : ℕ) (p y : List ℝ) : List ℝ :=
  (List.range n).map fun k => lossSlope loss n (at_ p k) (at_ y k)

/-- Error of `lossGrad`. -/
noncomputable def lossGradError (loss : Loss) (n : ℕ) (p e y : List ℝ) : List ℝ :=
  (List.range n).map fun k => lossSlopeError loss n (at_ p k) (at_ e k) (at_ y k)

/-- No overflow in the derivative of the loss, and the sign is known where it matters.  The percentage error, computed in
`double` by the code, is left out. -/
def LossSafe (loss : Loss) (n : ℕ) (p e y : List ℝ) : Prop :=
  loss ≠ .mape ∧ n < 2 ^ 24 ∧
  (∀ k, k < n → |at_ p k - at_ y k| + at_ e k ≤ 2 ^ (126 : ℤ)) ∧
  (loss = .mae → ∀ k, k < n → at_ e k < |at_ p k - at_ y k|)

/-- The network with the values of its parameters. -/
noncomputable def Net.values (nn : Net B32) : Net ℝ := ⟨nn.layers.map Layer.values, nn.loss⟩

/-- The exact prediction for the input `x`. -/
noncomputable def exactOut (env : CustomEnv ℝ) (nn : Net B32) (x : List B32) : List ℝ :=
  Spec.network ((nn.layers.map Layer.values).map (Layer.toSpec env)) (x.map B32.value)

/-- Error of the float prediction. -/
noncomputable def outError (env : CustomEnv ℝ) (nn : Net B32) (x : List B32) : List ℝ :=
  netError env (nn.layers.map Layer.values) (x.map B32.value) (List.replicate nn.nInput 0)

/-- Nothing overflows in the forward pass, the derivative of the loss, and the backward pass, and no pre-activation or residual is so
close to a kink that rounding could change the side. -/
def TrainSafe (env : CustomEnv ℝ) (nn : Net B32) (loss : Loss) (x y : List B32) : Prop :=
  NetSafe env (nn.layers.map Layer.values) (x.map B32.value) (List.replicate nn.nInput 0) ∧
  LossSafe loss nn.nOutput (exactOut env nn x) (outError env nn x) (y.map B32.value) ∧
  BackSafe env (nn.layers.map Layer.values) (x.map B32.value) (List.replicate nn.nInput 0)
    (lossGrad loss nn.nOutput (exactOut env nn x) (y.map B32.value))
    (lossGradError loss nn.nOutput (exactOut env nn x) (outError env nn x) (y.map B32.value))

/-- Bounds on the errors of the entries of the float gradient. -/
noncomputable def gradError (env : CustomEnv ℝ) (nn : Net B32) (loss : Loss) (x y : List B32) : List ℝ :=
  (backError env (nn.layers.map Layer.values) (x.map B32.value) (List.replicate nn.nInput 0)
    (lossGrad loss nn.nOutput (exactOut env nn x) (y.map B32.value))
    (lossGradError loss nn.nOutput (exactOut env nn x) (outError env nn x) (y.map B32.value))).2.2

/-- A layer with a smooth squashing activation function, up to `N` inputs and outputs, and absolute values of the weights into each output (with
the bias) and out of each input adding up to at most `R`. -/
def SmoothLayer (N : ℕ) (R : ℝ) (l : Layer ℝ) : Prop :=
  SmallLayer N R l ∧ l.act ≠ .hardSigmoid ∧ l.nOut ≤ N ∧ ∀ i, i < l.nIn → ∑ k ∈ range l.nOut, |at_ l.weight.data (i * l.nOut + k)| ≤ R

/-- Relative error added by each step of the backward pass if all activations are known up to `E`. -/
noncomputable def stepκ (N : ℕ) (E : ℝ) : ℝ := 2 * E + (N + 7) * 2 ^ (-23 : ℤ) + 2 ^ (-19 : ℤ)

end NN
