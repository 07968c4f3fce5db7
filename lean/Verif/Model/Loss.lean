import Verif.Model.Names
/-
Model of src/loss.c (the derivative of the loss with respect to the prediction) and src/metrics.c.
-/
namespace NN
open FloatOps
variable {F : Type} [FloatOps F]

/-- The literal `1e-7f`, src/metrics.c:21 and src/loss.c:79. -/
def epsilon : F := lit 1 10000000

/-- The value stored in `loss[i]` for prediction `p` and target `y`, src/loss.c:64-117.
Simplification: `fmax` and the following product and quotient in the mape loss are computed in
`double` and rounded once when stored; the model uses the float operations. -/
def lossElem (l : Loss) (n : Nat) (p y : F) : F :=
  match l with
  | .mse => div (mul (lit 2 1) (sub p y)) (ofNat n)
  | .mae => div (if le y p then one else lit (-1) 1) (ofNat n)
  | .mape => div (if le y p then lit 100 1 else lit (-100) 1) (mul (fmax y epsilon) (ofNat n))
  | .cce => sub p y
  | .bce => div (sub p y) (ofNat n)

/-- Call through a `loss_func` pointer, src/loss.c:64-117. -/
def runLoss (l : Loss) (n : Nat) (yPred yReal loss : View F) : M (View F) :=
  forN n (fun i loss => do
    let p ← yPred.load i
    let y ← yReal.load i
    loss.store i (lossElem l n p y)) loss

/-- `for( i = 0; i < n; i++ ) err += f(y_pred[i], y_real[i])`. -/
def sumLoop (f : F → F → F) (n : Nat) (yPred yReal : View F) : M F :=
  forN n (fun i err => do
    let p ← yPred.load i
    let y ← yReal.load i
    pure (add err (f p y))) zero

/-- `clipped_y_pred[i]`, src/metrics.c:99-102, 114-117. -/
def clip (p : F) : F := fmin (fmax p epsilon) (sub one epsilon)

/-- Index and value of the first maximum, src/metrics.c:139-152 (one of the two interleaved scans). -/
def argmaxLoop (n : Nat) (v : View F) : M Nat := do
  let x0 ← v.load 0
  let (_, _, idx) ← stripLe 1 n (fun i (s : F × Nat) => do
    let x ← v.load i
    pure (if lt s.1 x then (x, i) else s)) 1 (x0, 0)
  pure idx

/-- Call through a `metric_func` pointer, src/metrics.c:69-154.
Simplification: the clipped copy of `y_pred` in the crossentropies is computed on the fly;
`binary_accuracy` uses `double` `fmin`/`fmax` on float values (exact). -/
def runMetric (m : Metric) (n : Nat) (yPred yReal : View F) : M F :=
  match m with
  | .mse => do
    let err ← sumLoop (fun p y => mul (sub p y) (sub p y)) n yPred yReal
    pure (div err (ofNat n))
  | .mae => do
    let err ← sumLoop (fun p y => FloatOps.abs (sub y p)) n yPred yReal
    pure (div err (ofNat n))
  | .mape => do
    let diff ← sumLoop (fun p y => FloatOps.abs (div (sub y p) (fmax y epsilon))) n yPred yReal
    pure (div (mul (lit 100 1) diff) (ofNat n))
  | .bce => do
    let err ← sumLoop (fun p y => add (mul y (log (clip p)))
      (mul (sub one y) (log (sub one (clip p))))) n yPred yReal
    pure (div (neg err) (ofNat n))
  | .cce => do
    let err ← sumLoop (fun p y => mul y (log (clip p))) n yPred yReal
    pure (div (neg err) (ofNat n))
  | .binaryAccuracy => do
    let sum ← sumLoop (fun p y =>
      if FloatOps.eq (round (fmin (fmax y zero) one)) (round p) then one else zero) n yPred yReal
    pure (div sum (ofNat n))
  | .categoricalAccuracy => do
    let r ← argmaxLoop n yReal
    let p ← argmaxLoop n yPred
    pure (if p == r then one else zero)

end NN
