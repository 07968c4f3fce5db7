import Verif.Model.MatrixOps
/-
Model of the activation functions and their derivatives, src/activation.c:305-732.
-/
namespace NN
open FloatOps
variable {F : Type} [FloatOps F]

/-- Function pointers of type `activation_func` (src/activation.h).  `custom id` is a function
obtained from a shared library (`get_activation_func_dynamic`). -/
inductive Act where
  | softplus | softsign | hardSigmoid | exponential | linear | softmax | relu | sigmoid | tanh
  | custom (id : Nat)
  deriving DecidableEq, Repr

/-- Function pointers of type `activation_derivative` (src/activation.h). -/
inductive ActDeriv where
  | softplus | softsign | hardSigmoid | exponential | linear | softmax | relu | sigmoid | tanh
  | custom (id : Nat)
  deriving DecidableEq, Repr

/-- Meaning of user supplied functions; arguments are the `n` elements of the buffer(s).
Simplification: a custom function touches only the `n` elements it is given, deterministically. -/
structure CustomEnv (F : Type) where
  act : Nat → List F → List F
  deriv : Nat → List F → List F → List F
  act_length : ∀ i l, (act i l).length = l.length
  deriv_length : ∀ i a l, (deriv i a l).length = l.length

/-- `for( int i = 0; i < n; i++ ) ar[i] = f(ar[i])`. -/
def mapLoop (f : F → F) (n : Nat) (y : View F) : M (View F) :=
  forN n (fun i y => do
    let x ← y.load i
    y.store i (f x)) y

/-- Body `y[i] = f(y[i])` of the scalar loops. -/
def scalarBody (f : F → F) (i : Nat) (y : View F) : M (View F) := do
  let x ← y.load i
  y.store i (f x)

/-- Body of the loops handling 16 floats in two 256-bit registers with aligned loads and stores. -/
def twoRegBody (f : F → F) (i : Nat) (y : View F) : M (View F) := do
  let a ← y.loada 8 i
  let b ← y.loada 8 (i + 8)
  let y ← y.storea 8 i (a.map f)
  y.storea 8 (i + 8) (b.map f)

/-- `relu`, src/activation.c:305-325. -/
def relu (c : Cfg) (n : Nat) (y : View F) : M (View F) := do
  let (i, y) ←
    if c.avx then do
      let (i, y) ← headLoop (fun i => !isAligned c (y.addr + 4 * i)) n
        (scalarBody (fun x => fmax zero x)) 0 y
      stripLe 16 n (twoRegBody (fun x => maxps zero x)) i y
    else pure (0, y)
  let (_, y) ← stripLe 1 n (scalarBody (fun x => fmax zero x)) i y
  pure y

/-- `hsum256_ps_avx` with `hsum_ps_sse3`, src/activation.c:416-434. -/
def hsum256 : List F → F
  | [x0, x1, x2, x3, x4, x5, x6, x7] =>
      add (add (add x0 x4) (add x1 x5)) (add (add x2 x6) (add x3 x7))
  | _ => zero

/-- Scalar loop body `ar[j] = expf(ar[j]-maxval); sum += ar[j];`, src/activation.c:463-464, 477-478. -/
def softmaxScalarBody (maxval : F) (j : Nat) (s : View F × F) : M (View F × F) := do
  let x ← s.1.load j
  let e := FloatOps.exp (sub x maxval)
  let ar ← s.1.store j e
  pure (ar, add s.2 e)

/-- Vector loop body, src/activation.c:468-474. -/
def softmaxVecBody (maxval : F) (j : Nat) (s : View F × List F) : M (View F × List F) := do
  let x ← s.1.loada 8 j
  let e := (vop2 sub x (set1 8 maxval)).map exp8
  let ar ← s.1.storea 8 j e
  pure (ar, vop2 add s.2 e)

/-- First pass of softmax: the maximum, src/activation.c:442-452. -/
def softmaxMax (n : Nat) (ar : View F) : M F := do
  let m0 ← ar.load 0
  let (_, maxval) ← stripLe 1 n (fun j (m : F) => do
    let x ← ar.load j
    pure (if FloatOps.lt m x then x else m)) 1 m0
  pure maxval

/-- Second pass of softmax: exponentials and their sum, src/activation.c:454-479. -/
def softmaxExp (c : Cfg) (n : Nat) (maxval : F) (ar : View F) : M (View F × F) := do
  let (j, ar, sum) ←
    if c.hasAvx2 then do
      let (j, ar, sum) ← headLoop (fun j => !isAligned c (ar.addr + 4 * j)) n
        (softmaxScalarBody maxval) 0 (ar, zero)
      let (j, ar, sumv) ← stripLe 8 n (softmaxVecBody maxval) j (ar, set1 8 zero)
      pure (j, ar, add sum (hsum256 sumv))
    else pure (0, ar, zero)
  let (_, ar, sum) ← stripLe 1 n (softmaxScalarBody maxval) j (ar, sum)
  pure (ar, sum)

/-- Third pass of softmax: division, src/activation.c:480-494. -/
def softmaxDiv (c : Cfg) (n : Nat) (sum : F) (ar : View F) : M (View F) := do
  let (j, ar) ←
    if c.avx then do
      let (j, ar) ← headLoop (fun j => !isAligned c (ar.addr + 4 * j)) n
        (scalarBody (fun x => div x sum)) 0 ar
      stripLe 8 n (fun j (ar : View F) => do
        let x ← ar.loada 8 j
        ar.storea 8 j (vop2 div x (set1 8 sum))) j ar
    else pure (0, ar)
  let (_, ar) ← stripLe 1 n (scalarBody (fun x => div x sum)) j ar
  pure ar

/-- `softmax`, src/activation.c:437-495. -/
def softmax (c : Cfg) (n : Nat) (ar : View F) : M (View F) := do
  let maxval ← softmaxMax n ar
  let (ar, sum) ← softmaxExp c n maxval ar
  softmaxDiv c n sum ar

/-- Scalar sigmoid `1.0f / (1.0f + expf(-x))`, src/activation.c:502, 523. -/
def sigmoidS (x : F) : F := div one (add one (FloatOps.exp (neg x)))

/-- One lane of the vector sigmoid, src/activation.c:510-518. -/
def sigmoidV (x : F) : F := div one (add one (exp8 (sub zero x)))

/-- `sigmoid`, src/activation.c:497-525. -/
def sigmoid (c : Cfg) (n : Nat) (y : View F) : M (View F) := do
  let (i, y) ←
    if c.hasAvx2 then do
      let (i, y) ← headLoop (fun i => !isAligned c (y.addr + 4 * i)) n (scalarBody sigmoidS) 0 y
      stripLe 16 n (twoRegBody sigmoidV) i y
    else pure (0, y)
  let (_, y) ← stripLe 1 n (scalarBody sigmoidS) i y
  pure y

/-- One lane of the vector tanh, src/activation.c:551-560: `-1 + 2/(1+exp(-2x))`. -/
def tanhV (x : F) : F :=
  add (lit (-1) 1) (div (lit 2 1) (add one (exp8 (mul (lit (-2) 1) x))))

/-- `tanh_act`, src/activation.c:539-567.  No unaligned head here. -/
def tanhAct (c : Cfg) (n : Nat) (y : View F) : M (View F) := do
  let (i, y) ← if c.hasAvx2 then stripLe 16 n (twoRegBody tanhV) 0 y else pure (0, y)
  let (_, y) ← stripLe 1 n (scalarBody FloatOps.tanh) i y
  pure y

/-- `softplus`, src/activation.c:576-580. -/
def softplusS (x : F) : F := log (add (FloatOps.exp x) one)

/-- `softsign`, src/activation.c:582-586. -/
def softsignS (x : F) : F := div x (add (FloatOps.abs x) one)

/-- `hard_sigmoid`, src/activation.c:588-594. -/
def hardSigmoidS (x : F) : F :=
  if FloatOps.lt x (lit (-5) 2) then zero
  else if FloatOps.lt (lit 5 2) x then one
  else add (mul (lit 1 5) x) (lit 1 2)

/-- Call through an `activation_func` pointer. -/
def activate (env : CustomEnv F) (c : Cfg) (a : Act) (n : Nat) (y : View F) : M (View F) :=
  match a with
  | .relu => relu c n y
  | .softmax => softmax c n y
  | .sigmoid => sigmoid c n y
  | .tanh => tanhAct c n y
  /- `linear`, src/activation.c:531-534 -/
  | .linear => pure y
  /- `exponential`, src/activation.c:570-574 -/
  | .exponential => mapLoop FloatOps.exp n y
  | .softplus => mapLoop softplusS n y
  | .softsign => mapLoop softsignS n y
  | .hardSigmoid => mapLoop hardSigmoidS n y
  | .custom i =>
    if n ≤ y.data.length then pure { y with data := env.act i (y.data.take n) ++ y.data.drop n }
    else .error .oob

/-! ### Derivatives -/

/-- Scalar body `ar[i] *= d(activation[i])`. -/
def derivScalarBody (d : F → F) (activation : View F) (i : Nat) (ar : View F) : M (View F) := do
  let a ← activation.load i
  let x ← ar.load i
  ar.store i (mul x (d a))

/-- Two-register vector body of the derivatives (aligned loads of both arrays, aligned stores),
src/activation.c:650-666, 681-697, 710-726. -/
def derivTwoRegBody (d : F → F) (activation : View F) (i : Nat) (ar : View F) : M (View F) := do
  let a0 ← activation.loada 8 i
  let a1 ← activation.loada 8 (i + 8)
  let x0 ← ar.loada 8 i
  let x1 ← ar.loada 8 (i + 8)
  let ar ← ar.storea 8 i (vop2 mul (a0.map d) x0)
  ar.storea 8 (i + 8) (vop2 mul (a1.map d) x1)

/-- `softplus_derivative`, src/activation.c:597-603. -/
def softplusD (a : F) : F := let x := FloatOps.exp a; div (sub x one) x

/-- `softsign_derivative`, src/activation.c:605-612. -/
def softsignD (a : F) : F :=
  let x := div a (sub one (FloatOps.abs a))
  div one (mul (add one (FloatOps.abs x)) (add one (FloatOps.abs x)))

/-- `hard_sigmoid_derivative`, src/activation.c:614-620. -/
def hardSigmoidD (a : F) : F :=
  if FloatOps.le a zero then zero else if FloatOps.le one a then zero else lit 1 5

/-- `relu_derivative`, src/activation.c:669 (scalar) and 654-658 (blend of 1 and 0). -/
def reluD (a : F) : F := if FloatOps.le a zero then zero else one

/-- `sigmoid_derivative`, src/activation.c:684-688 and 700. -/
def sigmoidD (a : F) : F := mul a (sub one a)

/-- `tanh_act_derivative`, src/activation.c:713-717 and 729. -/
def tanhD (a : F) : F := sub one (mul a a)

/-- The derivative functions with a vector part: `for (i = 0; i <= n-16; i += 16) ...` followed by
the scalar tail, src/activation.c:639-732. -/
def derivVec (c : Cfg) (d : F → F) (n : Nat) (activation ar : View F) : M (View F) := do
  let (i, ar) ← if c.avx then stripLe 16 n (derivTwoRegBody d activation) 0 ar else pure (0, ar)
  let (_, ar) ← stripLe 1 n (derivScalarBody d activation) i ar
  pure ar

/-- Call through an `activation_derivative` pointer. -/
def activateDeriv (env : CustomEnv F) (c : Cfg) (d : ActDeriv) (n : Nat) (activation ar : View F) :
    M (View F) :=
  match d with
  | .relu => derivVec c reluD n activation ar
  | .sigmoid => derivVec c sigmoidD n activation ar
  | .tanh => derivVec c tanhD n activation ar
  | .softplus => forN n (derivScalarBody softplusD activation) ar
  | .softsign => forN n (derivScalarBody softsignD activation) ar
  | .hardSigmoid => forN n (derivScalarBody hardSigmoidD activation) ar
  /- `exponential_derivative`, src/activation.c:621-625 -/
  | .exponential => forN n (derivScalarBody (fun a => a) activation) ar
  /- empty functions, src/activation.c:631-639 -/
  | .linear => pure ar
  | .softmax => pure ar
  | .custom i =>
    if n ≤ ar.data.length ∧ n ≤ activation.data.length then
      pure { ar with data := env.deriv i (activation.data.take n) (ar.data.take n) ++ ar.data.drop n }
    else .error .oob

end NN
