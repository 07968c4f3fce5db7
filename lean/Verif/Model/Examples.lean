import Verif.Model.Optimizer
/-
The example programs, examples/example_01.c and examples/example_02b.c: what they do with their network between loading the data
and printing the results.  Simplified: the data arrays are views, the number of samples and features are arguments (in C they are
`shape[0]` and `shape[1]` of the arrays), printing and cleaning up are left out.
-/
namespace NN.Examples
open FloatOps
variable {F : Type} [FloatOps F]

/-- `for( int j = 0; j < n_parameters; j++ ) gradient[j] *= -learning_rate;` examples/example_01.c:51-52. -/
def scaleGrad (k : Nat) (lr : F) (g : View F) : M (View F) :=
  forN k (fun j (g : View F) => do
    let x ← g.load j
    g.store j (mul x (neg lr))) g

/-- The loop body of the training of examples/example_01.c:50-55 for sample `i`: `train_feature` has been advanced `i` times by
`n_features`, `train_target` `i` times by 1.  The state is the network and the array `gradient`. -/
def trainStep (env : CustomEnv F) (c : Cfg) (workAddr : Nat → Nat) (junk : Nat → Nat → F) (k nFeatures : Nat) (lr : F)
    (X Y : View F) (i : Nat) (s : Net F × View F) : M (Net F × View F) := do
  let g ← backpropagation env c (workAddr i) (junk i) s.1 (X.offset (i * nFeatures)) (Y.offset i) s.2
  let g ← scaleGrad k lr g
  let nn ← update c s.1 g
  pure (nn, g)

/-- The training of examples/example_01.c:38-56; `gradAddr` and `gradJunk` are address and initial contents of `gradient`. -/
def train (env : CustomEnv F) (c : Cfg) (workAddr : Nat → Nat) (junk : Nat → Nat → F) (gradAddr : Nat) (gradJunk : Nat → F)
    (lr : F) (n nFeatures : Nat) (X Y : View F) (nn : Net F) : M (Net F) := do
  let k := nParams nn.layers
  let (nn, _) ← forN n (trainStep env c workAddr junk k nFeatures lr X Y) (nn, stackArray gradAddr k gradJunk)
  pure nn

/-- One test sample, examples/example_01.c:66-74. -/
def countStep (env : CustomEnv F) (c : Cfg) (mem : Nat → ThreadMem F) (nFeatures : Nat) (X Y : View F) (nn : Net F)
    (i correct : Nat) : M Nat := do
  let output ← predict env c (mem i).workAddr (mem i).junk nn (X.offset (i * nFeatures))
    (stackArray (mem i).predAddr 1 (mem i).predJunk)
  let o ← output.load 0
  let t ← (Y.offset i).load 0
  pure (if lt (lit 1 2) o == lt (lit 1 2) t then correct + 1 else correct)

/-- The test of examples/example_01.c:59-75: the number of correct answers. -/
def correctCount (env : CustomEnv F) (c : Cfg) (mem : Nat → ThreadMem F) (n nFeatures : Nat) (X Y : View F) (nn : Net F) :
    M Nat :=
  forN n (countStep env c mem nFeatures X Y nn) 0

/-- `local_evaluate`, examples/example_02b.c:13-40.  `order` is the order in which the threads of `neuralnet_predict_batch` handle
the samples; `predAddr` the address of `predictions`, an array without alignment. -/
def localEvaluate (env : CustomEnv F) (c : Cfg) (workAddr : Nat → Nat) (junk : Nat → Nat → F) (order : List Nat)
    (predAddr : Nat) (predJunk : Nat → F) (nn : Net F) (n : Nat) (X Y : View F) (metrics : List (Option Metric))
    (results : View F) : M (View F) := do
  let ms ← metricList metrics
  let p ← predictBatch env c workAddr junk nn order X (stackArray predAddr (nn.nOutput * n) predJunk)
  let localResults ← forN n (fun i res =>
    accMetrics nn.nOutput (p.offset (i * nn.nOutput)) (Y.offset (i * nn.nOutput)) ms res) (ms.map fun _ => (zero : F))
  storeResults n ms.length localResults results

end NN.Examples
