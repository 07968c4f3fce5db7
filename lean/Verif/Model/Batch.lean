import Verif.Model.Network
import Verif.Model.Schedule
/-
Model of src/neuralnet_predict_batch.c:20-28 (build without BLAS) and src/evaluate.c (same build).
-/
namespace NN
open FloatOps
variable {F : Type} [FloatOps F]

/-- One iteration of the loop, src/neuralnet_predict_batch.c:26.  `workAddr` and `junk` describe the
stack of the thread that runs it. -/
def batchRow (env : CustomEnv F) (c : Cfg) (workAddr : Nat) (junk : Nat → F) (nn : Net F)
    (input : View F) (i : Nat) (out : View F) : M (View F) := do
  let v ← predict env c workAddr junk nn (input.offset (i * nn.nInput)) (out.offset (i * nn.nOutput))
  pure (putGrad out (i * nn.nOutput) v)

/-- `neuralnet_predict_batch` without BLAS, src/neuralnet_predict_batch.c:20-27; `order` is the order
in which the threads happen to run the iterations. -/
def predictBatch (env : CustomEnv F) (c : Cfg) (workAddr : Nat → Nat) (junk : Nat → Nat → F)
    (nn : Net F) (order : List Nat) (input out : View F) : M (View F) :=
  order.foldlM (fun out i => batchRow env c (workAddr i) (junk i) nn input i out) out

/-- `while ( *mf_ptr++ ) n_metrics++;` src/evaluate.c:22-24: the metrics before the NULL. -/
def metricList : List (Option Metric) → M (List Metric)
  | [] => .error .oob
  | none :: _ => pure []
  | some m :: ms => do
    let ms ← metricList ms
    pure (m :: ms)

/-- The loop over the metrics for one sample, src/evaluate.c:41-45: `yPred`, `yReal` are its
prediction and target, `res` the thread's copy of `local_results`. -/
def accMetrics (n : Nat) (yPred yReal : View F) : List Metric → List F → M (List F)
  | [], res => pure res
  | m :: ms, r :: res => do
    let e ← runMetric m n yPred yReal
    let rest ← accMetrics n yPred yReal ms res
    pure (add r e :: rest)
  | _ :: _, [] => .error .oob

/-- What one thread needs for an iteration: stack address and contents for `neuralnet_predict`, address
and contents of `y_pred`. -/
structure ThreadMem (F : Type) where
  workAddr : Nat
  junk : Nat → F
  predAddr : Nat
  predJunk : Nat → F

/-- One iteration, src/evaluate.c:33-46 without BLAS. -/
def evaluateBody (env : CustomEnv F) (c : Cfg) (mem : Nat → ThreadMem F) (nn : Net F) (X Y : View F)
    (ms : List Metric) (i : Nat) (res : List F) : M (List F) := do
  let p ← predict env c (mem i).workAddr (mem i).junk nn (X.offset (i * nn.nInput))
    (stackArray (mem i).predAddr nn.nOutput (mem i).predJunk)
  accMetrics nn.nOutput p (Y.offset (i * nn.nOutput)) ms res

/-- The final loop, src/evaluate.c:48-50. -/
def storeResults (nSamples k : Nat) (localResults : List F) (results : View F) : M (View F) :=
  forN k (fun i (results : View F) =>
    match localResults[i]? with
    | some r => results.store i (div r (ofNat nSamples))
    | none => .error .oob) results

/-- `evaluate` without BLAS, src/evaluate.c:12-51.  The loop is executed with schedule `sched`; OpenMP
adds the combined private copies to the original (zero) `local_results`. -/
def evaluate (env : CustomEnv F) (c : Cfg) (mem : Nat → ThreadMem F) (sched : Sched) (nn : Net F)
    (nSamples : Nat) (X Y : View F) (metrics : List (Option Metric)) (results : View F) :
    M (View F) := do
  let ms ← metricList metrics
  let zeros := ms.map fun _ => (zero : F)
  let total ← sched.reduce zeros (evaluateBody env c mem nn X Y ms) (List.zipWith add)
  let localResults := List.zipWith add zeros total
  storeResults nSamples ms.length localResults results

end NN
