import Verif.Model.Batch
import Verif.Model.MatrixOpsBlas
/-
Model of src/neuralnet_predict_batch.c:44-137 and src/evaluate.c in the BLAS build (`USE_CBLAS`), in
exact arithmetic: BLAS may sum in any order, so `cblas_sgemm` is given by its definition.

Sizes are natural numbers.  The size computation of the work memory is done in `int` and is checked for
overflow; offsets `half*n_inputs` and `half*n_output` into the caller's arrays are not checked.
-/
namespace NN.Blas
open FloatOps Spec Finset

/-- `INT_MAX` -/
def intMax : ℕ := 2147483647

/-- `cblas_sgemm(CblasRowMajor, CblasNoTrans, CblasNoTrans, m, n, k, 1, A, k, B, n, 1, C, n)`:
`C := A B + C` for an `m × k` matrix `A` and a `k × n` matrix `B`. -/
noncomputable def sgemm (m n k : ℕ) (A B C : View ℝ) : M (View ℝ) :=
  if m * k ≤ A.data.length ∧ k * n ≤ B.data.length ∧ m * n ≤ C.data.length then
    .ok ⟨C.addr, (List.range (m * n)).map (fun t =>
      (∑ j ∈ range k, at_ A.data (t / n * k + j) * at_ B.data (j * n + t % n)) + at_ C.data t)
      ++ C.data.drop (m * n)⟩
  else .error .oob

section
variable {F : Type} [FloatOps F]

/-- `activations[1..n_layers-1]`, src/neuralnet_predict_batch.c:92-95, as offsets in `workmem` for the
layers before the last. -/
def offsets (n : ℕ) : ℕ → List (Layer F) → List ℕ
  | _, [] => []
  | off, l :: ls => off :: offsets n (off + l.nOut * n) ls

/-- The inner loop of src/neuralnet_predict_batch.c:100-105: a copy of the bias for every sample. -/
def fillBias (n : ℕ) (l : Layer F) (y : View F) : M (View F) :=
  forN n (fun j y => do
    let v ← memcpyF (y.offset (j * l.nOut)) l.bias l.nOut
    pure (putGrad y (j * l.nOut) v)) y

/-- src/neuralnet_predict_batch.c:100-105. -/
def fillAll (n : ℕ) : List (Layer F) → List Ptr → Bufs F → M (Bufs F)
  | [], _, s => pure s
  | l :: ls, dst :: dsts, s => do
    let y ← fillBias n l (s.at dst)
    fillAll n ls dsts (s.put dst y)
  | _ :: _, [], _ => .error .oob

/-- The activation of one layer for all samples, src/neuralnet_predict_batch.c:126-134. -/
def activateRows (env : CustomEnv F) (c : Cfg) (n : ℕ) (l : Layer F) (y : View F) : M (View F) :=
  if l.act = .softmax then
    forN n (fun j y => do
      let v ← activate env c l.act l.nOut (y.offset (j * l.nOut))
      pure (putGrad y (j * l.nOut) v)) y
  else activate env c l.act (l.nOut * n) y
end

/-- One layer, src/neuralnet_predict_batch.c:112-134. -/
noncomputable def stepB (env : CustomEnv ℝ) (c : Cfg) (n : ℕ) (l : Layer ℝ) (src dst : Ptr)
    (s : Bufs ℝ) : M (Bufs ℝ) :=
  if overlaps src (n * l.nIn) dst (n * l.nOut) then .error .overlap
  else do
    let y ← sgemm n l.nOut l.nIn (s.at src) l.weight (s.at dst)
    let y ← activateRows env c n l y
    pure (s.put dst y)

/-- The loop over the layers, src/neuralnet_predict_batch.c:112-135. -/
noncomputable def forwardB (env : CustomEnv ℝ) (c : Cfg) (n : ℕ) :
    List (Layer ℝ) → Ptr → List Ptr → Bufs ℝ → M (Bufs ℝ)
  | [], _, _, s => pure s
  | l :: ls, src, dst :: dsts, s => do
    let s ← stepB env c n l src dst s
    forwardB env c n ls dst dsts s
  | _ :: _, _, [], _ => .error .oob

/-- The part of `neuralnet_predict_batch` after the size check, src/neuralnet_predict_batch.c:90-135;
`N` is `N_STACK_ALLOC_FLOATS`. -/
noncomputable def batchBase (env : CustomEnv ℝ) (c : Cfg) (N workAddr : ℕ) (junk : ℕ → ℝ) (nn : Net ℝ)
    (n : ℕ) (input out : View ℝ) : M (View ℝ) := do
  let ptrs := (offsets n 0 nn.layers.dropLast).map Ptr.work ++ [.out]
  let s ← fillAll n nn.layers ptrs ⟨input, stackArray workAddr N junk, out⟩
  let s ← forwardB env c n nn.layers .input ptrs s
  pure s.out

/-- `neuralnet_predict_batch` in the BLAS build, src/neuralnet_predict_batch.c:44-136.  `fuel` bounds
the depth of the recursion (`.diverge` if it is exhausted), `start` is the index of the first sample of
this call; `workAddr start n` and `junk start n` describe the stack buffer of the call. -/
noncomputable def predictBatch (env : CustomEnv ℝ) (c : Cfg) (N : ℕ) (workAddr : ℕ → ℕ → ℕ)
    (junk : ℕ → ℕ → ℕ → ℝ) (nn : Net ℝ) : ℕ → ℕ → ℕ → View ℝ → View ℝ → M (View ℝ)
  | 0, _, _, _, _ => .error .diverge
  | fuel + 1, start, n, input, out =>
    if intMax < workSize nn.layers * n then .error .overflow
    else if N < workSize nn.layers * n then do
      let out ← predictBatch env c N workAddr junk nn fuel start (n / 2) input out
      let v ← predictBatch env c N workAddr junk nn fuel (start + n / 2) (n - n / 2)
        (input.offset (n / 2 * nn.nInput)) (out.offset (n / 2 * nn.nOutput))
      pure (putGrad out (n / 2 * nn.nOutput) v)
    else batchBase env c N (workAddr start n) (junk start n) nn n input out

/-- `evaluate` in the BLAS build, src/evaluate.c:12-51: `predAddr` is the address of `predictions`. -/
noncomputable def evaluate (env : CustomEnv ℝ) (c : Cfg) (N fuel : ℕ) (workAddr : ℕ → ℕ → ℕ)
    (junk : ℕ → ℕ → ℕ → ℝ) (predAddr : ℕ) (sched : Sched) (nn : Net ℝ) (nSamples : ℕ) (X Y : View ℝ)
    (metrics : List (Option Metric)) (results : View ℝ) : M (View ℝ) := do
  let ms ← metricList metrics
  let zeros := ms.map fun _ => (0 : ℝ)
  let predictions ← predictBatch env c N workAddr junk nn fuel 0 nSamples X
    ⟨predAddr, List.replicate (nn.nOutput * nSamples) 0⟩
  let total ← sched.reduce zeros (fun i res =>
    accMetrics nn.nOutput (predictions.offset (i * nn.nOutput)) (Y.offset (i * nn.nOutput)) ms res)
    (List.zipWith add)
  let localResults := List.zipWith add zeros total
  storeResults nSamples ms.length localResults results

end NN.Blas
