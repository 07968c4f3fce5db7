import Verif.Model.Trainer
import Verif.Model.Params
/-
Model of tests/test_sgd.c.  Simplified: instead of the coloured text on stderr the outcome keeps the three arrays, which tests failed, and
the two numbers of the report.
-/
namespace NN.UnitSgd
open FloatOps
variable {F : Type}

/-- What the system gives the program: memory (`ok`, `addr`, `junk`, `vec1`), random numbers, the addresses and old contents of the arrays
on the stack (lines 35-41), the work area of `neuralnet_backpropagation`, and stack and schedules of the epoch (in `epoch`; the data in
there is not used). -/
structure Sys (F : Type) where
  ok : Nat → Bool
  addr : Nat → Nat
  junk : Nat → Nat → F
  vec1 : Option Nat
  dl : DynLinker
  rnd : Rand
  fuel : Nat
  grad : Nat
  pre : Nat
  post : Nat
  input : Nat
  target : Nat
  stack : Nat → F
  work : Nat
  workJunk : Nat → F
  epoch : EpochCall F

/-- What the program leaves: the arrays, for every test whether it failed, and the numbers it prints (lines 101-103). -/
structure Outcome (F : Type) where
  grad : List F
  pre : List F
  post : List F
  failed : List Bool
  nTests : Nat
  nFail : Nat

/-- The arguments of `optimizer_run_epoch`, lines 75-76. -/
def call (sys : Sys F) (X Y : View F) (nMetrics : Nat) : EpochCall F :=
  { sys.epoch with
    n := 1, X := X, Y := Y, nValid := 0, valid := none
    results := ⟨sys.epoch.results.addr, (List.range (2 * nMetrics)).map sys.stack⟩ }

variable [FloatOps F]

/-- The condition of a failure, lines 84-85. -/
def deviates (lr eps pre post grad : F) : Bool := lt eps (abs (add (sub post pre) (mul lr grad)))

/-- The loop over the parameters, lines 79-98: the verdicts, `n_tests` and `n_fail`. -/
def tests (lr eps : F) : List F → List F → List F → M (List Bool × Nat × Nat)
  | [], _, _ => pure ([], 0, 0)
  | p :: pre, q :: post, g :: grad => do
    let (l, n, f) ← tests lr eps pre post grad
    let b := deviates lr eps p q g
    pure (b :: l, n + 1, if b then f + 1 else f)
  | _ :: _, _, _ => .error .oob

/-- `main`, lines 14-106. -/
def main (env : CustomEnv F) (c : Cfg) (sys : Sys F) (recs : List ActRecord) (h : Heap) (rs : RandState F) (st : Statics F) :
    M (Outcome F) := do
  let (net, recs, _) ← createNN sys.ok sys.dl 4 [64, 32, 16, 8, 4] (some [some "relu", some "relu", some "relu", some "sigmoid"]) recs h
  match net with
  | none => .error .assertFail
  | some net => do
    let (nn, rs) ← initializeNN sys.rnd sys.fuel recs none (some (net.toNet sys.addr sys.junk)) rs
    match nn with
    | none => .error .nullDeref
    | some nn => do
      let nn := setLoss recs nn "binary_crossentropy"
      let n ← totalNParameters nn
      let input : View F := ⟨sys.input, List.replicate 64 one⟩
      let target : View F := ⟨sys.target, List.replicate 4 one⟩
      let lr : F := lit 1 100
      let (st, sgd) ← newAny st nn true 16
        (some [getMetricFunc (getLossName nn.loss), getMetricFunc "mean_squared_error", getMetricFunc "binary_accuracy", none]) sys.vec1
        none (.sgd lr zero zero false)
      let ms ← metricList (metricsArray st sgd.opt.metrics)
      let grad ← backpropagation env c sys.work sys.workJunk nn input target (stackArray sys.grad n sys.stack)
      let pre ← getParameters nn (stackArray sys.pre n sys.stack)
      let (_, sgd, _, _) ← (call sys input target ms.length).run env c sys.rnd.r rs.k st sgd
      let post ← getParameters sgd.opt.nn (stackArray sys.post n sys.stack)
      let (l, k, f) ← tests lr (lit 1 1000000) pre.data post.data grad.data
      pure ⟨grad.data, pre.data, post.data, l, k, f⟩

end NN.UnitSgd
