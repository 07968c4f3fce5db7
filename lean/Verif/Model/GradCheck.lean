import Verif.Model.Create
import Verif.Model.Params
import Verif.Model.Optimizer
/-
Model of tests/test_backpropagation.c.  Simplified: instead of the coloured text on stderr the outcome keeps which tests failed and the numbers
of the report; the addresses printed in line 67 are left out.
-/
namespace NN.GradCheck
open FloatOps
variable {F : Type}

/-- What the system gives the program: memory, random numbers, the addresses and old contents of the arrays on the stack (lines 46-53), and the
work areas of `neuralnet_predict` and `neuralnet_backpropagation`. -/
structure Sys (F : Type) where
  ok : Nat → Bool
  addr : Nat → Nat
  junk : Nat → Nat → F
  dl : DynLinker
  rnd : Rand
  fuel : Nat
  grad0 : Nat
  grad1 : Nat
  delta : Nat
  input : Nat
  target : Nat
  output : Nat
  stack : Nat → F
  work : Nat
  workJunk : Nat → F

/-- What the program leaves: for every parameter the two numbers that are compared and whether the test failed, the numbers it prints (lines
111-112), and the network. -/
structure Outcome (F : Type) where
  compared : List (F × F)
  failed : List Bool
  nTests : Nat
  nFail : Nat
  nn : Net F

variable [FloatOps F]

/-- The condition of a failure, tests/test_backpropagation.c:93. -/
def deviates (eps grad numeric : F) : Bool := lt eps (abs (sub grad numeric))

/-- What changes in the loop: `delta_param`, the network, `output` and `grad1`. -/
structure State (F : Type) where
  dp : View F
  nn : Net F
  output : View F
  grad1 : View F

/-- The body of the loop, tests/test_backpropagation.c:79-92: the new state, and the two numbers of the comparison. -/
def step (env : CustomEnv F) (c : Cfg) (sys : Sys F) (loss : Metric) (nOut : Nat) (input target grad0 : View F) (J0 delta : F)
    (i : Nat) (st : State F) : M (State F × F × F) := do
  let dp ← st.dp.store i delta
  let nn ← update c st.nn dp
  let output ← predict env c sys.work sys.workJunk nn input st.output
  let grad1 ← backpropagation env c sys.work sys.workJunk nn input target st.grad1
  let dp ← dp.store i (neg delta)
  let nn ← update c nn dp
  let dp ← dp.store i zero
  let g0 ← grad0.load i
  let g1 ← grad1.load i
  let J1 ← runMetric loss nOut output target
  pure (⟨dp, nn, output, grad1⟩, mul (lit 1 2) (add g0 g1), div (sub J1 J0) delta)

/-- The loop over the parameters, tests/test_backpropagation.c:78-107: `k` tests, from parameter `i` on. -/
def loop (env : CustomEnv F) (c : Cfg) (sys : Sys F) (loss : Metric) (nOut : Nat) (input target grad0 : View F) (J0 delta eps : F) :
    Nat → Nat → State F → M (List (F × F) × List Bool × Nat × Nat × State F)
  | 0, _, st => pure ([], [], 0, 0, st)
  | k + 1, i, st => do
    let (st, grad, numeric) ← step env c sys loss nOut input target grad0 J0 delta i st
    let b := deviates eps grad numeric
    let (l, bs, n, f, st) ← loop env c sys loss nOut input target grad0 J0 delta eps k (i + 1) st
    pure ((grad, numeric) :: l, b :: bs, n + 1, if b then f + 1 else f, st)

/-- `main`, tests/test_backpropagation.c:12-115 (the branch after `#else` is not compiled). -/
def main (env : CustomEnv F) (c : Cfg) (sys : Sys F) (recs : List ActRecord) (h : Heap) (rs : RandState F) : M (Outcome F) := do
  let (net, recs, _) ← createNN sys.ok sys.dl 2 [214, 64, 5] (some [some "tanh", some "sigmoid"]) recs h
  match net with
  | none => .error .assertFail
  | some net => do
    let (nn, _) ← initializeNN sys.rnd sys.fuel recs none (some (net.toNet sys.addr sys.junk)) rs
    match nn with
    | none => .error .nullDeref
    | some nn => do
      let nn := setLoss recs nn "mean_squared_error"
      match getMetricFunc (getLossName nn.loss) with
      | none => .error .nullDeref
      | some loss => do
        let n ← totalNParameters nn
        let grad0 := stackArray sys.grad0 n sys.stack
        let grad1 := stackArray sys.grad1 n sys.stack
        let dp : View F := ⟨sys.delta, List.replicate n zero⟩
        if !(isAligned c sys.input && isAligned c sys.target && isAligned c sys.output) then .error .assertFail
        else do
          let input : View F := ⟨sys.input, List.replicate 214 one⟩
          let target : View F := ⟨sys.target, List.replicate 5 one⟩
          let output ← predict env c sys.work sys.workJunk nn input (stackArray sys.output 5 sys.stack)
          let J0 ← runMetric loss 5 output target
          let grad0 ← backpropagation env c sys.work sys.workJunk nn input target grad0
          let (l, bs, n, f, st) ← loop env c sys loss 5 input target grad0 J0 (lit 1 10000) (lit 1 100) n 0 ⟨dp, nn, output, grad1⟩
          pure ⟨l, bs, n, f, st.nn⟩

end NN.GradCheck
