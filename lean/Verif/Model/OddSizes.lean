import Verif.Model.Create
import Verif.Model.Params
/-
Model of tests/test_oddsizes.c.  Simplified: the text is not modelled, only the numbers that are printed.
-/
namespace NN.OddSizes
open FloatOps
variable {F : Type}

/-- An entry of `test_cases`, lines 11-15: `INT_ARRAY` and `STR_ARRAY` of src/neuralnet.h:35-36; the second ends with NULL. -/
structure Case where
  sizes : List Int
  activations : List (Option String)
  loss : String

/-- `test_cases`, lines 15-27. -/
def testCases : List Case :=
  [⟨[231, 128, 5], [some "relu", some "sigmoid", none], "binary_crossentropy"⟩,
   ⟨[53, 19, 13, 7], [some "relu", some "tanh", some "sigmoid", none], "binary_crossentropy"⟩,
   ⟨[103, 53, 19, 13, 7], [some "relu", some "hard_sigmoid", some "tanh", some "softmax", none], "categorical_crossentropy"⟩]

/-- `while( *p++ ) n_layers++;`, lines 42-43. -/
def countNames : List (Option String) → M Nat
  | [] => .error .oob
  | none :: _ => pure 0
  | some _ :: l => do
    let n ← countNames l
    pure (n + 1)

/-- What the system gives: memory, random numbers, where the work areas of `neuralnet_predict` and `neuralnet_backpropagation` are and
what is in them. -/
structure Sys (F : Type) where
  ok : Nat → Bool
  addr : Nat → Nat
  junk : Nat → Nat → F
  dl : DynLinker
  rnd : Rand
  fuel : Nat
  work : Nat
  workJunk : Nat → F

/-- What is kept from one network to the next. -/
structure State (F : Type) where
  recs : List ActRecord
  heap : Heap
  rand : RandState F
  tests : Nat
  fails : Nat

/-- What is printed about a network: the predictions (lines 66-68) and one number of the gradient (line 76). -/
structure Shown (F : Type) where
  predictions : List F
  gradient : F

/-- `simd_malloc( n * sizeof(float) )`: the block and its contents. -/
def array (sys : Sys F) (n : Nat) (h : Heap) : Option (Nat × View F) × Heap :=
  match h.malloc sys.ok with
  | (none, h) => (none, h)
  | (some b, h) => (some (b, blockView sys.addr sys.junk n (.blk b)), h)

variable [FloatOps F]

/-- The body of the loop, lines 38-83.  A network that is NULL counts as a failed test and is then used (line 51); the arrays are used
without a check. -/
def runCase (env : CustomEnv F) (c : Cfg) (sys : Sys F) (cs : Case) (st : State F) : M (Shown F × State F) := do
  let nLayers ← countNames cs.activations
  let (net, recs, h) ← createNN sys.ok sys.dl nLayers cs.sizes (some cs.activations) st.recs st.heap
  let tests := st.tests + 1
  let fails := if net.isNone then st.fails + 1 else st.fails
  match net with
  | none => .error .nullDeref
  | some net => do
    let nn : Net F := net.toNet sys.addr sys.junk
    let nIn := nn.nInput
    let nOut := nn.nOutput
    let (nn, rs) ← initializeNN sys.rnd sys.fuel recs none (some nn) st.rand
    match nn with
    | none => .error .nullDeref
    | some nn => do
      let (input, h) := array sys nIn h
      let (output, h) := array sys nOut h
      let (target, h) := array sys nOut h
      let n ← totalNParameters nn
      let (grad, h) := array sys n h
      match input, output, target, grad with
      | some (b1, X), some (b2, O), some (b3, Y), some (b4, G) => do
        let X : View F := ⟨X.addr, List.replicate nIn one⟩
        let O ← predict env c sys.work sys.workJunk nn X O
        let nn := setLoss recs nn cs.loss
        let Y : View F := ⟨Y.addr, List.replicate nOut one⟩
        let G ← backpropagation env c sys.work sys.workJunk nn X Y G
        let g ← G.load 10
        let h ← h.free b1
        let h ← h.free b2
        let h ← h.free b3
        let h ← h.free b4
        let h ← freeNN (some net) h
        pure (⟨O.data, g⟩, ⟨recs, h, rs, tests, fails⟩)
      | _, _, _, _ => .error .nullDeref

/-- The loop, lines 37-84. -/
def runCases (env : CustomEnv F) (c : Cfg) (sys : Sys F) : List Case → State F → M (List (Shown F) × State F)
  | [], st => pure ([], st)
  | cs :: l, st => do
    let (s, st) ← runCase env c sys cs st
    let (ss, st) ← runCases env c sys l st
    pure (s :: ss, st)

/-- `main`, lines 29-87: what is printed, `test_count`, `fail_count`, and the memory at the end. -/
def main (env : CustomEnv F) (c : Cfg) (sys : Sys F) (recs : List ActRecord) (h : Heap) (rs : RandState F) :
    M (List (Shown F) × State F) :=
  runCases env c sys testCases ⟨recs, h, rs, 0, 0⟩

end NN.OddSizes
