import Verif.Model.TestSgd
import Verif.Model.Examples
/-
Model of examples/example_02.c and examples/example_02b.c: the first program trains a network, reports its metrics and saves it, the
second loads it and computes the metrics again.  Simplified: the progress bar and the freeing at the end are left out; the array
`predictions` of the second program is assumed to fit on the stack.
-/
namespace NN.Example02
open FloatOps Trainer
variable {F : Type}

/-- The data, examples/example_02.c:17-31 and examples/example_02b.c:46-60: `assert( filelist )`, then the first four arrays; none of
them may be in Fortran order. -/
def loadData (lib : ZipLib) (d : Disk) (mem : Nat → Bool) : M (NpyArray × NpyArray × NpyArray × NpyArray) := do
  match ← listLoad lib d mem "mushroom_train.npz" with
  | [] => .error .assertFail
  | (_, tX) :: (_, tY) :: (_, vX) :: (_, vY) :: _ =>
    if tX.fortran || tY.fortran || vX.fortran || vY.fortran then .error .assertFail else pure (tX, tY, vX, vY)
  | _ => .error .nullDeref

/-- `"%-ws"`: fill up with spaces on the right. -/
def padRight (w : Nat) (s : Bytes) : Bytes := s ++ List.replicate (w - s.length) 32

/-- `printf( "%-6s %-20s: %5.5f\n", … )`, examples/example_02.c:74; `fixed` is `%5.5f`. -/
def line (fixed : F → Bytes) (set : String) (m : Metric) (x : F) : Bytes :=
  padRight 6 (str set) ++ str " " ++ padRight 20 (str (getMetricName (some m))) ++ str ": " ++ fixed x ++ str "\n"

/-- The two loops, examples/example_02.c:72-74. -/
def table (fixed : F → Bytes) (ms : List Metric) (results : List F) : Bytes :=
  (List.zipWith (line fixed "Train") ms results).flatten ++ (List.zipWith (line fixed "Test") ms (results.drop ms.length)).flatten

/-- What the first program leaves: the trained network, the disk, the array `results` and the text on the screen. -/
structure Outcome (F : Type) where
  nn : Net F
  d : Disk
  results : List F
  text : Bytes

variable [FloatOps F]

/-- `main` of examples/example_02.c:14-89. -/
def first (lb : Lib F) (fixed : F → Bytes) (sys : Sys F) (rnd : Rand) (fuel : Nat) (recs : List ActRecord) (h : Heap) (rs : RandState F)
    (st : Statics F) (d : Disk) : M (Outcome F) := do
  let (tX, tY, vX, vY) ← loadData lb.zip d sys.mem
  let (net, recs, _) ← createNN sys.ok sys.dl 3 [castInt (dim tX 1), 64, 32, 1]
    (some [some "relu", some "relu", some "sigmoid"]) recs h
  match net with
  | none => .error .assertFail
  | some net => do
    let (nn, rs) ← initializeNN rnd fuel recs (some [some "kaiming", some "kaiming", some "kaiming"])
      (some (net.toNet sys.addr sys.junk)) rs
    match nn with
    | none => .error .nullDeref
    | some nn => do
      let nn := setLoss recs nn "binary_crossentropy"
      let (st, sgd) ← newAny st nn true 1 (some [getMetricFunc (getLossName nn.loss), getMetricFunc "mean_absolute_error",
        getMetricFunc "binary_accuracy", none]) sys.vec1 sys.vec2 (.sgd (lit 1 100) zero zero false)
      let ms ← metricList (metricsArray st sgd.opt.metrics)
      let data : Data F := ⟨dim tX 0 % 2 ^ 32, floats lb.bits sys.trainX tX, floats lb.bits sys.trainY tY,
        dim vX 0 % 2 ^ 32, floats lb.bits sys.verifyX vX, floats lb.bits sys.verifyY vY⟩
      let (_, sgd, _, res) ← (call sys data ms.length 0).run lb.env lb.c rnd.r rs.k st sgd
      let d ← saveNN lb.zip lb.bits recs d (some sgd.opt.nn) (some "mushroom-neuralnet.npz")
      pure ⟨sgd.opt.nn, d, res.data, table fixed ms res.data⟩

/-- What the system gives a call of `local_evaluate`: the stacks and the order of the threads of `neuralnet_predict_batch`, place and
contents of `predictions`. -/
structure EvalSys (F : Type) where
  workAddr : Nat → Nat
  junk : Nat → Nat → F
  order : List Nat
  predAddr : Nat
  predJunk : Nat → F

/-- What it gives the second program: see `Trainer.Sys`. -/
structure Sys2 (F : Type) where
  mem : Nat → Bool
  ok : Nat → Bool
  addr : Nat → Nat
  junk : Nat → Nat → F
  dl : DynLinker
  trainX : Nat
  trainY : Nat
  testX : Nat
  testY : Nat
  train : EvalSys F
  test : EvalSys F
  /-- Address and old contents of `results`. -/
  results : Nat
  old : Nat → F

/-- A call of `local_evaluate` with the arguments of examples/example_02b.c:72-73.  The number of samples is an `int`; an array of
negative size is undefined behaviour, like one of size 0. -/
def evalCall (lb : Lib F) (e : EvalSys F) (nn : Net F) (n : Int) (X Y : View F) (metrics : List (Option Metric)) (results : View F) :
    M (View F) :=
  if n ≤ 0 then .error .oob
  else Examples.localEvaluate lb.env lb.c e.workAddr e.junk e.order e.predAddr e.predJunk nn n.toNat X Y metrics results

/-- `main` of examples/example_02b.c:43-84: the array `results` and the text on the screen. -/
def second (lb : Lib F) (fixed : F → Bytes) (sys : Sys2 F) (recs : List ActRecord) (h : Heap) (d : Disk) : M (List F × Bytes) := do
  let (tX, tY, vX, vY) ← loadData lb.zip d sys.mem
  let (nn, _, _) ← loadNN lb.zip lb.bits d sys.mem sys.ok sys.dl sys.addr sys.junk "mushroom-neuralnet.npz" recs h
  match nn with
  | none => .error .assertFail
  | some nn => do
    let metrics := [getMetricFunc "binary_crossentropy", getMetricFunc "binary_accuracy", none]
    let results : View F := stackArray sys.results 4 sys.old
    let results ← evalCall lb sys.train nn (castInt (dim tX 0)) (floats lb.bits sys.trainX tX) (floats lb.bits sys.trainY tY) metrics results
    let tail ← evalCall lb sys.test nn (castInt (dim vX 0)) (floats lb.bits sys.testX vX) (floats lb.bits sys.testY vY) metrics
      (results.offset 2)
    let results := putGrad results 2 tail
    let r0 ← results.load 0
    let r1 ← results.load 1
    let r2 ← results.load 2
    let r3 ← results.load 3
    pure (results.data, str "Train loss    : " ++ fixed r0 ++ str "\nTrain accuracy: " ++ fixed r1 ++ str "\nTest loss     : " ++ fixed r2 ++
      str "\nTest accuracy : " ++ fixed r3 ++ str "\n")

end NN.Example02
