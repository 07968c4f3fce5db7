import Verif.Model.Lifecycle
import Verif.Model.Logger
/-
Model of examples/general-trainer.c.  Simplified: printing is left out (`printf` of a NULL string prints "(null)", as in glibc; the
option variables that were never set are printed as unspecified numbers), and so is the cleaning up after the training.
-/
namespace NN.Trainer
open FloatOps
variable {F : Type}

/-! ### The command line -/

/-- An option on the command line with its argument: `-c arg` or `--name arg`; `none`: no argument follows. -/
inductive CmdArg where
  | short (c : Char) (arg : Option String)
  | long (name : String) (arg : Option String)

/-- `long_options`, lines 49-62; all have a required argument. -/
def longOptions : List (String × Char) :=
  [("trainset", 't'), ("verificationset", 'v'), ("neuralnet", 'n'), ("loss", 'l'), ("metrics", 'm'), ("optimizer", 'o'),
   ("learning-rate", 'a'), ("batch-size", 'b'), ("log", 'q'), ("early-stopping", 'e'), ("model-checkpoint", 's')]

/-- `short_options`, line 64; all have a required argument. -/
def shortOptions : List Char := ['t', 'v', 'n', 'l', 'o', 'a', 'b', 'q', 'e', 's']

/-- What `getopt_long` returns for an option, `none` is '?'.  Long names may be abbreviated as long as only one name fits. -/
def getoptLong : CmdArg → Option (Char × String)
  | .short c arg => if c ∈ shortOptions then arg.map fun a => (c, a) else none
  | .long name arg =>
    match longOptions.find? (fun p => p.1 == name) with
    | some p => arg.map fun a => (p.2, a)
    | none =>
      match longOptions.filter (fun p => name.toList.isPrefixOf p.1.toList) with
      | [p] => arg.map fun a => (p.2, a)
      | _ => none

/-- The local variables of `main` that the options set, lines 29-46; `none`: NULL, or not set. -/
structure Opts (F : Type) where
  trainset : Option String
  verificationset : Option String
  neuralnet : Option String
  log : Option String
  optimizer : String
  learningRate : F
  loss : Option String
  metrics : Option String
  batchSize : Int
  patience : Option Int
  earlyStoppingIdx : Option Int
  greaterIsBetter : Int

/-- Their initial values, lines 29-46. -/
def Opts.initial [FloatOps F] : Opts F where
  trainset := none
  verificationset := none
  neuralnet := none
  log := none
  optimizer := "adamw"
  learningRate := lit 1 1000
  loss := none
  metrics := none
  batchSize := 32
  patience := none
  earlyStoppingIdx := none
  greaterIsBetter := 1

/-- Functions of the C library: `strtof`, and the numbers that `sscanf( s, "%d,%d,%d", ... )` stores. -/
structure Scan (F : Type) where
  strtof : Bytes → F
  ints : Bytes → List Int

/-- One turn of the `switch`, lines 68-119.  `model_checkpoint` is NULL, so `-s` stores through NULL unless its argument is blank,
in which case `%s` stores nothing. -/
def setOpt (sc : Scan F) (o : Opts F) (c : Char) (arg : String) : M (Opts F) :=
  match c with
  | 't' => pure { o with trainset := some arg }
  | 'v' => pure { o with verificationset := some arg }
  | 'n' => pure { o with neuralnet := some arg }
  | 'l' => pure { o with loss := some arg }
  | 'm' => pure { o with metrics := some arg }
  | 'o' => pure { o with optimizer := arg }
  | 'a' => pure { o with learningRate := sc.strtof (str arg) }
  | 'b' => do
    let n ← atoi (str arg)
    pure { o with batchSize := n }
  | 'q' => pure { o with log := some arg }
  | 'e' =>
    let v := sc.ints (str arg)
    pure { o with
      patience := v[0]?.or o.patience
      earlyStoppingIdx := v[1]?.or o.earlyStoppingIdx
      greaterIsBetter := v[2]?.getD o.greaterIsBetter }
  | 's' => if (str arg).all isSpace then pure o else .error .nullDeref
  | _ => pure o

/-- The loop over the options, lines 67-120; `none`: usage message and `exit( EXIT_FAILURE )`. -/
def parseArgs (sc : Scan F) : List CmdArg → Opts F → M (Option (Opts F))
  | [], o => pure (some o)
  | a :: as, o =>
    match getoptLong a with
    | none => pure none
    | some (c, arg) => do
      let o ← setOpt sc o c arg
      parseArgs sc as o

/-! ### Setting up -/

/-- `npy_array_list_load` of a set, its first two arrays and the assertions about them, lines 137-146 and 149-158.  A NULL file
name cannot be opened. -/
def loadSet (lib : ZipLib) (d : Disk) (mem : Nat → Bool) (filename : Option String) : M (NpyArray × NpyArray) := do
  let l ← match filename with
    | none => pure []
    | some f => listLoad lib d mem f
  match l with
  | [] => .error .assertFail
  | [_] => .error .nullDeref
  | (_, x) :: (_, y) :: _ =>
    if x.fortran then .error .assertFail
    else if y.fortran then .error .assertFail
    else if dim x 0 = dim y 0 then pure (x, y)
    else .error .assertFail

/-- `(float*) m->data` -/
def floats (bits : FloatBits F) (addr : Nat) (m : NpyArray) : View F := ⟨addr, bits.decode (m.data.length / 4) m.data⟩

/-- The optimizer with this name and its settings, lines 182-245; `none`: `optim` stays NULL. -/
def settings [FloatOps F] (lr : F) (name : String) : Option (Settings F) :=
  if name = "SGD" then some (.sgd lr zero zero false)
  else if name = "RMSprop" then some (.rmsprop lr zero (lit 9 10) zero false)
  else if name = "adagrad" then some (.adagrad lr zero)
  else if name = "adam" then some (.adam lr (lit 9 10) (lit 999 1000) zero)
  else if name = "adamw" then some (.adam lr (lit 9 10) (lit 999 1000) (lit 1 10000))
  else none

/-- `get_metric_func( name )`; `strcmp` reads the name. -/
def metricOf : Option String → M (Option Metric)
  | none => .error .nullDeref
  | some s => pure (getMetricFunc s)

/-- `neuralnet_set_loss( nn, name )`. -/
def lossOf (recs : List ActRecord) (nn : Net F) : Option String → M (Net F)
  | none => .error .nullDeref
  | some s => pure (setLoss recs nn s)

/-- What the system gives the program: `malloc` (which calls succeed, addresses, old contents), the dynamic linker, addresses of the
data and the work vectors, `rand()`, the clock, `%5.5e`, and for every epoch the stack, the old contents of `results` and the
schedules (in `epoch i`; the data in there is not used). -/
structure Sys (F : Type) where
  mem : Nat → Bool
  ok : Nat → Bool
  addr : Nat → Nat
  junk : Nat → Nat → F
  dl : DynLinker
  trainX : Nat
  trainY : Nat
  verifyX : Nat
  verifyY : Nat
  vec1 : Option Nat
  vec2 : Option Nat
  rand : Nat → Nat
  clock : Nat → Time
  fmt : F → Bytes
  epoch : Nat → EpochCall F
  stack : Nat → Nat → F

/-- The data: number of samples (a `size_t` stored in an `int` and passed as `unsigned int`) and the arrays. -/
structure Data (F : Type) where
  n : Nat
  X : View F
  Y : View F
  nVerify : Nat
  verifyX : View F
  verifyY : View F

/-- The arguments of the call in epoch `i`, lines 279-281; `nMetrics` is `n_metrics`. -/
def call (sys : Sys F) (data : Data F) (nMetrics i : Nat) : EpochCall F :=
  { sys.epoch i with
    n := data.n, X := data.X, Y := data.Y, nValid := data.nVerify, valid := some (data.verifyX, data.verifyY)
    results := ⟨(sys.epoch i).results.addr, (List.range (2 * nMetrics)).map (sys.stack i)⟩ }

/-! ### The main loop -/

/-- What changes during the training: the static variables of the optimizers, the optimizer with its network, the number of calls of
`rand()`, the static `best_so_far` of the checkpoint, early stopping, the logger, the disk. -/
structure State (F : Type) where
  st : Statics F
  o : AnyOpt F
  q : Nat
  best : F
  es : EsStatics F × EarlyStopping
  lg : Logger
  d : Disk

/-- The parts of the library that do not change. -/
structure Lib (F : Type) where
  env : CustomEnv F
  c : Cfg
  zip : ZipLib
  bits : FloatBits F

variable [FloatOps F]

/-- One turn of the loop, lines 279-287: an epoch, then the callbacks (checkpoint, logger, early stopping) with
`validation_set_given` true. -/
def epoch (lb : Lib F) (sys : Sys F) (recs : List ActRecord) (data : Data F) (nMetrics i : Nat) (s : State F) : M (State F) := do
  let (st, o, q, results) ← (call sys data nMetrics i).run lb.env lb.c sys.rand s.q s.st s.o
  let k : CallbackArgs F := ⟨metricsArray st o.opt.metrics, results, true⟩
  let (best, d) ← checkpointRun (fun nn f d => saveNN lb.zip lb.bits recs d (some nn) (some f)) ⟨none, -1, false⟩ o.opt.nn k
    (s.best, s.d)
  let (lg, d, _) ← loggerRun sys.fmt (sys.clock i) k s.lg d
  let es ← earlystoppingRun k s.es
  pure ⟨st, o, q, best, es, lg, d⟩

/-- The loop, lines 278-290, with `todo` turns left. -/
def loop (lb : Lib F) (sys : Sys F) (recs : List ActRecord) (data : Data F) (nMetrics : Nat) : Nat → Nat → State F → M (State F)
  | 0, _, s => pure s
  | todo + 1, i, s => do
    let s ← epoch lb sys recs data nMetrics i s
    if earlystoppingDoStop (some s.es.2) then pure s
    else loop lb sys recs data nMetrics todo (i + 1) s

/-- `n_epochs`, line 40: no option changes it. -/
def nEpochs : Nat := 10

/-- Lines 136-290: load the data and the network, make the optimizer and the callbacks, train.  `recs`, `h`: loaded activation
functions and heap at the start; `st`: static variables of the optimizers. -/
def main (lb : Lib F) (sys : Sys F) (recs : List ActRecord) (h : Heap) (st : Statics F) (d : Disk) (op : Opts F) :
    M (State F) := do
  let (tX, tY) ← loadSet lb.zip d sys.mem op.trainset
  let (vX, vY) ← loadSet lb.zip d sys.mem op.verificationset
  if dim tX 1 = dim vX 1 ∧ dim tY 1 = dim vY 1 then do
    let (nn, recs, _) ← match op.neuralnet with
      | none => pure (none, recs, h)
      | some f => loadNN lb.zip lb.bits d sys.mem sys.ok sys.dl sys.addr sys.junk f recs h
    match nn with
    | none => .error .assertFail
    | some nn => do
      let nn ← lossOf recs nn op.loss
      if (nn.nInput : Int) = castInt (dim tX 1) ∧ (nn.nOutput : Int) = castInt (dim tY 1) then do
        let m ← metricOf op.metrics
        match settings op.learningRate op.optimizer with
        | none => .error .nullDeref                       -- optimizer_get_n_metrics( NULL )
        | some se => do
          let (st, o) ← newAny st nn true op.batchSize (some [getMetricFunc (getLossName nn.loss), m, none]) sys.vec1 sys.vec2 se
          let ms ← metricList (metricsArray st o.opt.metrics)
          let lg ← newLogger d 0 op.log false
          loop lb sys recs
            ⟨dim tX 0 % 2 ^ 32, floats lb.bits sys.trainX tX, floats lb.bits sys.trainY tY,
              dim vX 0 % 2 ^ 32, floats lb.bits sys.verifyX vX, floats lb.bits sys.verifyY vY⟩
            ms.length nEpochs 0 ⟨st, o, 0, fltMax, (EsStatics.initial, newEarlyStopping 10 (-1) false), lg, d⟩
      else .error .assertFail
  else .error .assertFail

/-- The program; `none`: it ends with the usage message. -/
def program (lb : Lib F) (sc : Scan F) (sys : Sys F) (recs : List ActRecord) (h : Heap) (st : Statics F) (d : Disk)
    (args : List CmdArg) : M (Option (State F)) := do
  match ← parseArgs sc args Opts.initial with
  | none => pure none
  | some op => do
    let s ← main lb sys recs h st d op
    pure (some s)

end NN.Trainer
