import Verif.Model.Trainer
/-
Model of examples/test_sgd.c.  Simplified: the messages of `getopt_long` on stderr and the freeing at the end are left out.
-/
namespace NN.TestSgd
open FloatOps Trainer
variable {F : Type}

/-- `!strncmp( a, b, n )`: compare up to `n` characters, stop at the end of a string (`[]`: the terminating 0). -/
def strncmpEq : Bytes → Bytes → Nat → Bool
  | _, _, 0 => true
  | [], [], _ + 1 => true
  | x :: a, y :: b, n + 1 => x == y && strncmpEq a b n
  | _, _, _ + 1 => false

/-- `string_to_bool`, lines 25-41. -/
def stringToBool (s : Bytes) : Bool :=
  if strncmpEq s (str "true") 4 then true
  else if strncmpEq s (str "True") 4 then true
  else if strncmpEq s (str "Yes") 3 then true
  else if strncmpEq s (str "1") 1 then true
  else false

/-- `long_options`, lines 50-56; all have a required argument. -/
def longOptions : List (String × Char) := [("learning_rate", 'l'), ("momentum", 'm'), ("nesterov", 'n')]

/-- What `getopt_long` returns for an option, lines 59-60, `none` is '?'.  There are no short options; long names may be abbreviated
as long as only one name fits. -/
def getopt : CmdArg → Option (Char × String)
  | .short _ _ => none
  | .long name arg =>
    match longOptions.find? (fun p => p.1 == name) with
    | some p => arg.map fun a => (p.2, a)
    | none =>
      match longOptions.filter (fun p => name.toList.isPrefixOf p.1.toList) with
      | [p] => arg.map fun a => (p.2, a)
      | _ => none

/-- The local variables of `main` that the options set, lines 45-47. -/
structure Opts (F : Type) where
  learningRate : F
  momentum : F
  nesterov : Bool

/-- Their initial values, lines 45-47. -/
def Opts.initial [FloatOps F] : Opts F := ⟨lit 1 100, zero, false⟩

/-- One turn of the `switch`, lines 66-88 (case 0 needs an option with a flag).  It has no case for '?'. -/
def setOpt (strtof : Bytes → F) (o : Opts F) : Option (Char × String) → Opts F
  | some ('l', a) => { o with learningRate := strtof (str a) }
  | some ('m', a) => { o with momentum := strtof (str a) }
  | some ('n', a) => { o with nesterov := stringToBool (str a) }
  | _ => o

/-- The loop over the options, lines 49-89. -/
def parse (strtof : Bytes → F) (o : Opts F) (args : List CmdArg) : Opts F := args.foldl (fun o a => setOpt strtof o (getopt a)) o

/-- `%5.4f` and `%.7e`. -/
structure Format (F : Type) where
  fixed : F → Bytes
  sci : F → Bytes

section
variable [FloatOps F]

/-- Lines 91-94. -/
def checkNesterov (o : Opts F) : Opts F × Bytes :=
  if le o.momentum zero && o.nesterov then
    ({ o with nesterov := false }, str "Nesterov w/o momentum does not make sense. setting nesterov to false.\n")
  else (o, [])

/-- Lines 96-98. -/
def report (fm : Format F) (o : Opts F) : Bytes :=
  str "Learning rate: " ++ fm.fixed o.learningRate ++ str "\n" ++ (str "Momentum: " ++ fm.fixed o.momentum ++ str "\n") ++
    (str "Nesterov: " ++ str (if o.nesterov then "True" else "False") ++ str "\n")

end

/-- Lines 100-113: the first four arrays; none of them may be in Fortran order. -/
def loadData (lib : ZipLib) (d : Disk) (mem : Nat → Bool) : M (NpyArray × NpyArray × NpyArray × NpyArray) := do
  match ← listLoad lib d mem "mushroom_train.npz" with
  | (_, tX) :: (_, tY) :: (_, vX) :: (_, vY) :: _ =>
    if tX.fortran || tY.fortran || vX.fortran || vY.fortran then .error .assertFail else pure (tX, tY, vX, vY)
  | _ => .error .nullDeref

/-- `longest_metric_name_len`, lines 152-159. -/
def columnWidth (ms : List Metric) : Nat :=
  ms.foldl (fun m x => if m < (str (getMetricName (some x))).length then (str (getMetricName (some x))).length else m) 0 + 1

/-- The names in their columns, lines 160-161 and 163-164. -/
def names (ms : List Metric) : Bytes := (ms.map fun m => padLeft (columnWidth ms) 32 (str (getMetricName (some m)))).flatten

/-- The heading of the table, lines 151-166. -/
def heading (ms : List Metric) : Bytes := str "Epoch" ++ names ms ++ names ms ++ str "\n"

/-- A row of the table, lines 172-175. -/
def row (fm : Format F) (ms : List Metric) (i : Nat) (results : List F) : Bytes :=
  padLeft 4 32 (dec i) ++ str " " ++ ((results.take (2 * ms.length)).map fun x => padLeft (columnWidth ms) 32 (fm.sci x)).flatten ++
    str "\n"

variable [FloatOps F]

/-- The loop over the epochs, lines 168-176; it returns also the results of every epoch. -/
def loop (env : CustomEnv F) (c : Cfg) (r : Nat → Nat) : List (EpochCall F) → Statics F × AnyOpt F × Nat →
    M (List (List F) × Statics F × AnyOpt F × Nat)
  | [], s => pure ([], s)
  | k :: ks, (st, s, q) => do
    let (st, s, q, res) ← k.run env c r q st s
    let (rows, s) ← loop env c r ks (st, s, q)
    pure (res.data :: rows, s)

/-- What `main` leaves: the trained network, the disk, the results of the epochs and the text on the screen. -/
structure Outcome (F : Type) where
  nn : Net F
  d : Disk
  results : List (List F)
  text : Bytes

/-- `main`, lines 91-179.  `sys`: see general-trainer (`Trainer.Sys`); `rnd`, `fuel`: the random numbers of `neuralnet_initialize`. -/
def main (lb : Lib F) (fm : Format F) (sys : Sys F) (rnd : Rand) (fuel : Nat) (recs : List ActRecord) (h : Heap) (rs : RandState F)
    (st : Statics F) (d : Disk) (o : Opts F) : M (Outcome F) := do
  let (o, warning) := checkNesterov o
  let (tX, tY, vX, vY) ← loadData lb.zip d sys.mem
  let (net, recs, _) ← createNN sys.ok sys.dl 3 [castInt (dim tX 1), 61, 28, 1]
    (some [some "relu", some "relu", some "sigmoid"]) recs h
  match net with
  | none => .error .assertFail
  | some net => do
    let (nn, rs) ← initializeNN rnd fuel recs (some [some "kaiming", some "kaiming", some "kaiming"])
      (some (net.toNet sys.addr sys.junk)) rs
    match nn with
    | none => .error .nullDeref
    | some nn => do
      let nn := setLoss recs nn "binary_crossentropy"
      let (st, sgd) ← newAny st nn true 16
        (some [getMetricFunc (getLossName nn.loss), getMetricFunc "categorical_accuracy", none]) sys.vec1 sys.vec2
        (.sgd o.learningRate zero zero false)
      let ms ← metricList (metricsArray st sgd.opt.metrics)
      let data : Data F := ⟨dim tX 0 % 2 ^ 32, floats lb.bits sys.trainX tX, floats lb.bits sys.trainY tY,
        dim vX 0 % 2 ^ 32, floats lb.bits sys.verifyX vX, floats lb.bits sys.verifyY vY⟩
      let (rows, _, sgd, _) ← loop lb.env lb.c rnd.r ((List.range 10).map (call sys data ms.length)) (st, sgd, rs.k)
      let d ← saveNN lb.zip lb.bits recs d (some sgd.opt.nn) (some "after-10-epochs.npz")
      pure ⟨sgd.opt.nn, d, rows, warning ++ report fm o ++ heading ms ++ (rows.zipIdx.map fun p => row fm ms p.2 p.1).flatten⟩

/-- The program. -/
def program (lb : Lib F) (fm : Format F) (strtof : Bytes → F) (sys : Sys F) (rnd : Rand) (fuel : Nat) (recs : List ActRecord) (h : Heap)
    (rs : RandState F) (st : Statics F) (d : Disk) (args : List CmdArg) : M (Outcome F) :=
  main lb fm sys rnd fuel recs h rs st d (parse strtof Opts.initial args)

end NN.TestSgd
