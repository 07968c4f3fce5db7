import Verif.Model.Optimizer
/-
Model of src/earlystopping.c and src/modelcheckpoint.c.  The static variables of the two callback functions are explicit
state, shared by all callbacks of the process.
-/
namespace NN
open FloatOps
variable {F : Type} [FloatOps F]

/-- `FLT_MAX` = (2^24-1) 2^104. -/
def fltMax : F := lit 340282346638528859811704183484516925440 1

/-- One call of `callback_run`: the optimizer's metrics array, `epoch_results`, `validation_set_given`. -/
structure CallbackArgs (F : Type) where
  metrics : List (Option Metric)
  results : View F
  valid : Bool

/-- The monitored score, src/earlystopping.c:37-43 and src/modelcheckpoint.c:40-46 (`optimizer_get_n_metrics`,
src/optimizer.h:134-145, on an array that is not NULL). -/
def monitoredScore (monitorIdx : Int) (k : CallbackArgs F) : M F := do
  let ms ← metricList k.metrics
  k.results.load (if monitorIdx < 0 then (if k.valid then ms.length else 0) else monitorIdx.toNat)

/-- The condition of src/earlystopping.c:44-54 and src/modelcheckpoint.c:47-61 (`score > best_so_far` is
`lt best score`). -/
def isImprovement (greater : Bool) (best score : F) : Bool :=
  if greater then lt best score || eq best fltMax else lt score best

/-! ### Early stopping -/

/-- `best_so_far` and `epochs_since_improvement`, src/earlystopping.c:32-33. -/
structure EsStatics (F : Type) where
  best : F
  since : Nat

/-- The process starts with these. -/
def EsStatics.initial : EsStatics F := ⟨fltMax, 0⟩

/-- `earlystopping_t`, src/earlystopping.c:9-17. -/
structure EarlyStopping where
  patience : Int
  monitorIdx : Int
  greater : Bool
  flag : Bool

/-- `earlystopping_new`, src/earlystopping.c:20-26 with src/callback.h:68-81 (the `malloc` succeeds). -/
def newEarlyStopping (patience monitorIdx : Int) (greater : Bool) : EarlyStopping :=
  ⟨patience, monitorIdx, greater, false⟩

/-- `earlystopping_callback_run`, src/earlystopping.c:28-67. -/
def earlystoppingRun (k : CallbackArgs F) (s : EsStatics F × EarlyStopping) : M (EsStatics F × EarlyStopping) := do
  let score ← monitoredScore s.2.monitorIdx k
  if isImprovement s.2.greater s.1.best score then pure (⟨score, 0⟩, s.2)
  else if s.1.since + 1 < 2 ^ 31 then
    pure (⟨s.1.best, s.1.since + 1⟩,
      if s.2.patience < (s.1.since + 1 : Nat) then { s.2 with flag := true } else s.2)
  else .error .overflow

/-- `earlystopping_do_stop`, src/earlystopping.c:69-72; `none` is NULL. -/
def earlystoppingDoStop : Option EarlyStopping → Bool
  | some es => es.flag
  | none => false

/-- One run after the other. -/
def earlystoppingRuns (ks : List (CallbackArgs F)) (s : EsStatics F × EarlyStopping) : M (EsStatics F × EarlyStopping) :=
  ks.foldlM (fun s k => earlystoppingRun k s) s

/-! ### Model checkpoint -/

/-- `modelcheckpoint_t`, src/modelcheckpoint.c:13-21 (`verbose` only prints). -/
structure Checkpoint where
  filename : Option String
  monitorIdx : Int
  greater : Bool

/-- The file it writes, src/modelcheckpoint.c:64. -/
def Checkpoint.file (cb : Checkpoint) : String := cb.filename.getD "checkpoint.npz"

/-- `modelcheckpoint_callback_run`, src/modelcheckpoint.c:32-66.  `save` is `neuralnet_save` acting on the file system `W`;
`s.1` is the static `best_so_far`. -/
def checkpointRun {W : Type} (save : Net F → String → W → M W) (cb : Checkpoint) (nn : Net F) (k : CallbackArgs F)
    (s : F × W) : M (F × W) := do
  let score ← monitoredScore cb.monitorIdx k
  if isImprovement cb.greater s.1 score then do
    let w ← save nn cb.file s.2
    pure (score, w)
  else pure s

/-- One run after the other; the network is the one of that moment. -/
def checkpointRuns {W : Type} (save : Net F → String → W → M W) (cb : Checkpoint) (ks : List (Net F × CallbackArgs F))
    (s : F × W) : M (F × W) :=
  ks.foldlM (fun s k => checkpointRun save cb k.1 k.2 s) s

end NN
