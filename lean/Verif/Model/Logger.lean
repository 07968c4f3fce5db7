import Verif.Model.Callbacks
import Verif.Model.CString
/-
Model of src/logger.c.
-/
namespace NN
open FloatOps
variable {F : Type} [FloatOps F]

/-- The files: contents (`none`: does not exist), and whether `fopen` for reading / appending succeeds. -/
structure Disk where
  content : String → Option Bytes
  readable : String → Bool
  writable : String → Bool

/-- `logger_t`, src/logger.c:14-21. -/
structure Logger where
  count : Int
  filename : Option String
  noStdout : Bool

/-- `MAX_BUFFER`, src/logger.c:26. -/
def maxBuffer : Nat := 255

/-- Lines 46-60 of src/logger.c on the contents of the file, with `epoch_count == 0`.  `fseek` to 255 bytes before the end
fails on a shorter file and leaves the position at the start. -/
def lastEpoch (file : Bytes) : M Int :=
  let buf := file.drop (file.length - maxBuffer)
  match buf.getLast? with
  | none => .error .oob                                   -- buf[len-1] with len = 0
  | some last =>
    match strrchr 10 (cstr (if last = 10 then buf.dropLast else buf)) with
    | none => pure 0
    | some i =>
      let buf' := if last = 10 ∨ last = 0 then buf.dropLast ++ [10] else buf
      let line := cstr (buf'.drop (i + 1))
      match strstr (str "Epoch") line with
      | none => .error .nullDeref                         -- NULL + 5
      | some j => do
        let v ← atoi (line.drop (j + 5))
        if v + 1 < 2 ^ 31 then pure (v + 1) else .error .overflow

/-- `find_last_epoch_from_logfile`, src/logger.c:37-63. -/
def findLastEpoch (d : Disk) (l : Logger) : M Int :=
  if l.count = 0 then
    match l.filename with
    | none => pure l.count
    | some f =>
      match d.content f with
      | none => pure l.count
      | some file => if d.readable f then lastEpoch file else pure l.count
  else pure l.count

/-- `logger_new`, src/logger.c:28-34 (the `malloc` succeeds). -/
def newLogger (d : Disk) (count : Int) (filename : Option String) (noStdout : Bool) : M Logger := do
  let e ← findLastEpoch d ⟨count, filename, noStdout⟩
  pure ⟨e, filename, noStdout⟩

/-- The local time of day, `struct tm`. -/
structure Time where
  hour : Nat
  min : Nat
  sec : Nat

/-- One metric of the line, src/logger.c:86-87.  `fmt` is `%5.5e`. -/
def logEntry (fmt : F → Bytes) (valid : Bool) (m : Metric) (x : F) : Bytes :=
  (if valid then str "val_" else []) ++ str (getMetricName (some m)) ++ str ": " ++ fmt x ++ str " "

/-- The text of the line, src/logger.c:71-91. -/
def logText (fmt : F → Bytes) (t : Time) (epoch : Int) (ms : List Metric) (train : List F) (valid : List F) : Bytes :=
  str "[" ++ padLeft 2 48 (dec t.hour) ++ str ":" ++ padLeft 2 48 (dec t.min) ++ str ":" ++ padLeft 2 48 (dec t.sec) ++
  str "] " ++ str "Epoch" ++ str " " ++ padLeft 3 32 (decInt epoch) ++ str " " ++
  (List.zipWith (logEntry fmt false) ms train).flatten ++ (List.zipWith (logEntry fmt true) ms valid).flatten ++ str "\n"

/-- The line is built by `sprintf` in a buffer of 256 bytes; afterwards its length is asserted to be below 255
(src/logger.c:69, 92). -/
def logLine (fmt : F → Bytes) (t : Time) (epoch : Int) (k : CallbackArgs F) : M Bytes := do
  let ms ← metricList k.metrics
  let train ← k.results.loadu ms.length 0
  let valid ← if k.valid then k.results.loadu ms.length ms.length else pure []
  let line := logText fmt t epoch ms train valid
  if maxBuffer + 1 < line.length + 1 then .error .oob
  else if line.length < maxBuffer then pure line else .error .assertFail

/-- `logger_callback_run`, src/logger.c:65-108.  Gives the new state and what is printed on stdout.  A write to an opened
file succeeds. -/
def loggerRun (fmt : F → Bytes) (t : Time) (k : CallbackArgs F) (l : Logger) (d : Disk) : M (Logger × Disk × Bytes) := do
  let line ← logLine fmt t l.count k
  if l.count + 1 < 2 ^ 31 then
    let d' := match l.filename with
      | none => d
      | some f =>
        if d.writable f then { d with content := fun g => if g = f then some ((d.content f).getD [] ++ line) else d.content g }
        else d
    pure ({ l with count := l.count + 1 }, d', if l.noStdout then [] else line)
  else .error .overflow

/-- A training session: a new logger for the file, then one call per epoch. -/
def loggerRuns (fmt : F → Bytes) (ks : List (Time × CallbackArgs F)) (s : Logger × Disk) : M (Logger × Disk) :=
  ks.foldlM (fun s k => do
    let r ← loggerRun fmt k.1 k.2 s.1 s.2
    pure (r.1, r.2.1)) s

def loggerSession (fmt : F → Bytes) (filename : String) (noStdout : Bool) (d : Disk) (ks : List (Time × CallbackArgs F)) :
    M Disk := do
  let l ← newLogger d 0 (some filename) noStdout
  let r ← loggerRuns fmt ks (l, d)
  pure r.2

end NN
