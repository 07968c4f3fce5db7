import Verif.Model.Optimizer
import Verif.Model.SaveLoad
/-
Programs that use the library: an optimizer of any kind (`optimizer_t` with its function pointers, src/optimizer.h:25-46) and
sequences of calls of `optimizer_run_epoch`.
-/
namespace NN
open FloatOps
variable {F : Type}

/-- An `optimizer_t*` that points into one of the four structs. -/
inductive AnyOpt (F : Type) where
  | sgd (s : Sgd F)
  | adagrad (s : Adagrad F)
  | rmsprop (s : RmsProp F)
  | adam (s : Adam F)

/-- The `optimizer_t` at the start of the struct. -/
def AnyOpt.opt : AnyOpt F → Opt F
  | .sgd s => s.opt
  | .adagrad s => s.opt
  | .rmsprop s => s.opt
  | .adam s => s.opt

def AnyOpt.setPivot (p : Option (List Nat)) : AnyOpt F → AnyOpt F
  | .sgd s => .sgd { s with opt := { s.opt with pivot := p } }
  | .adagrad s => .adagrad { s with opt := { s.opt with pivot := p } }
  | .rmsprop s => .rmsprop { s with opt := { s.opt with pivot := p } }
  | .adam s => .adam { s with opt := { s.opt with pivot := p } }

/-- The last argument of the constructors, src/SGD.h:11-17, src/adagrad.h:10-15, src/RMSprop.h:14-23, src/adam.h:11-20. -/
inductive Settings (F : Type) where
  | sgd (lr decay momentum : F) (nesterov : Bool)
  | adagrad (lr decay : F)
  | rmsprop (lr decay rho momentum : F) (nesterov : Bool)
  | adam (lr beta1 beta2 weightDecay : F)

section
variable [FloatOps F]

/-- `opt->run_epoch`, src/optimizer.c:111. -/
def anyKind (env : CustomEnv F) (c : Cfg) (mem : Nat → BatchMem F) (fuel n : Nat) (X Y : View F) : OptKind F (AnyOpt F) where
  opt := AnyOpt.opt
  setPivot s p := s.setPivot p
  epoch st
    | .sgd s => do
      let (st, s) ← (sgdKind env c mem fuel n X Y).epoch st s
      pure (st, .sgd s)
    | .adagrad s => do
      let (st, s) ← (adagradKind env c mem fuel n X Y).epoch st s
      pure (st, .adagrad s)
    | .rmsprop s => do
      let (st, s) ← (rmspropKind env c mem fuel n X Y).epoch st s
      pure (st, .rmsprop s)
    | .adam s => do
      let (st, s) ← (adamKind env c mem fuel n X Y).epoch st s
      pure (st, .adam s)

/-- `SGD_new`, `adagrad_new`, `RMSprop_new`, `adam_new`; `addr`, `addr'`: where the work vectors are. -/
def newAny (st : Statics F) (nn : Net F) (shuffle : Bool) (batchsize : Int) (metrics : Option (List (Option Metric)))
    (addr addr' : Option Nat) : Settings F → M (Statics F × AnyOpt F)
  | .sgd lr decay momentum nesterov => do
    let (st, s) ← newSgd st nn shuffle batchsize metrics lr decay momentum nesterov addr
    pure (st, .sgd s)
  | .adagrad lr decay => do
    let (st, s) ← newAdagrad st nn shuffle batchsize metrics lr decay addr
    pure (st, .adagrad s)
  | .rmsprop lr decay rho momentum nesterov => do
    let (st, s) ← newRmsProp st nn shuffle batchsize metrics lr decay rho momentum nesterov addr addr'
    pure (st, .rmsprop s)
  | .adam lr beta1 beta2 wd => do
    let (st, s) ← newAdam st nn shuffle batchsize metrics lr beta1 beta2 wd addr addr'
    pure (st, .adam s)

end

/-- The arguments and the environment (stack addresses, old memory contents, schedules) of a call of `optimizer_run_epoch`. -/
structure EpochCall (F : Type) where
  n : Nat
  X : View F
  Y : View F
  nValid : Nat
  valid : Option (View F × View F)
  results : View F
  mem : Nat → BatchMem F
  fuel : Nat
  evalMem : Nat → ThreadMem F
  evalMemV : Nat → ThreadMem F
  sched : Sched
  schedV : Sched

/-- One call; `q` numbers of `rand()` have been used. -/
def EpochCall.run [FloatOps F] (k : EpochCall F) (env : CustomEnv F) (c : Cfg) (r : Nat → Nat) (q : Nat) (st : Statics F)
    (s : AnyOpt F) : M (Statics F × AnyOpt F × Nat × View F) :=
  runEpoch (anyKind env c k.mem k.fuel k.n k.X k.Y) env c k.evalMem k.evalMemV k.sched k.schedV r q true k.n k.X k.Y k.nValid
    k.valid k.results st s

/-- The loop of the training programs (examples/example_03.c:204-209): a sequence of calls with one optimizer. -/
def runEpochs [FloatOps F] (env : CustomEnv F) (c : Cfg) (r : Nat → Nat) : List (EpochCall F) → Statics F × AnyOpt F × Nat →
    M (Statics F × AnyOpt F × Nat)
  | [], s => pure s
  | k :: ks, (st, s, q) => do
    let (st, s, q, _) ← k.run env c r q st s
    runEpochs env c r ks (st, s, q)

/-- What a training program chooses, and what the system gives it. -/
structure Job (F : Type) where
  /-- Sizes of the layers, input first. -/
  sizes : List Nat
  funcs : List (Option String)
  inits : Option (List (Option String))
  loss : String
  shuffle : Bool
  batchsize : Int
  metrics : Option (List (Option Metric))
  settings : Settings F
  calls : List (EpochCall F)
  file : String
  /-- `malloc`: which calls succeed, addresses, old contents; work vectors of the optimizer. -/
  ok : Nat → Bool
  addr : Nat → Nat
  junk : Nat → Nat → F
  vec1 : Option Nat
  vec2 : Option Nat
  dl : DynLinker
  rand : Rand
  fuel : Nat

/-- The steps of a training program (examples/example_03.c:161-210; examples/general-trainer.c): create, `assert( nn )`,
initialise, set the loss, make an optimizer, train, save.  Data files, callbacks, printing and freeing are left out.  Returns the
trained network and the disk. -/
def Job.run [FloatOps F] (j : Job F) (env : CustomEnv F) (c : Cfg) (lib : ZipLib) (bits : FloatBits F) (recs : List ActRecord)
    (h : Heap) (rs : RandState F) (st : Statics F) (d : Disk) : M (Net F × Disk) := do
  let (net, recs, _) ← createNN j.ok j.dl (j.sizes.length - 1) (j.sizes.map Int.ofNat) (some j.funcs) recs h
  match net with
  | none => .error .assertFail
  | some net =>
    let (nn, rs) ← initializeNN j.rand j.fuel recs j.inits (some (net.toNet j.addr j.junk)) rs
    match nn with
    | none => .error .nullDeref
    | some nn =>
      let (st, o) ← newAny st (setLoss recs nn j.loss) j.shuffle j.batchsize j.metrics j.vec1 j.vec2 j.settings
      let (_, o, _) ← runEpochs env c j.rand.r j.calls (st, o, rs.k)
      let d ← saveNN lib bits recs d (some o.opt.nn) (some j.file)
      pure (o.opt.nn, d)

end NN
