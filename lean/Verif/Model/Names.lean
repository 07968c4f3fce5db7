import Verif.Model.Activation
/-
Lookup of activation functions, losses and metrics by name.  C strings are Lean strings.
-/
namespace NN

/-- `loss_func` pointers, src/loss.c. -/
inductive Loss where
  | mse | mae | mape | cce | bce
  deriving DecidableEq, Repr

/-- `metric_func` pointers, src/metrics.c. -/
inductive Metric where
  | mse | mae | mape | cce | bce | categoricalAccuracy | binaryAccuracy
  deriving DecidableEq, Repr

/-- `get_loss_func`, src/loss.c:17-33. -/
def getLossFunc (name : String) : Option Loss :=
  if name = "mean_squared_error" then some .mse
  else if name = "mse" then some .mse
  else if name = "mean_absolute_error" then some .mae
  else if name = "mae" then some .mae
  else if name = "mean_absolute_percentage_error" then some .mape
  else if name = "mape" then some .mape
  else if name = "categorical_crossentropy" then some .cce
  else if name = "binary_crossentropy" then some .bce
  else none

/-- `get_loss_name`, src/loss.c:35-43; a NULL pointer is unknown. -/
def getLossName : Option Loss → String
  | some .mse => "mean_squared_error"
  | some .mae => "mean_absolute_error"
  | some .mape => "mean_absolute_percentage_error"
  | some .bce => "binary_crossentropy"
  | some .cce => "categorical_crossentropy"
  | none => "(unknown)"

/-- `get_metric_func`, src/metrics.c:23-43. -/
def getMetricFunc (name : String) : Option Metric :=
  if name = "mean_squared_error" then some .mse
  else if name = "mse" then some .mse
  else if name = "mean_absolute_error" then some .mae
  else if name = "mae" then some .mae
  else if name = "mean_absolute_percentage_error" then some .mape
  else if name = "mape" then some .mape
  else if name = "categorical_crossentropy" then some .cce
  else if name = "binary_crossentropy" then some .bce
  else if name = "categorical_accuracy" then some .categoricalAccuracy
  else if name = "binary_accuracy" then some .binaryAccuracy
  else none

/-- `get_metric_name`, src/metrics.c:45-55. -/
def getMetricName : Option Metric → String
  | some .mse => "mean_squared_error"
  | some .mae => "mean_absolute_error"
  | some .mape => "mean_absolute_percentage_error"
  | some .bce => "binary_crossentropy"
  | some .cce => "categorical_crossentropy"
  | some .categoricalAccuracy => "categorical_accuracy"
  | some .binaryAccuracy => "binary_accuracy"
  | none => "(unknown)"

/-- A loaded activation function, `activation_record_t`, src/activation.c:80-87 (the handle is not
modelled). -/
structure ActRecord where
  name : String
  func : Nat
  deriv : Option Nat
  deriving DecidableEq, Repr

/-- What the dynamic linker finds: `dlopen(lib)` followed by `dlsym(handle, symbol)`.
Simplification: resolution does not change while the program runs. -/
structure DynLinker where
  opens : String → Bool
  sym : String → String → Option Nat

/-- Text before and after the first `@` (`strchr`), src/activation.c:104-116. -/
def splitAt (name : String) : Option (String × String) :=
  let cs := name.toList
  if '@' ∈ cs then
    some (String.ofList (cs.takeWhile (· != '@')), String.ofList ((cs.dropWhile (· != '@')).drop 1))
  else none

/-- `get_activation_func_dynamic`, src/activation.c:92-173.  `derivative_symbol` is a buffer of 256
bytes written by `sprintf`.  Memory exhaustion is not modelled here. -/
def getActivationFuncDynamic (dl : DynLinker) (recs : List ActRecord) (name : String) :
    M (Option Act × List ActRecord) :=
  match splitAt name with
  | none => pure (none, recs)
  | some (symbol, lib) =>
    if dl.opens lib then
      if 256 < symbol.utf8ByteSize + 11 + 1 then .error .oob
      else
        match dl.sym lib symbol with
        | none => pure (none, recs)
        | some f =>
          pure (some (.custom f), recs ++ [⟨name, f, dl.sym lib (symbol ++ "_derivative")⟩])
    else pure (none, recs)

/-- `get_activation_func`, src/activation.c:229-246. -/
def getActivationFunc (dl : DynLinker) (recs : List ActRecord) (name : String) :
    M (Option Act × List ActRecord) :=
  if name = "softplus" then pure (some .softplus, recs)
  else if name = "softsign" then pure (some .softsign, recs)
  else if name = "hard_sigmoid" then pure (some .hardSigmoid, recs)
  else if name = "exponential" then pure (some .exponential, recs)
  else if name = "linear" then pure (some .linear, recs)
  else if name = "relu" then pure (some .relu, recs)
  else if name = "softmax" then pure (some .softmax, recs)
  else if name = "sigmoid" then pure (some .sigmoid, recs)
  else if name = "tanh" then pure (some .tanh, recs)
  else getActivationFuncDynamic dl recs name

/-- `get_activation_name`, src/activation.c:251-277. -/
def getActivationName (recs : List ActRecord) : Act → String
  | .softplus => "softplus"
  | .softsign => "softsign"
  | .hardSigmoid => "hard_sigmoid"
  | .exponential => "exponential"
  | .linear => "linear"
  | .relu => "relu"
  | .softmax => "softmax"
  | .sigmoid => "sigmoid"
  | .tanh => "tanh"
  | .custom f => match recs.find? (fun r => r.func == f) with
    | some r => r.name
    | none => "(unknown)"

/-- `get_activation_derivative`, src/activation.c:285-301, with
`get_activation_derivative_dynamic`, src/activation.c:195-205. -/
def getActivationDerivative (recs : List ActRecord) : Act → Option ActDeriv
  | .softplus => some .softplus
  | .softsign => some .softsign
  | .hardSigmoid => some .hardSigmoid
  | .exponential => some .exponential
  | .linear => some .linear
  | .relu => some .relu
  | .softmax => some .softmax
  | .sigmoid => some .sigmoid
  | .tanh => some .tanh
  | .custom f => match recs.find? (fun r => r.func == f) with
    | some r => r.deriv.map .custom
    | none => none

end NN
