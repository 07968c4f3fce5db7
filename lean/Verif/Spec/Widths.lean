import Verif.Model.Basic
import Verif.Model.Names
/-
Which networks the vector code can train: conditions on the layer sizes and the names of the activation functions.
-/
namespace NN.Spec

/-- Functions whose derivative is computed with vector instructions. -/
def fastDerivative (name : Option String) : Bool := name == some "relu" || name == some "sigmoid" || name == some "tanh"

/-- For each layer: is its derivative computed with vector instructions?  In the output layer a sigmoid together with binary
crossentropy needs no derivative. -/
def fastDerivatives (loss : Loss) : List (Option String) → List Bool
  | [] => []
  | [f] => [fastDerivative f && !(loss == .bce && f == some "sigmoid")]
  | f :: g :: fs => fastDerivative f :: fastDerivatives loss (g :: fs)

/-- What the vector code of a build asks of the layers, given as (inputs, outputs, fast derivative); `off` is where the first of them
starts in the parameter vector.
* In AVX builds every row of a weight matrix of a layer behind the first starts at a multiple of 32 bytes if it has 8 or more
  elements, and in AVX512 builds at a multiple of 64 bytes if it has 16 or more.
* In AVX builds the part of the gradient of a layer with 16 or more outputs and a fast derivative starts at a multiple of 32 bytes. -/
def VectorWidths (c : Cfg) (first : Bool) (off : Nat) : List (Nat × Nat × Bool) → Prop
  | [] => True
  | (m, n, fast) :: ls =>
    (c.avx = true → first = false → 2 ≤ m → 8 ≤ n → n % 8 = 0 ∧ (c.avx512 = true → 16 ≤ n → n % 16 = 0)) ∧
    (c.avx = true → fast = true → 16 ≤ n → off % 8 = 0) ∧
    VectorWidths c false (off + (m + 1) * n) ls

/-- The layers of a network with these sizes, loss and activation functions. -/
def describeLayers (sizes : List Nat) (loss : Loss) (funcs : List (Option String)) : List (Nat × Nat × Bool) :=
  ((sizes.zip sizes.tail).zip (fastDerivatives loss funcs)).map fun p => (p.1.1, p.1.2, p.2)

end NN.Spec
