import Verif.Model.Network
/-
`neuralnet_total_n_parameters` with its machine integers.
-/
namespace NN
variable {F : Type}

/-- `neuralnet_total_n_parameters`, src/neuralnet.h:48-55.  The product is computed in `int`
(overflow is undefined), the count in `unsigned int`.  (`n_input + 1` cannot overflow if the product
does not, as `n_output` is positive.) -/
def totalNParametersLoop : List (Layer F) → Nat → M Nat
  | [], count => pure count
  | l :: ls, count =>
    if (l.nIn + 1) * l.nOut < 2 ^ 31 then
      totalNParametersLoop ls ((count + (l.nIn + 1) * l.nOut) % 2 ^ 32)
    else .error .overflow

/-- `neuralnet_total_n_parameters`, src/neuralnet.h:48-55. -/
def totalNParameters (nn : Net F) : M Nat := totalNParametersLoop nn.layers 0

end NN
