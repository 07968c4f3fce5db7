import Verif.Spec.BackFloat
import Verif.Spec.Optimizer
/-
Specification: how far a batch gradient in `float` arithmetic may be from the exact mean of the gradients.
-/
namespace NN
open Spec

/-- Input of sample `p`. -/
def sampleIn (nn : Net B32) (X : View B32) (p : ℕ) : List B32 := (X.data.drop (p * nn.nInput)).take nn.nInput

/-- Target of sample `p`. -/
def sampleOut (nn : Net B32) (Y : View B32) (p : ℕ) : List B32 := (Y.data.drop (p * nn.nOutput)).take nn.nOutput

/-- Errors of entry `k` of the gradients of a batch, added up. -/
noncomputable def sumError (env : CustomEnv ℝ) (nn : Net B32) (loss : Loss) (X Y : View B32) (batch : List ℕ) (k : ℕ) : ℝ :=
  (batch.map fun p => at_ (gradError env nn loss (sampleIn nn X p) (sampleOut nn Y p)) k).sum

/-- A bound on the absolute values, added up, of entry `k` of the float gradients of a batch, if the exact gradients are `G`. -/
noncomputable def sumAbs (env : CustomEnv ℝ) (nn : Net B32) (loss : Loss) (X Y : View B32) (batch : List ℕ) (G : ℕ → List ℝ) (k : ℕ) : ℝ :=
  (batch.map fun p => |at_ (G p) k| + at_ (gradError env nn loss (sampleIn nn X p) (sampleOut nn Y p)) k).sum

/-- Error of entry `k` of the batch gradient: the mean of the errors of the gradients, and the rounding errors of the sum — every gradient takes
part in at most `depth + 1` additions — and of the division. -/
noncomputable def batchError (env : CustomEnv ℝ) (nn : Net B32) (loss : Loss) (X Y : View B32) (batch : List ℕ) (G : ℕ → List ℝ) (depth k : ℕ) : ℝ :=
  (sumError env nn loss X Y batch k + slack (depth + 2) 0 (sumAbs env nn loss X Y batch G k)) / batch.length + η32

end NN
