import Verif.Model.Example02
/-
What the metrics of a network with one output are, sample by sample.
-/
namespace Spec.Example02
open NN FloatOps
variable {F : Type} [FloatOps F]

/-- `val m i` is metric `m` on sample `i` of the data: the network answers, whatever the buffers, and the metric of the answer is
`val m i`. -/
def Values (env : CustomEnv F) (c : Cfg) (nn : Net F) (k n : Nat) (X Y : View F) (val : Metric → Nat → F) : Prop :=
  ∀ m, ∀ i < n, ∀ (work : Nat) (junk : Nat → F) (out : View F), work % c.alignSize = 0 → 1 ≤ out.data.length →
    ∃ answer, predict env c work junk nn (X.offset (i * k)) out = .ok answer ∧ runMetric m 1 answer (Y.offset i) = .ok (val m i)

/-- The sum from the first sample to the last. -/
def inOrder (v : Nat → F) (n : Nat) : F := (List.range n).foldl (fun s i => add s (v i)) zero

/-- What the first program should print. -/
def sixLines (fixed : F → Bytes) : List F → Bytes
  | [a, b, c, a', b', c'] =>
    str "Train  binary_crossentropy : " ++ fixed a ++ str "\n" ++ str "Train  mean_absolute_error : " ++ fixed b ++ str "\n" ++
    str "Train  binary_accuracy     : " ++ fixed c ++ str "\n" ++ str "Test   binary_crossentropy : " ++ fixed a' ++ str "\n" ++
    str "Test   mean_absolute_error : " ++ fixed b' ++ str "\n" ++ str "Test   binary_accuracy     : " ++ fixed c' ++ str "\n"
  | _ => []

/-- What the second program should print. -/
def fourLines (fixed : F → Bytes) (a b a' b' : F) : Bytes :=
  str "Train loss    : " ++ fixed a ++ str "\nTrain accuracy: " ++ fixed b ++ str "\nTest loss     : " ++ fixed a' ++
    str "\nTest accuracy : " ++ fixed b' ++ str "\n"

end Spec.Example02
