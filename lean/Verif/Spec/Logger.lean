import Verif.Model.CString
/-
Specification of the log file.
-/
namespace NN.Spec

/-- A line of the log for epoch `e`: `[clock] Epoch   e metrics\n`. -/
def EpochLine (e : Int) (line : Bytes) : Prop :=
  ∃ clock metrics : Bytes, clock.length = 8 ∧ (∀ c ∈ clock, isDigit c = true ∨ c = 58) ∧
    (∀ c ∈ metrics, c ≠ 0 ∧ c ≠ 10) ∧
    line = str "[" ++ clock ++ str "] Epoch " ++ padLeft 3 32 (decInt e) ++ str " " ++ metrics ++ str "\n"

/-- The file is the log of the epochs 0, 1, …, n-1. -/
def LogOf (n : Nat) (file : Bytes) : Prop :=
  ∃ lines : List Bytes, lines.length = n ∧ file = lines.flatten ∧
    ∀ (i : Nat) line, lines[i]? = some line → EpochLine i line

end NN.Spec
