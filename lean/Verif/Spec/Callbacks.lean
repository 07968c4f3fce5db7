import Mathlib.Data.EReal.Basic
/-
Specification of early stopping and checkpoints on score histories.  A score is an extended real or NaN (`none`).
-/
namespace Spec

/-- `a` and `b` are numbers and `a` is strictly better. -/
def better (greater : Bool) (a b : Option EReal) : Prop :=
  ∃ x y, a = some x ∧ b = some y ∧ if greater then y < x else x < y

/-- Epoch `i` improves: its score is a number, better than all numbers before. -/
def improves (greater : Bool) (scores : List (Option EReal)) (i : ℕ) : Prop :=
  ∃ s, scores[i]? = some s ∧ s ≠ none ∧ ∀ t ∈ scores.take i, t ≠ none → better greater s t

/-- Some `max (patience+1) 1` consecutive epochs did not improve. -/
def stops (patience : ℤ) (greater : Bool) (scores : List (Option EReal)) : Prop :=
  ∃ i, i + max (patience + 1).toNat 1 ≤ scores.length ∧
    ∀ j < max (patience + 1).toNat 1, ¬ improves greater scores (i + j)

/-- Epoch `i` is the first one with the best score. -/
def firstBest (greater : Bool) (scores : List (Option EReal)) (i : ℕ) : Prop :=
  ∃ s, scores[i]? = some s ∧ s ≠ none ∧ (∀ t ∈ scores.take i, t ≠ none → better greater s t) ∧
    ∀ t ∈ scores, ¬ better greater t s

/-- Scores from `m` on (like `+∞`) count as no number. -/
noncomputable def below (m : EReal) (s : Option EReal) : Option EReal :=
  open Classical in s.bind fun x => if x < m then some x else none

end Spec
