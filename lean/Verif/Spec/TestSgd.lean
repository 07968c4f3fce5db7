import Verif.Model.Trainer
/-
What the options and the output of examples/test_sgd.c mean.
-/
namespace NN.Spec

/-- Values that count as true start with one of these words. -/
def trueWords : List String := ["true", "True", "Yes", "1"]

/-- The argument gives the option `name` the value `v`: `--name v`, or an abbreviation `--na v`. -/
def Gives (name : String) (a : Trainer.CmdArg) (v : String) : Prop :=
  ∃ short, short ≠ "" ∧ short.toList <+: name.toList ∧ a = .long short (some v)

/-- The value of an option on the command line: the last one given. -/
inductive LastGiven (name : String) : List Trainer.CmdArg → Option String → Prop
  | absent {args} (h : ∀ a ∈ args, ∀ v, ¬ Gives name a v) : LastGiven name args none
  | given {pre a post v} (h : Gives name a v) (h' : ∀ b ∈ post, ∀ w, ¬ Gives name b w) :
      LastGiven name (pre ++ a :: post) (some v)

/-- A text right-aligned in a field of `w` characters. -/
def InField (w : Nat) (s field : Bytes) : Prop := ∃ k, field = List.replicate k 32 ++ s ∧ field.length = max w s.length

end NN.Spec
