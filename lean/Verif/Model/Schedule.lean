import Verif.Model.Basic
/-
OpenMP `parallel for` loops.

* Without reduction: the iterations run in an arbitrary order (a permutation), each by some thread.
  Iterations are atomic steps; for loops whose iterations touch disjoint memory this covers every
  interleaving (C72).
* With reduction: every thread has a private copy of the reduction variable, initialised to zero,
  and runs its share of the iterations; the private results are combined in an unspecified way.  A
  `Sched` is any distribution, any order inside a thread and any combination tree.
-/
namespace NN

/-- A schedule of a loop with reduction. -/
inductive Sched where
  | thread (iters : List Nat)
  | combine (a b : Sched)
  deriving Repr

/-- All iterations run. -/
def Sched.iters : Sched → List Nat
  | .thread is => is
  | .combine a b => a.iters ++ b.iters

/-- Every iteration `0 .. n-1` runs exactly once. -/
def Sched.Covers (s : Sched) (n : Nat) : Prop := s.iters.Perm (List.range n)

/-- Run a loop with reduction. -/
def Sched.reduce {α : Type} (init : α) (body : Nat → α → M α) (comb : α → α → α) : Sched → M α
  | .thread is => is.foldlM (fun s i => body i s) init
  | .combine a b => do
    let x ← a.reduce init body comb
    let y ← b.reduce init body comb
    pure (comb x y)

end NN
