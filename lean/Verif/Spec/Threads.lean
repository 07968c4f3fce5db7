import Verif.Model.Threads
import Mathlib.Data.Set.Basic
import Mathlib.Data.Set.Lattice
/-
Specification: footprints, data races, memory contents.
-/
namespace NN
variable {F T : Type}

/-- Two threads are about to access the same address, and one of them will store. -/
def State.Race (s : State T F) : Prop :=
  ∃ t u a w w', t ≠ u ∧ (s.thread t).access = some (a, w) ∧ (s.thread u).access = some (a, w') ∧ (w = true ∨ w' = true)

/-- A thread executes an instruction with undefined behaviour. -/
def State.Faulty (s : State T F) : Prop := ∃ t f, s.thread t = .fault f

/-- Whatever values it loads, the program loads only from `R` and `W` and stores only to `W`. -/
def Touches (R W : Set Nat) : Prog F → Prop
  | .halt => True
  | .fault _ => True
  | .load a k => (a ∈ R ∨ a ∈ W) ∧ ∀ v, Touches R W (k v)
  | .store a _ k => a ∈ W ∧ Touches R W k

/-- Addresses of `n` consecutive `float`s. -/
def floatCells (a n : Nat) : Set Nat := {x | ∃ j < n, x = a + 4 * j}

/-- Their contents. -/
def readCells (m : Mem F) (a n : Nat) : List F := (List.range n).map fun j => m (a + 4 * j)

/-- A memory block `v` holds its data. -/
def View.In (v : View F) (m : Mem F) : Prop := readCells m v.addr v.data.length = v.data

/-- No address of `A` is in `B`. -/
def Apart (A B : Set Nat) : Prop := ∀ a ∈ A, a ∉ B

end NN
