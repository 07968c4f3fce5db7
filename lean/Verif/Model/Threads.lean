import Verif.Model.Schedule
import Mathlib.Logic.Function.Basic
/-
Threads that share memory: the OpenMP regions of src/neuralnet_predict_batch.c:24-26, src/evaluate.c:33-46, src/optimizer.c:88-97
and src/adam.c:171-177 at the granularity of single loads and stores.

A thread is a program of loads and stores of `float`s; an execution interleaves the threads in any way.  Simplified: memory is sequentially
consistent (for programs without data races C11 guarantees this); only `float`s are memory cells — sizes, pointers and the pivot array are
not written in any of the regions, they are constants of the programs; vector loads and stores are sequences of scalar ones.
-/
namespace NN
variable {F T : Type}

/-- Memory: the `float` at each address. -/
abbrev Mem (F : Type) := Nat → F

/-- Code of a thread, from here to its end. -/
inductive Prog (F : Type) where
  | halt
  | fault (f : Fault)
  | load (a : Nat) (k : F → Prog F)
  | store (a : Nat) (v : F) (k : Prog F)

/-- Run a program alone. -/
def Prog.run : Prog F → Mem F → M (Mem F)
  | .halt, m => .ok m
  | .fault f, _ => .error f
  | .load a k, m => (k (m a)).run m
  | .store a v k, m => k.run (Function.update m a v)

/-- Number of loads and stores when it is run alone. -/
def Prog.len : Prog F → Mem F → Nat
  | .halt, _ => 0
  | .fault _, _ => 0
  | .load a k, m => (k (m a)).len m + 1
  | .store a v k, m => k.len (Function.update m a v) + 1

/-- `p; q` -/
def Prog.andThen : Prog F → Prog F → Prog F
  | .halt, q => q
  | .fault f, _ => .fault f
  | .load a k, q => .load a fun v => (k v).andThen q
  | .store a v k, q => .store a v (k.andThen q)

/-- What a thread of a team does: its share of the iterations or sections, one after the other. -/
def Prog.share {J : Type} (code : J → Prog F) : List J → Prog F
  | [] => .halt
  | j :: js => (code j).andThen (share code js)

/-- Load a list of cells. -/
def Prog.loads : List Nat → (List F → Prog F) → Prog F
  | [], k => k []
  | a :: as, k => .load a fun v => loads as fun vs => k (v :: vs)

/-- Store consecutive values. -/
def Prog.stores : List (Nat × F) → Prog F
  | [] => .halt
  | (a, v) :: as => .store a v (stores as)

/-- Load the cells `ins`, compute, store the result in the cells `outs`. -/
def Prog.block (ins outs : List Nat) (f : List F → M (List F)) : Prog F :=
  .loads ins fun xs =>
    match f xs with
    | .ok ys => .stores (outs.zip ys)
    | .error e => .fault e

/-- Shared memory and the rest of each thread. -/
structure State (T F : Type) where
  mem : Mem F
  thread : T → Prog F

/-- One thread makes one step. -/
inductive Step [DecidableEq T] : State T F → State T F → Prop
  | load (s : State T F) (t : T) (a : Nat) (k : F → Prog F) (h : s.thread t = .load a k) :
    Step s ⟨s.mem, Function.update s.thread t (k (s.mem a))⟩
  | store (s : State T F) (t : T) (a : Nat) (v : F) (k : Prog F) (h : s.thread t = .store a v k) :
    Step s ⟨Function.update s.mem a v, Function.update s.thread t k⟩

/-- `n` steps, in any interleaving. -/
inductive Steps [DecidableEq T] (s : State T F) : Nat → State T F → Prop
  | zero : Steps s 0 s
  | succ {n : Nat} {s' s'' : State T F} : Steps s n s' → Step s' s'' → Steps s (n + 1) s''

/-- All threads have reached the barrier at the end of the region. -/
def State.Done (s : State T F) : Prop := ∀ t, s.thread t = .halt

/-- The next access of a thread: the address, and whether it is a store. -/
def Prog.access : Prog F → Option (Nat × Bool)
  | .halt => none
  | .fault _ => none
  | .load a _ => some (a, false)
  | .store a _ _ => some (a, true)

/-- How the private copies of a reduction are combined: any tree of threads. -/
inductive Team (T : Type) where
  | leaf (t : T)
  | node (a b : Team T)

/-- The threads of a team. -/
def Team.threads : Team T → List T
  | .leaf t => [t]
  | .node a b => a.threads ++ b.threads

/-- The value of the reduction if thread `t` ends with `v t`. -/
def Team.value {α : Type} (comb : α → α → α) (v : T → α) : Team T → α
  | .leaf t => v t
  | .node a b => comb (a.value comb v) (b.value comb v)

/-- The schedule of a team whose thread `t` runs the iterations `share t`. -/
def Team.sched (share : T → List Nat) : Team T → Sched
  | .leaf t => .thread (share t)
  | .node a b => .combine (a.sched share) (b.sched share)

end NN
