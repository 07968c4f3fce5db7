import Verif.Model.Create
/-
Loading of activation functions from shared libraries with the resources it takes, src/activation.c:77-246: heap blocks, open
libraries, the error state of the dynamic linker and the functions registered with `atexit`.  `Names.lean` has the same functions
without the resources; `Properties/DynLoad.lean` relates the two.
Simplifications: `atexit` succeeds; the linked list of records is a Lean list; what the linker finds does not change while the
program runs; a library is in memory iff it was opened more often than closed.
-/
namespace NN.Dyn

/-- The dynamic linker.  `sticky`: the error of a call stays until `dlerror` reports it, as POSIX describes it; without, a later
successful call clears it, as in the GNU C library. -/
structure Linker extends DynLinker where
  sticky : Bool

/-- `activation_record_t`, src/activation.c:80-87, and the blocks of the structure and of the name. -/
structure Rec where
  self : Nat
  nameBlk : Nat
  name : String
  handle : String
  func : Nat
  deriv : Option Nat
  deriving DecidableEq, Repr

/-- State of the process.  `handles`: one entry for every `dlopen` not followed by its `dlclose`.  `pending`: the next `dlerror`
returns a message.  `exits`: how often `cleanup_dynamic_symbols` is registered. -/
structure World where
  heap : Heap
  handles : List String
  pending : Bool
  recs : List Rec
  exits : Nat
  deriving DecidableEq, Repr

/-- A successful call of the linker. -/
def clear (l : Linker) (w : World) : World := { w with pending := l.sticky && w.pending }

/-- `dlopen`; `false` is NULL. -/
def dlopen (l : Linker) (lib : String) (w : World) : Bool × World :=
  if l.opens lib then (true, clear l { w with handles := lib :: w.handles }) else (false, { w with pending := true })

/-- `dlsym`; `none` is NULL. -/
def dlsym (l : Linker) (lib symbol : String) (w : World) : Option Nat × World :=
  match l.sym lib symbol with
  | some f => (some f, clear l w)
  | none => (none, { w with pending := true })

/-- `dlerror`; `false` is NULL. -/
def dlerror (w : World) : Bool × World := (w.pending, { w with pending := false })

/-- `dlclose` of an open library. -/
def dlclose (l : Linker) (lib : String) (w : World) : M World :=
  if lib ∈ w.handles then pure (clear l { w with handles := w.handles.erase lib }) else .error .doubleFree

/-- `free` -/
def release (w : World) (id : Nat) : M World := do
  let h ← w.heap.free id
  pure { w with heap := h }

/-- `get_activation_func_dynamic`, src/activation.c:92-177; request `i` of the allocator succeeds iff `ok i`. -/
def load (l : Linker) (ok : Nat → Bool) (name : String) (w : World) : M (Option Nat × World) :=
  let w := { w with exits := w.exits + 1 }
  match w.heap.malloc ok with
  | (none, h) => pure (none, { w with heap := h })
  | (some copy, h) =>
    let w := { w with heap := h }
    match splitAt name with
    | none => do
      let w ← release w copy
      pure (none, w)
    | some (symbol, lib) =>
      match dlopen l lib w with
      | (false, w) => do
        let w ← release w copy
        pure (none, w)
      | (true, w) =>
        match dlsym l lib symbol w with
        | (f, w) =>
          if 256 < symbol.utf8ByteSize + 11 + 1 then .error .oob
          else do
            let w ← release w copy
            match dlerror w with
            | (true, w) =>
              let w ← dlclose l lib w
              pure (none, w)
            | (false, w) =>
              match w.heap.malloc ok with
              | (none, h) =>
                let w ← dlclose l lib { w with heap := h }
                pure (f, w)
              | (some self, h) =>
                match h.malloc ok with
                | (none, h) =>
                  let w ← dlclose l lib { w with heap := h }
                  pure (f, w)
                | (some nm, h) =>
                  match dlsym l lib (symbol ++ "_derivative") { w with heap := h } with
                  | (d, w) =>
                    match dlerror w with
                    | (_, w) =>
                      match f with
                      | none => .error .nullDeref -- not reached: without a symbol there was an error
                      | some f => pure (some f, { w with recs := w.recs ++ [⟨self, nm, name, lib, f, d⟩] })

/-- `get_activation_func`, src/activation.c:229-246. -/
def lookup (l : Linker) (ok : Nat → Bool) (name : String) (w : World) : M (Option Act × World) :=
  if name = "softplus" then pure (some .softplus, w)
  else if name = "softsign" then pure (some .softsign, w)
  else if name = "hard_sigmoid" then pure (some .hardSigmoid, w)
  else if name = "exponential" then pure (some .exponential, w)
  else if name = "linear" then pure (some .linear, w)
  else if name = "relu" then pure (some .relu, w)
  else if name = "softmax" then pure (some .softmax, w)
  else if name = "sigmoid" then pure (some .sigmoid, w)
  else if name = "tanh" then pure (some .tanh, w)
  else do
    let (f, w) ← load l ok name w
    pure (f.map .custom, w)

/-- The loop of src/activation.c:214-221. -/
def closeAll (l : Linker) : List Rec → World → M World
  | [], w => pure w
  | r :: rs, w => do
    let w ← dlclose l r.handle w
    let w ← release w r.nameBlk
    let w ← release w r.self
    closeAll l rs w

/-- `cleanup_dynamic_symbols`, src/activation.c:209-223. -/
def cleanup (l : Linker) (w : World) : M World := do
  let w ← closeAll l w.recs w
  pure { w with recs := [] }

/-- `exit`: the registered functions run. -/
def exit (l : Linker) : Nat → World → M World
  | 0, w => pure w
  | n + 1, w => do
    let w ← cleanup l w
    exit l n w

end NN.Dyn
