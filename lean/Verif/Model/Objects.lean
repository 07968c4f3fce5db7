import Verif.Model.Create
/-
Creation and destruction of optimizers and callbacks: the macros `OPTIMIZER_DEFINE` (src/optimizer.h:48-75) and
`CALLBACK_DEFINE` (src/callback.h:68-81), the `*_optimizer_init` and `*_optimizer_free` functions of src/SGD.c,
src/adagrad.c, src/RMSprop.c and src/adam.c, `optimizer_free`, `callback_free`, and the reallocation in
`prepare_shuffle_pivot`.  Only who owns which block is modelled here; the contents are in `Optimizer.lean`, `Callbacks.lean`
and `Logger.lean`.  `simd_malloc`/`simd_free` (src/simd.h:47-66) and `malloc`/`free` share the allocator of `Create.lean`.
-/
namespace NN

/-- The four optimizers. -/
inductive OptType where
  | sgd | adagrad | rmsprop | adam
  deriving DecidableEq, Repr

/-- An optimizer: the block of the structure, those of its work vectors, and `pivot` (`none` is NULL). -/
structure OptObj where
  self : Nat
  vectors : List Nat
  pivot : Option Nat
  deriving DecidableEq, Repr

/-- `p = simd_malloc( ... ); assert( p );` -/
def mallocAssert (ok : Nat → Bool) (h : Heap) : M (Nat × Heap) :=
  match h.malloc ok with
  | (none, _) => .error .assertFail
  | (some id, h) => pure (id, h)

/-- The work vectors: `SGD_optimizer_init` (src/SGD.c:37-38), `adagrad_optimizer_init` (src/adagrad.c:38-39),
`RMSprop_optimizer_init` (src/RMSprop.c:46-51), `adam_optimizer_init` (src/adam.c:41-44, where both assertions come after
both allocations). -/
def initVectors (ok : Nat → Bool) : OptType → Heap → M (List Nat × Heap)
  | .sgd, h | .adagrad, h => do
    let (v, h) ← mallocAssert ok h
    pure ([v], h)
  | .rmsprop, h => do
    let (v, h) ← mallocAssert ok h
    let (r, h) ← mallocAssert ok h
    pure ([v, r], h)
  | .adam, h =>
    match h.malloc ok with
    | (r, h) => match r, h.malloc ok with
      | some r, (some s, h) => pure ([r, s], h)
      | _, _ => .error .assertFail

/-- `*_new`, src/optimizer.h:53-75; `none` is NULL.  The assertions of `optimizer_check_sanity` (src/optimizer.c:44-59) hold
iff `sane`. -/
def newOptimizer (ok : Nat → Bool) (t : OptType) (sane : Bool) (h : Heap) : M (Option OptObj × Heap) :=
  match h.malloc ok with
  | (none, h) => pure (none, h)
  | (some self, h) => do
    let (vs, h) ← initVectors ok t h
    if sane then pure (some ⟨self, vs, none⟩, h) else .error .assertFail

/-- `free( p )` where `p` may be NULL. -/
def freeOpt (h : Heap) : Option Nat → M Heap
  | none => pure h
  | some id => h.free id

/-- `*_optimizer_free`: src/SGD.c:42-46, src/adagrad.c:43-47, src/RMSprop.c:55-60, src/adam.c:49-54. -/
def freeVectors (h : Heap) (vs : List Nat) : M Heap := vs.foldlM Heap.free h

/-- A field of the structure in block `id` is read. -/
def touch (h : Heap) (id : Nat) : M Unit := if id ∈ h.live then pure () else .error .doubleFree

/-- `optimizer_free`, src/optimizer.h:126-132. -/
def optimizerFree : Option OptObj → Heap → M Heap
  | none, _ => .error .nullDeref
  | some o, h => do
    touch h o.self
    let h ← freeVectors h o.vectors
    touch h o.self
    let h ← freeOpt h o.pivot
    h.free o.self

/-- `realloc( p, size )`, `size > 0`: on failure the old block stays. -/
def Heap.realloc (ok : Nat → Bool) (p : Option Nat) (h : Heap) : M (Option Nat × Heap) :=
  match h.malloc ok with
  | (none, h) => pure (none, h)
  | (some id, h) => do
    let h ← freeOpt h p
    pure (some id, h)

/-- `prepare_shuffle_pivot`, src/optimizer.c:16-31, for at least one sample; `nSample` is the static `_n_sample`. -/
def pivotAlloc (ok : Nat → Bool) (nSample n : Nat) (o : OptObj) (h : Heap) : M (Nat × OptObj × Heap) :=
  if n ≠ nSample then do
    let (p, h) ← h.realloc ok o.pivot
    pure (n, { o with pivot := p }, h)
  else pure (nSample, o, h)

/-- `earlystopping_new`, `modelcheckpoint_new`, `logger_new`, src/callback.h:70-81; `none` is NULL. -/
def newCallback (ok : Nat → Bool) (h : Heap) : Option Nat × Heap := h.malloc ok

/-- `callback_free`, src/callback.h:51-54; `free` of all three callbacks is that of the library. -/
def callbackFree : Option Nat → Heap → M Heap
  | none, _ => .error .nullDeref
  | some id, h => do
    touch h id
    h.free id

/-! ### Programs -/

/-- A pointer the program holds. -/
inductive Handle where
  | net (n : Option CNet)
  | opt (o : Option OptObj)
  | cb (c : Option Nat)

/-- The operations.  Objects are numbered in the order of the list `World.objs`. -/
inductive ObjOp where
  /-- `neuralnet_create` -/
  | newNet (n : Nat) (sizes : List Int) (funcs : List (Option String))
  /-- `SGD_new`, ... -/
  | newOpt (t : OptType)
  /-- `earlystopping_new`, ... -/
  | newCb
  /-- `optimizer_run_epoch` with `n` training samples, as far as memory is concerned -/
  | epoch (i n : Nat)
  /-- `neuralnet_free`, `optimizer_free` or `callback_free`, and the pointer is forgotten -/
  | free (i : Nat)

structure World where
  heap : Heap
  nSample : Nat
  recs : List ActRecord
  objs : List Handle

def freeObj : Handle → Heap → M Heap
  | .net n, h => freeNN n h
  | .opt o, h => optimizerFree o h
  | .cb c, h => callbackFree c h

/-- One operation.  A number that denotes nothing, or nothing of the right kind, is a wild pointer. -/
def objStep (ok : Nat → Bool) (dl : DynLinker) (w : World) : ObjOp → M World
  | .newNet n sizes funcs => do
    let (net, recs, h) ← createNN ok dl n sizes (some funcs) w.recs w.heap
    pure { w with heap := h, recs := recs, objs := w.objs ++ [.net net] }
  | .newOpt t => do
    let (o, h) ← newOptimizer ok t true w.heap
    pure { w with heap := h, objs := w.objs ++ [.opt o] }
  | .newCb =>
    let (c, h) := newCallback ok w.heap
    pure { w with heap := h, objs := w.objs ++ [.cb c] }
  | .epoch i n =>
    match w.objs[i]? with
    | some (.opt (some o)) => do
      touch w.heap o.self
      let (k, o, h) ← pivotAlloc ok w.nSample n o w.heap
      pure { w with heap := h, nSample := k, objs := w.objs.set i (.opt (some o)) }
    | _ => .error .nullDeref
  | .free i =>
    match w.objs[i]? with
    | some o => do
      let h ← freeObj o w.heap
      pure { w with heap := h, objs := w.objs.eraseIdx i }
    | none => .error .doubleFree

/-- A program. -/
def objRun (ok : Nat → Bool) (dl : DynLinker) (ops : List ObjOp) (w : World) : M World := ops.foldlM (objStep ok dl) w

end NN
