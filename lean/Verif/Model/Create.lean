import Verif.Model.Names
import Verif.Model.Params
/-
Model of `neuralnet_create`, `neuralnet_free` and `neuralnet_initialize`, src/neuralnet.c, with an allocator that may fail
at any request.
-/
namespace NN
open FloatOps

/-- A pointer variable: never assigned, NULL, or a block of the allocator. -/
inductive BlkPtr where
  | uninit
  | null
  | blk (id : Nat)
  deriving DecidableEq, Repr

/-- The allocator: number of requests so far, and the blocks not yet freed.  Block `i` is the answer to request `i`. -/
structure Heap where
  count : Nat
  live : List Nat
  deriving DecidableEq, Repr

/-- `malloc`, `calloc`, `_mm_malloc`: request `i` succeeds iff `ok i`. -/
def Heap.malloc (ok : Nat → Bool) (h : Heap) : Option Nat × Heap :=
  if ok h.count then (some h.count, ⟨h.count + 1, h.count :: h.live⟩) else (none, ⟨h.count + 1, h.live⟩)

/-- `free`, `_mm_free` of a block. -/
def Heap.free (h : Heap) (id : Nat) : M Heap :=
  if id ∈ h.live then pure { h with live := h.live.erase id } else .error .doubleFree

/-- `if( p ) free( p )` -/
def freeIf : BlkPtr → Heap → M Heap
  | .uninit, _ => .error .uninit
  | .null, h => pure h
  | .blk id, h => h.free id

/-- `layer_t` while it is being set up (src/neuralnet.h:11-19).  `act = none`: not set. -/
structure CLayer where
  nIn : Int
  nOut : Int
  weight : BlkPtr
  bias : BlkPtr
  act : Option Act
  deriving DecidableEq, Repr

/-- `neuralnet_t` with the blocks holding it and its layers. -/
structure CNet where
  nn : Nat
  layer : Nat
  layers : List CLayer
  deriving DecidableEq, Repr

/-- `_weights_memory_free`, src/neuralnet.c:59-65. -/
def weightsFree : List CLayer → Heap → M Heap
  | [], h => pure h
  | l :: ls, h => do
    let h ← freeIf l.weight h
    let h ← freeIf l.bias h
    weightsFree ls h

/-- Lines 76-79 of src/neuralnet.c.  The product of the sizes is an `int`. -/
def allocWeights (ok : Nat → Bool) : List CLayer → Heap → M (Bool × List CLayer × Heap)
  | [], h => pure (true, [], h)
  | l :: ls, h =>
    if l.nIn * l.nOut < 2 ^ 31 then
      match h.malloc ok with
      | (none, h) => pure (false, { l with weight := .null } :: ls, h)
      | (some id, h) => do
        let (b, ls, h) ← allocWeights ok ls h
        pure (b, { l with weight := .blk id } :: ls, h)
    else .error .overflow

/-- Lines 81-84 of src/neuralnet.c. -/
def allocBiases (ok : Nat → Bool) : List CLayer → Heap → M (Bool × List CLayer × Heap)
  | [], h => pure (true, [], h)
  | l :: ls, h =>
    match h.malloc ok with
    | (none, h) => pure (false, { l with bias := .null } :: ls, h)
    | (some id, h) => do
      let (b, ls, h) ← allocBiases ok ls h
      pure (b, { l with bias := .blk id } :: ls, h)

/-- `_weights_memory_allocate`, src/neuralnet.c:67-93. -/
def weightsAllocate (ok : Nat → Bool) (ls : List CLayer) (h : Heap) : M (Bool × List CLayer × Heap) :=
  if ls.any (fun l => l.nIn < 1 || l.nOut < 1) then pure (false, ls, h)
  else do
    let (b, ls, h) ← allocWeights ok ls h
    if b then
      let (b, ls, h) ← allocBiases ok ls h
      if b then pure (true, ls, h)
      else
        let h ← weightsFree ls h
        pure (false, ls, h)
    else
      let h ← weightsFree ls h
      pure (false, ls, h)

/-- `activation_funcs[i]` -/
def readName (funcs : Option (List (Option String))) (i : Nat) : M (Option String) :=
  match funcs with
  | none => .error .nullDeref
  | some fs => match fs[i]? with
    | none => .error .oob
    | some f => pure f

/-- The loop of src/neuralnet.c:668-678 from layer `i` on. -/
def setActivations (dl : DynLinker) (funcs : Option (List (Option String))) :
    Nat → List CLayer → List ActRecord → M (List CLayer × List ActRecord)
  | _, [], recs => pure ([], recs)
  | i, l :: ls, recs => do
    let name ← readName funcs i
    let (a, recs) ← getActivationFunc dl recs (name.getD "linear")
    let (a, recs) ← match a with
      | some a => pure (some a, recs)
      | none => getActivationFunc dl recs "linear"
    let (ls, recs) ← setActivations dl funcs (i + 1) ls recs
    pure ({ l with act := a } :: ls, recs)

/-- `sizes[i]` -/
def readSize (sizes : List Int) (i : Nat) : M Int :=
  match sizes[i]? with
  | none => .error .oob
  | some s => pure s

/-- The check of src/neuralnet.c:631-639: are the entries `i`, ..., `i + k` all positive?  (Reading stops at the first that
is not.) -/
def checkSizes (sizes : List Int) : Nat → Nat → M Bool
  | i, 0 => do
    let s ← readSize sizes i
    pure (!(s < 1))
  | i, k + 1 => do
    let s ← readSize sizes i
    if s < 1 then pure false else checkSizes sizes (i + 1) k

/-- The sizes of the layers, src/neuralnet.c:657-660, from layer `i` on, `k` layers. -/
def layerSizes (sizes : List Int) : Nat → Nat → M (List CLayer)
  | _, 0 => pure []
  | i, k + 1 => do
    let a ← readSize sizes i
    let b ← readSize sizes (i + 1)
    let ls ← layerSizes sizes (i + 1) k
    pure (⟨a, b, .uninit, .uninit, none⟩ :: ls)

/-- `neuralnet_create`, src/neuralnet.c:624-686; `none` is NULL.  `recs` are the dynamically loaded activation functions.
`nn->loss = NULL` is in `CNet.toNet`. -/
def createNN (ok : Nat → Bool) (dl : DynLinker) (nLayers : Int) (sizes : List Int) (funcs : Option (List (Option String)))
    (recs : List ActRecord) (h : Heap) : M (Option CNet × List ActRecord × Heap) :=
  if nLayers < 1 then pure (none, recs, h)
  else do
    let good ← checkSizes sizes 0 nLayers.toNat
    if !good then pure (none, recs, h)
    else
      match h.malloc ok with
      | (none, h) => pure (none, recs, h)
      | (some nn, h) =>
        match h.malloc ok with
        | (none, h) => do
          let h ← h.free nn
          pure (none, recs, h)
        | (some layer, h) => do
          let ls ← layerSizes sizes 0 nLayers.toNat
          let (b, ls, h) ← weightsAllocate ok ls h
          if b then
            let (ls, recs) ← setActivations dl funcs 0 ls recs
            pure (some ⟨nn, layer, ls⟩, recs, h)
          else
            let h ← h.free layer
            let h ← h.free nn
            pure (none, recs, h)

/-- `neuralnet_free`, src/neuralnet.c:221-227. -/
def freeNN : Option CNet → Heap → M Heap
  | none, h => pure h
  | some net, h => do
    let h ← weightsFree net.layers h
    let h ← h.free net.layer
    h.free net.nn

/-- The float array in a block: `addr` is where the blocks are, `junk` what is in them before anything is written. -/
def blockView {F : Type} (addr : Nat → Nat) (junk : Nat → Nat → F) (n : Nat) : BlkPtr → View F
  | .blk id => ⟨addr id, (List.range n).map (junk id)⟩
  | _ => ⟨0, []⟩

/-- The network of the other files: buffers with arbitrary contents, no loss, derivatives not set. -/
def CNet.toNet {F : Type} (addr : Nat → Nat) (junk : Nat → Nat → F) (net : CNet) : Net F :=
  ⟨net.layers.map fun l => ⟨l.nIn.toNat, l.nOut.toNat, blockView addr junk (l.nIn.toNat * l.nOut.toNat) l.weight,
    blockView addr junk l.nOut.toNat l.bias, l.act.getD .linear, none⟩, none⟩

/-! ### Initialisation -/

section
variable {F : Type} [FloatOps F]

/-- The static variables of `random_normal`, src/neuralnet.c:698-699, and the number of calls of `rand()` so far. -/
structure RandState (F : Type) where
  k : Nat
  v : F
  fac : F
  usePrev : Bool

/-- `rand()`: value `k` is `r k`, at most `randMax` (RAND_MAX). -/
structure Rand where
  r : Nat → Nat
  randMax : Nat

/-- `random_uniform`, src/neuralnet.c:691-694, on the value `n` of `rand()`. -/
def uniformOf (randMax n : Nat) : F := sub (mul (lit 2 1) (div (ofNat n) (ofNat randMax))) one

/-- `random_uniform`, src/neuralnet.c:691-694. -/
def randomUniform (g : Rand) (s : RandState F) : M (F × RandState F) :=
  pure (uniformOf g.randMax (g.r s.k), { s with k := s.k + 1 })

/-- The rejection loop of src/neuralnet.c:705-710: `u`, `v`, `S` and the number of calls of `rand()`. -/
def polarLoop (g : Rand) : Nat → Nat → M (F × F × F × Nat)
  | 0, _ => .error .diverge
  | fuel + 1, k =>
    let u : F := uniformOf g.randMax (g.r k)
    let v : F := uniformOf g.randMax (g.r (k + 1))
    let S := add (mul u u) (mul v v)
    if le one S then polarLoop g fuel (k + 2) else pure (u, v, S, k + 2)

/-- `random_normal`, src/neuralnet.c:696-717.  `fuel` bounds the rejections. -/
def randomNormal (g : Rand) (fuel : Nat) (s : RandState F) : M (F × RandState F) :=
  if s.usePrev then pure (mul s.v s.fac, { s with usePrev := false })
  else do
    let (u, v, S, k) ← polarLoop g fuel s.k
    let fac := sqrt (div (mul (neg (lit 2 1)) (log S)) S)
    pure (mul u fac, ⟨k, v, fac, true⟩)

/-- `fill_data`, src/neuralnet.c:719-724: from index `i` on, `n` values. -/
def fillData (dist : RandState F → M (F × RandState F)) (scale : F) : Nat → Nat → View F → RandState F →
    M (View F × RandState F)
  | 0, _, data, s => pure (data, s)
  | n + 1, i, data, s => do
    let (x, s) ← dist s
    let data ← data.store i (mul x scale)
    fillData dist scale n (i + 1) data s

/-- `memset( p, 0, n*sizeof(float) )` -/
def zeroFill : Nat → Nat → View F → M (View F)
  | 0, _, v => pure v
  | n + 1, i, v => do
    let v ← v.store i zero
    zeroFill n (i + 1) v

/-- `initializer`, src/neuralnet.c:738-740, as `strcmp` reads it. -/
def readInitializer (inits : Option (List (Option String))) (i : Nat) : M String :=
  match inits with
  | none => pure ""
  | some fs => match fs[i]? with
    | none => .error .oob
    | some none => .error .nullDeref
    | some (some s) => pure s

/-- Lines 743 and 754 of src/neuralnet.c; `n_inp+n_out` is an `int`. -/
def fillXavier (g : Rand) (l : Layer F) (s : RandState F) : M (View F × RandState F) :=
  if l.nIn + l.nOut < 2 ^ 31 then
    fillData (randomUniform g) (sqrt (div (lit 6 1) (ofNat (l.nIn + l.nOut)))) (l.nIn * l.nOut) 0 l.weight s
  else .error .overflow

/-- Lines 745 and 762 of src/neuralnet.c. -/
def fillKaiming (g : Rand) (fuel : Nat) (l : Layer F) (s : RandState F) : M (View F × RandState F) :=
  fillData (randomNormal g fuel) (sqrt (div (lit 2 1) (ofNat l.nIn))) (l.nIn * l.nOut) 0 l.weight s

/-- Lines 742-771 of src/neuralnet.c: the weights of a layer. -/
def fillWeights (g : Rand) (fuel : Nat) (recs : List ActRecord) (initializer : String) (l : Layer F) (s : RandState F) :
    M (View F × RandState F) :=
  if initializer = "xavier" then fillXavier g l s
  else if initializer = "kaiming" then fillKaiming g fuel l s
  else if getActivationName recs l.act ∈ ["sigmoid", "tanh", "softmax", "hard_sigmoid", "softsign"] then fillXavier g l s
  else if getActivationName recs l.act ∈ ["relu", "softplus"] then fillKaiming g fuel l s
  else fillData (randomNormal g fuel) one (l.nIn * l.nOut) 0 l.weight s

/-- Body of the loop of `neuralnet_initialize`, src/neuralnet.c:735-773, for layer `i`. -/
def initLayer (g : Rand) (fuel : Nat) (recs : List ActRecord) (initializer : String) (l : Layer F) (s : RandState F) :
    M (Layer F × RandState F) :=
  if l.nIn * l.nOut < 2 ^ 31 then do
    let (w, s) ← fillWeights g fuel recs initializer l s
    let b ← zeroFill l.nOut 0 l.bias
    pure ({ l with weight := w, bias := b }, s)
  else .error .overflow

/-- The loop of `neuralnet_initialize` from layer `i` on. -/
def initLayers (g : Rand) (fuel : Nat) (recs : List ActRecord) (inits : Option (List (Option String))) :
    Nat → List (Layer F) → RandState F → M (List (Layer F) × RandState F)
  | _, [], s => pure ([], s)
  | i, l :: ls, s => do
    let initializer ← readInitializer inits i
    let (l, s) ← initLayer g fuel recs initializer l s
    let (ls, s) ← initLayers g fuel recs inits (i + 1) ls s
    pure (l :: ls, s)

/-- `neuralnet_initialize`, src/neuralnet.c:730-775; `none` is NULL. -/
def initializeNN (g : Rand) (fuel : Nat) (recs : List ActRecord) (inits : Option (List (Option String)))
    (nn : Option (Net F)) (s : RandState F) : M (Option (Net F) × RandState F) :=
  match nn with
  | none => .error .assertFail
  | some nn => do
    let (ls, s) ← initLayers g fuel recs inits 0 nn.layers s
    pure (some { nn with layers := ls }, s)

end
end NN
