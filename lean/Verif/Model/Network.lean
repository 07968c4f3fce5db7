import Verif.Model.Loss
/-
Model of src/neuralnet.c: the network structure, prediction, backpropagation, loss selection and
parameter access.  (Creation, initialisation and persistence are in other files.)

Sizes of type `int` are natural numbers here; overflow of size computations is treated in
`Verif/Model/Params.lean`.
-/
namespace NN
open FloatOps
variable {F : Type}

/-- `layer_t`, src/neuralnet.h:11-19. `deriv = none` is a NULL (or never set) pointer. -/
structure Layer (F : Type) where
  nIn : Nat
  nOut : Nat
  weight : View F
  bias : View F
  act : Act
  deriv : Option ActDeriv

/-- `neuralnet_t`, src/neuralnet.h:21-28. -/
structure Net (F : Type) where
  layers : List (Layer F)
  loss : Option Loss

/-- A layer as left by `_weights_memory_allocate` (src/neuralnet.c:67-93): positive sizes, buffers of
exactly the right length, SIMD aligned. -/
structure Layer.WF (c : Cfg) (l : Layer F) : Prop where
  in_pos : 1 ≤ l.nIn
  out_pos : 1 ≤ l.nOut
  weight_len : l.weight.data.length = l.nIn * l.nOut
  bias_len : l.bias.data.length = l.nOut
  weight_al : l.weight.addr % c.alignSize = 0
  bias_al : l.bias.addr % c.alignSize = 0

/-- Consecutive layers fit. -/
def Chained : List (Layer F) → Prop
  | l :: l' :: ls => l.nOut = l'.nIn ∧ Chained (l' :: ls)
  | _ => True

/-- A network as `neuralnet_create` builds it. -/
structure Net.WF (c : Cfg) (nn : Net F) : Prop where
  ne : nn.layers ≠ []
  layer : ∀ l ∈ nn.layers, l.WF c
  chain : Chained nn.layers

/-- `nn->layer[0].n_input` -/
def Net.nInput (nn : Net F) : Nat := match nn.layers with
  | l :: _ => l.nIn
  | [] => 0

/-- `nn->layer[nn->n_layers-1].n_output` -/
def Net.nOutput (nn : Net F) : Nat := match nn.layers.getLast? with
  | some l => l.nOut
  | none => 0

/-- Where an activation vector lives: the caller's input, the stack buffer `workmem` at an offset, or
the caller's output. -/
inductive Ptr where
  | input
  | work (off : Nat)
  | out
  deriving DecidableEq, Repr

/-- The buffers a forward pass works on. -/
structure Bufs (F : Type) where
  input : View F
  work : View F
  out : View F

/-- Dereference: the rest of the object from the pointer on. -/
def Bufs.at (s : Bufs F) : Ptr → View F
  | .input => s.input
  | .work o => s.work.offset o
  | .out => s.out

/-- Write back the object behind a pointer after a callee has changed it. -/
def Bufs.put (s : Bufs F) (p : Ptr) (v : View F) : Bufs F :=
  match p with
  | .input => { s with input := v }
  | .work o => { s with work := { s.work with data := s.work.data.take o ++ v.data } }
  | .out => { s with out := v }

/-- Do `n` floats at `p` and `m` floats at `q` overlap?  (Caller's buffers and the stack are distinct
objects.) -/
def overlaps (p : Ptr) (n : Nat) (q : Ptr) (m : Nat) : Bool :=
  match p, q with
  | .work a, .work b => decide (a < b + m ∧ b < a + n)
  | .input, .input => true
  | .out, .out => true
  | _, _ => false

/-- A stack array of `n` floats at `addr` with arbitrary contents. -/
def stackArray (addr n : Nat) (junk : Nat → F) : View F := ⟨addr, (List.range n).map junk⟩

/-- `size_w_padding`, src/neuralnet.c:258-259 and 493-494. -/
def padded (c : Cfg) (n : Nat) : Nat := (n + c.lanes - 1) / c.lanes * c.lanes

/-- Offsets of the layer buffers in `workmem`, with the alignment assertions,
src/neuralnet.c:256-262 and 491-497 (the loop as recursion over the layers that get a buffer). -/
def layout (c : Cfg) (workAddr : Nat) : Nat → List (Layer F) → M (List Nat)
  | _, [] => pure []
  | off, [_] => pure [off]
  | off, l :: l' :: ls =>
    if isAligned c (workAddr + 4 * (off + padded c l.nOut)) then do
      let rest ← layout c workAddr (off + padded c l.nOut) (l' :: ls)
      pure (off :: rest)
    else .error .assertFail

section
variable [FloatOps F]

/-- One layer of the forward pass, src/neuralnet.c:279-289 and 500-510. -/
def forwardStep (env : CustomEnv F) (c : Cfg) (l : Layer F) (src dst : Ptr) (s : Bufs F) :
    M (Bufs F) :=
  if overlaps src l.nIn dst l.nOut then .error .overlap
  else do
    let y ← vectorMatrixMultiply c l.nIn l.nOut l.weight l.bias (s.at src) (s.at dst)
    let y ← activate env c l.act l.nOut y
    pure (s.put dst y)

/-- The forward loop, src/neuralnet.c:278-290 and 499-511. -/
def forward (env : CustomEnv F) (c : Cfg) : List (Layer F) → Ptr → List Ptr → Bufs F → M (Bufs F)
  | [], _, _, s => pure s
  | l :: ls, src, dst :: dsts, s => do
    let s ← forwardStep env c l src dst s
    forward env c ls dst dsts s
  | _ :: _, _, [], _ => .error .oob

/-- `workmem_sz`, src/neuralnet.c:251-253 and 485-487. -/
def workSize (layers : List (Layer F)) : Nat := (layers.map Layer.nOut).sum

/-- `neuralnet_predict`, src/neuralnet.c:242-291.  `workAddr` is the address the compiler gives to
`workmem`, `junk` its previous contents. -/
def predict (env : CustomEnv F) (c : Cfg) (workAddr : Nat) (junk : Nat → F) (nn : Net F)
    (input out : View F) : M (View F) := do
  let work := stackArray workAddr (workSize nn.layers + c.lanes * nn.layers.length) junk
  let offs ← layout c workAddr 0 nn.layers.dropLast
  let s ← forward env c nn.layers .input (offs.map .work ++ [.out]) ⟨input, work, out⟩
  pure s.out

/-- One layer of the backward loop with its buffers: input activation, output activation, position of
`grad_b[layer]` in the gradient buffer (`grad_w[layer]` follows at `gb + n_out`). -/
structure BackLayer (F : Type) where
  layer : Layer F
  src : Ptr
  dst : Ptr
  gb : Nat

/-- The pointers `activations`, `grad_b`, `grad_w` of each layer, src/neuralnet.c:519-529. -/
def backLayers : List (Layer F) → Ptr → List Ptr → Nat → List (BackLayer F)
  | l :: ls, src, dst :: dsts, g =>
    ⟨l, src, dst, g⟩ :: backLayers ls dst dsts (g + l.nOut + l.nIn * l.nOut)
  | _, _, _, _ => []

/-- Write back a changed tail of the gradient buffer. -/
def putGrad (g : View F) (o : Nat) (v : View F) : View F := { g with data := g.data.take o ++ v.data }

/-- The derivative and outer product part of the loop body, src/neuralnet.c:547-550. -/
def backStep (env : CustomEnv F) (c : Cfg) (s : Bufs F) (b : BackLayer F) (g : View F) :
    M (View F) :=
  match b.layer.deriv with
  | none => .error .nullDeref
  | some d => do
    let v ← activateDeriv env c d b.layer.nOut (s.at b.dst) (g.offset b.gb)
    let g := putGrad g b.gb v
    let w ← vectorVectorOuter c b.layer.nIn b.layer.nOut (s.at b.src) (g.offset b.gb)
      (g.offset (b.gb + b.layer.nOut))
    pure (putGrad g (b.gb + b.layer.nOut) w)

/-- The backward loop, src/neuralnet.c:536-551.  The loop runs from the last layer to the first; as a
recursion, the deeper layers are handled first. -/
def backward (env : CustomEnv F) (c : Cfg) (s : Bufs F) : List (BackLayer F) → View F → M (View F)
  | [], g => pure g
  | [b], g => backStep env c s b g
  | b :: b' :: bs, g => do
    let g ← backward env c s (b' :: bs) g
    if b'.gb < b.gb + b'.layer.nIn then .error .overlap
    else do
      let v ← matrixVectorMultiply c b'.layer.nIn b'.layer.nOut b'.layer.weight (g.offset b'.gb)
        (g.offset b.gb)
      backStep env c s b (putGrad g b.gb v)

/-- Number of parameters as a natural number; `neuralnet_total_n_parameters` (src/neuralnet.h:48-55)
computes it in `unsigned int`, see `Verif/Model/Params.lean`. -/
def nParams (layers : List (Layer F)) : Nat := (layers.map fun l => (l.nIn + 1) * l.nOut).sum

/-- `memset( grad, 0, n * sizeof(float))`. -/
def memsetZero (g : View F) (n : Nat) : M (View F) :=
  if n ≤ g.data.length then .ok { g with data := List.replicate n zero ++ g.data.drop n }
  else .error .oob

/-- `neuralnet_backpropagation`, src/neuralnet.c:480-553. -/
def backpropagation (env : CustomEnv F) (c : Cfg) (workAddr : Nat) (junk : Nat → F) (nn : Net F)
    (input target grad : View F) : M (View F) :=
  if isAligned c grad.addr then do
    let work := stackArray workAddr
      (workSize nn.layers + nn.nInput + c.lanes * nn.layers.length) junk
    let offs ← layout c workAddr 0 nn.layers
    let s ← forward env c nn.layers .input (offs.map .work) ⟨input, work, ⟨0, []⟩⟩
    let g ← memsetZero grad (nParams nn.layers)
    let bls := backLayers nn.layers .input (offs.map .work) 0
    match nn.loss, bls.getLast? with
    | some loss, some bl => do
      let v ← runLoss loss bl.layer.nOut (s.at bl.dst) target (g.offset bl.gb)
      backward env c s bls (putGrad g bl.gb v)
    | none, _ => .error .assertFail
    | _, none => .error .oob
  else .error .assertFail

/-- `neuralnet_update`, src/neuralnet.c:563-576 (the pointer walk as recursion over the layers). -/
def updateLayers (c : Cfg) : List (Layer F) → View F → M (List (Layer F))
  | [], _ => pure []
  | l :: ls, delta => do
    let bias ← vectorAccumulateUnaligned c l.nOut l.bias delta
    let delta := delta.offset l.nOut
    let weight ← vectorAccumulateUnaligned c (l.nOut * l.nIn) l.weight delta
    let delta := delta.offset (l.nIn * l.nOut)
    let ls ← updateLayers c ls delta
    pure ({ l with bias := bias, weight := weight } :: ls)

/-- `neuralnet_update`, src/neuralnet.c:563-576. -/
def update (c : Cfg) (nn : Net F) (delta : View F) : M (Net F) := do
  let ls ← updateLayers c nn.layers delta
  pure { nn with layers := ls }

/-- `memcpy( dst, src, n * sizeof(float))`. -/
def memcpyF (dst src : View F) (n : Nat) : M (View F) :=
  if n ≤ dst.data.length ∧ n ≤ src.data.length then
    .ok { dst with data := src.data.take n ++ dst.data.drop n }
  else .error .oob

/-- Loop of `neuralnet_get_parameters`, `o` is `ptr - params`. -/
def getParametersLoop : List (Layer F) → Nat → View F → M (View F)
  | [], _, p => pure p
  | l :: ls, o, p => do
    let v ← memcpyF (p.offset o) l.bias l.nOut
    let p := putGrad p o v
    let o := o + l.nOut
    let v ← memcpyF (p.offset o) l.weight (l.nOut * l.nIn)
    let p := putGrad p o v
    getParametersLoop ls (o + l.nIn * l.nOut) p

/-- `neuralnet_get_parameters`, src/neuralnet.c:586-597. -/
def getParameters (nn : Net F) (params : View F) : M (View F) :=
  getParametersLoop nn.layers 0 params
end

/-- The loop over all layers, src/neuralnet.c:435-439. -/
def resetDeriv (recs : List ActRecord) (l : Layer F) : Layer F :=
  { l with deriv := getActivationDerivative recs l.act }

/-- The matching pairs at the output layer, src/neuralnet.c:441-457. -/
def matchPair (loss : Loss) (layers : List (Layer F)) : List (Layer F) :=
  match layers.getLast? with
  | none => layers
  | some last =>
    if (loss = .bce ∧ last.act = .sigmoid) ∨ (loss = .cce ∧ last.act = .softmax) then
      layers.dropLast ++ [{ last with deriv := some .linear }]
    else layers

/-- `neuralnet_set_loss`, src/neuralnet.c:427-466.  Warnings are not modelled. -/
def setLoss (recs : List ActRecord) (nn : Net F) (name : String) : Net F :=
  match getLossFunc name with
  | none => { nn with loss := none }
  | some loss =>
    { nn with layers := matchPair loss (nn.layers.map (resetDeriv recs)), loss := some loss }

end NN
