import Verif.Model.NpyList
import Verif.Model.Create
/-
Model of `neuralnet_save` and `neuralnet_load`, src/neuralnet.c.  Lists of arrays are Lean lists (C48).
-/
namespace NN

/-- How a `float` is stored in memory. -/
structure FloatBits (F : Type) where
  toBytes : F → Bytes
  ofBytes : Bytes → F

/-- The bytes of a float array. -/
def FloatBits.encode {F : Type} (bits : FloatBits F) (xs : List F) : Bytes := xs.flatMap bits.toBytes

/-- The first `n` floats in a byte array. -/
def FloatBits.decode {F : Type} (bits : FloatBits F) : Nat → Bytes → List F
  | 0, _ => []
  | n + 1, b => bits.ofBytes (b.take 4) :: bits.decode n (b.drop 4)

/-- A name as a C program sees it: one character per byte. -/
def unstr (b : Bytes) : String := String.ofList (b.map fun c => Char.ofNat c.toNat)

/-! ### Saving -/

/-- `NPY_ARRAY_BUILDER( data, SHAPE( a, b ), NPY_DTYPE_FLOAT32 )`, npy_array/npy_array.h:86-92. -/
def floatArray (data : Bytes) (dims : List Nat) : NpyArray :=
  ⟨data, dims ++ List.replicate (8 - dims.length) 0, dims.length, 0, 102, 4, false, false⟩

/-- The loop of src/neuralnet.c:347-371, from layer `i` on. -/
def saveLayers {F : Type} (bits : FloatBits F) : Nat → List (Layer F) → List (Bytes × NpyArray)
  | _, [] => []
  | i, l :: ls =>
    (str "weight_" ++ dec i, floatArray (bits.encode l.weight.data) [l.nIn, l.nOut]) ::
    (str "bias_" ++ dec i, floatArray (bits.encode l.bias.data) [l.nOut]) :: saveLayers bits (i + 1) ls

/-- `longest_name`, src/neuralnet.c:373-378. -/
def longestName (names : List Bytes) : Nat := names.foldl (fun m s => if m < s.length then s.length else m) 0

/-- `data`, src/neuralnet.c:381-390: every name in a field of `w` bytes, padded with 0. -/
def nameData (w : Nat) (names : List Bytes) : Bytes := names.flatMap fun s => s ++ List.replicate (w - s.length) 0

/-- The array "activations", src/neuralnet.c:381-394.  The size of `data` is an `int`. -/
def namesArray (names : List Bytes) : M NpyArray :=
  let w := longestName names
  if w * names.length < 2 ^ 31 then
    pure ⟨nameData w names, [names.length] ++ List.replicate 7 0, 1, 0, 83, w, false, false⟩
  else .error .overflow

/-- The arrays `neuralnet_save` writes, src/neuralnet.c:345-395. -/
def saveArrays {F : Type} (bits : FloatBits F) (recs : List ActRecord) (nn : Net F) : M (List (Bytes × NpyArray)) := do
  let a ← namesArray (nn.layers.map fun l => str (getActivationName recs l.act))
  pure (saveLayers bits 0 nn.layers ++ [(str "activations", a)])

/-- `_MAX_FILENAME_LEN`, src/neuralnet.c:295. -/
def maxFilenameLen : Nat := 128

/-- `neuralnet_save`, src/neuralnet.c:310-413; `none` is NULL, `filename` what the format and its arguments give.
Allocations succeed (otherwise: assertion). -/
def saveNN {F : Type} (lib : ZipLib) (bits : FloatBits F) (recs : List ActRecord) (d : Disk) (nn : Option (Net F))
    (filename : Option String) : M Disk :=
  match nn, filename with
  | some nn, some f =>
    if maxFilenameLen < (str f).length then pure d
    else do
      let l ← saveArrays bits recs nn
      let (_, d) ← listSave lib d f (l.map fun p => (some p.1, p.2))
      pure d
  | _, _ => pure d

/-! ### Loading -/

/-- `m->shape[i]` -/
def dim (m : NpyArray) (i : Nat) : Nat := m.shape.getD i 0

/-- `_activation_names_from_npy`, src/neuralnet.c:95-109.  With 2^32 names or more the `unsigned int` counter never reaches
the end and the pointer runs out of the array. -/
def namesFromNpy (mem : Nat → Bool) (m : NpyArray) : M (List Bytes) :=
  if !mem (dim m 0 * 8) then .error .assertFail
  else if dim m 0 = 0 then .error .oob                                        -- ret[0] with room for no pointer
  else if !mem (dim m 0 * (m.elemSize + 1)) then .error .assertFail
  else if 2 ^ 32 ≤ dim m 0 then .error .oob
  else if m.data.length < dim m 0 * m.elemSize then .error .oob
  else pure ((List.range (dim m 0)).map fun i => cstr ((m.data.drop (i * m.elemSize)).take m.elemSize))

/-- The loop of src/neuralnet.c:141-151; `none`: load_error. -/
def sortArrays (mem : Nat → Bool) : List NpyArray → List NpyArray → Option (List Bytes) →
    M (Option (List NpyArray × Option (List Bytes)))
  | [], wb, acts => pure (some (wb, acts))
  | m :: ms, wb, acts =>
    if m.typechar = 102 then sortArrays mem ms (wb ++ [m]) acts               -- 'f'
    else if m.typechar = 83 then do                                           -- 'S'
      let names ← namesFromNpy mem m
      sortArrays mem ms wb (some names)
    else pure none

/-- The elements 0, 2, 4, ... of `weights_and_biases`. -/
def weightArrays : List NpyArray → List NpyArray
  | w :: _ :: wb => w :: weightArrays wb
  | _ => []

/-- `sizearray`, src/neuralnet.c:157-160, for an even number of arrays. -/
def sizeArray (wb : List NpyArray) : M (List Int) :=
  match weightArrays wb with
  | [] => .error .uninit                                                      -- weights_and_biases[0] is not set
  | w :: ws => pure (castInt (dim w 0) :: (w :: ws).map fun w => castInt (dim w 1))

/-- `memcpy( dst, src, n * sizeof(float) )` -/
def copyFloats {F : Type} (bits : FloatBits F) (dst : View F) (src : Bytes) (n : Nat) : M (View F) :=
  let k := n * 4 % 2 ^ 64 / 4
  if dst.data.length < k then .error .oob
  else if src.length < k * 4 then .error .oob
  else pure ⟨dst.addr, bits.decode k src ++ dst.data.drop k⟩

/-- One turn of the loop of src/neuralnet.c:173-206. -/
def copyLayer {F : Type} (bits : FloatBits F) (w b : NpyArray) (l : Layer F) : M (Layer F) := do
  let weight ← copyFloats bits l.weight w.data (dim w 0 * dim w 1)
  let bias ← copyFloats bits ⟨l.bias.addr, List.replicate l.nOut (bits.ofBytes [0, 0, 0, 0]) ++ l.bias.data.drop l.nOut⟩
    b.data (dim b 0)
  if w.fortran then .error .assertFail
  else if b.fortran then .error .assertFail
  else pure { l with weight := weight, bias := bias }

/-- The loop of src/neuralnet.c:173-206. -/
def copyLayers {F : Type} (bits : FloatBits F) : List NpyArray → List (Layer F) → M (List (Layer F))
  | _, [] => pure []
  | w :: b :: wb, l :: ls => do
    let l ← copyLayer bits w b l
    let ls ← copyLayers bits wb ls
    pure (l :: ls)
  | _, _ :: _ => .error .oob

/-- Lines 134-206 of src/neuralnet.c: the network described by a list of arrays.  Heap: only what `neuralnet_create`
allocates (the temporary objects are freed at the end); `addr` and `junk` as in `CNet.toNet`. -/
def loadArrays {F : Type} (bits : FloatBits F) (mem : Nat → Bool) (ok : Nat → Bool) (dl : DynLinker) (addr : Nat → Nat)
    (junk : Nat → Nat → F) (ms : List NpyArray) (recs : List ActRecord) (h : Heap) :
    M (Option (Net F) × List ActRecord × Heap) :=
  if ms.isEmpty then pure (none, recs, h)
  else if !mem (ms.length * 8) then pure (none, recs, h)
  else do
    match ← sortArrays mem ms [] none with
    | none => pure (none, recs, h)
    | some (wb, acts) =>
      if wb.length % 2 ≠ 0 then .error .assertFail
      else do
        let sizes ← sizeArray wb
        let (net, recs, h) ← createNN ok dl (wb.length / 2 : Nat) sizes (acts.map fun ns => ns.map fun s => some (unstr s)) recs h
        match net with
        | none => pure (none, recs, h)
        | some net => do
          let ls ← copyLayers bits wb (net.toNet addr junk).layers
          pure (some ⟨ls, none⟩, recs, h)

/-- `neuralnet_load`, src/neuralnet.c:116-215. -/
def loadNN {F : Type} (lib : ZipLib) (bits : FloatBits F) (d : Disk) (mem : Nat → Bool) (ok : Nat → Bool) (dl : DynLinker)
    (addr : Nat → Nat) (junk : Nat → Nat → F) (filename : String) (recs : List ActRecord) (h : Heap) :
    M (Option (Net F) × List ActRecord × Heap) := do
  let l ← listLoad lib d mem filename
  loadArrays bits mem ok dl addr junk (l.map Prod.snd) recs h

end NN
