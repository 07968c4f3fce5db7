import Verif.Model.Logger
/-
Model of the reader of IDX files (the format of the MNIST data) in examples/example_03.c.  The machine is little endian.
`uint32_t` arithmetic wraps.  The code warns about a short read and goes on with the bytes of the buffer that were never
written; using such a byte is a fault here.
-/
namespace NN
open FloatOps
variable {F : Type} [FloatOps F]

/-- Element `i` of a buffer into which `fread` delivered `raw`. -/
def rawAt (raw : Bytes) (i : Nat) : M UInt8 :=
  match raw[i]? with
  | some b => pure b
  | none => .error .uninit

/-- `assert(b)`. -/
def assertC (b : Bool) : M Unit := if b then pure () else .error .assertFail

/-- `read_uint_big_endian`, examples/example_03.c:18-32: the number and the rest of the file.  Bytes 0 and 3, then 1 and 2
are exchanged; the union is read as a little endian number. -/
def readUintBE (s : Bytes) : M (Nat × Bytes) := do
  let val := s.take 4
  let c0 ← rawAt val 0
  let c1 ← rawAt val 1
  let c2 ← rawAt val 2
  let c3 ← rawAt val 3
  let (c0, c3) := (c3, c0)
  let (c1, c2) := (c2, c1)
  pure (c0.toNat + 2 ^ 8 * c1.toNat + 2 ^ 16 * c2.toNat + 2 ^ 24 * c3.toNat, s.drop 4)

/-- The magic number, examples/example_03.c:53-64 and 111-122; `dim` is the expected number of dimensions. -/
def idxMagic (dim : UInt8) (s : Bytes) : M Bytes := do
  let magic := s.take 4
  let m0 ← rawAt magic 0
  assertC (m0 == 0)
  let m1 ← rawAt magic 1
  assertC (m1 == 0)
  let m2 ← rawAt magic 2
  assertC (m2 == 8)
  let m3 ← rawAt magic 3
  assertC (m3 == dim)
  pure (s.drop 4)

/-- `malloc`/`calloc` of `bytes` bytes for `n` elements that are written next: NULL is only harmless without elements. -/
def mallocFor (mem : Nat → Bool) (bytes n : Nat) : M Unit :=
  if mem bytes ∨ n = 0 then pure () else .error .nullDeref

/-- The loop of examples/example_03.c:80-85 from element `i` on, `n` elements left. -/
def scaleLoop (raw : Bytes) : Nat → Nat → M (List F)
  | _, 0 => pure []
  | i, n + 1 => do
    let b ← rawAt raw i
    let r ← scaleLoop raw (i + 1) n
    pure (div (ofNat b.toNat) (lit 255 1) :: r)

/-- Lines 53-89 of examples/example_03.c: `*n_samples`, `*n_features` and the array; `none` is NULL (an empty array for
which `malloc` gives NULL). -/
def idxFeatures (mem : Nat → Bool) (s : Bytes) : M (Option (Nat × Nat × List F)) := do
  let s ← idxMagic 3 s
  let (nSamples, s) ← readUintBE s
  let (nRows, s) ← readUintBE s
  let (nCols, s) ← readUintBE s
  let nFeatures := nRows * nCols % 2 ^ 32
  let n := nSamples * nFeatures % 2 ^ 32
  mallocFor mem n n
  let raw := s.take n
  mallocFor mem (4 * n) n
  let features ← scaleLoop raw 0 n
  pure (if mem (4 * n) then some (nSamples, nFeatures, features) else none)

/-- `read_idx_features`, examples/example_03.c:34-90. -/
def readIdxFeatures (d : Disk) (mem : Nat → Bool) (filename : String) : M (Option (Nat × Nat × List F)) :=
  match d.content filename with
  | none => pure none
  | some s => if d.readable filename then idxFeatures mem s else pure none

/-- The loop of examples/example_03.c:133-136; `i * n_targets` is computed with 32 bits, `labels` is the array. -/
def oneHotLoop (raw : Bytes) (nSamples nTargets : Nat) (labels : View F) : M (View F) :=
  forN nSamples (fun i labels => do
    let b ← rawAt raw i
    labels.store (i * nTargets % 2 ^ 32 + b.toNat) one) labels

/-- Lines 111-140 of examples/example_03.c. -/
def idxLabels (mem : Nat → Bool) (nTargets : Nat) (s : Bytes) : M (Option (Nat × List F)) := do
  let s ← idxMagic 1 s
  let (nSamples, s) ← readUintBE s
  mallocFor mem nSamples nSamples
  let raw := s.take nSamples
  let n := nSamples * nTargets % 2 ^ 32
  mallocFor mem (4 * n) nSamples
  let labels ← oneHotLoop raw nSamples nTargets ⟨0, List.replicate n zero⟩
  pure (if mem (4 * n) then some (nSamples, labels.data) else none)

/-- `read_idx_labels`, examples/example_03.c:92-141. -/
def readIdxLabels (d : Disk) (mem : Nat → Bool) (filename : String) (nTargets : Nat) : M (Option (Nat × List F)) :=
  match d.content filename with
  | none => pure none
  | some s => if d.readable filename then idxLabels mem nTargets s else pure none

/-- The data of `main`, examples/example_03.c:145-153. -/
structure IdxData (F : Type) where
  nTrain : Nat
  nTest : Nat
  nFeatures : Nat
  trainFeatures : List F
  trainLabels : List F
  testFeatures : List F
  testLabels : List F

/-- Lines 145-158 of examples/example_03.c: each call overwrites the counts the call before it has stored. `none`: the
message "Cannot read datafiles". -/
def readIdxData (d : Disk) (mem : Nat → Bool) : M (Option (IdxData F)) := do
  let tx ← readIdxFeatures d mem "train-images-idx3-ubyte"
  let ty ← readIdxLabels d mem "train-labels-idx1-ubyte" 10
  let vx ← readIdxFeatures d mem "t10k-images-idx3-ubyte"
  let vy ← readIdxLabels d mem "t10k-labels-idx1-ubyte" 10
  match tx, ty, vx, vy with
  | some (_, _, tx), some (nTrain, ty), some (_, nFeatures, vx), some (nTest, vy) =>
    pure (some ⟨nTrain, nTest, nFeatures, tx, ty, vx, vy⟩)
  | _, _, _, _ => pure none

end NN
