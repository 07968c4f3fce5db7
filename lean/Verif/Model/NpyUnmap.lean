import Verif.Model.Npy
/-
Model of the address space under `npy_array_mmap` and `npy_array_free` (npy_array/npy_array.c): which pages of 4096 bytes are
mapped.
-/
namespace NN.NpyUnmap

/-- Which pages are mapped. -/
abbrev Pages := Nat → Bool

/-- The pages that `len` bytes need. -/
def pageCount (len : Nat) : Nat := (len + 4095) / 4096

/-- `mmap` of `len` bytes at page `a`.  (That these pages were not mapped is a hypothesis on `a`.) -/
def mmap (a len : Nat) (p : Pages) : Pages := fun i => p i || (decide (a ≤ i) && decide (i < a + pageCount len))

/-- `munmap( addr, len )` for the address of page `a`: all pages that contain one of the bytes, whoever mapped them.  A length of
0 is an error and changes nothing; so is one beyond the end of the address space (2^47 bytes). -/
def munmap (a len : Nat) (p : Pages) : Pages :=
  if len = 0 ∨ 2 ^ 47 < a * 4096 + len then p
  else fun i => p i && !(decide (a ≤ i) && decide (i < a + pageCount len))

/-- `npy_array_mmap`, npy_array/npy_array.c:305-330, at page `a`: the array and the pages.  The mapping is removed if the file is
not an array. -/
def mapFile (mem : Nat → Bool) (s : Bytes) (a : Nat) (p : Pages) : M (Option NpyArray × Pages) :=
  if s = [] then pure (none, p)
  else do
    match ← readMatrix true mem s with
    | none => pure (none, munmap a s.length (mmap a s.length p))
    | some m => pure (some m, mmap a s.length p)

/-- The length computed by `npy_array_free`, npy_array/npy_array.c:386-393; `s` are the bytes at `map_addr`. -/
def freeLength (s : Bytes) (m : NpyArray) : M Nat := do
  match s[8]?, s[9]? with
  | some lo, some hi =>
    let size ← npyDatasize m
    pure ((10 + headerLength lo hi + size) % 2 ^ 64)
  | _, _ => .error .oob

/-- `npy_array_free` of a mapped array. -/
def freeMapped (s : Bytes) (m : NpyArray) (a : Nat) (p : Pages) : M Pages := do
  let len ← freeLength s m
  pure (munmap a len p)

end NN.NpyUnmap
