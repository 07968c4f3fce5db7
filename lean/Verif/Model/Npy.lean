import Verif.Model.Logger
/-
Model of npy_array/npy_array.c: reading and writing .npy files.  `char` is signed (x86), the machine little endian.
-/
namespace NN

/-- `npy_array_t`, npy_array/npy_array.h:48-58.  `data` is the object `m->data` points to, `shape` has 8 elements,
`mapped` is `map_addr != NULL`. -/
structure NpyArray where
  data : Bytes
  shape : List Nat
  ndim : Nat
  endianness : UInt8
  typechar : UInt8
  elemSize : Nat
  fortran : Bool
  mapped : Bool

/-- `_guess_endianness`, npy_array/npy_array.c:72-81. -/
def guessEndianness (m : NpyArray) : UInt8 :=
  if m.endianness = 60 ∨ m.endianness = 62 ∨ m.endianness = 124 then m.endianness   -- "<>|"
  else if m.elemSize = 1 then 124
  else if m.typechar = 83 then 124                                                  -- 'S'
  else 60

/-- `(int) x` for a `size_t`: the low 32 bits as two's complement. -/
def castInt (n : Nat) : Int :=
  if n % 2 ^ 32 < 2 ^ 31 then (n % 2 ^ 32 : Nat) else (n % 2 ^ 32 : Nat) - 2 ^ 32

/-- The text of the shape, npy_array/npy_array.c:99-100. -/
def shapeText (dims : List Nat) : Bytes := (dims.map fun d => decInt (castInt d) ++ str ",").flatten

/-- The dictionary, npy_array/npy_array.c:116-121. -/
def dictText (m : NpyArray) : Bytes :=
  str "{'descr': '" ++ [guessEndianness m, m.typechar] ++ dec m.elemSize ++ str "', 'fortran_order': " ++
  (if m.fortran then str "True" else str "False") ++ str ", 'shape': (" ++ shapeText (m.shape.take m.ndim) ++ str "), }"

/-- `NPY_ARRAY_MAGIC_STRING`, npy_array/npy_array.c:48. -/
def npyMagic : Bytes := 0x93 :: str "NUMPY"

/-- `HEADER_LEN`, npy_array/npy_array.c:114. -/
def headerLen : Nat := 108

/-- `npy_array_get_header`, npy_array/npy_array.c:83-133: the bytes written to `buf`.  The buffers `shape` (512 bytes) and
`dict` (1024 bytes) are large enough for 8 dimensions of at most 11 characters. -/
def npyGetHeader (m : NpyArray) : M Bytes :=
  if m.shape.length < m.ndim then .error .oob
  else
    let dict := dictText m
    if dict.length < headerLen then
      let dict := dict ++ (padLeft (headerLen - dict.length + 10 - 1) 32 (str " ") ++ str "\n")
      pure (npyMagic ++ [1, 0] ++ [(dict.length % 256).toUInt8, (dict.length / 256 % 256).toUInt8] ++ dict)
    else .error .assertFail

/-- The loop of npy_array/npy_array.c:137-140 over the rest of `shape`; `k` dimensions are left.  `shape[idx]` is read
before `idx` is compared. -/
def countElements : List Nat → Nat → Nat → M Nat
  | [], _, _ => .error .oob
  | d :: ds, k, acc =>
    if 0 < d ∧ 0 < k then countElements ds (k - 1) (acc * d % 2 ^ 64) else pure acc

/-- `npy_array_calculate_datasize`, npy_array/npy_array.c:135-142. -/
def npyDatasize (m : NpyArray) : M Nat := do
  let n ← countElements m.shape m.ndim 1
  pure (n * m.elemSize % 2 ^ 64)

/-- What `npy_array_save` writes, npy_array/npy_array.c:362-374 (the disk does not fill up). -/
def npyBytes (m : NpyArray) : M Bytes := do
  let header ← npyGetHeader m
  let size ← npyDatasize m
  if size ≤ m.data.length then pure (header ++ m.data.take size) else .error .oob

/-- `npy_array_save`, npy_array/npy_array.c:348-376; `none` is NULL. -/
def npySave (d : Disk) (filename : String) (m : Option NpyArray) : M Disk :=
  match m with
  | none => pure d
  | some m =>
    if d.writable filename then do
      let b ← npyBytes m
      pure { d with content := fun g => if g = filename then some b else d.content g }
    else pure d

/-! ### Reading -/

/-- `header_length` of npy_array/npy_array.c:181-183.  The low byte is a signed `char`: it is sign extended. -/
def headerLength (lo hi : UInt8) : Nat := if 128 ≤ lo then 65280 + lo.toNat else 256 * hi.toNat + lo.toNat

/-- `find_header_item`, npy_array/npy_array.c:145-149: the buffer from the end of the item on. -/
def findHeaderItem (item buf : Bytes) : Option Bytes :=
  (strstr item (cstr buf)).map fun i => buf.drop (i + item.length)

/-- The loop over the shape, npy_array/npy_array.c:234-242. -/
def shapeLoop : Bytes → List Nat → M (List Nat)
  | [], _ => .error .oob
  | c :: cs, dims =>
    if c = 41 then pure dims                                               -- ')'
    else if isDigit c then
      let dims := dims ++ [(strtol (c :: cs)).toNat]
      if dims.length < 8 then shapeLoop (cs.dropWhile isDigit) dims else .error .assertFail
    else shapeLoop cs dims
termination_by s => s.length
decreasing_by
  · have := (List.dropWhile_sublist (p := isDigit) (l := cs)).length_le
    simp only [List.length_cons]; omega
  · simp

/-- How `_read_matrix` reads: from a file or archive member (`read_file`, `read_zip`), which gives fewer bytes at the end
of the file; or from a mapping (`read_mapped`, npy_array/npy_array.c:293-303), which always claims success and leaves the
rest of the buffer uninitialised.  Using such a buffer is a fault.  `none`: short read. -/
def readBytes (mapped : Bool) (n : Nat) (s : Bytes) : M (Option (Bytes × Bytes)) :=
  if n ≤ s.length then pure (some (s.take n, s.drop n))
  else if mapped then .error .uninit else pure none

/-- `descr[i]`, with `s` the buffer from `descr` on. -/
def byteAt (s : Bytes) (i : Nat) : M UInt8 :=
  match s[i]? with
  | some c => pure c
  | none => .error .oob

/-- `assert(p)` for a pointer. -/
def assertPtr {α : Type} : Option α → M α
  | some a => pure a
  | none => .error .assertFail

/-- Lines 202-242 of npy_array/npy_array.c: the array described by the header, without data.  `buf` is the header with its
terminating NUL. -/
def parseHeader (buf : Bytes) : M NpyArray := do
  let descr ← assertPtr (findHeaderItem (str "'descr': '") buf)
  let c ← byteAt descr 0
  let endian := if c = 60 ∨ c = 62 ∨ c = 124 ∨ c = 0 then c else 0         -- strchr finds the NUL too
  let typechar ← byteAt descr 1
  let _ ← byteAt descr 2
  let elemSize := ((strtol (cstr (descr.drop 2))).emod (2 ^ 64)).toNat
  if 0 < elemSize then
    let fortran ← assertPtr (findHeaderItem (str "'fortran_order': ") buf)
    let shape ← assertPtr (findHeaderItem (str "'shape': ") buf)
    let dims ← shapeLoop shape []
    pure ⟨[], dims ++ List.replicate (8 - dims.length) 0, dims.length, endian, typechar, elemSize,
      (str "True").isPrefixOf (cstr fortran), false⟩
  else .error .assertFail

/-- `n_elements`, npy_array/npy_array.c:244-247: the product of the shape up to the first 0 (`shape[7]` is 0). -/
def shapeElements : List Nat → Nat → Nat
  | [], acc => acc
  | d :: ds, acc => if 0 < d then shapeElements ds (acc * d % 2 ^ 64) else acc

/-- `_read_matrix`, npy_array/npy_array.c:157-275.  `mem n` says whether an allocation of `n` bytes succeeds. -/
def readMatrix (mapped : Bool) (mem : Nat → Bool) (s : Bytes) : M (Option NpyArray) := do
  match ← readBytes mapped 10 s with
  | none => pure none
  | some (pre, s) =>
    if pre.take 6 ≠ npyMagic then pure none
    else if pre[6]? ≠ some 1 then pure none
    else
      match ← readBytes mapped (headerLength (pre.getD 8 0) (pre.getD 9 0)) s with
      | none => pure none
      | some (header, s) =>
        if mem 104 then
          let m ← parseHeader (header ++ [0])
          if mapped then pure (some { m with data := s, mapped := true })
          else
            let size := shapeElements m.shape 1 * m.elemSize % 2 ^ 64
            if mem size then
              match ← readBytes false size s with
              | none => pure none
              | some (data, _) => pure (some { m with data := data })
            else pure none
        else pure none

/-- `npy_array_load`, npy_array/npy_array.c:277-291. -/
def npyLoad (d : Disk) (mem : Nat → Bool) (filename : String) : M (Option NpyArray) :=
  match d.content filename with
  | none => pure none
  | some s => if d.readable filename then readMatrix false mem s else pure none

/-- `npy_array_mmap`, npy_array/npy_array.c:305-330: an empty file cannot be mapped; `canMap` says whether `mmap`
succeeds. -/
def npyMmap (d : Disk) (mem : Nat → Bool) (canMap : Bool) (filename : String) : M (Option NpyArray) :=
  match d.content filename with
  | none => pure none
  | some s => if d.readable filename && canMap && s ≠ [] then readMatrix true mem s else pure none

end NN
