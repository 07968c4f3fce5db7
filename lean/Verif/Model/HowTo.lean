import Verif.Model.NpyList
/-
Model of `npy_array_dump` and of the programs in npy_array/example.  Output is the text written to stdout; stderr is not modelled.
-/
namespace NN

/-- `m->shape[i]` (8 elements). -/
def NpyArray.shapeAt (m : NpyArray) (i : Int) : M Nat :=
  match i with
  | .ofNat k => match m.shape[k]? with
    | some d => pure d
    | none => .error .oob
  | .negSucc _ => .error .oob

/-- The loop `for( int i = 0; i < m->ndim - 1; i++)`, npy_array/npy_array.c:340; `k` dimensions are left. -/
def dumpShape (m : NpyArray) : Nat → Nat → M Bytes
  | _, 0 => pure []
  | i, k + 1 => do
    let d ← m.shapeAt i
    let t ← dumpShape m (i + 1) k
    pure (decInt (castInt d) ++ str ", " ++ t)

/-- `npy_array_dump`, npy_array/npy_array.c:332-346. -/
def npyDump : Option NpyArray → M Bytes
  | none => pure []
  | some m => do
    let s ← dumpShape m 0 (m.ndim - 1)
    let d ← m.shapeAt ((m.ndim : Int) - 1)
    pure (str "Dimensions   : " ++ dec m.ndim ++ str "\n" ++ str "Shape        : ( " ++ s ++ decInt (castInt d) ++ str " )\n" ++
      str "Type         : '" ++ [m.typechar] ++ str "' " ++ str "(" ++ decInt (castInt m.elemSize) ++ str " bytes each element)\n" ++
      str "Fortran order: " ++ (if m.fortran then str "True" else str "False") ++ str "\n")

/-- `*(array + i * n_cols + j )`, npy_array/example/how_to_load.c:26: the four bytes of the float. -/
def floatAt (m : NpyArray) (i j : Nat) (cols : Int) : M Bytes :=
  let o := (i : Int) * cols
  if -2 ^ 31 ≤ o ∧ o < 2 ^ 31 then
    let k := o + j
    if 0 ≤ k ∧ 4 * k + 4 ≤ m.data.length then pure ((m.data.drop (4 * k).toNat).take 4) else .error .oob
  else .error .overflow

/-- One row, npy_array/example/how_to_load.c:25-27.  `fmt` is the text of `printf( "%5.1f  ", x )` for the float with these bytes. -/
def printRow (fmt : Bytes → Bytes) (m : NpyArray) (cols : Int) (i : Nat) (out : Bytes) : M Bytes := do
  let out ← forN cols.toNat (fun j out => do
    let b ← floatAt m i j cols
    pure (out ++ fmt b)) out
  pure (out ++ str "\n")

/-- `main` of npy_array/example/how_to_load.c:4-35: the output and the exit status.  `args` is the command line without the name of
the program `prog`.  Note `arr->ndim = 2`: an assignment, which is always true. -/
def howToLoad (fmt : Bytes → Bytes) (prog : Bytes) (d : Disk) (mem : Nat → Bool) (args : List String) : M (Bytes × Nat) :=
  match args with
  | [file] => do
    match ← npyLoad d mem file with
    | none => pure (str "Cannot read NumPy file '" ++ str file ++ str "'.\n", 1)
    | some arr => do
      let out ← npyDump (some arr)
      if arr.typechar = 102 ∧ arr.elemSize = 4 then do
        let arr := { arr with ndim := 2 }
        let rows ← arr.shapeAt 0
        let cols ← arr.shapeAt 1
        let out ← forN (castInt rows).toNat (printRow fmt arr (castInt cols)) out
        pure (out, 0)
      else pure (out ++ str "Try with a npy array of 2 dimensions and 'float32' precision elements.\n", 0)
  | _ => pure (str "Usage: " ++ prog ++ str " <filename>\n", 1)

/-- The loop of npy_array/example/how_to_load_npz.c:21-24. -/
def dumpList : List (Bytes × NpyArray) → M Bytes
  | [] => pure []
  | (name, m) :: l => do
    let t ← npyDump (some m)
    let r ← dumpList l
    pure (str "File: " ++ name ++ str "\n" ++ t ++ r)

/-- `main` of npy_array/example/how_to_load_npz.c:4-35. -/
def howToLoadNpz (prog : Bytes) (lib : ZipLib) (d : Disk) (mem : Nat → Bool) (args : List String) : M (Bytes × Nat) :=
  match args with
  | [file] => do
    match ← listLoad lib d mem file with
    | [] => pure (str "Cannot read .npz file '" ++ str file ++ str "'.\n", 1)
    | p :: l => do
      let t ← dumpList (p :: l)
      pure (str "number of npy_arrays in file: " ++ dec (l.length + 1) ++ str "\n" ++ t, 0)
  | _ => pure (str "Usage: " ++ prog ++ str " <filename>\n", 1)

/-- The array of npy_array/example/how_to_save.c:17-24 (`endian` is '<') and of its lines 65-66 (`NPY_ARRAY_BUILDER`, `SHAPE`,
`NPY_DTYPE_FLOAT32`, npy_array/npy_array.h:82-111; `endian` is 0).  `bits k` are the bytes of `(float) k`. -/
def fourByThree (bits : Nat → Bytes) (endian : UInt8) : NpyArray :=
  ⟨(List.range 12).flatMap bits, [4, 3, 0, 0, 0, 0, 0, 0], 2, endian, 102, 4, false, false⟩

/-- `main` of npy_array/example/how_to_save.c:4-71 (memory does not end). -/
def howToSave (bits : Nat → Bytes) (d : Disk) : M Disk := do
  let d ← npySave d "my_4_by_3_array.npy" (some (fourByThree bits 60))
  npySave d "my_4_by_3_array_shortcut.npy" (some (fourByThree bits 0))

/-- `main` of npy_array/example/how_to_save_npz.c:7-45.  `ints k` and `doubles k` are the bytes of the number `k`. -/
def howToSaveNpz (ints doubles : Nat → Bytes) (lib : ZipLib) (d : Disk) : M Disk := do
  let (_, d) ← listSave lib d "iarray_and_darray.npz"
    [(none, ⟨(List.range 12).flatMap ints, [4, 3, 0, 0, 0, 0, 0, 0], 2, 0, 105, 4, false, false⟩),
     (none, ⟨(List.range 12).flatMap doubles, [4, 3, 0, 0, 0, 0, 0, 0], 2, 0, 102, 8, false, false⟩)]
  pure d

end NN
