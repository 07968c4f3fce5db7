import Verif.Model.CString
/-
The NumPy .npy format, version 1.0 (numpy.lib.format), and arrays as mathematical objects.
-/
namespace NN.Spec

/-- What an array means: type, order, dimensions and contents. -/
structure Array where
  endian : UInt8
  typechar : UInt8
  elemSize : Nat
  fortran : Bool
  dims : List Nat
  data : Bytes

/-- Number of bytes of the data. -/
def Array.nbytes (a : Array) : Nat := a.dims.prod * a.elemSize

/-- The Python dictionary literal, as this library writes it (comma after every dimension). -/
def Array.dict (a : Array) : Bytes :=
  str "{'descr': '" ++ [a.endian, a.typechar] ++ dec a.elemSize ++ str "', 'fortran_order': " ++
  str (if a.fortran then "True" else "False") ++ str ", 'shape': (" ++ (a.dims.map fun d => dec d ++ str ",").flatten ++
  str "), }"

/-- A .npy file: magic, version 1.`minor`, header length (little endian), header = dictionary, `k` spaces, newline; data. -/
def Array.file (a : Array) (minor : UInt8) (k : Nat) : Bytes :=
  (0x93 :: str "NUMPY") ++ [1, minor] ++
  [((a.dict.length + k + 1) % 256).toUInt8, ((a.dict.length + k + 1) / 256).toUInt8] ++
  a.dict ++ List.replicate k 32 ++ str "\n" ++ a.data

end NN.Spec
