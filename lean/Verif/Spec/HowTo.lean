import Verif.Spec.Npy
/-
What the programs in npy_array/example should print.
-/
namespace NN.Spec

/-- Description of an array. -/
def Array.describe (a : Array) : Bytes :=
  str "Dimensions   : " ++ dec a.dims.length ++ str "\nShape        : ( " ++ (str ", ").intercalate (a.dims.map dec) ++
  str " )\nType         : '" ++ [a.typechar] ++ str "' (" ++ dec a.elemSize ++ str " bytes each element)\nFortran order: " ++
  str (if a.fortran then "True" else "False") ++ str "\n"

/-- The bytes of element (i, j) of a matrix with `r` rows and `c` columns: rows first, or columns first in Fortran order. -/
def Array.elem (a : Array) (r c i j : Nat) : Bytes :=
  (a.data.drop (a.elemSize * (if a.fortran then j * r + i else i * c + j))).take a.elemSize

/-- The elements row by row. -/
def Array.table (fmt : Bytes → Bytes) (a : Array) (r c : Nat) : Bytes :=
  (List.range r).flatMap fun i => ((List.range c).flatMap fun j => fmt (a.elem r c i j)) ++ str "\n"

end NN.Spec
