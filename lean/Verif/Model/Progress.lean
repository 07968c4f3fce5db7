import Verif.Model.CString
/-
Model of src/progress.c.
-/
namespace NN
open FloatOps
variable {F : Type} [FloatOps F]

/-- Conversion of an `int` to `float`. -/
def ofInt (z : Int) : F := if z < 0 then neg (ofNat z.natAbs) else ofNat z.natAbs

/-- `progress_ascii`, src/progress.c:61-93, with the formatted label.  `cols` is `getcols(STDOUT_FILENO)` (0 if stdout is
not a terminal), `toInt` the conversion of a `float` to `int` (undefined if out of range).  Gives the bytes printed;
`EXTRA_WIDTH` is 7 (not Windows). -/
def progressAscii (toInt : F → M Int) (cols : Nat) (x n : Int) (label : Bytes) : M Bytes :=
  let w : Int := cols - 7 - label.length
  if w < 1 then pure []
  else do
    let ratio : F := div (ofInt x) (ofInt n)
    let c ← toInt (mul ratio (ofInt w))
    let percent ← toInt (mul ratio (ofInt 100))
    pure (label ++ str "[" ++ List.replicate c.toNat 35 ++ List.replicate (w - c).toNat 45 ++
      str "] " ++ padLeft 3 32 (decInt percent) ++ str "%" ++ (if x = n then str "\n" else str "\r"))

/-- `getcols`, src/progress.c:20-59: `tty` is the result of `isatty`, `size` the width that the `ioctl` reports if it succeeds (an
`unsigned short`; 0 if the terminal does not know). -/
def getcols (tty : Bool) (size : Option Nat) : Nat :=
  if !tty then 0
  else
    let termwidth := match size with
      | some k => k
      | none => 0
    if termwidth = 0 then 80 else termwidth

/-- `progress_ascii` with the terminal at `stdout`. -/
def progressTty (toInt : F → M Int) (tty : Bool) (size : Option Nat) (x n : Int) (label : Bytes) : M Bytes :=
  progressAscii toInt (getcols tty size) x n label

end NN
