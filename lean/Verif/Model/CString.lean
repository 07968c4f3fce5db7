import Verif.Model.Basic
/-
C strings and the parts of the C library (string.h, stdlib.h, printf) used by the logger and the npy code.  Bytes are
`UInt8`, the execution character set is ASCII.
-/
namespace NN

abbrev Bytes := List UInt8

/-- A string literal (ASCII), without the terminating NUL. -/
def str (s : String) : Bytes := s.toList.map fun c => c.toNat.toUInt8

/-- The C string starting at the beginning of the buffer: everything before the first NUL. -/
def cstr (b : Bytes) : Bytes := b.takeWhile (· != 0)

/-- `strrchr`: index of the last occurrence, `none` is NULL.  The argument is a C string without its NUL. -/
def strrchr (c : UInt8) : Bytes → Option Nat
  | [] => none
  | x :: xs => match strrchr c xs with
    | some i => some (i + 1)
    | none => if x = c then some 0 else none

/-- `strstr`: index of the first occurrence of `needle`, `none` is NULL. -/
def strstr (needle : Bytes) : Bytes → Option Nat
  | [] => if needle = [] then some 0 else none
  | x :: xs => if needle <+: x :: xs then some 0 else (strstr needle xs).map (· + 1)

/-- `isspace` in the "C" locale. -/
def isSpace (c : UInt8) : Bool := c == 32 || (9 ≤ c && c ≤ 13)

/-- `isdigit`.  (For `char` values above 127 the C call is formally undefined; they are not digits here.) -/
def isDigit (c : UInt8) : Bool := 48 ≤ c && c ≤ 57

/-- Value of the leading digits. -/
def digitsVal (s : Bytes) : Nat := (s.takeWhile isDigit).foldl (fun a c => 10 * a + (c.toNat - 48)) 0

/-- The number `strtol`, `strtoll`, `atoi` read, before range checks: white space, optional sign, digits. -/
def parseInt (s : Bytes) : Int :=
  match s.dropWhile isSpace with
  | 45 :: r => -(digitsVal r)
  | 43 :: r => digitsVal r
  | r => digitsVal r

/-- `atoi`: undefined behaviour if the value is not an `int`. -/
def atoi (s : Bytes) : M Int :=
  if -2 ^ 31 ≤ parseInt s ∧ parseInt s < 2 ^ 31 then pure (parseInt s) else .error .overflow

/-- `strtol` and `strtoll` (64 bit): values out of range saturate. -/
def strtol (s : Bytes) : Int := max (-2 ^ 63) (min (2 ^ 63 - 1) (parseInt s))

/-- `%u`, `%zu`: decimal digits. -/
def dec (n : Nat) : Bytes :=
  if n < 10 then [(48 + n).toUInt8] else dec (n / 10) ++ [(48 + n % 10).toUInt8]

/-- `%d`. -/
def decInt (z : Int) : Bytes := if z < 0 then 45 :: dec z.natAbs else dec z.natAbs

/-- Minimum field width: padding on the left. -/
def padLeft (w : Nat) (c : UInt8) (s : Bytes) : Bytes := List.replicate (w - s.length) c ++ s

end NN
