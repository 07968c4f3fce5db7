import Verif.Model.Exp256
import Mathlib.Data.Int.Log
import Mathlib.Data.EReal.Basic
/-
IEEE-754 binary32, the type `float` of the C code, as an instance of `FloatOps`.  A number is its 32 bits; the operations
are correctly rounded to nearest, ties to even, with gradual underflow, overflow to infinity, signed zeros and NaN.
Simplifications: every NaN result is the default quiet NaN; the functions of the C library (`expf`, `logf`, `tanhf`) are
parameters; the compiler does not contract `a*b+c` in scalar code to a fused operation.
-/
namespace NN

/-- A `float`. -/
@[ext] structure B32 where
  bits : BitVec 32
  deriving DecidableEq

namespace B32

/-- Biased exponent. -/
def expField (a : B32) : ℕ := a.bits.toNat / 2 ^ 23 % 2 ^ 8
/-- Stored part of the significand. -/
def mantField (a : B32) : ℕ := a.bits.toNat % 2 ^ 23
/-- Sign bit. -/
def sign (a : B32) : Bool := decide (2 ^ 31 ≤ a.bits.toNat)

def isNan (a : B32) : Bool := a.expField == 255 && a.mantField != 0
def isInf (a : B32) : Bool := a.expField == 255 && a.mantField == 0
def isFinite (a : B32) : Bool := a.expField != 255

/-- The value of a finite number. -/
noncomputable def value (a : B32) : ℝ := f32Value a.bits

/-- The default quiet NaN. -/
def qnan : B32 := ⟨0x7fc00000#32⟩
/-- Put a sign on the bits of a nonnegative number. -/
def withSign (neg : Bool) (n : ℕ) : B32 := ⟨BitVec.ofNat 32 (n + if neg then 2 ^ 31 else 0)⟩
def inf (neg : Bool) : B32 := withSign neg (255 * 2 ^ 23)
def zeroS (neg : Bool) : B32 := withSign neg 0

/-- A nonnegative real to the nearest natural number, ties to even. -/
noncomputable def roundNat (t : ℝ) : ℕ :=
  if t - ⌊t⌋₊ < 1 / 2 ∨ (t - ⌊t⌋₊ = 1 / 2 ∧ ⌊t⌋₊ % 2 = 0) then ⌊t⌋₊ else ⌊t⌋₊ + 1

/-- Exponent of the last place of the numbers near `x`. -/
noncomputable def ulpExp (x : ℝ) : ℤ := max (Int.log 2 |x| - 23) (-149)

/-- The bits, without sign, of the number nearest to `|x|`, for `x ≠ 0`.  A carry out of the significand goes into the
exponent; beyond the largest number the result is the bit pattern of infinity. -/
noncomputable def roundBits (x : ℝ) : ℕ :=
  min ((ulpExp x + 149).toNat * 2 ^ 23 + roundNat (|x| / 2 ^ ulpExp x)) (255 * 2 ^ 23)

open Classical in
/-- Round a real number; `neg` is the sign of the result if it is an exact zero. -/
noncomputable def ofReal (neg : Bool) (x : ℝ) : B32 :=
  if x = 0 then zeroS neg else withSign (decide (x < 0)) (roundBits x)

/-- Flips the sign bit. -/
def neg (a : B32) : B32 := ⟨BitVec.ofNat 32 (a.bits.toNat + 2 ^ 31)⟩
/-- Clears the sign bit. -/
def abs (a : B32) : B32 := ⟨BitVec.ofNat 32 (a.bits.toNat % 2 ^ 31)⟩

noncomputable def add (a b : B32) : B32 :=
  if a.isNan || b.isNan then qnan
  else if a.isInf then (if b.isInf && a.sign != b.sign then qnan else a)
  else if b.isInf then b
  else ofReal (a.sign && b.sign) (a.value + b.value)

noncomputable def sub (a b : B32) : B32 := add a (neg b)

open Classical in
noncomputable def mul (a b : B32) : B32 :=
  if a.isNan || b.isNan then qnan
  else if a.isInf then (if b.isFinite && b.value = 0 then qnan else inf (a.sign ^^ b.sign))
  else if b.isInf then (if a.value = 0 then qnan else inf (a.sign ^^ b.sign))
  else ofReal (a.sign ^^ b.sign) (a.value * b.value)

open Classical in
noncomputable def div (a b : B32) : B32 :=
  if a.isNan || b.isNan then qnan
  else if a.isInf then (if b.isInf then qnan else inf (a.sign ^^ b.sign))
  else if b.isInf then zeroS (a.sign ^^ b.sign)
  else if b.value = 0 then (if a.value = 0 then qnan else inf (a.sign ^^ b.sign))
  else ofReal (a.sign ^^ b.sign) (a.value / b.value)

open Classical in
noncomputable def fma (a b c : B32) : B32 :=
  if a.isNan || b.isNan || c.isNan then qnan
  else if a.isInf || b.isInf then
    (if a.isFinite && a.value = 0 || b.isFinite && b.value = 0 || c.isInf && c.sign != (a.sign ^^ b.sign) then qnan
     else inf (a.sign ^^ b.sign))
  else if c.isInf then c
  else ofReal ((a.sign ^^ b.sign) && c.sign) (a.value * b.value + c.value)

open Classical in
noncomputable def sqrt (a : B32) : B32 :=
  if a.isNan then qnan
  else if a.isFinite && a.value = 0 then a
  else if a.sign then qnan
  else if a.isInf then a
  else ofReal false (Real.sqrt a.value)

/-- `_mm256_floor_ps`. -/
noncomputable def floor (a : B32) : B32 := if a.isFinite then ofReal a.sign ⌊a.value⌋ else a
/-- `roundf`. -/
noncomputable def round (a : B32) : B32 := if a.isFinite then ofReal a.sign (roundAway a.value) else a
/-- `_mm256_cvttps_epi32`. -/
noncomputable def cvtt (a : B32) : BitVec 32 := if a.isFinite then truncI32 a.value else 0x80000000#32

/-- The value with infinities, for comparisons. -/
noncomputable def extVal (a : B32) : EReal := if a.isInf then (if a.sign then ⊥ else ⊤) else (a.value : EReal)

open Classical in
noncomputable def eq (a b : B32) : Bool := !a.isNan && !b.isNan && decide (a.extVal = b.extVal)
open Classical in
noncomputable def lt (a b : B32) : Bool := !a.isNan && !b.isNan && decide (a.extVal < b.extVal)
open Classical in
noncomputable def le (a b : B32) : Bool := !a.isNan && !b.isNan && decide (a.extVal ≤ b.extVal)

/-- `fmaxf` (C standard F.10.9.2). -/
noncomputable def fmax (a b : B32) : B32 := if a.isNan then b else if b.isNan then a else if lt a b then b else a
/-- `fminf`. -/
noncomputable def fmin (a b : B32) : B32 := if a.isNan then b else if b.isNan then a else if lt b a then b else a
/-- `_mm256_max_ps`: the second operand unless the first is larger. -/
noncomputable def maxps (a b : B32) : B32 := if lt b a then a else b
/-- `_mm256_min_ps`: the second operand unless the first is smaller. -/
noncomputable def minps (a b : B32) : B32 := if lt a b then a else b

/-- The functions of the C library. -/
structure Libm where
  exp : B32 → B32
  log : B32 → B32
  tanh : B32 → B32

/-- The operations without the vector exponential. -/
@[instance_reducible] noncomputable def baseOps (L : Libm) : FloatOps B32 where
  zero := zeroS false
  one := ofReal false 1
  lit p q := ofReal false ((p : ℝ) / (q : ℝ))
  ofNat n := ofReal false (n : ℝ)
  add := add
  sub := sub
  mul := mul
  div := div
  fma := fma
  neg := neg
  abs := abs
  sqrt := sqrt
  exp := L.exp
  log := L.log
  tanh := L.tanh
  round := round
  fmax := fmax
  fmin := fmin
  maxps := maxps
  exp8 := fun x => x
  eq := eq
  lt := lt
  le := le

/-- The remaining instructions of `exp256_ps`. -/
noncomputable def expOps : ExpOps B32 := ⟨minps, floor, cvtt, fun b => ⟨b⟩⟩

/-- The arithmetic of the compiled program, with `exp256_ps` as it is. -/
@[instance_reducible] noncomputable def ops (L : Libm) : FloatOps B32 :=
  { baseOps L with exp8 := @exp256 B32 (baseOps L) expOps }

end B32
end NN
