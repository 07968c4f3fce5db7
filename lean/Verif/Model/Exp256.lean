import Verif.Model.RealOps
/-
Model of one lane of `exp256_ps`, src/activation.c:326-412, for any float operations, and its meaning on the reals.
-/
namespace NN
open FloatOps

/-- The operations of `exp256_ps` that are not in `FloatOps`: `_mm256_min_ps`, `_mm256_floor_ps`, `_mm256_cvttps_epi32` and
`_mm256_castsi256_ps`. -/
structure ExpOps (F : Type) where
  minps : F → F → F
  floor : F → F
  cvtt : F → BitVec 32
  cast : BitVec 32 → F

section
variable {F : Type} [FloatOps F]

/-! The constants of src/activation.c:341-356, as the floats nearest to the decimal numbers there. -/

def expHi : F := lit 11583653 131072
def expLo : F := lit (-11583653) 131072
def cLog2e : F := lit 12102203 8388608
def cExpC1 : F := lit 355 512
def cExpC2 : F := lit (-14581891) 68719476736
def cExpP0 : F := lit 13658471 68719476736
def cExpP1 : F := lit 6005223 4294967296
def cExpP2 : F := lit 1118497 134217728
def cExpP3 : F := lit 11184577 268435456
def cExpP4 : F := lit 5592405 33554432
def cExpP5 : F := lit 1 2

/-- `fx` after src/activation.c:367-382: the power of two. -/
def expN (o : ExpOps F) (x : F) : F :=
  let fx := add (mul x cLog2e) (lit 1 2)
  let tmp := o.floor fx
  sub tmp (if lt fx tmp then one else zero)

/-- The polynomial, src/activation.c:389-403. -/
def expPoly (x : F) : F :=
  let z := mul x x
  let y := add (mul cExpP0 x) cExpP1
  let y := add (mul y x) cExpP2
  let y := add (mul y x) cExpP3
  let y := add (mul y x) cExpP4
  let y := add (mul y x) cExpP5
  add (add (mul y z) x) one

/-- `pow2n`, src/activation.c:405-410. -/
def expPow (o : ExpOps F) (fx : F) : F := o.cast ((o.cvtt fx + 0x7f#32) <<< 23)

/-- One lane of `exp256_ps`, src/activation.c:358-412. -/
def exp256 (o : ExpOps F) (x : F) : F :=
  let x := o.minps x expHi
  let x := maxps x expLo
  let fx := expN o x
  let tmp := mul fx cExpC1
  let z := mul fx cExpC2
  let x := sub x tmp
  let x := sub x z
  mul (expPoly x) (expPow o fx)

end

/-- Truncation to a 32 bit integer (out of range: the "integer indefinite" value). -/
noncomputable def truncI32 (x : ℝ) : BitVec 32 :=
  let n : ℤ := if 0 ≤ x then ⌊x⌋ else ⌈x⌉
  if -2 ^ 31 ≤ n ∧ n < 2 ^ 31 then BitVec.ofInt 32 n else 0x80000000#32

/-- The number stored in a `float`.  Infinities and NaN are not real numbers; they get the value 0 here and do not occur
(`pow_cases`). -/
noncomputable def f32Value (b : BitVec 32) : ℝ :=
  let e : ℕ := b.toNat / 2 ^ 23 % 2 ^ 8
  let m : ℕ := b.toNat % 2 ^ 23
  let v : ℝ :=
    if e = 255 then 0
    else if e = 0 then (m : ℝ) * 2 ^ (-149 : ℤ)
    else (2 ^ 23 + (m : ℝ)) * 2 ^ ((e : ℤ) - 150)
  if b.toNat < 2 ^ 31 then v else -v

/-- Exact arithmetic. -/
noncomputable def realExpOps : ExpOps ℝ := ⟨min, fun x => (⌊x⌋ : ℝ), truncI32, f32Value⟩

/-- Exact arithmetic, with `exp256_ps` as it is. -/
@[instance_reducible] noncomputable def ops256 : FloatOps ℝ := { (inferInstance : FloatOps ℝ) with exp8 := exp256 realExpOps }

end NN
