import Verif.Model.RealOps
/-
Exact arithmetic extended by NaN (`none`): enough of IEEE-754 to show where the code treats NaN
differently in its scalar and vector versions.
-/
namespace NN

/-- Reals with NaN. -/
abbrev NanReal := Option ℝ

open Classical in
/-- NaN propagates through arithmetic, comparisons with NaN are false, `fmaxf`/`fminf` ignore one NaN
argument (C standard F.10.9.2), `maxps` returns its second operand unless the first is larger (Intel
manual, MAXPS). -/
noncomputable instance : FloatOps NanReal where
  zero := some 0
  one := some 1
  lit p q := some ((p : ℝ) / (q : ℝ))
  ofNat n := some (n : ℝ)
  add a b := a.bind fun x => b.map fun y => x + y
  sub a b := a.bind fun x => b.map fun y => x - y
  mul a b := a.bind fun x => b.map fun y => x * y
  div a b := a.bind fun x => b.bind fun y => if y = 0 then none else some (x / y)
  fma a b c := a.bind fun x => b.bind fun y => c.map fun z => x * y + z
  neg a := a.map fun x => -x
  abs a := a.map fun x => |x|
  sqrt a := a.bind fun x => if x < 0 then none else some (Real.sqrt x)
  exp a := a.map Real.exp
  log a := a.bind fun x => if x ≤ 0 then none else some (Real.log x)
  tanh a := a.map Real.tanh
  round a := a.map roundAway
  fmax a b := match a, b with
    | some x, some y => some (max x y)
    | some x, none => some x
    | none, b => b
  fmin a b := match a, b with
    | some x, some y => some (min x y)
    | some x, none => some x
    | none, b => b
  maxps a b := match a, b with
    | some x, some y => if y < x then some x else some y
    | _, b => b
  exp8 a := a.map Real.exp
  eq a b := match a, b with
    | some x, some y => decide (x = y)
    | _, _ => false
  lt a b := match a, b with
    | some x, some y => decide (x < y)
    | _, _ => false
  le a b := match a, b with
    | some x, some y => decide (x ≤ y)
    | _, _ => false

end NN
