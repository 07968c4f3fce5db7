import Verif.Model.Names
/-
The example library with a custom activation function, examples/custom_activation/gnubg_activation.c.
-/
namespace NN

/-- The two places where `SIGMOID_SCALAR` (a double, examples/custom_activation/gnubg_activation.c:2-4) enters.
Simplification: the double precision arithmetic in between is not modelled, only the float that comes out. -/
structure Scaling (F : Type) where
  /-- `-SIGMOID_SCALAR*y[i]` as argument of `expf` -/
  arg : F → F
  /-- `d[i] * (SIGMOID_SCALAR*activation[i]*(1.0f-activation[i]))` as stored in `d[i]` -/
  slope : F → F → F

section
variable {F : Type} [FloatOps F]
open FloatOps

/-- Body of `scaled_sigmoid`, examples/custom_activation/gnubg_activation.c:9. -/
def scaledS (s : Scaling F) (x : F) : F := div one (add one (FloatOps.exp (s.arg x)))

/-- `scaled_sigmoid`, examples/custom_activation/gnubg_activation.c:6-10. -/
def scaledSigmoid (s : Scaling F) (n : Nat) (y : View F) : M (View F) := mapLoop (scaledS s) n y

/-- `scaled_sigmoid_derivative`, examples/custom_activation/gnubg_activation.c:12-16. -/
def scaledSigmoidDerivative (s : Scaling F) (n : Nat) (activation d : View F) : M (View F) :=
  forN n (fun i d => do
    let x ← d.load i
    let a ← activation.load i
    d.store i (s.slope x a)) d

/-- What the two functions do to the `n` elements, as the meaning of function 0 and derivative function 1. -/
def gnubgEnv (s : Scaling F) : CustomEnv F where
  act _ l := l.map (scaledS s)
  deriv _ a l := List.zipWith s.slope l a ++ l.drop a.length
  act_length _ l := by simp
  deriv_length _ a l := by simp; omega

/-- The record of `scaled_sigmoid@libgnubg_activation.so`, written by `get_activation_func_dynamic`,
src/activation.c:160-184. -/
def gnubgRecord : ActRecord := ⟨"scaled_sigmoid@libgnubg_activation.so", 0, some 1⟩
end

end NN
