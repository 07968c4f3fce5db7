import Verif.Spec.Linear
import Mathlib.Analysis.SpecialFunctions.Sqrt
/-
Specification of mini-batch training: batches, mean gradient and the update rules of the optimizers, on
lists of reals.  A batch enters a step as the function `G` from parameters to gradient.
-/
namespace Spec

/-- The samples `l`, in this order, in batches of size `bs` (the last one may be smaller). -/
def batches (bs : ℕ) (l : List ℕ) : List (List ℕ) :=
  (List.range ((l.length + bs - 1) / bs)).map fun k => (l.drop (k * bs)).take bs

/-- The mean over a batch of gradients `g p` with `k` entries. -/
noncomputable def meanGrad (k : ℕ) (g : ℕ → List ℝ) (batch : List ℕ) : List ℝ :=
  (List.range k).map fun j => (batch.map fun p => at_ (g p) j).sum / batch.length

/-- The gradient functions of the batches of an epoch that takes the samples in the order `order`, if
`g w p` is the gradient of sample `p` (with `k` entries) at the parameters `w`. -/
noncomputable def epochGrads (k bs : ℕ) (g : List ℝ → ℕ → List ℝ) (order : List ℕ) : List (List ℝ → List ℝ) :=
  (batches bs order).map fun b w => meanGrad k (g w) b

/-- Sum of two vectors. -/
noncomputable def vadd (a b : List ℝ) : List ℝ := List.zipWith (· + ·) a b

/-- Multiple of a vector. -/
noncomputable def vscale (c : ℝ) (a : List ℝ) : List ℝ := a.map (c * ·)

/-- The learning rate of step number `t` (from 0) with decay `d`, from that of the step before. -/
noncomputable def nextLr (lr d : ℝ) (t : ℕ) : ℝ := if 0 < d then lr / (1 + d * t) else lr

/-- State of SGD: parameters, velocity, learning rate, number of steps done. -/
structure SgdState where
  w : List ℝ
  v : List ℝ
  lr : ℝ
  t : ℕ

/-- A step of SGD with momentum `m` (none if `m ≤ 0`), decay `d`. -/
noncomputable def sgdStep (m d : ℝ) (nesterov : Bool) (s : SgdState)
    (G : List ℝ → List ℝ) : SgdState :=
  let lr := nextLr s.lr d s.t
  if 0 < m then
    let at' := if nesterov then vadd s.w (vscale m s.v) else s.w
    let v := vadd (vscale m s.v) (vscale (-lr) (G at'))
    ⟨vadd s.w v, v, lr, s.t + 1⟩
  else ⟨vadd s.w (vscale (-lr) (G s.w)), s.v, lr, s.t + 1⟩

/-- State of Adagrad: parameters, accumulated squares, learning rate, number of steps. -/
structure AdagradState where
  w : List ℝ
  r : List ℝ
  lr : ℝ
  t : ℕ

/-- The step `-lr g / (eps + sqrt r)` of Adagrad and RMSprop. -/
noncomputable def scaledStep (lr : ℝ) (g r : List ℝ) : List ℝ :=
  List.zipWith (fun g r => -lr * g / (1 / 10000000 + Real.sqrt r)) g r

/-- A step of Adagrad. -/
noncomputable def adagradStep (d : ℝ) (s : AdagradState)
    (G : List ℝ → List ℝ) : AdagradState :=
  let lr := nextLr s.lr d s.t
  let g := G s.w
  let r := List.zipWith (fun r g => r + g ^ 2) s.r g
  ⟨vadd s.w (scaledStep lr g r), r, lr, s.t + 1⟩

/-- State of RMSprop. -/
structure RmsPropState where
  w : List ℝ
  v : List ℝ
  r : List ℝ
  lr : ℝ
  t : ℕ

/-- A step of RMSprop with decay rate `rho` of the accumulator, momentum as in SGD. -/
noncomputable def rmspropStep (rho m d : ℝ) (nesterov : Bool) (s : RmsPropState)
    (G : List ℝ → List ℝ) : RmsPropState :=
  let lr := nextLr s.lr d s.t
  let at' := if 0 < m ∧ nesterov then vadd s.w (vscale m s.v) else s.w
  let g := G at'
  let r := List.zipWith (fun r g => rho * r + (1 - rho) * g ^ 2) s.r g
  let step := scaledStep lr g r
  if 0 < m then
    let v := vadd (vscale m s.v) step
    ⟨vadd s.w v, v, r, lr, s.t + 1⟩
  else ⟨vadd s.w step, s.v, r, lr, s.t + 1⟩

/-- State of Adam: parameters, first and second moment, number of steps. -/
structure AdamState where
  w : List ℝ
  m : List ℝ
  v : List ℝ
  t : ℕ

/-- A step of Adam (Kingma and Ba 2015, algorithm 1) with decoupled weight decay `wd` (Loshchilov and
Hutter 2019; not used if `wd ≤ 0`). -/
noncomputable def adamStep (lr b1 b2 wd : ℝ) (s : AdamState)
    (G : List ℝ → List ℝ) : AdamState :=
  let g := G s.w
  let t := s.t + 1
  let m := List.zipWith (fun m g => b1 * m + (1 - b1) * g) s.m g
  let v := List.zipWith (fun v g => b2 * v + (1 - b2) * g ^ 2) s.v g
  let step := List.zipWith (fun m v =>
    -lr * (m / (1 - b1 ^ t)) / (Real.sqrt (v / (1 - b2 ^ t)) + 1 / 100000000)) m v
  let w := vadd s.w step
  ⟨if 0 < wd then vadd w (vscale (-wd) s.w) else w, m, v, t⟩

end Spec
