import Verif.Proofs.OptKernels
import Verif.Proofs.Train
/-
The loop bodies of the epoch functions as list functions.
-/
set_option linter.unusedSimpArgs false
set_option linter.unusedSectionVars false

namespace NN
open FloatOps
variable {F : Type} [FloatOps F]

/-! ### Kernels on a buffer whose first `n` floats are of interest -/

theorem zip_app (f : F → F → F) {n : Nat} (a t b t' : List F) (ha : a.length = n) (hb : b.length = n) :
    applyTo (zipOp f (b ++ t')) n (a ++ t) = List.zipWith f a b ++ t := by
  rw [applyTo_zip _ _ _ _ (by simp; omega) (by simp; omega), List.take_left' ha, List.take_left' hb,
    List.drop_left' ha]

theorem scale_app (c : Cfg) {n addr : Nat} (a t : List F) (s : F) (hal : AlignedFor c n addr)
    (ha : a.length = n) :
    vectorScale c n ⟨addr, a ++ t⟩ s = .ok ⟨addr, a.map (fun x => mul x s) ++ t⟩ := by
  rw [vectorScale_eq c n ⟨addr, a ++ t⟩ s hal (by simp; omega)]
  simp only
  rw [applyTo_map _ _ _ (by simp; omega), List.take_left' ha, List.drop_left' ha]

theorem accumulate_app (c : Cfg) {n addr addr' : Nat} (a t b t' : List F) (hal : AlignedFor c n addr)
    (hbl : AlignedFor c n addr') (ha : a.length = n) (hb : b.length = n) :
    vectorAccumulate c n ⟨addr, a ++ t⟩ ⟨addr', b ++ t'⟩ = .ok ⟨addr, List.zipWith add a b ++ t⟩ := by
  rw [vectorAccumulate_eq c n ⟨addr, a ++ t⟩ ⟨addr', b ++ t'⟩ hal hbl (by simp; omega) (by simp; omega)]
  simp only
  rw [zip_app _ _ _ _ _ ha hb]

theorem saxpy_app (c : Cfg) {n addr addr' : Nat} (a t b t' : List F) (alpha : F) (hal : AlignedFor c n addr)
    (hbl : AlignedFor c n addr') (ha : a.length = n) (hb : b.length = n) :
    vectorSaxpy c n ⟨addr, a ++ t⟩ alpha ⟨addr', b ++ t'⟩ =
      .ok ⟨addr, List.zipWith (fun x y => add x (mul alpha y)) a b ++ t⟩ := by
  rw [vectorSaxpy_eq c n ⟨addr, a ++ t⟩ alpha ⟨addr', b ++ t'⟩ hal hbl (by simp; omega) (by simp; omega)]
  simp only
  rw [zip_app _ _ _ _ _ ha hb]

theorem square_app (c : Cfg) {n addr addr' : Nat} (a t b t' : List F) (hal : AlignedFor c n addr)
    (hbl : AlignedFor c n addr') (ha : a.length = n) (hb : b.length = n) :
    vectorSquareElements c n ⟨addr, a ++ t⟩ ⟨addr', b ++ t'⟩ =
      .ok ⟨addr, b.map (fun y => mul y y) ++ t⟩ := by
  rw [vectorSquareElements_eq c n ⟨addr, a ++ t⟩ ⟨addr', b ++ t'⟩ hal hbl (by simp; omega) (by simp; omega)]
  simp only
  rw [zip_app _ _ _ _ _ ha hb]
  congr 3
  apply List.ext_getElem
  · simp; omega
  · intro i h1 h2; simp

theorem accumulateSquared_app (c : Cfg) {n addr addr' : Nat} (a t b t' : List F) (hal : AlignedFor c n addr)
    (hbl : AlignedFor c n addr') (ha : a.length = n) (hb : b.length = n) :
    accumulateSquaredGradient c n ⟨addr, a ++ t⟩ ⟨addr', b ++ t'⟩ =
      .ok ⟨addr, List.zipWith (fun x y => add x (mul y y)) a b ++ t⟩ := by
  rw [accumulateSquaredGradient_eq c n ⟨addr, a ++ t⟩ ⟨addr', b ++ t'⟩ hal hbl (by simp; omega)
    (by simp; omega)]
  simp only
  rw [zip_app _ _ _ _ _ ha hb]

/-- The step of Adagrad and RMSprop for one parameter with gradient `x` and accumulator `y`. -/
def scaledElem (lr x y : F) : F := mul x (div (neg lr) (add epsUpdate (FloatOps.sqrt y)))

theorem computeUpdate_app (c : Cfg) {n addr addr' : Nat} (a t b t' : List F) (lr : F)
    (hal : AlignedFor c n addr) (hbl : AlignedFor c n addr') (ha : a.length = n) (hb : b.length = n) :
    computeUpdate c n ⟨addr, a ++ t⟩ ⟨addr', b ++ t'⟩ lr =
      .ok ⟨addr, List.zipWith (scaledElem lr) a b ++ t⟩ := by
  rw [computeUpdate_eq c n ⟨addr, a ++ t⟩ ⟨addr', b ++ t'⟩ lr hal hbl (by simp; omega) (by simp; omega)]
  simp only
  rw [zip_app _ _ _ _ _ ha hb]
  rfl

/-- `fv` in the vector part, `fs` in the tail. -/
def cutZip (c : Cfg) (fv fs : F → F → F) (a b : List F) : List F :=
  applyTo (cutOp c a.length fv fs b) a.length a

theorem cutZip_length (c : Cfg) (fv fs : F → F → F) (a b : List F) : (cutZip c fv fs a b).length = a.length := by
  simp [cutZip]

theorem cut_app (c : Cfg) (fv fs : F → F → F) {n : Nat} (a t b t' : List F) (ha : a.length = n)
    (hb : b.length = n) :
    applyTo (cutOp c n fv fs (b ++ t')) n (a ++ t) = cutZip c fv fs a b ++ t := by
  apply List.ext_getElem?; intro i
  by_cases hi : i < n
  · rw [List.getElem?_append_left (by rw [cutZip_length]; omega)]
    rw [cutZip, ha]
    simp only [applyTo_getElem?, hi, if_true]
    rw [List.getElem?_append_left (by omega)]
    simp only [cutOp]
    rw [List.getElem?_append_left (by omega)]
  · rw [List.getElem?_append_right (by rw [cutZip_length]; omega)]
    simp only [applyTo_getElem?, hi, if_false]
    rw [List.getElem?_append_right (by omega), cutZip_length]
    simp

theorem cutZip_eq (c : Cfg) (fv fs : F → F → F) (a b : List F) (hab : a.length = b.length)
    (h : ∀ x y, fv x y = fs x y) : cutZip c fv fs a b = List.zipWith fs a b := by
  rw [cutZip, applyTo_cut _ _ _ _ _ _ hab.le le_rfl h, List.take_of_length_le le_rfl,
    List.take_of_length_le hab.ge, List.drop_length, List.append_nil]

theorem saxpby_app (c : Cfg) {n addr addr' : Nat} (a t b t' : List F) (alpha beta : F)
    (hal : AlignedFor c n addr) (hbl : AlignedFor c n addr') (ha : a.length = n) (hb : b.length = n) :
    vectorSaxpby c n ⟨addr, a ++ t⟩ alpha ⟨addr', b ++ t'⟩ beta =
      .ok ⟨addr, cutZip c (fun x y => add (mul x beta) (mul alpha y))
        (fun x y => add (mul beta x) (mul alpha y)) a b ++ t⟩ := by
  rw [vectorSaxpby_eq c n ⟨addr, a ++ t⟩ alpha ⟨addr', b ++ t'⟩ beta hal hbl (by simp; omega) (by simp; omega)]
  rw [← cut_app c _ _ a t b t' ha hb]
  rfl

theorem firstMoment_app (c : Cfg) {n addr addr' : Nat} (a t b t' : List F) (rho : F)
    (hal : AlignedFor c n addr) (hbl : AlignedFor c n addr') (ha : a.length = n) (hb : b.length = n) :
    updateFirstMoment c n ⟨addr, a ++ t⟩ ⟨addr', b ++ t'⟩ rho =
      .ok ⟨addr, cutZip c (fun x y => add (mul x rho) (mul y (sub one rho)))
        (fun x y => add (mul rho x) (mul (sub one rho) y)) a b ++ t⟩ := by
  rw [updateFirstMoment_eq c n ⟨addr, a ++ t⟩ ⟨addr', b ++ t'⟩ rho hal hbl (by simp; omega) (by simp; omega)]
  simp only
  rw [cut_app _ _ _ _ _ _ _ ha hb]

theorem secondMoment_app (c : Cfg) {n addr addr' : Nat} (a t b t' : List F) (rho : F)
    (hal : AlignedFor c n addr) (hbl : AlignedFor c n addr') (ha : a.length = n) (hb : b.length = n) :
    updateSecondMoment c n ⟨addr, a ++ t⟩ ⟨addr', b ++ t'⟩ rho =
      .ok ⟨addr, cutZip c (fun x y => add (mul x rho) (mul (mul y y) (sub one rho)))
        (fun x y => add (mul rho x) (mul (mul (sub one rho) y) y)) a b ++ t⟩ := by
  rw [updateSecondMoment_eq c n ⟨addr, a ++ t⟩ ⟨addr', b ++ t'⟩ rho hal hbl (by simp; omega) (by simp; omega)]
  simp only
  rw [cut_app _ _ _ _ _ _ _ ha hb]

theorem adam_app (c : Cfg) {n addr addr' addr'' : Nat} (a t s t' r t'' : List F) (rho1 rho2 lr : F)
    (hal : AlignedFor c n addr) (hsl : AlignedFor c n addr') (hrl : AlignedFor c n addr'')
    (ha : a.length = n) (hs : s.length = n) (hr : r.length = n) :
    computeUpdateAdam c n ⟨addr, a ++ t⟩ ⟨addr', s ++ t'⟩ ⟨addr'', r ++ t''⟩ rho1 rho2 lr =
      .ok ⟨addr, List.zipWith (adamElem rho1 rho2 lr) s r ++ t⟩ := by
  rw [computeUpdateAdam_eq c n ⟨addr, a ++ t⟩ ⟨addr', s ++ t'⟩ ⟨addr'', r ++ t''⟩ rho1 rho2 lr hal hsl hrl
    (by simp; omega) (by simp; omega) (by simp; omega)]
  simp only
  rw [applyTo_adam _ _ _ _ _ _ _ (by simp; omega) (by simp; omega) (by simp; omega), List.take_left' hs,
    List.take_left' hr, List.drop_left' ha]

theorem update_app (c : Cfg) (nn : Net F) (addr : Nat) (w d t : List F) (h : nn.WF c)
    (hw : w.length = nParams nn.layers) (hd : d.length = nParams nn.layers) :
    update c (nn.setParams w) ⟨addr, d ++ t⟩ = .ok (nn.setParams (List.zipWith add w d)) := by
  rw [update_setParams c nn w ⟨addr, d ++ t⟩ h hw (by simp; omega)]
  congr 2
  apply List.ext_getElem?; intro i
  simp only [List.getElem?_zipWith]
  by_cases hi : i < w.length
  · rw [List.getElem?_append_left (by omega)]
  · simp [hi]

/-- A work vector of an optimizer. -/
structure WorkVec (c : Cfg) (k : Nat) (v : View F) (l : List F) : Prop where
  aligned : v.addr % c.alignSize = 0
  data : v.data = l
  len : l.length = k

theorem WorkVec.eq {c : Cfg} {k : Nat} {v : View F} {l : List F} (h : WorkVec c k v l) :
    v = ⟨v.addr, l ++ []⟩ := by
  rw [List.append_nil, ← h.data]

/-! ### Gradient at given parameters -/

/-- The optimizer's network with parameters `w`, and the pivot. -/
structure OptAt (c : Cfg) (loss : Loss) (n : Nat) (X Y : View F) (nn0 : Net F) (pivot : List Nat)
    (o : Opt F) (w : List F) : Prop where
  ok : Trainable c loss n X Y nn0
  nn : o.nn = nn0.setParams w
  wlen : w.length = nParams nn0.layers
  plen : pivot.length = n
  plt : ∀ p ∈ pivot, p < n
  pv : o.pivot = some pivot

/-- The gradient used for the batch starting at `i`, as a function of the parameters. -/
def gradAt (env : CustomEnv F) (c : Cfg) (sched : Sched) (loss : Loss) (X Y : View F) (nn0 : Net F)
    (pivot : List Nat) (i batch : Nat) (w : List F) : List F :=
  batchGradF env c sched loss X Y (nn0.setParams w) pivot i batch

theorem gradAt_length (env : CustomEnv F) (c : Cfg) (mem : BatchMem F) (loss : Loss) (n : Nat)
    (X Y : View F) (nn0 : Net F) (h : Trainable c loss n X Y nn0) (bs i : Nat)
    (hm : mem.OK c (nParams nn0.layers) (batchLen n bs i)) (pivot : List Nat) (hlen : pivot.length = n)
    (hpiv : ∀ p ∈ pivot, p < n) (batch : Nat) (w : List F) (hw : w.length = nParams nn0.layers) :
    (gradAt env c mem.sched loss X Y nn0 pivot i batch w).length = nParams nn0.layers := by
  rw [gradAt, batchGradF_length env c mem loss n X Y _ (h.setParams w hw) bs i
    (by rw [setParams_nParams]; exact hm) pivot hlen hpiv batch, setParams_nParams]

theorem batchGradient_at (env : CustomEnv F) (c : Cfg) (mem : BatchMem F) (loss : Loss) (n : Nat)
    (X Y : View F) (nn0 : Net F) (h : Trainable c loss n X Y nn0) (o : Opt F) (w : List F)
    (hnn : o.nn = nn0.setParams w) (hw : w.length = nParams nn0.layers) (i : Nat)
    (hm : mem.OK c (nParams nn0.layers) (batchLen n o.batchsize i)) (pivot : List Nat)
    (hpv : o.pivot = some pivot) (hlen : pivot.length = n) (hpiv : ∀ p ∈ pivot, p < n) :
    ∃ tail, o.batchGradient env c mem n X Y i =
      .ok (i + batchLen n o.batchsize i, ⟨mem.gradAddr,
        gradAt env c mem.sched loss X Y nn0 pivot i (batchLen n o.batchsize i) w ++ tail⟩) := by
  have := batchGradient_eq env c mem loss n X Y o (by rw [hnn]; exact h.setParams w hw) i
    (by rw [hnn, setParams_nParams]; exact hm) pivot hpv hlen hpiv
  simpa only [hnn, gradAt] using this

/-! ### SGD -/

/-- One step of SGD on lists: new parameters and velocity; `G` is the gradient of the batch. -/
def sgdF (m : F) (nesterov : Bool) (lr : F) (G : List F → List F) (w v : List F) : List F × List F :=
  let v1 := if lt zero m then v.map (fun x => mul x m) else v
  let w1 := if lt zero m && nesterov then List.zipWith add w v1 else w
  let g := (G w1).map (fun x => mul x (neg lr))
  let v2 := if lt zero m then List.zipWith add v1 g else v1
  (List.zipWith add w1 (if lt zero m && !nesterov then v2 else g), v2)

theorem sgdStep_eq (env : CustomEnv F) (c : Cfg) (mem : Nat → BatchMem F) (loss : Loss) (n : Nat)
    (X Y : View F) (nn0 : Net F) (i : Nat) (s : Sgd F) (pivot w v : List _)
    (hs : OptAt c loss n X Y nn0 pivot s.opt w) (hv : WorkVec c (nParams nn0.layers) s.velocity v)
    (hm : (mem i).OK c (nParams nn0.layers) (batchLen n s.opt.batchsize i)) :
    ∃ s', sgdStep env c mem n X Y i s = .ok (i + batchLen n s.opt.batchsize i, s') ∧
      let r := sgdF s.momentum s.nesterov (decayLr s.lr s.decay s.nIter)
        (gradAt env c (mem i).sched loss X Y nn0 pivot i (batchLen n s.opt.batchsize i)) w v
      OptAt c loss n X Y nn0 pivot s'.opt r.1 ∧ WorkVec c (nParams nn0.layers) s'.velocity r.2 ∧
      s'.lr = decayLr s.lr s.decay s.nIter ∧ s'.nIter = (s.nIter + 1) % 2 ^ 32 ∧
      s'.momentum = s.momentum ∧ s'.nesterov = s.nesterov ∧ s'.decay = s.decay ∧
      s'.opt.batchsize = s.opt.batchsize := by
  have hk : nParams s.opt.nn.layers = nParams nn0.layers := by rw [hs.nn, setParams_nParams]
  have hga := AlignedFor.of_aligned (n := nParams nn0.layers) hm.buf
  have hva := AlignedFor.of_aligned (n := nParams nn0.layers) hv.aligned
  have hgl := fun w hw => gradAt_length env c (mem i) loss n X Y nn0 hs.ok s.opt.batchsize i hm pivot hs.plen
    hs.plt (batchLen n s.opt.batchsize i) w hw
  have hvl := hv.len
  have hwl := hs.wlen
  by_cases hmo : lt zero s.momentum = true
  · have e1 : vectorScale c (nParams nn0.layers) s.velocity s.momentum =
        .ok ⟨s.velocity.addr, v.map (fun x => mul x s.momentum) ++ []⟩ := by
      rw [hv.eq]; exact scale_app c v [] _ hva hvl
    by_cases hne : s.nesterov = true
    · have e2 := update_app c nn0 s.velocity.addr w (v.map (fun x => mul x s.momentum)) [] hs.ok.wf hwl
        (by simp [hvl])
      generalize hw1 : List.zipWith add w (v.map (fun x => mul x s.momentum)) = w1 at e2
      have hw1l : w1.length = nParams nn0.layers := by simp [← hw1, hwl, hvl]
      obtain ⟨tail, e3⟩ := batchGradient_at env c (mem i) loss n X Y nn0 hs.ok
        { s.opt with nn := nn0.setParams w1 } w1 rfl hw1l i hm pivot hs.pv hs.plen hs.plt
      have hg := hgl w1 hw1l
      generalize hG : gradAt env c (mem i).sched loss X Y nn0 pivot i (batchLen n s.opt.batchsize i) w1 = g at e3 hg
      have e4 := scale_app c g tail (neg (decayLr s.lr s.decay s.nIter)) hga hg
      have e5 := accumulate_app c (v.map (fun x => mul x s.momentum)) []
        (g.map fun x => mul x (neg (decayLr s.lr s.decay s.nIter))) tail hva hga (by simp [hvl]) (by simp [hg])
      have e6 := update_app c nn0 (mem i).gradAddr w1 (g.map fun x => mul x (neg (decayLr s.lr s.decay s.nIter)))
        tail hs.ok.wf hw1l (by simp [hg])
      refine ⟨⟨{ s.opt with nn := nn0.setParams (List.zipWith add w1 (g.map fun x => mul x (neg (decayLr s.lr s.decay s.nIter)))) }, decayLr s.lr s.decay s.nIter, s.decay, s.momentum,
        s.nesterov, (s.nIter + 1) % 2 ^ 32, ⟨s.velocity.addr, List.zipWith add (v.map (fun x => mul x s.momentum)) (g.map fun x => mul x (neg (decayLr s.lr s.decay s.nIter)))⟩⟩, ?_, ?_⟩
      · simp only [List.append_nil] at *
        simp only [sgdStep, applyMomentum, setParams_nParams, hk, hmo, hne, if_true, hs.nn, e1, e2, e3, e4, e5, e6, bind, Except.bind, pure,
          Except.pure, List.append_nil, Bool.not_true, Bool.and_false, Bool.false_eq_true, if_false]
      · simp only [sgdF, hmo, hne, hG, hw1, if_true, Bool.and_self, Bool.not_true, Bool.and_false,
          Bool.false_eq_true, if_false, List.append_nil, true_and, and_true]
        exact ⟨⟨hs.ok, rfl, by simp [hw1l, hg], hs.plen, hs.plt, hs.pv⟩, hv.aligned, rfl, by simp [hvl, hg]⟩
    · obtain ⟨tail, e3⟩ := batchGradient_at env c (mem i) loss n X Y nn0 hs.ok
        { s.opt with nn := nn0.setParams w } w rfl hwl i hm pivot hs.pv hs.plen hs.plt
      have hg := hgl w hwl
      generalize hG : gradAt env c (mem i).sched loss X Y nn0 pivot i (batchLen n s.opt.batchsize i) w = g at e3 hg
      have e4 := scale_app c g tail (neg (decayLr s.lr s.decay s.nIter)) hga hg
      have e5 := accumulate_app c (v.map (fun x => mul x s.momentum)) []
        (g.map fun x => mul x (neg (decayLr s.lr s.decay s.nIter))) tail hva hga (by simp [hvl]) (by simp [hg])
      have e6 := update_app c nn0 s.velocity.addr w (List.zipWith add (v.map (fun x => mul x s.momentum))
        (g.map fun x => mul x (neg (decayLr s.lr s.decay s.nIter)))) [] hs.ok.wf hwl (by simp [hg, hvl])
      rw [Bool.not_eq_true] at hne
      refine ⟨⟨{ s.opt with nn := nn0.setParams (List.zipWith add w (List.zipWith add (v.map (fun x => mul x s.momentum)) (g.map fun x => mul x (neg (decayLr s.lr s.decay s.nIter))))) }, decayLr s.lr s.decay s.nIter, s.decay, s.momentum,
        s.nesterov, (s.nIter + 1) % 2 ^ 32, ⟨s.velocity.addr, List.zipWith add (v.map (fun x => mul x s.momentum)) (g.map fun x => mul x (neg (decayLr s.lr s.decay s.nIter)))⟩⟩, ?_, ?_⟩
      · simp only [List.append_nil] at *
        simp only [sgdStep, applyMomentum, setParams_nParams, hk, hmo, hne, if_true, hs.nn, e1, e3, e4, e5, e6, bind, Except.bind, pure,
          Except.pure, List.append_nil, Bool.not_false, Bool.and_true, Bool.false_eq_true, if_false]
      · simp only [sgdF, hmo, hne, hG, if_true, Bool.and_self, Bool.not_false, Bool.and_false,
          Bool.false_eq_true, if_false, List.append_nil, true_and, and_true]
        exact ⟨⟨hs.ok, rfl, by simp [hwl, hg, hvl], hs.plen, hs.plt, hs.pv⟩, hv.aligned, rfl, by simp [hvl, hg]⟩
  · obtain ⟨tail, e3⟩ := batchGradient_at env c (mem i) loss n X Y nn0 hs.ok
      { s.opt with nn := nn0.setParams w } w rfl hwl i hm pivot hs.pv hs.plen hs.plt
    have hg := hgl w hwl
    generalize hG : gradAt env c (mem i).sched loss X Y nn0 pivot i (batchLen n s.opt.batchsize i) w = g at e3 hg
    have e4 := scale_app c g tail (neg (decayLr s.lr s.decay s.nIter)) hga hg
    have e6 := update_app c nn0 (mem i).gradAddr w (g.map fun x => mul x (neg (decayLr s.lr s.decay s.nIter)))
      tail hs.ok.wf hwl (by simp [hg])
    rw [Bool.not_eq_true] at hmo
    refine ⟨⟨{ s.opt with nn := nn0.setParams (List.zipWith add w (g.map fun x => mul x (neg (decayLr s.lr s.decay s.nIter)))) }, decayLr s.lr s.decay s.nIter, s.decay, s.momentum,
        s.nesterov, (s.nIter + 1) % 2 ^ 32, s.velocity⟩, ?_, ?_⟩
    · simp only [List.append_nil] at *
      simp only [sgdStep, applyMomentum, setParams_nParams, hk, hmo, if_true, hs.nn, e3, e4, e6, bind, Except.bind, pure,
        Except.pure, List.append_nil, Bool.false_and, Bool.false_eq_true, if_false]
    · simp only [sgdF, hmo, hG, if_true, Bool.false_and,
        Bool.false_eq_true, if_false, List.append_nil, true_and, and_true]
      exact ⟨⟨hs.ok, rfl, by simp [hwl, hg], hs.plen, hs.plt, hs.pv⟩, hv⟩

/-! ### Adagrad -/

theorem adagradStep_eq (env : CustomEnv F) (c : Cfg) (mem : Nat → BatchMem F) (loss : Loss) (n : Nat)
    (X Y : View F) (nn0 : Net F) (i : Nat) (s : Adagrad F) (pivot w r : List _)
    (hs : OptAt c loss n X Y nn0 pivot s.opt w) (hr : WorkVec c (nParams nn0.layers) s.r r)
    (hm : (mem i).OK c (nParams nn0.layers) (batchLen n s.opt.batchsize i)) :
    ∃ s', adagradStep env c mem n X Y i s = .ok (i + batchLen n s.opt.batchsize i, s') ∧
      let g := gradAt env c (mem i).sched loss X Y nn0 pivot i (batchLen n s.opt.batchsize i) w
      let r' := List.zipWith (fun x y => add x (mul y y)) r g
      OptAt c loss n X Y nn0 pivot s'.opt
        (List.zipWith add w (List.zipWith (scaledElem (decayLr s.lr s.decay s.nIter)) g r')) ∧
      WorkVec c (nParams nn0.layers) s'.r r' ∧
      s'.lr = decayLr s.lr s.decay s.nIter ∧ s'.nIter = (s.nIter + 1) % 2 ^ 32 ∧
      s'.decay = s.decay ∧ s'.opt.batchsize = s.opt.batchsize := by
  have hk : nParams s.opt.nn.layers = nParams nn0.layers := by rw [hs.nn, setParams_nParams]
  have hga := AlignedFor.of_aligned (n := nParams nn0.layers) hm.buf
  have hra := AlignedFor.of_aligned (n := nParams nn0.layers) hr.aligned
  have hrl := hr.len
  have hwl := hs.wlen
  obtain ⟨tail, e3⟩ := batchGradient_at env c (mem i) loss n X Y nn0 hs.ok
    s.opt w hs.nn hwl i hm pivot hs.pv hs.plen hs.plt
  have hg := gradAt_length env c (mem i) loss n X Y nn0 hs.ok s.opt.batchsize i hm pivot hs.plen
    hs.plt (batchLen n s.opt.batchsize i) w hwl
  generalize hG : gradAt env c (mem i).sched loss X Y nn0 pivot i (batchLen n s.opt.batchsize i) w = g at e3 hg
  have e4 : accumulateSquaredGradient c (nParams nn0.layers) s.r ⟨(mem i).gradAddr, g ++ tail⟩ =
      .ok ⟨s.r.addr, List.zipWith (fun x y => add x (mul y y)) r g ++ []⟩ := by
    rw [hr.eq]; exact accumulateSquared_app c r [] g tail hra hga hrl hg
  have e5 := computeUpdate_app c g tail (List.zipWith (fun x y => add x (mul y y)) r g) []
    (decayLr s.lr s.decay s.nIter) hga hra hg (by simp [hrl, hg])
  have e6 := update_app c nn0 (mem i).gradAddr w (List.zipWith (scaledElem (decayLr s.lr s.decay s.nIter)) g
    (List.zipWith (fun x y => add x (mul y y)) r g)) tail hs.ok.wf hwl (by simp [hrl, hg])
  refine ⟨⟨{ s.opt with nn := nn0.setParams (List.zipWith add w (List.zipWith (scaledElem (decayLr s.lr s.decay s.nIter)) g
    (List.zipWith (fun x y => add x (mul y y)) r g))) }, decayLr s.lr s.decay s.nIter, s.decay, (s.nIter + 1) % 2 ^ 32,
    ⟨s.r.addr, List.zipWith (fun x y => add x (mul y y)) r g⟩⟩, ?_, ?_⟩
  · simp only [List.append_nil] at *
    simp only [adagradStep, hk, e3, e4, e5, bind, Except.bind, pure, Except.pure]
    rw [hs.nn, e6]
  · simp only [List.append_nil, true_and, and_true]
    exact ⟨⟨hs.ok, rfl, by simp [hwl, hg, hrl], hs.plen, hs.plt, hs.pv⟩, hr.aligned, rfl, by simp [hrl, hg]⟩

/-! ### RMSprop -/

/-- The first lines of the loop body with momentum, src/RMSprop.c:102-106. -/
theorem momentum_prefix (c : Cfg) (nn0 : Net F) (vel : View F) (m : F) (nesterov : Bool) (w v : List F)
    (hwf : nn0.WF c) (hwl : w.length = nParams nn0.layers) (hv : WorkVec c (nParams nn0.layers) vel v) :
    applyMomentum c (nParams nn0.layers) m nesterov vel (nn0.setParams w) =
    .ok (⟨vel.addr, if lt zero m then v.map (fun x => mul x m) else v⟩,
      nn0.setParams (if lt zero m && nesterov then List.zipWith add w (v.map (fun x => mul x m)) else w)) := by
  have hva := AlignedFor.of_aligned (n := nParams nn0.layers) hv.aligned
  unfold applyMomentum
  by_cases hmo : lt zero m = true
  · have e1 : vectorScale c (nParams nn0.layers) vel m =
        .ok ⟨vel.addr, v.map (fun x => mul x m) ++ []⟩ := by
      rw [hv.eq]; exact scale_app c v [] _ hva hv.len
    have e2 := update_app c nn0 vel.addr w (v.map (fun x => mul x m)) [] hwf hwl (by simp [hv.len])
    simp only [List.append_nil] at e1 e2
    simp only [hmo, if_true, e1, bind, Except.bind, Bool.true_and]
    cases nesterov <;> simp [e2, pure, Except.pure]
  · rw [Bool.not_eq_true] at hmo
    simp only [hmo, Bool.false_eq_true, if_false, Bool.false_and, pure, Except.pure]
    rw [← hv.data]

/-- One step of RMSprop on lists: new parameters, velocity, accumulator. -/
def rmspropF (c : Cfg) (m rho : F) (nesterov : Bool) (lr : F) (G : List F → List F) (w v r : List F) :
    List F × List F × List F :=
  let v1 := if lt zero m then v.map (fun x => mul x m) else v
  let w1 := if lt zero m && nesterov then List.zipWith add w (v.map (fun x => mul x m)) else w
  let r1 := cutZip c (fun x y => add (mul x rho) (mul (sub one rho) y))
        (fun x y => add (mul rho x) (mul (sub one rho) y)) r ((G w1).map (fun y => mul y y))
  let g := List.zipWith (scaledElem lr) (G w1) r1
  let v2 := if lt zero m then List.zipWith add v1 g else v1
  (List.zipWith add w1 (if lt zero m && !nesterov then v2 else g), v2, r1)

theorem rmspropStep_eq (env : CustomEnv F) (c : Cfg) (mem : Nat → BatchMem F) (loss : Loss) (n : Nat)
    (X Y : View F) (nn0 : Net F) (i : Nat) (s : RmsProp F) (pivot w v r : List _)
    (hs : OptAt c loss n X Y nn0 pivot s.opt w) (hv : WorkVec c (nParams nn0.layers) s.velocity v)
    (hr : WorkVec c (nParams nn0.layers) s.r r)
    (hm : (mem i).OK c (nParams nn0.layers) (batchLen n s.opt.batchsize i)) :
    ∃ s', rmspropStep env c mem n X Y i s = .ok (i + batchLen n s.opt.batchsize i, s') ∧
      let q := rmspropF c s.momentum s.rho s.nesterov (decayLr s.lr s.decay s.nIter)
        (gradAt env c (mem i).sched loss X Y nn0 pivot i (batchLen n s.opt.batchsize i)) w v r
      OptAt c loss n X Y nn0 pivot s'.opt q.1 ∧ WorkVec c (nParams nn0.layers) s'.velocity q.2.1 ∧
      WorkVec c (nParams nn0.layers) s'.r q.2.2 ∧
      s'.lr = decayLr s.lr s.decay s.nIter ∧ s'.nIter = (s.nIter + 1) % 2 ^ 32 ∧
      s'.momentum = s.momentum ∧ s'.nesterov = s.nesterov ∧ s'.decay = s.decay ∧ s'.rho = s.rho ∧
      s'.opt.batchsize = s.opt.batchsize := by
  have hk : nParams s.opt.nn.layers = nParams nn0.layers := by rw [hs.nn, setParams_nParams]
  have hga := AlignedFor.of_aligned (n := nParams nn0.layers) hm.buf
  have hta := AlignedFor.of_aligned (n := nParams nn0.layers) hm.tmp
  have hva := AlignedFor.of_aligned (n := nParams nn0.layers) hv.aligned
  have hra := AlignedFor.of_aligned (n := nParams nn0.layers) hr.aligned
  have hrl := hr.len
  have hvl := hv.len
  have hwl := hs.wlen
  have e1 := momentum_prefix c nn0 s.velocity s.momentum s.nesterov w v hs.ok.wf hwl hv
  generalize hv1 : (if lt zero s.momentum then v.map (fun x => mul x s.momentum) else v) = v1 at e1
  generalize hw1 : (if lt zero s.momentum && s.nesterov then
    List.zipWith add w (v.map (fun x => mul x s.momentum)) else w) = w1 at e1
  have hv1l : v1.length = nParams nn0.layers := by rw [← hv1]; split <;> simp [hvl]
  have hw1l : w1.length = nParams nn0.layers := by rw [← hw1]; split <;> simp [hvl, hwl]
  obtain ⟨tail, e3⟩ := batchGradient_at env c (mem i) loss n X Y nn0 hs.ok
    { s.opt with nn := nn0.setParams w1 } w1 rfl hw1l i hm pivot hs.pv hs.plen hs.plt
  have hg := gradAt_length env c (mem i) loss n X Y nn0 hs.ok s.opt.batchsize i hm pivot hs.plen
    hs.plt (batchLen n s.opt.batchsize i) w1 hw1l
  generalize hG : gradAt env c (mem i).sched loss X Y nn0 pivot i (batchLen n s.opt.batchsize i) w1 = g at e3 hg
  simp only at e3
  have e4 : vectorSquareElements c (nParams nn0.layers)
      (stackArray (mem i).tmpAddr (nParams nn0.layers) (mem i).tmpJunk) ⟨(mem i).gradAddr, g ++ tail⟩ =
      .ok ⟨(mem i).tmpAddr, g.map (fun y => mul y y) ++ []⟩ := by
    have := square_app c (stackArray (mem i).tmpAddr (nParams nn0.layers) (mem i).tmpJunk).data [] g tail
      hta hga (by rw [stackArray_length']) hg
    rw [List.append_nil] at this
    exact this
  have e5 : vectorSaxpby c (nParams nn0.layers) s.r (sub one s.rho)
      ⟨(mem i).tmpAddr, g.map (fun y => mul y y) ++ []⟩ s.rho = .ok ⟨s.r.addr,
        cutZip c (fun x y => add (mul x s.rho) (mul (sub one s.rho) y))
        (fun x y => add (mul s.rho x) (mul (sub one s.rho) y)) r (g.map (fun y => mul y y)) ++ []⟩ := by
    rw [hr.eq]; exact saxpby_app c r [] _ [] _ _ hra hta hrl (by simp [hg])
  generalize hr1 : cutZip c (fun x y => add (mul x s.rho) (mul (sub one s.rho) y))
    (fun x y => add (mul s.rho x) (mul (sub one s.rho) y)) r (g.map (fun y => mul y y)) = r1 at e5
  have hr1l : r1.length = nParams nn0.layers := by rw [← hr1, cutZip_length, hrl]
  have e6 := computeUpdate_app c g tail r1 [] (decayLr s.lr s.decay s.nIter) hga hra hg hr1l
  generalize hd : List.zipWith (scaledElem (decayLr s.lr s.decay s.nIter)) g r1 = d at e6
  have hdl : d.length = nParams nn0.layers := by simp [← hd, hg, hr1l]
  have e7 := accumulate_app c v1 [] d tail hva hga hv1l hdl
  have e8 := update_app c nn0 (mem i).gradAddr w1 d tail hs.ok.wf hw1l hdl
  have e9 := update_app c nn0 s.velocity.addr w1 (List.zipWith add v1 d) [] hs.ok.wf hw1l (by simp [hv1l, hdl])
  simp only [List.append_nil] at e4 e5 e6 e7 e9
  let v2 := if lt zero s.momentum then List.zipWith add v1 d else v1
  refine ⟨⟨{ s.opt with nn := nn0.setParams (List.zipWith add w1
    (if lt zero s.momentum && !s.nesterov then v2 else d)) }, decayLr s.lr s.decay s.nIter, s.decay, s.rho,
    s.momentum, s.nesterov, (s.nIter + 1) % 2 ^ 32, ⟨s.velocity.addr, v2⟩, ⟨s.r.addr, r1⟩⟩, ?_, ?_⟩
  · unfold rmspropStep
    simp only [hs.nn, setParams_nParams]
    rw [e1]
    simp only [bind, Except.bind, e3, e4, e5, e6]
    by_cases hmo : lt zero s.momentum = true
    · cases hne : s.nesterov <;> simp [hmo, e7, e8, e9, v2, pure, Except.pure]
    · rw [Bool.not_eq_true] at hmo
      simp [hmo, e8, v2, pure, Except.pure]
  · simp only [rmspropF, hv1, hw1, hG, hr1, hd, true_and, and_true]
    refine ⟨⟨hs.ok, rfl, ?_, hs.plen, hs.plt, hs.pv⟩, ⟨hv.aligned, rfl, ?_⟩, ⟨hr.aligned, rfl, hr1l⟩⟩
    · simp only [List.length_zipWith, hw1l]
      split
      · split <;> simp [hdl, hv1l]
      · simp [hdl]
    · split <;> simp [hv1l, hdl]

/-! ### Adam -/

/-- One step of Adam on lists: new parameters, first moment `s`, second moment `r`; `p1`, `p2` are the
corrections `beta^t`. -/
def adamF (c : Cfg) (b1 b2 lr wd p1 p2 : F) (g w s r : List F) : List F × List F × List F :=
  let s' := cutZip c (fun x y => add (mul x b1) (mul y (sub one b1)))
        (fun x y => add (mul b1 x) (mul (sub one b1) y)) s g
  let r' := cutZip c (fun x y => add (mul x b2) (mul (mul y y) (sub one b2)))
        (fun x y => add (mul b2 x) (mul (mul (sub one b2) y) y)) r g
  let d := List.zipWith (adamElem p1 p2 lr) s' r'
  let d' := if lt zero wd then List.zipWith (fun x y => add x (mul (neg wd) y)) d w else d
  (List.zipWith add w d', s', r')

theorem adamStep_eq (env : CustomEnv F) (c : Cfg) (mem : Nat → BatchMem F) (loss : Loss) (n : Nat)
    (X Y : View F) (nn0 : Net F) (i : Nat) (p1 p2 : F) (a : Adam F) (pivot w s r : List _)
    (hs : OptAt c loss n X Y nn0 pivot a.opt w) (hv : WorkVec c (nParams nn0.layers) a.s s)
    (hr : WorkVec c (nParams nn0.layers) a.r r)
    (hm : (mem i).OK c (nParams nn0.layers) (batchLen n a.opt.batchsize i)) :
    ∃ a', adamStep env c mem n X Y i ((p1, p2), a) = .ok (i + batchLen n a.opt.batchsize i,
        ((mul p1 a.beta1, mul p2 a.beta2), a')) ∧
      let q := adamF c a.beta1 a.beta2 a.lr a.weightDecay (mul p1 a.beta1) (mul p2 a.beta2)
        (gradAt env c (mem i).sched loss X Y nn0 pivot i (batchLen n a.opt.batchsize i) w) w s r
      OptAt c loss n X Y nn0 pivot a'.opt q.1 ∧ WorkVec c (nParams nn0.layers) a'.s q.2.1 ∧
      WorkVec c (nParams nn0.layers) a'.r q.2.2 ∧
      a'.lr = a.lr ∧ a'.beta1 = a.beta1 ∧ a'.beta2 = a.beta2 ∧ a'.weightDecay = a.weightDecay ∧
      a'.opt.batchsize = a.opt.batchsize := by
  have hk : nParams a.opt.nn.layers = nParams nn0.layers := by rw [hs.nn, setParams_nParams]
  have hga := AlignedFor.of_aligned (n := nParams nn0.layers) hm.buf
  have hta := AlignedFor.of_aligned (n := nParams nn0.layers) hm.tmp
  have hva := AlignedFor.of_aligned (n := nParams nn0.layers) hv.aligned
  have hra := AlignedFor.of_aligned (n := nParams nn0.layers) hr.aligned
  have hrl := hr.len
  have hvl := hv.len
  have hwl := hs.wlen
  obtain ⟨tail, e3⟩ := batchGradient_at env c (mem i) loss n X Y nn0 hs.ok
    a.opt w hs.nn hwl i hm pivot hs.pv hs.plen hs.plt
  have hg := gradAt_length env c (mem i) loss n X Y nn0 hs.ok a.opt.batchsize i hm pivot hs.plen
    hs.plt (batchLen n a.opt.batchsize i) w hwl
  generalize hG : gradAt env c (mem i).sched loss X Y nn0 pivot i (batchLen n a.opt.batchsize i) w = g at e3 hg
  have e4 := firstMoment_app c s [] g tail a.beta1 hva hga hvl hg
  have e5 := secondMoment_app c r [] g tail a.beta2 hra hga hrl hg
  rw [← hv.eq] at e4
  rw [← hr.eq] at e5
  generalize hs1 : cutZip c (fun x y => add (mul x a.beta1) (mul y (sub one a.beta1)))
        (fun x y => add (mul a.beta1 x) (mul (sub one a.beta1) y)) s g = s1 at e4
  generalize hr1 : cutZip c (fun x y => add (mul x a.beta2) (mul (mul y y) (sub one a.beta2)))
        (fun x y => add (mul a.beta2 x) (mul (mul (sub one a.beta2) y) y)) r g = r1 at e5
  have hs1l : s1.length = nParams nn0.layers := by rw [← hs1, cutZip_length, hvl]
  have hr1l : r1.length = nParams nn0.layers := by rw [← hr1, cutZip_length, hrl]
  have e6 := adam_app c g tail s1 [] r1 [] (mul p1 a.beta1) (mul p2 a.beta2) a.lr hga hva hra hg hs1l hr1l
  generalize hd : List.zipWith (adamElem (mul p1 a.beta1) (mul p2 a.beta2) a.lr) s1 r1 = d at e6
  have hdl : d.length = nParams nn0.layers := by simp [← hd, hs1l, hr1l]
  have e7 : getParameters (nn0.setParams w)
      (stackArray (mem i).tmpAddr (nParams nn0.layers) (mem i).tmpJunk) = .ok ⟨(mem i).tmpAddr, w ++ []⟩ := by
    rw [getParameters_eq c _ _ (hs.ok.setParams w hwl).wf.layer
      (by rw [stackArray_length', setParams_nParams]), setParams_params _ _ hwl,
      List.drop_of_length_le (by rw [stackArray_length', setParams_nParams])]
    rfl
  have e8 := saxpy_app c d tail w [] (neg a.weightDecay) hga hta hdl hwl
  have e9 := fun d hd => update_app c nn0 (mem i).gradAddr w d tail hs.ok.wf hwl hd
  simp only [List.append_nil] at e4 e5 e6 e7 e8
  let d' := if lt zero a.weightDecay then List.zipWith (fun x y => add x (mul (neg a.weightDecay) y)) d w else d
  refine ⟨⟨{ a.opt with nn := nn0.setParams (List.zipWith add w d') }, a.lr, a.beta1, a.beta2, a.weightDecay,
    ⟨a.r.addr, r1⟩, ⟨a.s.addr, s1⟩⟩, ?_, ?_⟩
  · simp only [adamStep, hk, e3, e4, e5, e6, bind, Except.bind]
    rw [hs.nn]
    by_cases hw : lt zero a.weightDecay = true
    · simp only [hw, if_true, e7, e8]
      rw [e9 _ (by simp [hdl, hwl])]
      simp [d', hw, pure, Except.pure]
    · rw [Bool.not_eq_true] at hw
      simp only [hw, Bool.false_eq_true, if_false, pure, Except.pure]
      rw [e9 _ hdl]
      simp [d', hw]
  · simp only [adamF, hs1, hr1, hd, true_and, and_true]
    refine ⟨⟨hs.ok, rfl, ?_, hs.plen, hs.plt, hs.pv⟩, ⟨hv.aligned, rfl, hs1l⟩, ⟨hr.aligned, rfl, hr1l⟩⟩
    simp only [List.length_zipWith, hwl]
    split <;> simp [hdl, hwl]

end NN
