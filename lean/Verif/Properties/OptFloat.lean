import Verif.Proofs.OptFloat
import Verif.Proofs.OptRun
import Verif.Properties.Training
/-
C69: single steps of the optimizers in `float` arithmetic.

The theorems speak about the loop bodies of the code (`sgdStep`, `adagradStep`, ...).  The batch gradient is whatever
`compute_batch_gradient` delivers; where a theorem needs it to be finite, that is a hypothesis.
-/
set_option linter.unusedSimpArgs false

namespace NN
open FloatOps _root_.Spec B32

/-! ### Specification -/

/-- The first `k` elements exist and are finite numbers. -/
def FiniteVec (k : ℕ) (v : View B32) : Prop := ∀ j < k, ∃ a, v.data[j]? = some a ∧ a.isFinite = true

/-- A finite number between `lo` and `hi`. -/
def B32.Within (a : B32) (lo hi : ℝ) : Prop := a.isFinite = true ∧ lo ≤ a.value ∧ a.value ≤ hi

/-! ### Proof -/

theorem cutZip_get {F : Type} [FloatOps F] (c : Cfg) (fv fs : F → F → F) (a b : List F) (hab : a.length = b.length) (j : ℕ) (hj : j < a.length) :
    ∃ z, (cutZip c fv fs a b)[j]? = some z ∧ (z = fv (a[j]) (b[j]) ∨ z = fs (a[j]) (b[j])) := by
  rw [cutZip, applyTo_getElem?, List.getElem?_eq_getElem hj, Option.map_some]
  simp only [hj, if_true, cutOp, List.getElem?_eq_getElem (hab ▸ hj : j < b.length)]
  split
  · exact ⟨_, rfl, .inl rfl⟩
  · exact ⟨_, rfl, .inr rfl⟩

theorem decay_float (L : Libm) {lr decay : B32} {n : ℕ} {l d : ℝ} (hl : Is lr l) (l0 : 0 ≤ l) (hd : Is decay d) (d0 : 0 ≤ d) (d1 : d ≤ 2 ^ 90)
    (hn : n < 2 ^ 32) : ∃ l', Is (@decayLr B32 (ops L) lr decay n) l' ∧ 0 ≤ l' ∧ l' ≤ l := by
  let _ := ops L
  unfold decayLr
  split
  · have hn' : (n : ℝ) ≤ 2 ^ 32 := by exact_mod_cast hn.le
    have n0 : (0 : ℝ) ≤ n := Nat.cast_nonneg _
    have hN : Is (ofReal false (n : ℝ)) (rnd n) := is_ofReal (by rw [abs_of_nonneg n0]; refine hn'.trans ?_; unfold maxF32; norm_num)
    have N0 : 0 ≤ rnd n := rnd_nonneg n0
    have N1 : rnd n ≤ 2 ^ 32 := rnd_le hn' (rnd_exact (k := 1) (j := 32) (by norm_num) (by norm_num) (by norm_num))
    have h1 : d * rnd n ≤ 2 ^ 122 := by
      calc d * rnd n ≤ 2 ^ 90 * 2 ^ 32 := mul_le_mul d1 N1 N0 (by positivity)
        _ = _ := by norm_num
    have hm := mul_is hd hN (by rw [abs_of_nonneg (by positivity)]; refine h1.trans ?_; unfold maxF32; norm_num)
    have m0 : 0 ≤ rnd (d * rnd n) := rnd_nonneg (by positivity)
    have m1 : rnd (d * rnd n) ≤ 2 ^ 122 := rnd_le h1 (rnd_exact (k := 1) (j := 122) (by norm_num) (by norm_num) (by norm_num))
    have ha := add_is is_one hm (by
      rw [abs_of_nonneg (by positivity)]
      unfold maxF32; norm_num at m1 ⊢; linarith)
    have a1 : 1 ≤ rnd (1 + rnd (d * rnd n)) := le_rnd (by linarith) rnd_one
    have ap : 0 < rnd (1 + rnd (d * rnd n)) := by linarith
    generalize rnd (1 + rnd (d * rnd n)) = A at ha a1 ap
    have q1 : 1 / A ≤ 1 := by rw [div_le_one ap]; exact a1
    have q0 : 0 ≤ 1 / A := by positivity
    have hq := div_is is_one ha ap.ne' (by rw [abs_of_nonneg q0]; refine q1.trans ?_; unfold maxF32; norm_num)
    have r0 := rnd_nonneg q0
    have r1 : rnd (1 / A) ≤ 1 := rnd_le q1 rnd_one
    have hlm : l ≤ maxF32 := by have := value_abs_le hl.1; rw [hl.2, abs_of_nonneg l0] at this; exact this
    have h2 : l * rnd (1 / A) ≤ l := mul_le_of_le_one_right l0 r1
    have h3 := mul_is hl hq (by rw [abs_of_nonneg (by positivity)]; linarith)
    exact ⟨_, h3, rnd_nonneg (by positivity), rnd_le h2 (rnd_is hl)⟩
  · exact ⟨l, hl, l0, le_rfl⟩

/-- A summand that is too small is lost. -/
theorem B32.absorb {a d : B32} {x y : ℝ} (ha : Is a x) (hd : Is d y) (h : |y| ≤ |x| * 2 ^ (-26 : ℤ)) (h0 : x ≠ 0) : Is (B32.add a d) x := by
  have hx : |x| ≤ maxF32 := by have := value_abs_le ha.1; rwa [ha.2] at this
  have h1 : |x + y| < maxF32 + 2 ^ 103 := by
    have := abs_add_le x y
    unfold maxF32 at hx ⊢
    norm_num at hx h ⊢
    linarith
  have hs := add_is' ha hd h1
  have h2 := rnd_nearest (x + y) ha.1
  rw [ha.2, show x - (x + y) = -y by ring, abs_neg] at h2
  have h3 : |rnd (x + y) - x| ≤ |x| * 2 ^ (-25 : ℤ) := by
    have := abs_add_le (rnd (x + y) - (x + y)) y
    rw [show rnd (x + y) - (x + y) + y = rnd (x + y) - x by ring] at this
    norm_num at h ⊢
    linarith
  rwa [B32.gap ha hs h3 h0] at hs

variable (L : Libm)

/-- The gradient of the step is the one that `compute_batch_gradient` delivers. -/
theorem batchGradient_inv {env : CustomEnv B32} {c : Cfg} {mem : BatchMem B32} {loss : Loss} {n : ℕ} {X Y : View B32} {nn0 : Net B32}
    {pivot : List ℕ} {o : Opt B32} {w : List B32} (hs : OptAt c loss n X Y nn0 pivot o w) {i i' : ℕ} {G : View B32}
    (hm : mem.OK c (nParams nn0.layers) (batchLen n o.batchsize i)) (hG : @Opt.batchGradient B32 (ops L) env c mem o n X Y i = .ok (i', G)) :
    i' = i + batchLen n o.batchsize i ∧
    (@gradAt B32 (ops L) env c mem.sched loss X Y nn0 pivot i (batchLen n o.batchsize i) w).length = nParams nn0.layers ∧
    ∀ j < nParams nn0.layers,
      G.data[j]? = (@gradAt B32 (ops L) env c mem.sched loss X Y nn0 pivot i (batchLen n o.batchsize i) w)[j]? := by
  let _ := ops L
  obtain ⟨tail, e⟩ := batchGradient_at env c mem loss n X Y nn0 hs.ok o w hs.nn hs.wlen i hm pivot hs.pv hs.plen hs.plt
  have hl := gradAt_length env c mem loss n X Y nn0 hs.ok o.batchsize i hm pivot hs.plen hs.plt (batchLen n o.batchsize i) w hs.wlen
  rw [hG] at e
  simp only [Except.ok.injEq, Prod.mk.injEq] at e
  refine ⟨e.1, hl, fun j hj => ?_⟩
  rw [e.2]
  exact List.getElem?_append_left (by omega)

/-! ### Adagrad -/

/-- Whatever the data, an epoch of Adagrad never lowers an accumulator; a NaN stays NaN. -/
theorem C69_grows (env : CustomEnv B32) (c : Cfg) (mem : ℕ → BatchMem B32) (loss : Loss) (fuel n : ℕ) (X Y : View B32) (nn0 : Net B32)
    (s s' : Adagrad B32) (pivot : List ℕ) (w r : List B32) (hs : OptAt c loss n X Y nn0 pivot s.opt w)
    (hr : WorkVec c (nParams nn0.layers) s.r r)
    (hm : ∀ i, (mem i).OK c (nParams nn0.layers) (batchLen n s.opt.batchsize i))
    (h : @adagradEpoch B32 (ops L) env c mem fuel n X Y s = .ok s') : List.Forall₂ Grows r s'.r.data := by
  let _ := ops L
  have key := trainLoop_preserve n (adagradStep env c mem n X Y)
    (fun t => t.opt.batchsize = s.opt.batchsize ∧ ∃ w', OptAt c loss n X Y nn0 pivot t.opt w' ∧ ∃ r', WorkVec c (nParams nn0.layers) t.r r' ∧
      List.Forall₂ Grows r r') ?_ fuel 0 s s' h ⟨rfl, w, hs, r, hr, List.forall₂_same.2 fun a _ => Grows.refl a⟩
  · obtain ⟨-, w', -, r', h1, h2⟩ := key
    rw [h1.data]; exact h2
  · rintro i t i' t' ht ⟨hb, w', h1, r', h2, h3⟩
    obtain ⟨t'', e, h4, h5, -, -, -, h6⟩ := adagradStep_eq env c mem loss n X Y nn0 i t pivot w' r' h1 h2 (by rw [hb]; exact hm i)
    rw [ht] at e
    simp only [Except.ok.injEq, Prod.mk.injEq] at e
    obtain ⟨-, rfl⟩ := e
    refine ⟨h6.trans hb, _, h4, _, h5, ?_⟩
    have hl := gradAt_length env c (mem i) loss n X Y nn0 h1.ok t.opt.batchsize i (by rw [hb]; exact hm i) pivot h1.plen h1.plt
      (batchLen n t.opt.batchsize i) w' h1.wlen
    generalize gradAt env c (mem i).sched loss X Y nn0 pivot i (batchLen n t.opt.batchsize i) w' = g at hl
    rw [List.forall₂_iff_get] at h3 ⊢
    have hrl := h2.len
    refine ⟨by rw [List.length_zipWith, h3.1, hrl, hl, min_self], fun j hj hj' => ?_⟩
    rw [List.length_zipWith] at hj'
    have := h3.2 j hj (by omega)
    simp only [List.get_eq_getElem, List.getElem_zipWith] at this ⊢
    exact this.trans (grows_add_square _ _)

/-- A step of Adagrad with a finite batch gradient: every parameter changes by a finite amount of at most about the
learning rate, not in the direction of its gradient; the accumulators stay nonnegative (or plus infinity, in which case the
parameter does not move); the learning rate does not rise. -/
theorem C69_adagrad (env : CustomEnv B32) (c : Cfg) (mem : ℕ → BatchMem B32) (loss : Loss) (n : ℕ) (X Y : View B32) (nn0 : Net B32)
    (i : ℕ) (s : Adagrad B32) (pivot : List ℕ) (w r : List B32) (hs : OptAt c loss n X Y nn0 pivot s.opt w)
    (hr : WorkVec c (nParams nn0.layers) s.r r) (hm : (mem i).OK c (nParams nn0.layers) (batchLen n s.opt.batchsize i))
    (i' : ℕ) (G : View B32) (hG : @Opt.batchGradient B32 (ops L) env c (mem i) s.opt n X Y i = .ok (i', G))
    (hfin : FiniteVec (nParams nn0.layers) G) (hr0 : ∀ a ∈ r, NonNeg a) (hlr : s.lr.Within 0 (2 ^ 100)) (hdec : s.decay.Within 0 (2 ^ 90))
    (hit : s.nIter < 2 ^ 32) :
    ∃ s' w', @adagradStep B32 (ops L) env c mem n X Y i s = .ok (i', s') ∧ OptAt c loss n X Y nn0 pivot s'.opt w' ∧
      WorkVec c (nParams nn0.layers) s'.r s'.r.data ∧ (∀ a ∈ s'.r.data, NonNeg a) ∧
      s'.lr.Within 0 s.lr.value ∧ s'.decay = s.decay ∧ s'.nIter < 2 ^ 32 ∧ s'.opt.batchsize = s.opt.batchsize ∧
      ∀ j < nParams nn0.layers, ∃ g a δ r', G.data[j]? = some g ∧ w[j]? = some a ∧ w'[j]? = some (B32.add a δ) ∧ s'.r.data[j]? = some r' ∧
        δ.isFinite = true ∧ |δ.value| ≤ s'.lr.value * (1 + 2 ^ (-18 : ℤ)) + 2 ^ (-70 : ℤ) ∧ δ.value * g.value ≤ 0 ∧
        (r' = B32.inf false → δ.value = 0) := by
  let _ := ops L
  obtain ⟨e1, hgl, hgd⟩ := batchGradient_inv L hs hm hG
  obtain ⟨s', e, h1, h2, h3, h4, h5, h6⟩ := adagradStep_eq env c mem loss n X Y nn0 i s pivot w r hs hr hm
  generalize gradAt env c (mem i).sched loss X Y nn0 pivot i (batchLen n s.opt.batchsize i) w = g at hgl hgd h1 h2
  have hrl := hr.len
  have hwl := hs.wlen
  obtain ⟨l', hl', l0, l1⟩ := decay_float L (lr := s.lr) (decay := s.decay) ⟨hlr.1, rfl⟩ hlr.2.1 ⟨hdec.1, rfl⟩ hdec.2.1 hdec.2.2 hit
  have helem : ∀ j (hj : j < nParams nn0.layers), _ := fun j hj =>
    adagrad_elem L (lr := decayLr s.lr s.decay s.nIter) (g := g[j]'(by omega)) (r := r[j]'(by omega)) hl' l0 (l1.trans hlr.2.2)
      (by
        obtain ⟨a, ha, hf⟩ := hfin j hj
        rw [hgd j hj, List.getElem?_eq_getElem (by omega)] at ha
        cases ha
        exact ⟨hf, rfl⟩) (hr0 _ (List.getElem_mem _))
  refine ⟨s', _, by rw [e, e1], h1, ⟨h2.aligned, rfl, by rw [h2.data]; exact h2.len⟩, ?_, ?_, h5, ?_, h6, ?_⟩
  · intro a ha
    rw [h2.data, List.mem_iff_getElem] at ha
    obtain ⟨j, hj, rfl⟩ := ha
    rw [List.getElem_zipWith]
    simp only [List.length_zipWith] at hj
    exact (helem j (by omega)).1
  · rw [h3]
    exact ⟨hl'.1, by rw [hl'.2]; exact l0, by rw [hl'.2]; exact l1⟩
  · rw [h4]; exact Nat.mod_lt _ (by norm_num)
  · intro j hj
    obtain ⟨-, d, d1, d2, d3, d4⟩ := helem j hj
    have hgj : j < g.length := by omega
    have hwj : j < w.length := by omega
    have hrj : j < r.length := by omega
    refine ⟨g[j], w[j], _, B32.add r[j] (B32.mul g[j] g[j]), by rw [hgd j hj, List.getElem?_eq_getElem hgj],
      List.getElem?_eq_getElem hwj, ?_, ?_, d1.1, ?_, ?_, ?_⟩
    · simp only [List.getElem?_zipWith, List.getElem?_eq_getElem hgj, List.getElem?_eq_getElem hwj, List.getElem?_eq_getElem hrj]
      rfl
    · rw [h2.data]
      simp only [List.getElem?_zipWith, List.getElem?_eq_getElem hgj, List.getElem?_eq_getElem hrj]
      rfl
    · rw [d1.2, h3, hl'.2]; exact d2
    · rw [d1.2]; exact d3
    · intro h; rw [d1.2]; exact d4 h

/-! ### RMSprop -/

/-- A step of RMSprop.  `vel1` and `nn1` are velocity and network after the first lines of the loop body (scaled velocity, and
the step ahead of Nesterov's method), `G` is the batch gradient there.  With momentum `δ` is added to the velocity, without
it to the parameter. -/
theorem C69_rmsprop (env : CustomEnv B32) (c : Cfg) (mem : ℕ → BatchMem B32) (loss : Loss) (n : ℕ) (X Y : View B32) (nn0 : Net B32)
    (i : ℕ) (s : RmsProp B32) (pivot : List ℕ) (w v r : List B32) (hs : OptAt c loss n X Y nn0 pivot s.opt w)
    (hv : WorkVec c (nParams nn0.layers) s.velocity v)
    (hr : WorkVec c (nParams nn0.layers) s.r r) (hm : (mem i).OK c (nParams nn0.layers) (batchLen n s.opt.batchsize i))
    (vel1 : View B32) (nn1 : Net B32)
    (hM : @applyMomentum B32 (ops L) c (nParams nn0.layers) s.momentum s.nesterov s.velocity s.opt.nn = .ok (vel1, nn1))
    (i' : ℕ) (G : View B32) (hG : @Opt.batchGradient B32 (ops L) env c (mem i) { s.opt with nn := nn1 } n X Y i = .ok (i', G))
    (hfin : FiniteVec (nParams nn0.layers) G) (hr0 : ∀ a ∈ r, NonNeg a) (hlr : s.lr.Within 0 (2 ^ 100)) (hdec : s.decay.Within 0 (2 ^ 90))
    (hit : s.nIter < 2 ^ 32) (hrho : s.rho.isFinite = true) (hrho0 : 0 < s.rho.value) (hrho1 : s.rho.value < 1) :
    ∃ s' w1 w', @rmspropStep B32 (ops L) env c mem n X Y i s = .ok (i', s') ∧
      nn1 = nn0.setParams w1 ∧ w1.length = nParams nn0.layers ∧ OptAt c loss n X Y nn0 pivot s'.opt w' ∧
      WorkVec c (nParams nn0.layers) s'.velocity s'.velocity.data ∧
      WorkVec c (nParams nn0.layers) s'.r s'.r.data ∧ (∀ a ∈ s'.r.data, NonNeg a) ∧
      s'.lr.Within 0 s.lr.value ∧ s'.decay = s.decay ∧ s'.rho = s.rho ∧ s'.momentum = s.momentum ∧ s'.nIter < 2 ^ 32 ∧
      s'.opt.batchsize = s.opt.batchsize ∧
      ∀ j < nParams nn0.layers, ∃ g a u δ r', G.data[j]? = some g ∧ w1[j]? = some a ∧ vel1.data[j]? = some u ∧
        s'.r.data[j]? = some r' ∧
        s'.velocity.data[j]? = some (if B32.lt (B32.zeroS false) s.momentum then B32.add u δ else u) ∧
        w'[j]? = some (B32.add a (if B32.lt (B32.zeroS false) s.momentum && !s.nesterov then B32.add u δ else δ)) ∧
        δ.isFinite = true ∧ |δ.value| ≤ s'.lr.value / √(1 - s.rho.value) * (1 + 2 ^ (-18 : ℤ)) + 2 ^ (-70 : ℤ) ∧
        δ.value * g.value ≤ 0 ∧ (r' = B32.inf false → δ.value = 0) := by
  let _ := ops L
  have hrl := hr.len
  have hwl := hs.wlen
  have hvl := hv.len
  have hpre := momentum_prefix c nn0 s.velocity s.momentum s.nesterov w v hs.ok.wf hs.wlen hv
  rw [hs.nn, hpre] at hM
  simp only [Except.ok.injEq, Prod.mk.injEq] at hM
  obtain ⟨rfl, rfl⟩ := hM
  obtain ⟨s', e, h1, hv', h2, h3, h4, h5, -, h7, h8, h9⟩ := rmspropStep_eq env c mem loss n X Y nn0 i s pivot w v r hs hv hr hm
  simp only [rmspropF] at h1 hv' h2
  generalize hw1 : (if FloatOps.lt FloatOps.zero s.momentum && s.nesterov then
    List.zipWith FloatOps.add w (v.map fun x => FloatOps.mul x s.momentum) else w) = w1 at hG h1 hv' h2
  generalize hv1 : (if FloatOps.lt FloatOps.zero s.momentum then v.map (fun x => FloatOps.mul x s.momentum) else v) = v1 at h1 hv'
  have hw1l : w1.length = nParams nn0.layers := by rw [← hw1]; split <;> simp [hwl, hvl]
  have hv1l : v1.length = nParams nn0.layers := by rw [← hv1]; split <;> simp [hvl]
  have hs1 : OptAt c loss n X Y nn0 pivot { s.opt with nn := nn0.setParams w1 } w1 :=
    ⟨hs.ok, rfl, hw1l, hs.plen, hs.plt, hs.pv⟩
  obtain ⟨e1, hgl, hgd⟩ := batchGradient_inv L hs1 hm hG
  dsimp only at e1 hgl hgd
  generalize gradAt env c (mem i).sched loss X Y nn0 pivot i (batchLen n s.opt.batchsize i) w1 = g at hgl hgd h1 hv' h2
  obtain ⟨l', hl', l0, l1⟩ := decay_float L (lr := s.lr) (decay := s.decay) ⟨hlr.1, rfl⟩ hlr.2.1 ⟨hdec.1, rfl⟩ hdec.2.1 hdec.2.2 hit
  have hcut := cutZip_eq c (fun x y => FloatOps.add (FloatOps.mul x s.rho) (FloatOps.mul (FloatOps.sub FloatOps.one s.rho) y))
        (fun x y => FloatOps.add (FloatOps.mul s.rho x) (FloatOps.mul (FloatOps.sub FloatOps.one s.rho) y)) r (g.map (fun y => FloatOps.mul y y))
        (by simp [hrl, hgl]) (fun x y => by
          show B32.add (B32.mul x s.rho) _ = B32.add (B32.mul s.rho x) _
          rw [B32.mul_comm'])
  rw [hcut] at h1 h2 hv'
  have helem : ∀ j (hj : j < nParams nn0.layers), _ := fun j hj =>
    rmsprop_elem L (lr := decayLr s.lr s.decay s.nIter) (g := g[j]'(by omega)) (r := r[j]'(by omega)) (rho := s.rho)
      hl' l0 (l1.trans hlr.2.2) ⟨hrho, rfl⟩ hrho0 hrho1
      (by
        obtain ⟨a, ha, hf⟩ := hfin j hj
        rw [hgd j hj, List.getElem?_eq_getElem (by omega)] at ha
        cases ha
        exact ⟨hf, rfl⟩) (hr0 _ (List.getElem_mem _))
  have hacc : ∀ j (hj : j < nParams nn0.layers), s'.r.data[j]? = some (B32.add (B32.mul s.rho (r[j]'(by omega)))
      (B32.mul (B32.sub (B32.ofReal false 1) s.rho) (B32.mul (g[j]'(by omega)) (g[j]'(by omega))))) := by
    intro j hj
    have hgj : j < g.length := by omega
    have hrj : j < r.length := by omega
    rw [h2.data]
    simp only [List.getElem?_zipWith, List.getElem?_map, List.getElem?_eq_getElem hgj, List.getElem?_eq_getElem hrj, Option.map_some]
    rfl
  refine ⟨s', w1, _, by rw [e, e1], rfl, hw1l, h1, ⟨hv'.aligned, rfl, by rw [hv'.data]; exact hv'.len⟩,
    ⟨h2.aligned, rfl, by rw [h2.data]; exact h2.len⟩, ?_, ?_, h7, h8, h5, ?_, h9, ?_⟩
  · intro a ha
    obtain ⟨j, hj, rfl⟩ := List.mem_iff_getElem.1 ha
    have hjl : j < nParams nn0.layers := by rw [h2.data] at hj; simp only [List.length_zipWith, List.length_map] at hj; omega
    obtain ⟨h0, -⟩ := helem j hjl
    have := hacc j hjl
    rw [List.getElem?_eq_getElem hj, Option.some.injEq] at this
    rw [this]
    exact h0
  · rw [h3]
    exact ⟨hl'.1, by rw [hl'.2]; exact l0, by rw [hl'.2]; exact l1⟩
  · rw [h4]; exact Nat.mod_lt _ (by norm_num)
  · intro j hj
    obtain ⟨-, d, d1, d2, d3, d4⟩ := helem j hj
    have hgj : j < g.length := by omega
    have hwj : j < w1.length := by omega
    have hvj : j < v1.length := by omega
    have hrj : j < r.length := by omega
    refine ⟨g[j], w1[j], v1[j], _, B32.add (B32.mul s.rho r[j]) (B32.mul (B32.sub (B32.ofReal false 1) s.rho) (B32.mul g[j] g[j])),
      by rw [hgd j hj, List.getElem?_eq_getElem hgj],
      List.getElem?_eq_getElem hwj, ?_, ?_, ?_, ?_, d1.1, ?_, ?_, ?_⟩
    · exact List.getElem?_eq_getElem hvj
    · exact hacc j hj
    · rw [hv'.data]
      have hz : (FloatOps.lt FloatOps.zero s.momentum) = B32.lt (B32.zeroS false) s.momentum := rfl
      rw [hz]
      cases B32.lt (B32.zeroS false) s.momentum
      · exact List.getElem?_eq_getElem hvj
      · simp only [if_true, List.getElem?_zipWith, List.getElem?_map, List.getElem?_eq_getElem hgj, List.getElem?_eq_getElem hvj,
          List.getElem?_eq_getElem hrj, Option.map_some]
        rfl
    · have hz : (FloatOps.lt FloatOps.zero s.momentum) = B32.lt (B32.zeroS false) s.momentum := rfl
      rw [hz]
      cases B32.lt (B32.zeroS false) s.momentum <;> cases s.nesterov <;>
        simp only [Bool.false_and, Bool.true_and, Bool.not_false, Bool.not_true, Bool.false_eq_true, if_true, if_false,
          List.getElem?_zipWith, List.getElem?_map, List.getElem?_eq_getElem hgj, List.getElem?_eq_getElem hwj, List.getElem?_eq_getElem hvj,
          List.getElem?_eq_getElem hrj, Option.map_some] <;> rfl
    · rw [d1.2, h3, hl'.2]; exact d2
    · rw [d1.2]; exact d3
    · intro h; rw [d1.2]; exact d4 h

/-! ### Adam -/

/-- A step of Adam.  With batch gradients up to `2^40` and decay rates up to `1 - 2^-12` the moments stay below `2^41` and
`2^81`, the corrections stay below one, and the step is a finite number which does not point along the first moment. -/
theorem C69_adam (env : CustomEnv B32) (c : Cfg) (mem : ℕ → BatchMem B32) (loss : Loss) (n : ℕ) (X Y : View B32) (nn0 : Net B32)
    (i : ℕ) (p1 p2 : B32) (a : Adam B32) (pivot : List ℕ) (w s r : List B32) (hs : OptAt c loss n X Y nn0 pivot a.opt w)
    (hv : WorkVec c (nParams nn0.layers) a.s s)
    (hr : WorkVec c (nParams nn0.layers) a.r r) (hm : (mem i).OK c (nParams nn0.layers) (batchLen n a.opt.batchsize i))
    (i' : ℕ) (G : View B32) (hG : @Opt.batchGradient B32 (ops L) env c (mem i) a.opt n X Y i = .ok (i', G))
    (hfin : ∀ j < nParams nn0.layers, ∃ g, G.data[j]? = some g ∧ g.Within (-2 ^ 40) (2 ^ 40))
    (hs0 : ∀ x ∈ s, x.Within (-2 ^ 41) (2 ^ 41)) (hr0 : ∀ x ∈ r, x.Within 0 (2 ^ 81))
    (hp1 : p1.Within 0 1) (hp2 : p2.Within 0 1) (hb1 : a.beta1.Within 0 (1 - 2 ^ (-12 : ℤ))) (hb2 : a.beta2.Within 0 (1 - 2 ^ (-12 : ℤ)))
    (hlr : a.lr.Within 0 1) :
    ∃ a' p1' p2' w', @adamStep B32 (ops L) env c mem n X Y i ((p1, p2), a) = .ok (i', ((p1', p2'), a')) ∧
      OptAt c loss n X Y nn0 pivot a'.opt w' ∧
      WorkVec c (nParams nn0.layers) a'.s a'.s.data ∧ WorkVec c (nParams nn0.layers) a'.r a'.r.data ∧
      (∀ x ∈ a'.s.data, x.Within (-2 ^ 41) (2 ^ 41)) ∧ (∀ x ∈ a'.r.data, x.Within 0 (2 ^ 81)) ∧
      p1'.Within 0 a.beta1.value ∧ p2'.Within 0 a.beta2.value ∧
      a'.lr = a.lr ∧ a'.beta1 = a.beta1 ∧ a'.beta2 = a.beta2 ∧ a'.weightDecay = a.weightDecay ∧ a'.opt.batchsize = a.opt.batchsize ∧
      ∀ j < nParams nn0.layers, ∃ b m δ, w[j]? = some b ∧ a'.s.data[j]? = some m ∧
        w'[j]? = some (B32.add b (if B32.lt (B32.zeroS false) a.weightDecay then B32.add δ (B32.mul (B32.neg a.weightDecay) b) else δ)) ∧
        δ.Within (-2 ^ 82) (2 ^ 82) ∧ δ.value * m.value ≤ 0 := by
  let _ := ops L
  have hrl := hr.len
  have hwl := hs.wlen
  have hvl := hv.len
  obtain ⟨e1, hgl, hgd⟩ := batchGradient_inv L hs hm hG
  obtain ⟨a', e, h1, h2, h3, h4, h5, h6, h7, h8⟩ := adamStep_eq env c mem loss n X Y nn0 i p1 p2 a pivot w s r hs hv hr hm
  simp only [adamF] at h1 h2 h3
  generalize gradAt env c (mem i).sched loss X Y nn0 pivot i (batchLen n a.opt.batchsize i) w = g at hgl hgd h1 h2 h3
  generalize hS : cutZip c (fun x y => FloatOps.add (FloatOps.mul x a.beta1) (FloatOps.mul y (FloatOps.sub FloatOps.one a.beta1)))
        (fun x y => FloatOps.add (FloatOps.mul a.beta1 x) (FloatOps.mul (FloatOps.sub FloatOps.one a.beta1) y)) s g = S at h1 h2
  generalize hR : cutZip c (fun x y => FloatOps.add (FloatOps.mul x a.beta2) (FloatOps.mul (FloatOps.mul y y) (FloatOps.sub FloatOps.one a.beta2)))
        (fun x y => FloatOps.add (FloatOps.mul a.beta2 x) (FloatOps.mul (FloatOps.mul (FloatOps.sub FloatOps.one a.beta2) y) y)) r g = R
        at h1 h3
  have hSl : S.length = nParams nn0.layers := by rw [← hS, cutZip_length, hvl]
  have hRl : R.length = nParams nn0.layers := by rw [← hR, cutZip_length, hrl]
  have hg : ∀ j (hj : j < nParams nn0.layers), Is (g[j]'(by omega)) (g[j]'(by omega)).value ∧ |(g[j]'(by omega)).value| ≤ 2 ^ 40 := by
    intro j hj
    obtain ⟨x, hx, hf, hb⟩ := hfin j hj
    rw [hgd j hj, List.getElem?_eq_getElem (by omega)] at hx
    cases hx
    exact ⟨⟨hf, rfl⟩, abs_le.2 hb⟩
  have hSb : ∀ j (hj : j < nParams nn0.layers), ∃ x, Is (S[j]'(by omega)) x ∧ |x| ≤ 2 ^ 41 := by
    intro j hj
    obtain ⟨hgj, hgb⟩ := hg j hj
    have hsj := hs0 _ (List.getElem_mem (show j < s.length by omega))
    obtain ⟨y, hy, hy1, -⟩ := first_term ⟨hb1.1, rfl⟩ hb1.2.1 hb1.2.2 hgj hgb
    have hy2 : |y| ≤ (1 - a.beta1.value) * 2 ^ 40 * (1 + 2 ^ (-21 : ℤ)) + 2 ^ (-100 : ℤ) := by
      refine hy1.trans ?_
      have : 0 ≤ (1 - a.beta1.value) := by have := hb1.2.2; norm_num at this ⊢; linarith
      norm_num; nlinarith
    have key := average_float (e := 40) (by norm_num) ⟨hb1.1, rfl⟩ hb1.2.1 hb1.2.2 ⟨hsj.1, rfl⟩
      (by rw [abs_le]; have := hsj.2; norm_num at this ⊢; exact this) hy hy2
    have hE : S[j]'(by omega) = B32.add (B32.mul a.beta1 (s[j]'(by omega))) (B32.mul (B32.sub (B32.ofReal false 1) a.beta1) (g[j]'(by omega))) := by
      obtain ⟨z, hz, hz'⟩ := cutZip_get c (fun x y => FloatOps.add (FloatOps.mul x a.beta1) (FloatOps.mul y (FloatOps.sub FloatOps.one a.beta1)))
        (fun x y => FloatOps.add (FloatOps.mul a.beta1 x) (FloatOps.mul (FloatOps.sub FloatOps.one a.beta1) y)) s g (by omega) j (by omega)
      rw [hS, List.getElem?_eq_getElem (by omega)] at hz
      cases hz
      rcases hz' with hz | hz
      · rw [hz]
        show B32.add (B32.mul _ _) (B32.mul _ (B32.sub (B32.ofReal false 1) _)) = _
        rw [B32.mul_comm' _ a.beta1, B32.mul_comm' (g[j]'(by omega))]
      · rw [hz]; rfl
    rw [hE]
    exact ⟨_, key.1, key.2.trans (by norm_num)⟩
  have hRb : ∀ j (hj : j < nParams nn0.layers), ∃ x, Is (R[j]'(by omega)) x ∧ 0 ≤ x ∧ x ≤ 2 ^ 81 := by
    intro j hj
    obtain ⟨hgj, hgb⟩ := hg j hj
    have hrj := hr0 _ (List.getElem_mem (show j < r.length by omega))
    have hrj1 : |(r[j]'(by omega)).value| ≤ 2 * 2 ^ 80 := by
      rw [abs_of_nonneg hrj.2.1]; have := hrj.2.2; norm_num at this ⊢; exact this
    have fin : ∀ B y, Is B y → |y| ≤ (1 - a.beta2.value) * 2 ^ 80 * (1 + 2 ^ (-21 : ℤ)) + 2 ^ (-100 : ℤ) → 0 ≤ y →
        ∃ x, Is (B32.add (B32.mul a.beta2 (r[j]'(by omega))) B) x ∧ 0 ≤ x ∧ x ≤ 2 ^ 81 := by
      intro B y hB hy y0
      have key := average_float (e := 80) (by norm_num) ⟨hb2.1, rfl⟩ hb2.2.1 hb2.2.2 ⟨hrj.1, rfl⟩ hrj1 hB hy
      refine ⟨_, key.1, rnd_nonneg (add_nonneg (rnd_nonneg (mul_nonneg hb2.2.1 hrj.2.1)) y0), (le_abs_self _).trans (key.2.trans (by norm_num))⟩
    obtain ⟨z, hz, hz'⟩ := cutZip_get c (fun x y => FloatOps.add (FloatOps.mul x a.beta2) (FloatOps.mul (FloatOps.mul y y) (FloatOps.sub FloatOps.one a.beta2)))
        (fun x y => FloatOps.add (FloatOps.mul a.beta2 x) (FloatOps.mul (FloatOps.mul (FloatOps.sub FloatOps.one a.beta2) y) y)) r g
        (by omega) j (by omega)
    rw [hR, List.getElem?_eq_getElem (by omega)] at hz
    cases hz
    rcases hz' with hz | hz
    · obtain ⟨y, hy, hy1, hy2⟩ := second_term' ⟨hb2.1, rfl⟩ hb2.2.1 hb2.2.2 hgj hgb
      obtain ⟨x, hx⟩ := fin _ y hy hy1 hy2
      refine ⟨x, ?_, hx.2⟩
      rw [hz]
      show Is (B32.add (B32.mul _ _) _) _
      rw [B32.mul_comm' _ a.beta2]
      exact hx.1
    · obtain ⟨y, hy, hy1, hy2⟩ := second_term ⟨hb2.1, rfl⟩ hb2.2.1 hb2.2.2 hgj hgb
      obtain ⟨x, hx⟩ := fin _ y hy hy1 hy2
      refine ⟨x, ?_, hx.2⟩
      rw [hz]
      exact hx.1
  have corr : ∀ p b : B32, p.Within 0 1 → b.Within 0 (1 - 2 ^ (-12 : ℤ)) → (B32.mul p b).Within 0 b.value := by
    intro p b hp hb
    have h1 : p.value * b.value ≤ b.value := mul_le_of_le_one_left hb.2.1 hp.2.2
    have h2 := mul_is ⟨hp.1, rfl⟩ ⟨hb.1, rfl⟩ (x := p.value) (y := b.value) (by
      rw [abs_of_nonneg (mul_nonneg hp.2.1 hb.2.1)]
      refine h1.trans (hb.2.2.trans ?_)
      unfold maxF32; norm_num)
    refine ⟨h2.1, ?_, ?_⟩
    · rw [h2.2]; exact rnd_nonneg (mul_nonneg hp.2.1 hb.2.1)
    · rw [h2.2]; exact rnd_le h1 (rnd_is ⟨hb.1, rfl⟩)
  have hq1 := corr p1 a.beta1 hp1 hb1
  have hq2 := corr p2 a.beta2 hp2 hb2
  refine ⟨a', B32.mul p1 a.beta1, B32.mul p2 a.beta2, _, by rw [e, e1]; rfl, h1, ⟨h2.aligned, rfl, by rw [h2.data]; exact h2.len⟩,
    ⟨h3.aligned, rfl, by rw [h3.data]; exact h3.len⟩, ?_, ?_, hq1, hq2, h4, h5, h6, h7, h8, ?_⟩
  · intro x hx
    rw [h2.data, List.mem_iff_getElem] at hx
    obtain ⟨j, hj, rfl⟩ := hx
    obtain ⟨y, hy, hy1⟩ := hSb j (by omega)
    rw [abs_le] at hy1
    exact ⟨hy.1, by rw [hy.2]; exact hy1.1, by rw [hy.2]; exact hy1.2⟩
  · intro x hx
    rw [h3.data, List.mem_iff_getElem] at hx
    obtain ⟨j, hj, rfl⟩ := hx
    obtain ⟨y, hy, hy1⟩ := hRb j (by omega)
    exact ⟨hy.1, by rw [hy.2]; exact hy1.1, by rw [hy.2]; exact hy1.2⟩
  · intro j hj
    obtain ⟨x, hx, hx1⟩ := hSb j hj
    obtain ⟨y, hy, hy0, hy1⟩ := hRb j hj
    obtain ⟨d, d1, d2, d3⟩ := adam_step L (p1 := B32.mul p1 a.beta1) (p2 := B32.mul p2 a.beta2) (lr := a.lr) ⟨hq1.1, rfl⟩ hq1.2.1
      (hq1.2.2.trans hb1.2.2) ⟨hq2.1, rfl⟩ hq2.2.1 (hq2.2.2.trans hb2.2.2) ⟨hlr.1, rfl⟩ hlr.2.1 hlr.2.2 hx hx1 hy hy0 hy1
    have hwj : j < w.length := by omega
    have hSj : j < S.length := by omega
    have hRj : j < R.length := by omega
    rw [abs_le] at d2
    refine ⟨w[j], S[j], _, List.getElem?_eq_getElem hwj, by rw [h2.data, List.getElem?_eq_getElem hSj], ?_,
      ⟨d1.1, by rw [d1.2]; exact d2.1, by rw [d1.2]; exact d2.2⟩, by rw [d1.2, hx.2]; exact d3⟩
    have hz : (FloatOps.lt FloatOps.zero a.weightDecay) = B32.lt (B32.zeroS false) a.weightDecay := rfl
    rw [hz]
    cases B32.lt (B32.zeroS false) a.weightDecay <;>
      simp only [Bool.false_eq_true, if_true, if_false, List.getElem?_zipWith, List.getElem?_eq_getElem hwj, List.getElem?_eq_getElem hSj,
        List.getElem?_eq_getElem hRj] <;> rfl

/-! ### SGD -/

/-- A step of plain SGD in which every update is below `2^-26` of its parameter changes nothing: no parameter changes its value,
whatever the sign and the number of the gradients. -/
theorem C69_stall_false (env : CustomEnv B32) (c : Cfg) (mem : ℕ → BatchMem B32) (loss : Loss) (n : ℕ) (X Y : View B32) (nn0 : Net B32)
    (i : ℕ) (s : Sgd B32) (pivot : List ℕ) (w v : List B32) (hs : OptAt c loss n X Y nn0 pivot s.opt w)
    (hv : WorkVec c (nParams nn0.layers) s.velocity v)
    (hm : (mem i).OK c (nParams nn0.layers) (batchLen n s.opt.batchsize i))
    (i' : ℕ) (G : View B32) (hG : @Opt.batchGradient B32 (ops L) env c (mem i) s.opt n X Y i = .ok (i', G))
    (hmom : B32.lt (B32.zeroS false) s.momentum = false) (hlr : s.lr.isFinite = true) (hdec : B32.lt (B32.zeroS false) s.decay = false)
    (hsmall : ∀ j < nParams nn0.layers, ∃ g a, G.data[j]? = some g ∧ w[j]? = some a ∧ g.isFinite = true ∧ a.isFinite = true ∧
      a.value ≠ 0 ∧ 2 ^ (-100 : ℤ) ≤ |a.value| ∧ |g.value * s.lr.value| ≤ |a.value| * 2 ^ (-27 : ℤ)) :
    ∃ s' w', @sgdStep B32 (ops L) env c mem n X Y i s = .ok (i', s') ∧ OptAt c loss n X Y nn0 pivot s'.opt w' ∧
      ∀ j < nParams nn0.layers, ∃ a a', w[j]? = some a ∧ w'[j]? = some a' ∧ a'.isFinite = true ∧ a'.value = a.value := by
  let _ := ops L
  have hwl := hs.wlen
  obtain ⟨e1, hgl, hgd⟩ := batchGradient_inv L hs hm hG
  obtain ⟨s', e, h1, -⟩ := sgdStep_eq env c mem loss n X Y nn0 i s pivot w v hs hv hm
  have hmom' : FloatOps.lt (FloatOps.zero : B32) s.momentum = false := hmom
  have hlr' : decayLr s.lr s.decay s.nIter = s.lr := by
    unfold decayLr
    have : FloatOps.lt (FloatOps.zero : B32) s.decay = false := hdec
    simp [this]
  simp only [sgdF, hmom', Bool.false_and, Bool.false_eq_true, if_false, hlr'] at h1
  generalize gradAt env c (mem i).sched loss X Y nn0 pivot i (batchLen n s.opt.batchsize i) w = g at hgl hgd h1
  refine ⟨s', _, by rw [e, e1], h1, fun j hj => ?_⟩
  obtain ⟨x, a, hx, ha, hxf, haf, ha0, ha1, hsm⟩ := hsmall j hj
  have hgj : j < g.length := by omega
  have hwj : j < w.length := by omega
  rw [hgd j hj, List.getElem?_eq_getElem hgj] at hx
  rw [List.getElem?_eq_getElem hwj] at ha
  cases hx
  cases ha
  have hp : |(g[j]).value * -s.lr.value| ≤ |(w[j]).value| * 2 ^ (-27 : ℤ) := by rw [mul_neg, abs_neg]; exact hsm
  have hamax := value_abs_le haf
  have hm' := mul_is ⟨hxf, rfl⟩ (is_neg ⟨hlr, rfl⟩) (by
    refine hp.trans (le_trans ?_ hamax)
    norm_num
    linarith [abs_nonneg (w[j]).value])
  have hab := B32.absorb ⟨haf, rfl⟩ hm' (by
    have := abs_rnd_le ((g[j]).value * -s.lr.value)
    norm_num at this hp ha1 ⊢
    linarith) ha0
  refine ⟨w[j], _, List.getElem?_eq_getElem hwj, ?_, hab.1, hab.2⟩
  simp only [List.getElem?_zipWith, List.getElem?_map, List.getElem?_eq_getElem hgj, List.getElem?_eq_getElem hwj, Option.map_some]
  rfl

/-! ### The hypotheses are met -/

/-- One linear neuron with weight and bias 1. -/
noncomputable def exOne : Net B32 := ⟨[⟨1, 1, ⟨64, [ofReal false 1]⟩, ⟨128, [ofReal false 1]⟩, .linear, some .linear⟩], some .mse⟩

/-- The optimizer with one sample. -/
noncomputable def exOneOpt : Opt B32 := ⟨exOne, false, 1, .static, some [0]⟩

def exOneMem (jk : ℕ → B32) (i : ℕ) : BatchMem B32 := ⟨.thread (List.range (batchLen 1 1 i)), fun _ => ⟨4096, jk, 8192, jk, 12⟩, 16384, jk, 16, 32768, jk⟩

theorem exOneMem_ok (c : Cfg) (jk : ℕ → B32) (i : ℕ) : (exOneMem jk i).OK c (nParams exOne.layers) (batchLen 1 1 i) := by
  refine ⟨?_, fun _ => align64 c 4096 rfl, fun _ => align64 c 8192 rfl, align64 c 16384 rfl, align64 c 32768 rfl, ?_⟩
  · simp [Sched.Covers, exOneMem, Sched.iters]
  · simp only [exOneMem, nParamPadding]
    split <;> simp [exOne, nParams]

theorem exOne_params : params exOne.layers = [ofReal false 1, ofReal false 1] := by simp [exOne, params]

theorem exOne_at (c : Cfg) : OptAt c .mse 1 ⟨20, [zeroS false]⟩ ⟨24, [zeroS false]⟩ exOne [0] exOneOpt [ofReal false 1, ofReal false 1] := by
  have hw : exOne.WF c := by
    refine ⟨by simp [exOne], fun l hl => ?_, trivial⟩
    simp only [exOne, List.mem_singleton] at hl
    subst hl
    exact ⟨by norm_num, by norm_num, rfl, rfl, align64 c 64 rfl, align64 c 128 rfl⟩
  refine ⟨⟨hw, rfl, ?_, fun ga _ => ?_, by norm_num, ?_, ?_, ?_, ?_⟩, ?_, by simp [exOne, nParams], rfl, by simp, rfl⟩
  · simp [exOne]
  · apply backAligned_of_small; simp [exOne]
  · simp [exOne, Net.nInput]
  · simp [exOne, Net.nOutput]
  · simp [exOne, Net.nInput]
  · simp [exOne, Net.nOutput]
  · rw [← exOne_params, setParams_self c exOne hw]; rfl

theorem two_is : Is (ofReal false (((2 : ℤ) : ℝ) / ((1 : ℕ) : ℝ))) 2 := by
  have := is_lit (p := 2) (q := 1) 0 (by norm_num) (by norm_num) (by norm_num)
  simpa using this

/-- Its batch gradient: 2 for the bias, 0 for the weight. -/
theorem exOne_grad (c : Cfg) (jk : ℕ → B32) : ∃ G g0 g1,
    @Opt.batchGradient B32 (ops L) (@noCustom B32) c (exOneMem jk 0) exOneOpt 1 ⟨20, [zeroS false]⟩ ⟨24, [zeroS false]⟩ 0 = .ok (1, G) ∧
      G.data[0]? = some g0 ∧ G.data[1]? = some g1 ∧ Is g0 2 ∧ Is g1 0 := by
  let _ := ops L
  have hA := exOne_at c
  obtain ⟨tail, e⟩ := batchGradient_at (@noCustom B32) c (exOneMem jk 0) .mse 1 ⟨20, [zeroS false]⟩ ⟨24, [zeroS false]⟩ exOne hA.ok exOneOpt
    [ofReal false 1, ofReal false 1] hA.nn hA.wlen 0 (exOneMem_ok c jk 0) [0] rfl rfl (by simp)
  have hz : FloatOps.eq (B32.zeroS false) (zero : B32) = true := (B32.eq_iff (B32.is_zeroS false) (B32.is_zeroS false)).2 rfl
  have hg : sampleGrad (@noCustom B32) c .mse ⟨20, [zeroS false]⟩ ⟨24, [zeroS false]⟩ exOne 0 =
      [FloatOps.div (FloatOps.mul (lit 2 1) (FloatOps.sub (ofReal false 1) (zeroS false))) (ofNat 1), zero] := by
    simp [sampleGrad, exOne, gradF, traceF, backF, netF, layerF, vmmF, vmmElem, vmmStep, activateF, Net.nInput, Net.nOutput, hz,
      List.range_succ, slice, lossF, lossElem, derivF, outerF, activateDerivF, applyTo, outerOp]
  have hk : nParams exOne.layers = 2 := by simp [exOne, nParams]
  have hnn : exOne.setParams [ofReal false 1, ofReal false 1] = exOne := hA.nn.symm
  have i1 : Is (ofReal false ((1 : ℕ) : ℝ)) 1 := by rw [Nat.cast_one]; exact is_one
  have r2 : rnd 2 = 2 := rnd_exact (k := 2) (j := 0) (by norm_num) (by norm_num) (by norm_num)
  have m2 : (2 : ℝ) ≤ maxF32 := by unfold maxF32; norm_num
  have m0 : (0 : ℝ) ≤ maxF32 := by linarith
  have i0 := is_zeroS false
  have s1 : Is (B32.sub (ofReal false 1) (zeroS false)) 1 := by
    have := sub_is is_one i0 (by norm_num; linarith)
    rwa [sub_zero, rnd_one] at this
  have s2 : Is (B32.mul (ofReal false (((2 : ℤ) : ℝ) / ((1 : ℕ) : ℝ))) (B32.sub (ofReal false 1) (zeroS false))) 2 := by
    have := mul_is two_is s1 (by norm_num; linarith)
    rwa [mul_one, r2] at this
  have div1 : ∀ (a : B32) (x : ℝ), Is a x → |x| ≤ maxF32 → rnd x = x → Is (B32.div a (ofReal false ((1 : ℕ) : ℝ))) x := by
    intro a x ha hx hr
    have := div_is ha i1 one_ne_zero (by rwa [div_one])
    rwa [div_one, hr] at this
  have add0 : ∀ (a : B32) (x : ℝ), Is a x → |x| ≤ maxF32 → rnd x = x → Is (B32.add (zeroS false) a) x := by
    intro a x ha hx hr
    have := add_is i0 ha (by rwa [zero_add])
    rwa [zero_add, hr] at this
  have b2 : |(2 : ℝ)| ≤ maxF32 := by norm_num; exact m2
  have b0 : |(0 : ℝ)| ≤ maxF32 := by norm_num; exact m0
  have hlist : gradAt (@noCustom B32) c (exOneMem jk 0).sched .mse ⟨20, [zeroS false]⟩ ⟨24, [zeroS false]⟩ exOne [0] 0 (batchLen 1 1 0)
      [ofReal false 1, ofReal false 1] =
      [B32.div (B32.add (zeroS false) (B32.add (zeroS false)
        (B32.div (B32.mul (ofReal false (((2 : ℤ) : ℝ) / ((1 : ℕ) : ℝ))) (B32.sub (ofReal false 1) (zeroS false))) (ofReal false ((1 : ℕ) : ℝ)))))
        (ofReal false ((1 : ℕ) : ℝ)),
       B32.div (B32.add (zeroS false) (B32.add (zeroS false) (zeroS false))) (ofReal false ((1 : ℕ) : ℝ))] := by
    have h2 : 2 ≤ nParamPadding c 2 := le_padding c 2
    obtain ⟨m, hm⟩ : ∃ m, nParamPadding c 2 = m + 1 + 1 := ⟨nParamPadding c 2 - 2, by omega⟩
    have hsc : (exOneMem jk 0).sched = .thread [0] := rfl
    simp only [gradAt, batchGradF, hnn, hk, hm, hsc, Sched.sumF, List.foldl_cons, List.foldl_nil, List.getD_cons_zero, Nat.zero_add, hg,
      List.replicate_succ, List.take_succ_cons, List.take_zero, List.zipWith_cons_cons, List.zipWith_nil_left, List.drop_succ_cons,
      List.drop_zero, List.cons_append, List.nil_append, List.replicate_zero, List.map_cons, List.map_nil, batchLen]
    rfl
  rw [show exOneOpt.batchsize = 1 from rfl, hlist] at e
  refine ⟨_, _, _, e, rfl, rfl, ?_, ?_⟩
  · exact div1 _ _ (add0 _ _ (add0 _ _ (div1 _ _ s2 b2 r2) b2 r2) b2 r2) b2 r2
  · exact div1 _ _ (add0 _ _ (add0 _ _ i0 b0 rnd_zero) b0 rnd_zero) b0 rnd_zero

theorem exOne_vec (c : Cfg) (a : ℕ) (ha : a % 64 = 0) : WorkVec c (nParams exOne.layers) ⟨a, [zeroS false, zeroS false]⟩ [zeroS false, zeroS false] :=
  ⟨align64 c a ha, rfl, by simp [exOne, nParams]⟩

theorem tenth_within : (ofReal false (1 / 8)).Within 0 (1 / 8) := by
  have := is_lit (p := 1) (q := 8) 3 (by norm_num) (by norm_num) (by norm_num)
  have h : Is (ofReal false (1 / 8)) (1 / 8) := by simpa using this
  exact ⟨h.1, by rw [h.2]; norm_num, by rw [h.2]⟩

/-- Adagrad with learning rate 1/8 on it, in every build. -/
example (c : Cfg) (jk : ℕ → B32) : ∃ s' w' δ, @adagradStep B32 (ops L) (@noCustom B32) c (exOneMem jk) 1 ⟨20, [zeroS false]⟩ ⟨24, [zeroS false]⟩ 0
      ⟨exOneOpt, ofReal false (1 / 8), zeroS false, 0, ⟨640, [zeroS false, zeroS false]⟩⟩ = .ok (1, s') ∧
      w'[0]? = some (B32.add (ofReal false 1) δ) ∧ params s'.opt.nn.layers = w' ∧ |δ.value| ≤ 1 / 7 ∧ δ.value ≤ 0 := by
  obtain ⟨G, g0, g1, hG, e0, e1, i0, i1⟩ := exOne_grad L c jk
  have hk : nParams exOne.layers = 2 := by simp [exOne, nParams]
  have ht := tenth_within
  obtain ⟨s', w', h1, h2, -, -, h5, -, -, -, h9⟩ := C69_adagrad L (@noCustom B32) c (exOneMem jk) .mse 1 _ _ exOne 0
    ⟨exOneOpt, ofReal false (1 / 8), zeroS false, 0, ⟨640, [zeroS false, zeroS false]⟩⟩ [0] _ _ (exOne_at c) (exOne_vec c 640 rfl)
    (exOneMem_ok c jk 0) 1 G hG
    (by
      intro j hj
      rw [hk] at hj
      interval_cases j
      · exact ⟨g0, e0, i0.1⟩
      · exact ⟨g1, e1, i1.1⟩)
    (by simp only [List.mem_cons, List.not_mem_nil, or_false, or_self]; rintro a rfl; exact .inl ⟨0, le_rfl, is_zeroS false⟩)
    ⟨ht.1, ht.2.1, ht.2.2.trans (by norm_num)⟩
    ⟨(is_zeroS false).1, by rw [(is_zeroS false).2], by rw [(is_zeroS false).2]; norm_num⟩ (by norm_num)
  obtain ⟨g, a, δ, r', k1, k2, k3, k4, k5, k6, k7, -⟩ := h9 0 (by rw [hk]; norm_num)
  rw [e0] at k1
  cases k1
  simp only [List.getElem?_cons_zero, Option.some.injEq] at k2
  subst k2
  refine ⟨s', w', δ, h1, k3, by rw [h2.nn, setParams_params _ _ h2.wlen], k6.trans ?_, ?_⟩
  · have hl := h5.2.2.trans ht.2.2
    norm_num at hl ⊢
    linarith
  · rw [i0.2] at k7; linarith

/-- RMSprop without momentum on it. -/
example (c : Cfg) (jk : ℕ → B32) : ∃ s' w' δ, @rmspropStep B32 (ops L) (@noCustom B32) c (exOneMem jk) 1 ⟨20, [zeroS false]⟩ ⟨24, [zeroS false]⟩ 0
      ⟨exOneOpt, ofReal false (1 / 8), zeroS false, ofReal false (1 / 8), zeroS false, false, 0, ⟨704, [zeroS false, zeroS false]⟩,
        ⟨640, [zeroS false, zeroS false]⟩⟩ = .ok (1, s') ∧
      w'[0]? = some (B32.add (ofReal false 1) δ) ∧ params s'.opt.nn.layers = w' ∧ δ.isFinite = true ∧ δ.value ≤ 0 := by
  obtain ⟨G, g0, g1, hG, e0, e1, i0, i1⟩ := exOne_grad L c jk
  have hk : nParams exOne.layers = 2 := by simp [exOne, nParams]
  have ht := tenth_within
  have hlt : B32.lt (zeroS false) (zeroS false) = false := by
    rw [← Bool.not_eq_true, B32.lt_iff (is_zeroS false) (is_zeroS false)]; norm_num
  have h8 : Is (ofReal false (1 / 8)) (1 / 8) := by
    have := is_lit (p := 1) (q := 8) 3 (by norm_num) (by norm_num) (by norm_num)
    simpa using this
  have hA : @applyMomentum B32 (ops L) c (nParams exOne.layers) (zeroS false) false ⟨704, [zeroS false, zeroS false]⟩ exOne =
      .ok (⟨704, [zeroS false, zeroS false]⟩, exOne) := by
    unfold applyMomentum
    have : @FloatOps.lt B32 (ops L) (@FloatOps.zero B32 (ops L)) (zeroS false) = false := hlt
    rw [this]; rfl
  obtain ⟨s', w1, w', h1, hw1, hw2, h2, -, -, -, -, -, -, -, -, -, h9⟩ := C69_rmsprop L (@noCustom B32) c (exOneMem jk) .mse 1 _ _ exOne 0
    ⟨exOneOpt, ofReal false (1 / 8), zeroS false, ofReal false (1 / 8), zeroS false, false, 0, ⟨704, [zeroS false, zeroS false]⟩,
      ⟨640, [zeroS false, zeroS false]⟩⟩ [0] _ _ _ (exOne_at c) (exOne_vec c 704 rfl) (exOne_vec c 640 rfl)
    (exOneMem_ok c jk 0) _ _ hA 1 G hG
    (by
      intro j hj
      rw [hk] at hj
      interval_cases j
      · exact ⟨g0, e0, i0.1⟩
      · exact ⟨g1, e1, i1.1⟩)
    (by simp only [List.mem_cons, List.not_mem_nil, or_false, or_self]; rintro a rfl; exact .inl ⟨0, le_rfl, is_zeroS false⟩)
    ⟨ht.1, ht.2.1, ht.2.2.trans (by norm_num)⟩
    ⟨(is_zeroS false).1, by rw [(is_zeroS false).2], by rw [(is_zeroS false).2]; norm_num⟩ (by norm_num) h8.1
    (by rw [h8.2]; norm_num) (by rw [h8.2]; norm_num)
  obtain ⟨g, a, u, δ, r', k1, k2, -, -, -, k3, k5, k6, k7, -⟩ := h9 0 (by rw [hk]; norm_num)
  rw [e0] at k1
  cases k1
  have hw : w1 = [ofReal false 1, ofReal false 1] := by
    rw [← setParams_params exOne w1 hw2, ← hw1, exOne_params]
  subst hw
  simp only [List.getElem?_cons_zero, Option.some.injEq] at k2
  subst k2
  simp only [hlt, Bool.false_and, Bool.false_eq_true, if_false] at k3
  refine ⟨s', w', δ, h1, k3, by rw [h2.nn, setParams_params _ _ h2.wlen], k5, ?_⟩
  rw [i0.2] at k7; linarith

/-- Adam (both rates 1/8) on it, from the start. -/
example (c : Cfg) (jk : ℕ → B32) : ∃ a' p w', @adamStep B32 (ops L) (@noCustom B32) c (exOneMem jk) 1 ⟨20, [zeroS false]⟩ ⟨24, [zeroS false]⟩ 0
      ((ofReal false 1, ofReal false 1), ⟨exOneOpt, ofReal false (1 / 8), ofReal false (1 / 8), ofReal false (1 / 8), zeroS false,
        ⟨640, [zeroS false, zeroS false]⟩, ⟨704, [zeroS false, zeroS false]⟩⟩) = .ok (1, (p, a')) ∧ params a'.opt.nn.layers = w' ∧
      ∃ δ, w'[0]? = some (B32.add (ofReal false 1) δ) ∧ δ.isFinite = true := by
  obtain ⟨G, g0, g1, hG, e0, e1, i0, i1⟩ := exOne_grad L c jk
  have hk : nParams exOne.layers = 2 := by simp [exOne, nParams]
  have ht := tenth_within
  have hlt : B32.lt (zeroS false) (zeroS false) = false := by
    rw [← Bool.not_eq_true, B32.lt_iff (is_zeroS false) (is_zeroS false)]; norm_num
  have hb : (ofReal false (1 / 8)).Within 0 (1 - 2 ^ (-12 : ℤ)) := ⟨ht.1, ht.2.1, ht.2.2.trans (by norm_num)⟩
  have h1 : (ofReal false 1).Within 0 1 := ⟨is_one.1, by rw [is_one.2]; norm_num, by rw [is_one.2]⟩
  have h0 : ∀ lo hi : ℝ, lo ≤ 0 → 0 ≤ hi → (zeroS false).Within lo hi := fun lo hi h h' =>
    ⟨(is_zeroS false).1, by rw [(is_zeroS false).2]; exact h, by rw [(is_zeroS false).2]; exact h'⟩
  obtain ⟨a', p1', p2', w', e, h2, -, -, -, -, -, -, -, -, -, -, -, h9⟩ := C69_adam L (@noCustom B32) c (exOneMem jk) .mse 1 _ _ exOne 0
    (ofReal false 1) (ofReal false 1) ⟨exOneOpt, ofReal false (1 / 8), ofReal false (1 / 8), ofReal false (1 / 8), zeroS false,
        ⟨640, [zeroS false, zeroS false]⟩, ⟨704, [zeroS false, zeroS false]⟩⟩ [0] _ _ _ (exOne_at c) (exOne_vec c 704 rfl)
    (exOne_vec c 640 rfl) (exOneMem_ok c jk 0) 1 G hG
    (by
      intro j hj
      rw [hk] at hj
      interval_cases j
      · exact ⟨g0, e0, i0.1, by rw [i0.2]; norm_num, by rw [i0.2]; norm_num⟩
      · exact ⟨g1, e1, i1.1, by rw [i1.2]; norm_num, by rw [i1.2]; norm_num⟩)
    (by simp only [List.mem_cons, List.not_mem_nil, or_false, or_self]; rintro a rfl; exact h0 _ _ (by norm_num) (by norm_num))
    (by simp only [List.mem_cons, List.not_mem_nil, or_false, or_self]; rintro a rfl; exact h0 _ _ (by norm_num) (by norm_num))
    h1 h1 hb hb ⟨ht.1, ht.2.1, ht.2.2.trans (by norm_num)⟩
  obtain ⟨b, m, δ, k1, -, k3, k4, -⟩ := h9 0 (by rw [hk]; norm_num)
  simp only [List.getElem?_cons_zero, Option.some.injEq] at k1
  subst k1
  simp only [hlt, Bool.false_eq_true, if_false] at k3
  exact ⟨a', _, w', e, by rw [h2.nn, setParams_params _ _ h2.wlen], δ, k3, k4.1⟩

/-- SGD with learning rate `2^-29` stalls on it, although the gradient of the bias is 2. -/
example (c : Cfg) (jk : ℕ → B32) : ∃ s' w', @sgdStep B32 (ops L) (@noCustom B32) c (exOneMem jk) 1 ⟨20, [zeroS false]⟩ ⟨24, [zeroS false]⟩ 0
      ⟨exOneOpt, ofReal false (((1 : ℤ) : ℝ) / ((2 ^ 29 : ℕ) : ℝ)), zeroS false, zeroS false, false, 0, ⟨640, [zeroS false, zeroS false]⟩⟩ =
        .ok (1, s') ∧
      params s'.opt.nn.layers = w' ∧ ∃ b, w'[0]? = some b ∧ b.value = 1 := by
  obtain ⟨G, g0, g1, hG, e0, e1, i0, i1⟩ := exOne_grad L c jk
  have hk : nParams exOne.layers = 2 := by simp [exOne, nParams]
  have hlt : B32.lt (zeroS false) (zeroS false) = false := by
    rw [← Bool.not_eq_true, B32.lt_iff (is_zeroS false) (is_zeroS false)]; norm_num
  have hl := is_lit (p := 1) (q := 2 ^ 29) 29 rfl (by norm_num) (by norm_num)
  obtain ⟨s', w', h1, h2, h3⟩ := C69_stall_false L (@noCustom B32) c (exOneMem jk) .mse 1 _ _ exOne 0
    ⟨exOneOpt, ofReal false (((1 : ℤ) : ℝ) / ((2 ^ 29 : ℕ) : ℝ)), zeroS false, zeroS false, false, 0, ⟨640, [zeroS false, zeroS false]⟩⟩ [0] _ _
    (exOne_at c) (exOne_vec c 640 rfl) (exOneMem_ok c jk 0) 1 G hG hlt hl.1 hlt
    (by
      intro j hj
      rw [hk] at hj
      interval_cases j
      · exact ⟨g0, _, e0, rfl, i0.1, is_one.1, by rw [is_one.2]; norm_num, by rw [is_one.2]; norm_num, by rw [i0.2, hl.2, is_one.2]; norm_num⟩
      · exact ⟨g1, _, e1, rfl, i1.1, is_one.1, by rw [is_one.2]; norm_num, by rw [is_one.2]; norm_num, by rw [i1.2, hl.2, is_one.2]; norm_num⟩)
  obtain ⟨a, b, k1, k2, -, k4⟩ := h3 0 (by rw [hk]; norm_num)
  simp only [List.getElem?_cons_zero, Option.some.injEq] at k1
  subst k1
  exact ⟨s', w', h1, by rw [h2.nn, setParams_params _ _ h2.wlen], b, k2, by rw [k4, is_one.2]⟩

/-- A whole epoch of Adagrad, whatever the starting accumulators. -/
example (c : Cfg) (jk : ℕ → B32) (a b : B32) (lr : B32) : ∃ s' a' b', @adagradEpoch B32 (ops L) (@noCustom B32) c (exOneMem jk) 1 1
      ⟨20, [zeroS false]⟩ ⟨24, [zeroS false]⟩ ⟨exOneOpt, lr, zeroS false, 0, ⟨640, [a, b]⟩⟩ = .ok s' ∧ s'.r.data = [a', b'] ∧ Grows a a' ∧
      Grows b b' := by
  let _ := ops L
  have hv : WorkVec c (nParams exOne.layers) ⟨640, [a, b]⟩ [a, b] := ⟨align64 c 640 rfl, rfl, by simp [exOne, nParams]⟩
  obtain ⟨s', e, -⟩ := adagradStep_eq (@noCustom B32) c (exOneMem jk) .mse 1 ⟨20, [zeroS false]⟩ ⟨24, [zeroS false]⟩ exOne 0
    ⟨exOneOpt, lr, zeroS false, 0, ⟨640, [a, b]⟩⟩ [0] _ _ (exOne_at c) hv (exOneMem_ok c jk 0)
  have h : adagradEpoch (@noCustom B32) c (exOneMem jk) 1 1 ⟨20, [zeroS false]⟩ ⟨24, [zeroS false]⟩
      ⟨exOneOpt, lr, zeroS false, 0, ⟨640, [a, b]⟩⟩ = .ok s' := by
    unfold adagradEpoch
    simp only [trainLoop, e, bind, Except.bind, zero_lt_one, if_true, show exOneOpt.batchsize = 1 from rfl,
      show batchLen 1 1 0 = 1 from rfl, Nat.zero_add, lt_irrefl, if_false, pure, Except.pure]
  have := C69_grows L (@noCustom B32) c (exOneMem jk) .mse 1 1 _ _ exOne _ s' [0] _ _ (exOne_at c) hv (exOneMem_ok c jk) h
  generalize hr : s'.r.data = r' at this
  cases this with
  | cons h1 h2 =>
    cases h2 with
    | cons h2 h3 =>
      cases h3
      exact ⟨s', _, _, h, hr, h1, h2⟩

end NN
