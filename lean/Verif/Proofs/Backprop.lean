import Verif.Proofs.Params
/-
Refinement of backpropagation to list functions (lawless floats).
-/
set_option linter.unusedSimpArgs false
set_option linter.unusedSectionVars false

namespace NN
open FloatOps
variable {F : Type} [FloatOps F]

/-! ### The loss call -/

/-- What a loss function writes. -/
def lossF (l : Loss) (n : Nat) (p y : List F) : List F := List.zipWith (lossElem l n) p y

theorem runLoss_eq (l : Loss) (n : Nat) (p y v : View F) (hp : n ≤ p.data.length)
    (hy : n ≤ y.data.length) (hv : n ≤ v.data.length) :
    runLoss l n p y v =
      .ok ⟨v.addr, lossF l n (p.data.take n) (y.data.take n) ++ v.data.drop n⟩ := by
  let g : Nat → F → F := fun k x => match p.data[k]?, y.data[k]? with
    | some a, some b => lossElem l n a b
    | _, _ => x
  unfold runLoss
  have h0 : v = (fun k => (⟨v.addr, applyTo g k v.data⟩ : View F)) 0 := by simp
  refine (congrArg (forN n _) h0).trans ?_
  rw [forN_eq (fun k => (⟨v.addr, applyTo g k v.data⟩ : View F))]
  · congr 2
    apply List.ext_getElem?; intro i
    rw [applyTo_getElem?]
    by_cases hi : i < n
    · have h1 : i < p.data.length := by omega
      have h2 : i < y.data.length := by omega
      have h3 : i < v.data.length := by omega
      rw [List.getElem?_append_left (by simp [lossF]; omega)]
      simp [g, lossF, hi, h1, h2, h3]
    · rw [List.getElem?_append_right (by simp [lossF]; omega), List.getElem?_drop]
      have : (lossF l n (p.data.take n) (y.data.take n)).length = n := by simp [lossF]; omega
      rw [this, show n + (i - n) = i by omega]
      simp [hi]
  · intro k hk
    rw [load_ok (by omega), load_ok (by omega)]
    simp only [bind, Except.bind]
    exact store_applyTo (by omega) (by simp [g, show k < p.data.length by omega, show k < y.data.length by omega])

/-! ### Kernels look at their operands only -/

theorem slice_take {α : Type} (l : List α) (i w n : Nat) (h : i + w ≤ n) :
    slice (l.take n) i w = slice l i w := by
  apply List.ext_getElem?; intro k
  rw [slice_getElem?, slice_getElem?]
  by_cases hk : k < w
  · simp [hk, show i + k < n by omega]
  · simp [hk]

theorem lanesAcc_take (c : Cfg) (w j0 n : Nat) (row v : List F) :
    ∀ t, j0 + w * t ≤ n → lanesAcc c w j0 row (v.take n) t = lanesAcc c w j0 row v t
  | 0, _ => rfl
  | t + 1, h => by
    have h' : j0 + w * t + w ≤ n := by
      rw [Nat.mul_add] at h; omega
    simp only [lanesAcc, slice_take v _ w n h', lanesAcc_take c w j0 n row v t (by omega)]

theorem tailAcc_take (j0 n : Nat) (row v : List F) (y : F) :
    ∀ t, j0 + t ≤ n → tailAcc j0 row (v.take n) y t = tailAcc j0 row v y t
  | 0, _ => rfl
  | t + 1, h => by
    have e : (v.take n)[j0 + t]? = v[j0 + t]? := by simp [show j0 + t < n by omega]
    simp only [tailAcc, e, tailAcc_take j0 n row v y t (by omega)]

/-- `matrix_vector_multiply` reads the first `n` elements of the vector only. -/
theorem dotF_take (c : Cfg) (n : Nat) (row v : List F) (y : F) :
    dotF c n row (v.take n) y = dotF c n row v y := by
  have h16 : 0 + 16 * (n / 16) ≤ n := by omega
  have h8 : ∀ j1, j1 ≤ n → j1 + 8 * ((n - j1) / 8) ≤ n := by intro j1 h; omega
  unfold dotF
  cases c.avx512 <;> cases c.avx <;> simp only [Bool.false_eq_true, if_false, if_true]
  · rw [tailAcc_take 0 n row v _ _ (by omega)]
  · rw [lanesAcc_take c 8 0 n row v _ (h8 0 (by omega)), tailAcc_take _ n row v _ _ (by omega)]
  · rw [lanesAcc_take c 16 0 n row v _ h16, tailAcc_take _ n row v _ _ (by omega)]
  · rw [lanesAcc_take c 16 0 n row v _ h16, lanesAcc_take c 8 _ n row v _ (h8 _ (by omega)),
      tailAcc_take _ n row v _ _ (by omega)]

/-! ### The list functions -/

/-- `matrix_vector_multiply` into a zeroed vector. -/
def mvmF (c : Cfg) (n m : Nat) (w v : List F) : List F :=
  applyTo (fun i y0 => dotF c m (w.drop (i * m)) v y0) n (List.replicate n zero)

/-- `vector_vector_outer` into a zeroed matrix. -/
def outerF (n m : Nat) (x y : List F) : List F :=
  applyTo (outerOp m x y) (n * m) (List.replicate (n * m) zero)

/-- The derivative call of a layer. -/
def derivF (env : CustomEnv F) (c : Cfg) (l : Layer F) (a g : List F) : List F :=
  activateDerivF env c (l.deriv.getD .linear) a g

/-- Layers with their input and output activations. -/
def traceF (env : CustomEnv F) (c : Cfg) : List (Layer F) → List F → List (Layer F × List F × List F)
  | [], _ => []
  | l :: ls, x => (l, x, layerF env c l 0 x) :: traceF env c ls (layerF env c l 0 x)

/-- Backward pass: the flat gradient of these layers, and the error signal of the first one. -/
def backF (env : CustomEnv F) (c : Cfg) : List (Layer F × List F × List F) → List F → List F × List F
  | [], _ => ([], [])
  | [(l, x, a)], g =>
    let δ := derivF env c l a g
    (δ ++ outerF l.nIn l.nOut x δ, δ)
  | (l, x, a) :: (l', x', a') :: rest, g =>
    let r := backF env c ((l', x', a') :: rest) g
    let δ := derivF env c l a (mvmF c l'.nIn l'.nOut l'.weight.data r.2)
    (δ ++ outerF l.nIn l.nOut x δ ++ r.1, δ)

theorem mvmF_length (c : Cfg) (n m : Nat) (w v : List F) : (mvmF c n m w v).length = n := by
  simp [mvmF]

theorem outerF_length (n m : Nat) (x y : List F) : (outerF n m x y).length = n * m := by
  simp [outerF]

theorem derivF_length (env : CustomEnv F) (c : Cfg) (l : Layer F) (a g : List F) :
    (derivF env c l a g).length = g.length := activateDerivF_length _ _ _ _ _

/-- The gradient starts with the error signal of its first layer, which has its size. -/
theorem backF_shape (env : CustomEnv F) (c : Cfg) :
    ∀ (ls : List (Layer F)) (x g : List F) (last : Layer F), ls.getLast? = some last →
      g.length = last.nOut → Chained ls →
      (backF env c (traceF env c ls x) g).1.length = nParams ls ∧
      ∀ l, ls.head? = some l → (backF env c (traceF env c ls x) g).2.length = l.nOut ∧
        ∃ r, (backF env c (traceF env c ls x) g).1 = (backF env c (traceF env c ls x) g).2 ++ r
  | [], _, _, _, h, _, _ => by simp at h
  | [l], x, g, last, h, hg, _ => by
    simp at h; subst h
    simp only [traceF, backF]
    refine ⟨by rw [List.length_append, derivF_length, outerF_length, hg, nParams_cons]; simp [nParams], ?_⟩
    intro m hm
    simp at hm; subst hm
    exact ⟨by rw [derivF_length, hg], _, rfl⟩
  | l :: l' :: ls, x, g, last, h, hg, hc => by
    have ih := backF_shape env c (l' :: ls) (layerF env c l 0 x) g last (by simpa using h) hg hc.2
    simp only [traceF] at ih
    simp only [traceF, backF]
    refine ⟨?_, ?_⟩
    · rw [List.length_append, List.length_append, derivF_length, outerF_length, ih.1, mvmF_length,
        nParams_cons l, hc.1]
    · intro m hm
      simp at hm; subst hm
      exact ⟨by rw [derivF_length, mvmF_length, hc.1], _, List.append_assoc _ _ _⟩

/-! ### Alignment -/

/-- The derivative call of a layer whose `grad_b` is at `addr` meets no misaligned access. -/
def DerivAligned (c : Cfg) (l : Layer F) (addr : Nat) : Prop :=
  (l.deriv.getD .linear).vectorised = true → c.avx = true → 16 ≤ l.nOut → addr % 32 = 0

/-- Alignment conditions of the backward loop: gradient buffer at address `ga`, first layer's part at
offset `gb`. -/
def BackAligned (c : Cfg) (ga : Nat) : Nat → List (Layer F) → Prop
  | _, [] => True
  | gb, [l] => DerivAligned c l (ga + 4 * gb)
  | gb, l :: l' :: ls => DerivAligned c l (ga + 4 * gb) ∧
      RowsAligned c l'.nIn l'.nOut l'.weight.addr ∧
      BackAligned c ga (gb + l.nOut + l.nIn * l.nOut) (l' :: ls)

/-! ### One layer backwards -/

theorem outer_congr (m n : Nat) (x x' y y' : List F) (z : List F) (hx : x.take n = x'.take n)
    (hy : y.take m = y'.take m) :
    applyTo (outerOp m x y) (n * m) z = applyTo (outerOp m x' y') (n * m) z := by
  apply applyTo_congr
  intro k hk v _
  have hm : 0 < m := Nat.pos_of_ne_zero (by rintro rfl; simp at hk)
  have h1 : k / m < n := Nat.div_lt_of_lt_mul (by rw [Nat.mul_comm]; exact hk)
  have h2 : k % m < m := Nat.mod_lt _ hm
  have e1 : x[k / m]? = x'[k / m]? := by
    have := congrArg (fun l : List F => l[k / m]?) hx
    simpa [List.getElem?_take, h1] using this
  have e2 : y[k % m]? = y'[k % m]? := by
    have := congrArg (fun l : List F => l[k % m]?) hy
    simpa [List.getElem?_take, h2] using this
  simp only [outerOp, e1, e2]

/-- Derivative and outer product of one layer: `P` before, `u` the signal in `grad_b`, zeros in
`grad_w`, `R` behind. -/
theorem backStep_eq (env : CustomEnv F) (c : Cfg) (s : Bufs F) (l : Layer F) (src dst : Ptr)
    (ga : Nat) (P u R x a : List F) (hd : l.deriv ≠ none) (hu : u.length = l.nOut)
    (hx : (s.at src).data.take l.nIn = x) (hxl : x.length = l.nIn)
    (ha : (s.at dst).data.take l.nOut = a) (hal : a.length = l.nOut)
    (hdst : c.avx = true → (s.at dst).addr % 32 = 0)
    (hda : DerivAligned c l (ga + 4 * P.length)) :
    backStep env c s ⟨l, src, dst, P.length⟩
        ⟨ga, P ++ (u ++ (List.replicate (l.nIn * l.nOut) zero ++ R))⟩ =
      .ok ⟨ga, P ++ (derivF env c l a u ++ (outerF l.nIn l.nOut x (derivF env c l a u) ++ R))⟩ := by
  unfold backStep
  have hxl' : l.nIn ≤ (s.at src).data.length := by rw [← hx] at hxl; simp at hxl; omega
  have hal' : l.nOut ≤ (s.at dst).data.length := by rw [← ha] at hal; simp at hal; omega
  cases hdd : l.deriv with
  | none => exact absurd hdd hd
  | some d =>
    simp only
    have hda' : d.vectorised = true → c.avx = true → 16 ≤ l.nOut → (ga + 4 * P.length) % 32 = 0 := by
      simpa [DerivAligned, hdd] using hda
    rw [activateDeriv_eq env c d l.nOut (s.at dst) _ hal' (by simp [View.offset, hu])
      (fun h1 h2 h3 => ⟨hdst h2, hda' h1 h2 h3⟩)]
    simp only [bind, Except.bind, View.offset, putGrad]
    have e1 : (P ++ (u ++ (List.replicate (l.nIn * l.nOut) zero ++ R))).drop P.length =
        u ++ (List.replicate (l.nIn * l.nOut) zero ++ R) := by rw [List.drop_left]
    have e2 : (P ++ (u ++ (List.replicate (l.nIn * l.nOut) zero ++ R))).take P.length = P := by
      rw [List.take_left]
    rw [e1, e2, List.take_left' hu, List.drop_left' hu, ha]
    have eδ : activateDerivF env c d a u = derivF env c l a u := by simp [derivF, hdd]
    rw [eδ]
    have hδ : (derivF env c l a u).length = l.nOut := by rw [derivF_length, hu]
    have e3 : (P ++ (derivF env c l a u ++ (List.replicate (l.nIn * l.nOut) zero ++ R))).drop
        (P.length + l.nOut) = List.replicate (l.nIn * l.nOut) zero ++ R := by
      rw [← List.append_assoc, List.drop_left' (by simp [hδ])]
    have e4 : (P ++ (derivF env c l a u ++ (List.replicate (l.nIn * l.nOut) zero ++ R))).take
        (P.length + l.nOut) = P ++ derivF env c l a u := by
      rw [← List.append_assoc, List.take_left' (by simp [hδ])]
    have e5 : (P ++ (derivF env c l a u ++ (List.replicate (l.nIn * l.nOut) zero ++ R))).drop
        P.length = derivF env c l a u ++ (List.replicate (l.nIn * l.nOut) zero ++ R) := by
      rw [List.drop_left]
    rw [e3, e4, e5]
    rw [vectorVectorOuter_eq c l.nIn l.nOut (s.at src) _ _ hxl' (by simp [hδ]) (by simp)]
    simp only [pure, Except.pure]
    rw [applyTo_append _ _ _ _ (by simp)]
    rw [outer_congr l.nOut l.nIn (s.at src).data x _ (derivF env c l a u) _
      (by rw [← hx, List.take_take, Nat.min_self])
      (by rw [List.take_left' hδ, List.take_of_length_le (by omega)])]
    rw [List.append_assoc]
    rfl

/-! ### The backward loop -/

/-- Contents of the gradient buffer before the loop: zeros, and the loss gradient in the last
`grad_b`. -/
def initG (g : List F) : List (Layer F) → List F
  | [] => []
  | [l] => g ++ List.replicate (l.nIn * l.nOut) zero
  | l :: l' :: ls => List.replicate l.nOut zero ++ (List.replicate (l.nIn * l.nOut) zero ++ initG g (l' :: ls))

theorem initG_length (g : List F) : ∀ (ls : List (Layer F)) (last : Layer F), ls.getLast? = some last →
    g.length = last.nOut → (initG g ls).length = nParams ls
  | [], _, h, _ => by simp at h
  | [l], last, h, hg => by
    simp at h; subst h
    simp [initG, hg, nParams, Nat.add_mul]; omega
  | l :: l' :: ls, last, h, hg => by
    rw [nParams_cons]
    simp only [initG, List.length_append, List.length_replicate,
      initG_length g (l' :: ls) last (by simpa using h) hg]
    omega

theorem backward_eq (env : CustomEnv F) (c : Cfg) (s : Bufs F) (len ga : Nat) (R : List F) :
    ∀ (ls : List (Layer F)) (os : List Nat) (src : Ptr) (lo : Nat) (x g P : List F) (last : Layer F),
      ls.getLast? = some last → g.length = last.nOut →
      (∀ l ∈ ls, l.WF c) → (∀ l ∈ ls, l.deriv ≠ none) → Chained ls →
      len = s.work.data.length → Laid c s.work.addr len lo ls os →
      Holds s.work.data ls os (actsF env c s.work.addr ls os x) →
      (∀ l, ls.head? = some l → (s.at src).data.take l.nIn = x ∧ x.length = l.nIn) →
      BackAligned c ga P.length ls →
      backward env c s (backLayers ls src (os.map .work) P.length) ⟨ga, P ++ (initG g ls ++ R)⟩ =
        .ok ⟨ga, P ++ ((backF env c (traceF env c ls x) g).1 ++ R)⟩
  | [], _, _, _, _, _, _, _, h, _, _, _, _, _, _, _, _, _ => by simp at h
  | [l], os, src, lo, x, g, P, last, h, hg, hw, hd, hc, hlen, hl, hh, hs, ha => by
    simp at h; subst h
    rcases os with _ | ⟨o, _ | ⟨o', os⟩⟩
    · simp [Laid] at hl
    · simp only [Laid] at hl
      simp only [actsF, Holds, and_true] at hh
      have hwl := hw l (by simp)
      obtain ⟨h1, h2⟩ := hs l rfl
      simp only [List.map_cons, List.map_nil, backLayers, backward, initG, List.append_assoc]
      rw [backStep_eq env c s l src (.work o) ga P g R x (layerF env c l 0 x) (hd l (by simp)) hg h1 h2
        (by rw [← layerF_aligned env c l _ hl.2.2.1]; exact hh)
        (layerF_length env c l 0 x hwl)
        (fun hx => mod32_of_aligned hx hl.2.2.1) ha]
      simp [traceF, backF]
    · simp [Laid] at hl
  | l :: l' :: ls, os, src, lo, x, g, P, last, h, hg, hw, hd, hc, hlen, hl, hh, hs, ha => by
    rcases os with _ | ⟨o, os⟩
    · simp [Laid] at hl
    · rcases os with _ | ⟨o', os⟩
      · simp [Laid] at hl
      · have hl' := hl
        rw [Laid] at hl'
        obtain ⟨l1, l2, l3, l4⟩ := hl'
        have hh' := hh
        simp only [actsF] at hh'
        rw [Holds] at hh'
        obtain ⟨hh1, hh2⟩ := hh'
        have hwl := hw l (by simp)
        obtain ⟨h1, h2⟩ := hs l rfl
        obtain ⟨a1, a2, a3⟩ := ha
        have hlen0 : (P ++ (List.replicate l.nOut (zero : F) ++ List.replicate (l.nIn * l.nOut) zero)).length =
            P.length + l.nOut + l.nIn * l.nOut := by simp; omega
        have hact : layerF env c l (s.work.addr + 4 * o) x = layerF env c l 0 x :=
          layerF_aligned env c l _ l3 x
        have ih := backward_eq env c s len ga R (l' :: ls) (o' :: os) (.work o) (o + l.nOut)
          (layerF env c l 0 x) g
          (P ++ (List.replicate l.nOut zero ++ List.replicate (l.nIn * l.nOut) zero)) last
          (by simpa using h) hg (fun m hm => hw m (by simp [List.mem_cons.mp hm]))
          (fun m hm => hd m (by simp [List.mem_cons.mp hm])) hc.2 hlen l4
          (by rw [← hact]; exact hh2)
          (by
            intro m hm
            simp at hm; subst hm
            rw [← hc.1]
            exact ⟨by rw [← hact]; exact hh1, layerF_length env c l 0 x hwl⟩)
          (by rw [hlen0]; exact a3)
        have hshape := backF_shape env c (l' :: ls) (layerF env c l 0 x) g last (by simpa using h) hg hc.2
        obtain ⟨s1, s2⟩ := hshape
        obtain ⟨s3, r, s4⟩ := s2 l' rfl
        rw [hlen0] at ih
        simp only [List.map_cons, backLayers] at ih
        simp only [List.map_cons, backLayers, backward]
        simp only [initG, List.append_assoc] at ih ⊢
        rw [ih]
        simp only [bind, Except.bind]
        have hge : ¬ (P.length + l.nOut + l.nIn * l.nOut < P.length + l'.nIn) := by
          have := hc.1; omega
        simp only [hge, if_false]
        -- names
        generalize hG : (backF env c (traceF env c (l' :: ls) (layerF env c l 0 x)) g) = G at *
        -- the product
        have ev : (P ++ (List.replicate l.nOut zero ++ (List.replicate (l.nIn * l.nOut) zero ++ (G.1 ++ R)))).drop
            (P.length + l.nOut + l.nIn * l.nOut) = G.1 ++ R := by
          rw [← List.append_assoc, ← List.append_assoc, List.drop_left' (by simp; omega)]
        have ey : (P ++ (List.replicate l.nOut zero ++ (List.replicate (l.nIn * l.nOut) zero ++ (G.1 ++ R)))).drop
            P.length = List.replicate l.nOut zero ++ (List.replicate (l.nIn * l.nOut) zero ++ (G.1 ++ R)) := by
          rw [List.drop_left]
        have et : (P ++ (List.replicate l.nOut zero ++ (List.replicate (l.nIn * l.nOut) zero ++ (G.1 ++ R)))).take
            P.length = P := by
          rw [List.take_left]
        have hwl' := hw l' (by simp)
        simp only [View.offset, putGrad]
        rw [matrixVectorMultiply_eq c l'.nIn l'.nOut l'.weight _ _
          (by rw [ey]; simp [hc.1])
          (by rw [ev]; simp [s4, s3])
          (Nat.le_of_eq hwl'.weight_len.symm) a2]
        simp only [ev, ey, et]
        rw [applyTo_append _ _ _ _ (by simp [hc.1])]
        have em : applyTo (fun i y0 => dotF c l'.nOut (l'.weight.data.drop (i * l'.nOut)) (G.1 ++ R) y0) l'.nIn
            (List.replicate l.nOut zero) = mvmF c l'.nIn l'.nOut l'.weight.data G.2 := by
          rw [mvmF, hc.1]
          congr 1
          funext i y0
          rw [← dotF_take c l'.nOut _ (G.1 ++ R), s4, List.append_assoc, List.take_left' s3]
        rw [em]
        rw [backStep_eq env c s l src (.work o) ga P _ (G.1 ++ R) x (layerF env c l 0 x)
          (hd l (by simp)) (by rw [mvmF_length, hc.1]) h1 h2
          (by rw [← hact]; exact hh1)
          (layerF_length env c l 0 x hwl)
          (fun hx => mod32_of_aligned hx l3) a1]
        have eb : backF env c (traceF env c (l :: l' :: ls) x) g =
            (derivF env c l (layerF env c l 0 x) (mvmF c l'.nIn l'.nOut l'.weight.data G.2) ++
              outerF l.nIn l.nOut x (derivF env c l (layerF env c l 0 x) (mvmF c l'.nIn l'.nOut l'.weight.data G.2)) ++ G.1,
             derivF env c l (layerF env c l 0 x) (mvmF c l'.nIn l'.nOut l'.weight.data G.2)) := by
          rw [← hG]; rfl
        rw [eb]
        simp

/-! ### Everything -/

theorem backLayers_getLast (ls : List (Layer F)) (last : Layer F) (h : ls.getLast? = some last) :
    ∀ (os : List Nat) (src : Ptr) (gb : Nat), os.length = ls.length →
      ∃ src' o, os.getLast? = some o ∧ (backLayers ls src (os.map .work) gb).getLast? =
        some ⟨last, src', .work o, gb + nParams ls.dropLast⟩ := by
  induction ls with
  | nil => simp at h
  | cons l ls ih =>
    intro os src gb hl
    rcases os with _ | ⟨o, os⟩
    · simp at hl
    · rcases ls with _ | ⟨l', ls⟩
      · simp at h hl
        subst h; subst hl
        exact ⟨src, o, rfl, by simp [backLayers, nParams]⟩
      · rcases os with _ | ⟨o', os⟩
        · simp at hl
        · obtain ⟨src', o2, h1, h2⟩ := ih (by simpa using h) (o' :: os) (.work o)
            (gb + l.nOut + l.nIn * l.nOut) (by simpa using hl)
          refine ⟨src', o2, by simpa using h1, ?_⟩
          rw [List.dropLast_cons_cons, nParams_cons]
          simp only [List.map_cons, backLayers] at h2 ⊢
          rw [List.getLast?_cons_cons, h2]
          congr 2; omega

/-- `memset` followed by the loss call. -/
theorem initG_eq (g : List F) : ∀ (ls : List (Layer F)) (last : Layer F), ls.getLast? = some last →
    g.length = last.nOut → ∀ R : List F,
    (List.replicate (nParams ls) zero ++ R).take (nParams ls.dropLast) ++
      (g ++ ((List.replicate (nParams ls) zero ++ R).drop (nParams ls.dropLast)).drop last.nOut) =
      initG g ls ++ R
  | [], _, h, _, _ => by simp at h
  | [l], last, h, hg, R => by
    simp at h; subst h
    have : nParams [l] = l.nOut + l.nIn * l.nOut := by rw [nParams_cons]; simp [nParams]
    rw [this, List.replicate_add, List.append_assoc]
    simp only [List.dropLast_singleton, initG]
    rw [show nParams ([] : List (Layer F)) = 0 from rfl]
    rw [List.take_zero, List.drop_zero, List.drop_left' (by simp), List.nil_append, List.append_assoc]
  | l :: l' :: ls, last, h, hg, R => by
    have ih := initG_eq g (l' :: ls) last (by simpa using h) hg R
    rw [List.dropLast_cons_cons, nParams_cons, nParams_cons, List.replicate_add, List.append_assoc]
    have e : l.nOut + l.nIn * l.nOut + nParams (l' :: ls).dropLast =
        (List.replicate (l.nOut + l.nIn * l.nOut) (zero : F)).length + nParams (l' :: ls).dropLast := by simp
    rw [e, List.take_length_add_append, List.drop_length_add_append, List.append_assoc, ih]
    simp only [initG]
    rw [show List.replicate (l.nOut + l.nIn * l.nOut) (zero : F) = List.replicate l.nOut zero ++
      List.replicate (l.nIn * l.nOut) zero from List.replicate_add _ _ _]
    simp only [List.append_assoc]

/-- What backpropagation computes: a function of the network, the input and the target. -/
def gradF (env : CustomEnv F) (c : Cfg) (nn : Net F) (loss : Loss) (x y : List F) : List F :=
  (backF env c (traceF env c nn.layers x)
    (lossF loss nn.nOutput (netF env c 0 nn.layers x) y)).1

theorem actsF_last (env : CustomEnv F) (c : Cfg) (addr len : Nat) (w : List F) :
    ∀ (ls : List (Layer F)) (os : List Nat) (lo : Nat) (x : List F) (last : Layer F) (o : Nat),
      ls.getLast? = some last → os.getLast? = some o → Laid c addr len lo ls os →
      Holds w ls os (actsF env c addr ls os x) → slice w o last.nOut = netF env c 0 ls x ∧
        o + last.nOut ≤ len
  | [], _, _, _, _, _, h, _, _, _ => by simp at h
  | [l], os, lo, x, last, o, h, ho, hl, hh => by
    simp at h; subst h
    rcases os with _ | ⟨o1, _ | ⟨o2, os⟩⟩
    · simp at ho
    · simp at ho; subst ho
      simp only [Laid] at hl
      simp only [actsF, Holds, and_true] at hh
      exact ⟨by rw [hh, layerF_aligned env c l _ hl.2.2.1]; rfl, hl.2.1⟩
    · simp [Laid] at hl
  | l :: l' :: ls, os, lo, x, last, o, h, ho, hl, hh => by
    rcases os with _ | ⟨o1, _ | ⟨o2, os⟩⟩
    · simp at ho
    · simp [Laid] at hl
    · rw [Laid] at hl
      rw [actsF, Holds] at hh
      have := actsF_last env c addr len w (l' :: ls) (o2 :: os) (o1 + l.nOut) _ last o (by simpa using h)
        (by simpa using ho) hl.2.2.2 hh.2
      rw [this.1, layerF_aligned env c l _ hl.2.2.1]
      exact ⟨rfl, this.2⟩

/-- The state after forward pass, `memset` and loss call. -/
theorem backprop_before_loop (env : CustomEnv F) (c : Cfg) (workAddr : Nat) (junk : Nat → F) (nn : Net F)
    (input target grad : View F) (loss : Loss) (hw : nn.WF c) (hwa : workAddr % c.alignSize = 0)
    (hga : grad.addr % c.alignSize = 0) (hloss : nn.loss = some loss)
    (hin : nn.nInput ≤ input.data.length) (hout : nn.nOutput ≤ target.data.length)
    (hg : nParams nn.layers ≤ grad.data.length) :
    ∃ (s : Bufs F) (os : List Nat) (last : Layer F) (len : Nat),
      nn.layers.getLast? = some last ∧ last.nOut = nn.nOutput ∧
      (lossF loss nn.nOutput (netF env c 0 nn.layers (input.data.take nn.nInput))
        (target.data.take nn.nOutput)).length = last.nOut ∧
      len = s.work.data.length ∧ Laid c s.work.addr len 0 nn.layers os ∧
      Holds s.work.data nn.layers os (actsF env c s.work.addr nn.layers os (input.data.take nn.nInput)) ∧
      (∀ l, nn.layers.head? = some l → (s.at .input).data.take l.nIn = input.data.take nn.nInput ∧
        (input.data.take nn.nInput).length = l.nIn) ∧
      backpropagation env c workAddr junk nn input target grad =
        backward env c s (backLayers nn.layers .input (os.map .work) 0)
          ⟨grad.addr, initG (lossF loss nn.nOutput (netF env c 0 nn.layers (input.data.take nn.nInput))
            (target.data.take nn.nOutput)) nn.layers ++ grad.data.drop (nParams nn.layers)⟩ := by
  unfold backpropagation
  obtain ⟨last, hlast, hno, hwl⟩ := exists_last hw
  have hga' : isAligned c grad.addr = true := by simp [isAligned, hga]
  simp only [hga', if_true]
  rw [layout_eq c workAddr hwa 0 _ (by simp)]
  simp only [bind, Except.bind]
  generalize hlen : workSize nn.layers + nn.nInput + c.lanes * nn.layers.length = len
  have hlaid := laid_offsets c workAddr hwa len 0 nn.layers (by simp) (by omega)
  have hsrc : ∀ l, nn.layers.head? = some l → l.nIn = nn.nInput := fun l hl => (Net.nInput_eq hl).symm
  obtain ⟨s', e, hh, hi, -, ha, hl, -⟩ := forward_work env c len nn.layers (offsets c 0 nn.layers) .input 0
    ⟨input, stackArray workAddr len junk, ⟨0, []⟩⟩ (input.data.take nn.nInput) hw.layer hw.chain
    (by rw [stackArray_length]) hlaid (fun l hl => by
      rw [hsrc l hl]
      exact ⟨rfl, by simp; omega, trivial⟩)
  rw [e]
  simp only
  have hm : memsetZero grad (nParams nn.layers) =
      .ok ⟨grad.addr, List.replicate (nParams nn.layers) zero ++ grad.data.drop (nParams nn.layers)⟩ := by
    simp [memsetZero, hg]
  rw [hm]
  simp only
  obtain ⟨src', o, ho, hbl⟩ := backLayers_getLast nn.layers last hlast (offsets c 0 nn.layers) .input 0
    (offsets_length c 0 nn.layers)
  rw [hbl, hloss]
  simp only [Nat.zero_add]
  have ha' : s'.work.addr = workAddr := ha
  have hnet := actsF_last env c workAddr len s'.work.data nn.layers (offsets c 0 nn.layers) 0
    (input.data.take nn.nInput) last o hlast ho hlaid hh
  have hnp : nParams nn.layers.dropLast + last.nOut ≤ nParams nn.layers := by
    have : ∀ (ls : List (Layer F)) , ls.getLast? = some last →
        nParams ls.dropLast + last.nOut ≤ nParams ls := by
      intro ls
      induction ls with
      | nil => simp
      | cons l ls ih =>
        rcases ls with _ | ⟨l', ls⟩
        · intro h; simp at h; subst h; rw [nParams_cons]; simp [nParams]
        · intro h
          have := ih (by simpa using h)
          rw [List.dropLast_cons_cons, nParams_cons l, nParams_cons l]; omega
    exact this nn.layers hlast
  have hlossl : (lossF loss nn.nOutput (netF env c 0 nn.layers (input.data.take nn.nInput))
      (target.data.take nn.nOutput)).length = last.nOut := by
    simp only [lossF, List.length_zipWith, List.length_take,
      netF_length env c 0 nn.layers _ last hlast hw.layer]
    omega
  rw [runLoss_eq loss last.nOut (s'.at (.work o)) target _
    (by simp [Bufs.at, View.offset, hl]; omega) (by omega) (by simp [View.offset]; omega)]
  simp only [putGrad, View.offset]
  have hs1 : (s'.at (.work o)).data.take last.nOut = netF env c 0 nn.layers (input.data.take nn.nInput) :=
    hnet.1
  rw [hs1]
  refine ⟨s', offsets c 0 nn.layers, last, len, hlast, hno.symm, hlossl, hl.symm, ?_, ?_, ?_, ?_⟩
  · rw [ha']; exact hlaid
  · rw [ha']; exact hh
  · intro l hl
    rw [hsrc l hl]
    exact ⟨by simp [Bufs.at, hi], by simp; omega⟩
  · rw [hno]
    rw [hno] at hlossl
    rw [initG_eq _ nn.layers last hlast hlossl]

/-- `neuralnet_backpropagation` refines the list function `gradF`. -/
theorem backpropagation_eq (env : CustomEnv F) (c : Cfg) (workAddr : Nat) (junk : Nat → F) (nn : Net F)
    (input target grad : View F) (loss : Loss) (hw : nn.WF c) (hwa : workAddr % c.alignSize = 0)
    (hga : grad.addr % c.alignSize = 0) (hloss : nn.loss = some loss)
    (hd : ∀ l ∈ nn.layers, l.deriv ≠ none)
    (hin : nn.nInput ≤ input.data.length) (hout : nn.nOutput ≤ target.data.length)
    (hg : nParams nn.layers ≤ grad.data.length) (hal : BackAligned c grad.addr 0 nn.layers) :
    backpropagation env c workAddr junk nn input target grad =
      .ok ⟨grad.addr, gradF env c nn loss (input.data.take nn.nInput) (target.data.take nn.nOutput) ++
        grad.data.drop (nParams nn.layers)⟩ := by
  obtain ⟨s, os, last, len, h1, -, h3, h4, h5, h6, h7, h8⟩ :=
    backprop_before_loop env c workAddr junk nn input target grad loss hw hwa hga hloss hin hout hg
  rw [h8]
  have := backward_eq env c s len grad.addr (grad.data.drop (nParams nn.layers)) nn.layers os .input 0
    (input.data.take nn.nInput) _ [] last h1 h3 hw.layer hd hw.chain h4 h5 h6 h7 hal
  simpa [gradF] using this

theorem gradF_length (env : CustomEnv F) (c : Cfg) (nn : Net F) (loss : Loss) (x y : List F) (hw : nn.WF c)
    (hy : y.length = nn.nOutput) : (gradF env c nn loss x y).length = nParams nn.layers := by
  obtain ⟨last, hlast, hno, hwl⟩ := exists_last hw
  refine (backF_shape env c nn.layers x _ last hlast ?_ hw.chain).1
  simp only [lossF, List.length_zipWith, netF_length env c 0 nn.layers _ last hlast hw.layer]
  omega

end NN
