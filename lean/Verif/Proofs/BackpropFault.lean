import Verif.Proofs.Backprop
/-
When backpropagation hits a misaligned access: exactly when `BackAligned` fails.
-/
set_option linter.unusedSimpArgs false
set_option linter.unusedSectionVars false

namespace NN
open FloatOps
variable {F : Type} [FloatOps F]

/-- A scalar loop that succeeds up to `i` and fails there. -/
theorem stripLe_fault_at {σ : Type} {n : Nat} {body : Nat → σ → M σ} (f : Nat → σ) {e : Fault} {i : Nat}
    (hi : i < n) (hok : ∀ k, k < i → body k (f k) = .ok (f (k + 1))) (he : body i (f i) = .error e) :
    ∀ d j, j + d = i → stripLe 1 n body j (f j) = .error e
  | 0, j, h => stripLe_fault (by decide) (by omega) (by rw [show j = i by omega]; exact he)
  | d + 1, j, h => by
    rw [stripLe, if_pos ⟨by decide, by omega⟩, hok j (by omega)]
    exact stripLe_fault_at f hi hok he d (j + 1) (by omega)

theorem forN_fault_at {σ : Type} {n : Nat} {body : Nat → σ → M σ} (f : Nat → σ) {e : Fault} {i : Nat}
    (hi : i < n) (hok : ∀ k, k < i → body k (f k) = .ok (f (k + 1))) (he : body i (f i) = .error e) :
    forN n body (f 0) = .error e := by
  unfold forN
  rw [stripLe_fault_at f hi hok he i 0 (by omega)]; rfl

theorem mvmRow_misaligned (c : Cfg) (n : Nat) (matrix v : View F) (i : Nat) (y : View F)
    (hy : i < y.data.length) (hv : n ≤ v.data.length)
    (h : ¬ AlignedFor c n (matrix.addr + 4 * (i * n))) :
    mvmRow c n matrix v i y = .error .misaligned := by
  have bad : ∀ w, 0 < w → w ≤ n → (matrix.addr + 4 * (i * n)) % (4 * w) ≠ 0 →
      stripLe w n (mvmStep c w matrix v (i * n)) 0 (set1 w zero) = .error .misaligned := by
    intro w hw hwn ha
    apply stripLe_fault hw (by omega)
    unfold mvmStep
    rw [loadu_ok (by omega)]
    have hmis : ¬ (matrix.addr + 4 * (i * n + 0)) % (4 * w) = 0 := by simpa using ha
    simp only [bind, Except.bind, View.loada, if_neg hmis]
  have h512 := @Cfg.avx_of_avx512 c
  unfold mvmRow
  simp only
  by_cases h5 : c.avx512 = true ∧ 16 ≤ n ∧ (matrix.addr + 4 * (i * n)) % 64 ≠ 0
  · simp only [h5.1, if_true, bad 16 (by decide) h5.2.1 h5.2.2, bind, Except.bind]
  · have h8 : c.avx = true ∧ 8 ≤ n ∧ (matrix.addr + 4 * (i * n)) % 32 ≠ 0 := by
      by_contra h8
      exact h ⟨fun a b => by_contra fun d => h8 ⟨a, b, d⟩, fun a b => by_contra fun d => h5 ⟨a, b, d⟩⟩
    by_cases hx : c.avx512 = true
    · have hn : n < 16 := by
        by_contra hn
        have : (matrix.addr + 4 * (i * n)) % 64 = 0 := by_contra fun d => h5 ⟨hx, by omega, d⟩
        omega
      have hs : y.store i (reduceAdd512 (set1 16 (zero : F))) =
          .ok { y with data := y.data.set i (reduceAdd512 (set1 16 (zero : F))) } := by
        simp [View.store]; omega
      simp only [hx, if_true, stripLe_skip (show ¬ 0 + 16 ≤ n by omega), hs, h8.1, bind, Except.bind, pure,
        Except.pure, bad 8 (by decide) h8.2.1 h8.2.2]
    · simp only [hx, Bool.false_eq_true, if_false, h8.1, if_true, bad 8 (by decide) h8.2.1 h8.2.2, bind,
        Except.bind, pure, Except.pure]

/-- `matrix_vector_multiply` on a matrix with a misaligned row. -/
theorem matrixVectorMultiply_misaligned (c : Cfg) (nRows nCols : Nat) (matrix v y : View F)
    (hy : nRows ≤ y.data.length) (hv : nCols ≤ v.data.length)
    (hm : nRows * nCols ≤ matrix.data.length) (hr : ¬ RowsAligned c nRows nCols matrix.addr) :
    matrixVectorMultiply c nRows nCols matrix v y = .error .misaligned := by
  classical
  have hex : ∃ i, i < nRows ∧ ¬ AlignedFor c nCols (matrix.addr + 4 * (i * nCols)) := by
    by_contra hne
    exact hr fun i hi => by_contra fun h => hne ⟨i, hi, h⟩
  let i := Nat.find hex
  obtain ⟨hi, hbad⟩ := Nat.find_spec hex
  have hmin : ∀ k, k < i → AlignedFor c nCols (matrix.addr + 4 * (k * nCols)) := by
    intro k hk
    by_contra h
    exact Nat.find_min hex hk ⟨by omega, h⟩
  let g : Nat → F → F := fun i y0 => dotF c nCols (matrix.data.drop (i * nCols)) v.data y0
  have hri : RowsAligned c i nCols matrix.addr := hmin
  unfold matrixVectorMultiply
  have h0 : y = (fun i => (⟨y.addr, applyTo g i y.data⟩ : View F)) 0 := by simp
  refine (congrArg (forN nRows _) h0).trans ?_
  refine forN_fault_at (fun i => (⟨y.addr, applyTo g i y.data⟩ : View F)) hi ?_
    (mvmRow_misaligned c nCols matrix v _ _ (by simp only [applyTo_length]; omega) hv hbad)
  intro k hk
  have hwi : k * nCols + nCols ≤ matrix.data.length := by
    have : (k + 1) * nCols ≤ nRows * nCols := Nat.mul_le_mul_right nCols (by omega)
    rw [Nat.succ_mul] at this; omega
  rw [mvmRow_eq c nCols matrix v k _ (by simp; omega) hv hwi (hmin k hk).1 (hmin k hk).2]
  congr 2
  apply List.ext_getElem?; intro j
  simp only [List.getElem?_set, applyTo_length, applyTo_getElem?]
  by_cases hj : k = j
  · subst hj
    have h1 : k < y.data.length := by omega
    have h2 : (applyTo g k y.data)[k]'(by simpa using h1) = y.data[k] := by
      have := applyTo_getElem? g k y.data k
      simp [h1] at this
      exact this
    simp [h1, h2, g]
  · have : (j < k) ↔ (j < k + 1) := by omega
    simp [hj, this]

theorem derivTwoRegBody_misaligned (d : F → F) (n : Nat) (act ar : View F) (ha : act.addr % 32 = 0)
    (hn : 16 ≤ n) (hal : n ≤ act.data.length) (hg : ar.addr % 32 ≠ 0) :
    derivTwoRegBody d act 0 ar = .error .misaligned := by
  have : ar.loada 8 0 = .error .misaligned := by simp [View.loada, hg]
  unfold derivTwoRegBody
  simp only [this, loada_ok (v := act) (w := 8) (i := 0) (by omega) (by simpa using ha),
    loada_ok (v := act) (w := 8) (i := 0 + 8) (by omega) (by omega), bind, Except.bind]

theorem activateDeriv_misaligned (env : CustomEnv F) (c : Cfg) (d : ActDeriv) (n : Nat) (act ar : View F)
    (hd : d.vectorised = true) (hx : c.avx = true) (hn : 16 ≤ n) (ha : act.addr % 32 = 0)
    (hal : n ≤ act.data.length) (hg : ar.addr % 32 ≠ 0) :
    activateDeriv env c d n act ar = .error .misaligned := by
  have key : ∀ f : F → F, derivVec c f n act ar = .error .misaligned := by
    intro f
    unfold derivVec
    simp only [hx, if_true, stripLe_fault (show 0 < 16 by decide) (show 0 + 16 ≤ n by omega)
      (derivTwoRegBody_misaligned f n act ar ha hn hal hg), bind, Except.bind]
  cases d <;> simp [ActDeriv.vectorised] at hd <;> exact key _

theorem backStep_misaligned (env : CustomEnv F) (c : Cfg) (s : Bufs F) (l : Layer F) (src dst : Ptr)
    (gb : Nat) (g : View F) (hal : l.nOut ≤ (s.at dst).data.length)
    (hdst : c.avx = true → (s.at dst).addr % 32 = 0)
    (hda : ¬ DerivAligned c l (g.addr + 4 * gb)) :
    backStep env c s ⟨l, src, dst, gb⟩ g = .error .misaligned := by
  unfold DerivAligned at hda
  simp only [Classical.not_imp] at hda
  obtain ⟨h1, h2, h3, h4⟩ := hda
  unfold backStep
  cases hd : l.deriv with
  | none => rw [hd] at h1; simp [ActDeriv.vectorised] at h1
  | some d =>
    rw [hd] at h1
    simp only
    rw [activateDeriv_misaligned env c d l.nOut (s.at dst) (g.offset gb) h1 h2 h3 (hdst h2) hal h4]
    rfl

theorem backward_misaligned (env : CustomEnv F) (c : Cfg) (s : Bufs F) (len ga : Nat) (R : List F) :
    ∀ (ls : List (Layer F)) (os : List Nat) (src : Ptr) (lo : Nat) (x g P : List F) (last : Layer F),
      ls.getLast? = some last → g.length = last.nOut →
      (∀ l ∈ ls, l.WF c) → (∀ l ∈ ls, l.deriv ≠ none) → Chained ls →
      len = s.work.data.length → Laid c s.work.addr len lo ls os →
      Holds s.work.data ls os (actsF env c s.work.addr ls os x) →
      (∀ l, ls.head? = some l → (s.at src).data.take l.nIn = x ∧ x.length = l.nIn) →
      ¬ BackAligned c ga P.length ls →
      backward env c s (backLayers ls src (os.map .work) P.length) ⟨ga, P ++ (initG g ls ++ R)⟩ =
        .error .misaligned
  | [], _, _, _, _, _, _, _, h, _, _, _, _, _, _, _, _, _ => by simp at h
  | [l], os, src, lo, x, g, P, last, h, hg, hw, hd, hc, hlen, hl, hh, hs, ha => by
    simp at h; subst h
    rcases os with _ | ⟨o, _ | ⟨o', os⟩⟩
    · simp [Laid] at hl
    · simp only [Laid] at hl
      simp only [List.map_cons, List.map_nil, backLayers, backward]
      exact backStep_misaligned env c s l src (.work o) _ _ (by simp [Bufs.at, View.offset]; omega)
        (fun hx => mod32_of_aligned hx hl.2.2.1) ha
    · simp [Laid] at hl
  | l :: l' :: ls, os, src, lo, x, g, P, last, h, hg, hw, hd, hc, hlen, hl, hh, hs, ha => by
    rcases os with _ | ⟨o, os⟩
    · simp [Laid] at hl
    · rcases os with _ | ⟨o', os⟩
      · simp [Laid] at hl
      · have hl' := hl
        rw [Laid] at hl'
        obtain ⟨l1, l2, l3, l4⟩ := hl'
        have hh' := hh
        simp only [actsF] at hh'
        rw [Holds] at hh'
        obtain ⟨hh1, hh2⟩ := hh'
        have hwl := hw l (by simp)
        have hlen0 : (P ++ (List.replicate l.nOut (zero : F) ++ List.replicate (l.nIn * l.nOut) zero)).length =
            P.length + l.nOut + l.nIn * l.nOut := by simp; omega
        have hact : layerF env c l (s.work.addr + 4 * o) x = layerF env c l 0 x :=
          layerF_aligned env c l _ l3 x
        have hsrc : ∀ m, (l' :: ls).head? = some m →
            (s.at (.work o)).data.take m.nIn = layerF env c l 0 x ∧ (layerF env c l 0 x).length = m.nIn := by
          intro m hm
          simp at hm; subst hm
          rw [← hc.1]
          exact ⟨by rw [← hact]; exact hh1, layerF_length env c l 0 x hwl⟩
        by_cases ha' : BackAligned c ga (P.length + l.nOut + l.nIn * l.nOut) (l' :: ls)
        · have ih := backward_eq env c s len ga R (l' :: ls) (o' :: os) (.work o) (o + l.nOut)
            (layerF env c l 0 x) g
            (P ++ (List.replicate l.nOut zero ++ List.replicate (l.nIn * l.nOut) zero)) last
            (by simpa using h) hg (fun m hm => hw m (by simp [List.mem_cons.mp hm]))
            (fun m hm => hd m (by simp [List.mem_cons.mp hm])) hc.2 hlen l4
            (by rw [← hact]; exact hh2) hsrc (by rw [hlen0]; exact ha')
          obtain ⟨s1, s2⟩ := backF_shape env c (l' :: ls) (layerF env c l 0 x) g last (by simpa using h) hg hc.2
          obtain ⟨s3, r, s4⟩ := s2 l' rfl
          rw [hlen0] at ih
          simp only [List.map_cons, backLayers] at ih
          simp only [List.map_cons, backLayers, backward]
          simp only [initG, List.append_assoc] at ih ⊢
          rw [ih]
          simp only [bind, Except.bind]
          have hge : ¬ (P.length + l.nOut + l.nIn * l.nOut < P.length + l'.nIn) := by
            have := hc.1; omega
          simp only [hge, if_false]
          generalize hG : (backF env c (traceF env c (l' :: ls) (layerF env c l 0 x)) g) = G at *
          have ev : (P ++ (List.replicate l.nOut zero ++ (List.replicate (l.nIn * l.nOut) zero ++ (G.1 ++ R)))).drop
              (P.length + l.nOut + l.nIn * l.nOut) = G.1 ++ R := by
            rw [← List.append_assoc, ← List.append_assoc, List.drop_left' (by simp; omega)]
          have ey : (P ++ (List.replicate l.nOut zero ++ (List.replicate (l.nIn * l.nOut) zero ++ (G.1 ++ R)))).drop
              P.length = List.replicate l.nOut zero ++ (List.replicate (l.nIn * l.nOut) zero ++ (G.1 ++ R)) := by
            rw [List.drop_left]
          have hwl' := hw l' (by simp)
          simp only [View.offset, putGrad]
          by_cases hr : RowsAligned c l'.nIn l'.nOut l'.weight.addr
          · rw [matrixVectorMultiply_eq c l'.nIn l'.nOut l'.weight _ _
              (by rw [ey]; simp [hc.1])
              (by rw [ev]; simp [s4, s3])
              (Nat.le_of_eq hwl'.weight_len.symm) hr]
            exact backStep_misaligned env c s l src (.work o) _ _ (by simp [Bufs.at, View.offset]; omega)
              (fun hx => mod32_of_aligned hx l3) (fun hda => ha ⟨hda, hr, ha'⟩)
          · rw [matrixVectorMultiply_misaligned c l'.nIn l'.nOut l'.weight _ _
              (by rw [ey]; simp [hc.1])
              (by rw [ev]; simp [s4, s3])
              (Nat.le_of_eq hwl'.weight_len.symm) hr]
        · have ih := backward_misaligned env c s len ga R (l' :: ls) (o' :: os) (.work o) (o + l.nOut)
            (layerF env c l 0 x) g
            (P ++ (List.replicate l.nOut zero ++ List.replicate (l.nIn * l.nOut) zero)) last
            (by simpa using h) hg (fun m hm => hw m (by simp [List.mem_cons.mp hm]))
            (fun m hm => hd m (by simp [List.mem_cons.mp hm])) hc.2 hlen l4
            (by rw [← hact]; exact hh2) hsrc (by rw [hlen0]; exact ha')
          rw [hlen0] at ih
          simp only [List.map_cons, backLayers] at ih
          simp only [List.map_cons, backLayers, backward]
          simp only [initG, List.append_assoc] at ih ⊢
          rw [ih]
          rfl

/-- Backpropagation on a network with a misaligned access. -/
theorem backpropagation_misaligned (env : CustomEnv F) (c : Cfg) (workAddr : Nat) (junk : Nat → F)
    (nn : Net F) (input target grad : View F) (loss : Loss) (hw : nn.WF c)
    (hwa : workAddr % c.alignSize = 0) (hga : grad.addr % c.alignSize = 0) (hloss : nn.loss = some loss)
    (hd : ∀ l ∈ nn.layers, l.deriv ≠ none)
    (hin : nn.nInput ≤ input.data.length) (hout : nn.nOutput ≤ target.data.length)
    (hg : nParams nn.layers ≤ grad.data.length) (hal : ¬ BackAligned c grad.addr 0 nn.layers) :
    backpropagation env c workAddr junk nn input target grad = .error .misaligned := by
  obtain ⟨s, os, last, len, h1, -, h3, h4, h5, h6, h7, h8⟩ :=
    backprop_before_loop env c workAddr junk nn input target grad loss hw hwa hga hloss hin hout hg
  rw [h8]
  have := backward_misaligned env c s len grad.addr (grad.data.drop (nParams nn.layers)) nn.layers os .input 0
    (input.data.take nn.nInput) _ [] last h1 h3 hw.layer hd hw.chain h4 h5 h6 h7 hal
  simpa using this

end NN
