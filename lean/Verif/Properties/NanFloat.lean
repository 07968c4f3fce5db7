import Verif.Properties.NetFloat
/-
C65: what becomes of a NaN among the inputs of a network, in `float` arithmetic.
-/
namespace NN
open B32

/-! ### Specification -/

/-- A C library whose functions pass NaN on (C standard, F.10). -/
structure B32.Libm.PassesNan (L : Libm) : Prop where
  exp : ∀ a : B32, a.isNan = true → (L.exp a).isNan = true
  log : ∀ a : B32, a.isNan = true → (L.log a).isNan = true
  tanh : ∀ a : B32, a.isNan = true → (L.tanh a).isNan = true

/-- Layers, with their output at address `addr`, that pass NaN on: `sigmoid`, `tanh_act` and `softmax` as long as the vector
exponential is not used; `relu` if only vector instructions are used. -/
def Transparent (c : Cfg) (addr : ℕ) (l : Layer B32) : Prop :=
  match l.act with
  | .linear | .exponential | .softplus | .softsign | .hardSigmoid => True
  | .sigmoid | .tanh => c.hasAvx2 = false ∨ l.nOut < 16
  | .softmax => c.hasAvx2 = false ∨ l.nOut < 8
  | .relu => c.avx = true ∧ addr % c.alignSize = 0 ∧ l.nOut % 16 = 0
  | .custom _ => False

/-! ### Operations -/

theorem B32.isNan_qnan : B32.qnan.isNan = true := by decide

theorem add_nan_left {a : B32} (b : B32) (h : a.isNan = true) : (B32.add a b).isNan = true := by
  simp [B32.add, h, isNan_qnan]
theorem add_nan_right (a : B32) {b : B32} (h : b.isNan = true) : (B32.add a b).isNan = true := by
  simp [B32.add, h, isNan_qnan]
theorem mul_nan_left {a : B32} (b : B32) (h : a.isNan = true) : (B32.mul a b).isNan = true := by
  simp [B32.mul, h, isNan_qnan]
theorem mul_nan_right (a : B32) {b : B32} (h : b.isNan = true) : (B32.mul a b).isNan = true := by
  simp [B32.mul, h, isNan_qnan]
theorem div_nan_left {a : B32} (b : B32) (h : a.isNan = true) : (B32.div a b).isNan = true := by
  simp [B32.div, h, isNan_qnan]
theorem div_nan_right (a : B32) {b : B32} (h : b.isNan = true) : (B32.div a b).isNan = true := by
  simp [B32.div, h, isNan_qnan]
theorem fma_nan_mid (a b : B32) {d : B32} (h : b.isNan = true) : (B32.fma a b d).isNan = true := by
  simp [B32.fma, h, isNan_qnan]
theorem fma_nan_last (a b : B32) {d : B32} (h : d.isNan = true) : (B32.fma a b d).isNan = true := by
  simp [B32.fma, h, isNan_qnan]

theorem neg_nan {a : B32} (h : a.isNan = true) : (B32.neg a).isNan = true := by
  have hb := a.bits.isLt
  have hn : (B32.neg a).bits.toNat = (a.bits.toNat + 2 ^ 31) % 2 ^ 32 := by simp [B32.neg, BitVec.toNat_ofNat]
  have he : (B32.neg a).expField = a.expField := by unfold expField; rw [hn]; omega
  have hm : (B32.neg a).mantField = a.mantField := by unfold mantField; rw [hn]; omega
  unfold isNan at h ⊢
  rw [he, hm]; exact h

theorem sub_nan_left {a : B32} (b : B32) (h : a.isNan = true) : (B32.sub a b).isNan = true := add_nan_left _ h
theorem sub_nan_right (a : B32) {b : B32} (h : b.isNan = true) : (B32.sub a b).isNan = true := add_nan_right _ (neg_nan h)

theorem eq_nan {a : B32} (b : B32) (h : a.isNan = true) : B32.eq a b = false := by simp [B32.eq, h]
theorem lt_nan_left {a : B32} (b : B32) (h : a.isNan = true) : B32.lt a b = false := by simp [B32.lt, h]
theorem lt_nan_right (a : B32) {b : B32} (h : b.isNan = true) : B32.lt a b = false := by simp [B32.lt, h]

theorem maxps_nan (a : B32) {b : B32} (h : b.isNan = true) : (B32.maxps a b).isNan = true := by
  simp [B32.maxps, lt_nan_left a h, h]

theorem isNan_zero : (zeroS false).isNan = false := by decide

theorem fmax_nan {b : B32} (h : b.isNan = true) : B32.fmax (zeroS false) b = zeroS false := by
  simp [B32.fmax, h, isNan_zero]

/-! ### One layer -/

theorem vmmStep_nan_acc (L : Libm) (c : Cfg) (m k : ℕ) (x w : B32) {y : B32} (h : y.isNan = true) :
    (@vmmStep B32 (ops L) c m k x w y).isNan = true := by
  unfold vmmStep
  split
  · exact h
  · split
    · exact add_nan_left _ h
    · split
      · split
        · exact fma_nan_last _ _ h
        · exact add_nan_left _ h
      · exact add_nan_left _ h

theorem vmmStep_nan_in (L : Libm) (c : Cfg) (m k : ℕ) {x : B32} (w y : B32) (h : x.isNan = true) :
    (@vmmStep B32 (ops L) c m k x w y).isNan = true := by
  have h0 : ∀ b, @FloatOps.eq B32 (ops L) x b = false := fun b => eq_nan b h
  simp only [vmmStep, h0, Bool.false_eq_true, if_false]
  split
  · split
    · exact fma_nan_mid _ _ h
    · exact add_nan_right _ (mul_nan_right _ h)
  · exact add_nan_right _ (mul_nan_left _ h)

/-- A NaN among the inputs of a layer makes all its sums NaN. -/
theorem vmmElem_nan (L : Libm) (c : Cfg) (m : ℕ) (w x : List B32) (n k : ℕ) (b : B32) (hk : k < m) (hw : n * m ≤ w.length)
    (hx : x.length = n) {i : ℕ} (hi : i < n) (h : ∀ a, x[i]? = some a → a.isNan = true) :
    (@vmmElem B32 (ops L) c m w x n k b).isNan = true := by
  unfold vmmElem
  subst hx
  have key : ∀ (f : B32 → ℕ → B32), (∀ y j, j < x.length → (y.isNan = true ∨ j = i) → (f y j).isNan = true) →
      ∀ (js : List ℕ) (y : B32), (∀ j ∈ js, j < x.length) → (y.isNan = true ∨ i ∈ js) → (js.foldl f y).isNan = true := by
    intro f hf js
    induction js with
    | nil => intro y _ h; simpa using h
    | cons j js ih =>
      intro y hj hy
      rw [List.foldl_cons]
      apply ih _ (fun j' h' => hj j' (List.mem_cons_of_mem _ h'))
      have hjl := hj j (by simp)
      by_cases hji : j = i
      · exact .inl (hf y j hjl (.inr hji))
      · rcases hy with hy | hy
        · exact .inl (hf y j hjl (.inl hy))
        · rcases List.mem_cons.1 hy with rfl | hy
          · exact absurd rfl hji
          · exact .inr hy
  refine key _ ?_ (List.range x.length) b (fun j hj => by simpa using hj) (.inr (by simpa using hi))
  intro y j hjl hy
  have hwl : j * m + k < w.length := by
    have : (j + 1) * m ≤ x.length * m := Nat.mul_le_mul_right _ hjl
    rw [Nat.add_mul] at this; omega
  simp only [List.getElem?_eq_getElem hjl, List.getElem?_eq_getElem hwl]
  rcases hy with hy | rfl
  · exact vmmStep_nan_acc L c m k _ _ hy
  · exact vmmStep_nan_in L c m k _ _ (h _ (List.getElem?_eq_getElem hjl))

theorem vmmF_nan (L : Libm) (c : Cfg) (l : Layer B32) (hw : l.WF c) (x : List B32) (hx : x.length = l.nIn)
    (h : ∃ a ∈ x, a.isNan = true) : ∀ a ∈ @vmmF B32 (ops L) c l.nIn l.nOut l.weight.data l.bias.data x, a.isNan = true := by
  obtain ⟨a, ha, hn⟩ := h
  obtain ⟨i, hi, rfl⟩ := List.mem_iff_getElem.1 ha
  intro y hy
  simp only [vmmF, List.mem_mapIdx] at hy
  obtain ⟨k, hk, rfl⟩ := hy
  refine vmmElem_nan L c l.nOut _ x l.nIn k _ (by simp at hk; omega) (Nat.le_of_eq hw.weight_len.symm) hx (i := i) (by omega) ?_
  intro a ha
  rw [List.getElem?_eq_getElem hi, Option.some.injEq] at ha
  rw [← ha]; exact hn

theorem applyTo_all {P Q : B32 → Prop} (g : ℕ → B32 → B32) (l : List B32) (h : ∀ x ∈ l, P x)
    (hg : ∀ k, k < l.length → ∀ x, P x → Q (g k x)) : ∀ y ∈ applyTo g l.length l, Q y := by
  intro y hy
  obtain ⟨k, hk, rfl⟩ := List.mem_iff_getElem.1 hy
  have hk' : k < l.length := by simpa using hk
  have := @applyTo_getElem? B32 g l.length l k
  rw [List.getElem?_eq_getElem hk, List.getElem?_eq_getElem hk'] at this
  simp only [Option.map_some, Option.some.injEq, hk', if_true] at this
  rw [this]
  exact hg k hk' _ (h _ (List.getElem_mem hk'))

theorem region_empty {lo w n k : ℕ} (h : n < w) : ¬ (lo ≤ k ∧ k < bodyHi lo w n) := by
  have : (n - lo) / w = 0 := Nat.div_eq_of_lt (by omega)
  simp [bodyHi, this]

/-- Transparent layers. -/
theorem layerF_nan (env : CustomEnv B32) {L : Libm} (hL : L.PassesNan) (c : Cfg) (l : Layer B32) (addr : ℕ) (hw : l.WF c)
    (ht : Transparent c addr l) (x : List B32) (hx : x.length = l.nIn) (h : ∃ a ∈ x, a.isNan = true) :
    ∀ a ∈ @layerF B32 (ops L) env c l addr x, a.isNan = true := by
  have hv := vmmF_nan L c l hw x hx h
  have hlen : (@vmmF B32 (ops L) c l.nIn l.nOut l.weight.data l.bias.data x).length = l.nOut :=
    @vmmF_length B32 (ops L) c _ _ _ _ _ (Nat.le_of_eq hw.bias_len.symm)
  unfold layerF
  generalize hv' : @vmmF B32 (ops L) c l.nIn l.nOut l.weight.data l.bias.data x = v at hv hlen
  have hmap : ∀ f : B32 → B32, (∀ a : B32, a.isNan = true → (f a).isNan = true) → ∀ a ∈ v.map f, a.isNan = true := by
    intro f hf a ha
    obtain ⟨b, hb, rfl⟩ := List.mem_map.1 ha
    exact hf b (hv b hb)
  unfold Transparent at ht
  cases ha : l.act <;> simp only [ha] at ht <;> simp only [activateF]
  · exact hmap _ fun a h => hL.log _ (add_nan_left _ (hL.exp a h))
  · exact hmap _ fun a h => div_nan_left _ h
  · refine hmap _ fun a h => ?_
    have h1 : ∀ b, @FloatOps.lt B32 (ops L) a b = false := fun b => lt_nan_left b h
    have h2 : ∀ b, @FloatOps.lt B32 (ops L) b a = false := fun b => lt_nan_right b h
    simp only [hardSigmoidS, h1, h2, Bool.false_eq_true, if_false]
    exact add_nan_left _ (mul_nan_right _ h)
  · exact hmap _ fun a h => hL.exp a h
  · exact hv
  · -- softmax
    intro a ha
    simp only [softmaxF, List.mem_map] at ha
    obtain ⟨b, hb, rfl⟩ := ha
    refine div_nan_left _ ?_
    refine applyTo_all (P := fun a => a.isNan = true) (Q := fun a => a.isNan = true) _ v hv ?_ b hb
    intro k hk y hy
    have e : @softmaxExpOp B32 (ops L) c addr v.length (@maxF B32 (ops L) v) k y = L.exp (B32.sub y (@maxF B32 (ops L) v)) := by
      unfold softmaxExpOp
      rcases ht with ht | ht
      · simp only [ht, Bool.false_eq_true, if_false]; rfl
      · split
        · simp only [regionOp, if_neg (region_empty (lo := bodyLo c addr v.length) (k := k) (w := 8) (n := v.length) (by omega))]; rfl
        · rfl
    rw [e]; exact hL.exp _ (sub_nan_left _ hy)
  · -- relu
    refine applyTo_all (P := fun a => a.isNan = true) (Q := fun a => a.isNan = true) _ v hv ?_
    intro k hk y hy
    simp only [reluOp, ht.1, if_true, bodyLo_of_aligned ht.2.1, regionOp]
    rw [if_pos ⟨Nat.zero_le _, by unfold bodyHi; omega⟩]
    exact maxps_nan _ hy
  · -- sigmoid
    refine applyTo_all (P := fun a => a.isNan = true) (Q := fun a => a.isNan = true) _ v hv ?_
    intro k hk y hy
    have e : @sigmoidOp B32 (ops L) c addr v.length k y = @sigmoidS B32 (ops L) y := by
      unfold sigmoidOp
      rcases ht with ht | ht
      · simp only [ht, Bool.false_eq_true, if_false]
      · split
        · simp only [regionOp, if_neg (region_empty (lo := bodyLo c addr v.length) (k := k) (w := 16) (n := v.length) (by omega))]
        · rfl
    rw [e]
    exact div_nan_right _ (add_nan_right _ (hL.exp _ (neg_nan hy)))
  · -- tanh
    refine applyTo_all (P := fun a => a.isNan = true) (Q := fun a => a.isNan = true) _ v hv ?_
    intro k hk y hy
    have e : @tanhOp B32 (ops L) c v.length k y = L.tanh y := by
      unfold tanhOp
      rcases ht with ht | ht
      · simp only [ht, Bool.false_eq_true, if_false]; rfl
      · split
        · have : ¬ (0 ≤ k ∧ k < 16 * (v.length / 16)) := by omega
          simp only [regionOp, if_neg this]; rfl
        · rfl
    rw [e]; exact hL.tanh _ hy

theorem netF_nan (env : CustomEnv B32) {L : Libm} (hL : L.PassesNan) (c : Cfg) (outAddr : ℕ) : ∀ (ls : List (Layer B32)) (x : List B32),
    ls ≠ [] → (∀ l ∈ ls, l.WF c) → Chained ls → (∀ l, ls.head? = some l → x.length = l.nIn) →
    (∀ l ∈ ls.dropLast, Transparent c 0 l) → (∀ l, ls.getLast? = some l → Transparent c outAddr l) → (∃ a ∈ x, a.isNan = true) →
    ∀ a ∈ @netF B32 (ops L) env c outAddr ls x, a.isNan = true
  | [], _, h, _, _, _, _, _, _ => absurd rfl h
  | [l], x, _, hw, _, hx, _, ht, h => by
    simp only [netF]
    exact layerF_nan env hL c l outAddr (hw l (by simp)) (ht l rfl) x (hx l rfl) h
  | l :: l' :: ls, x, _, hw, hc, hx, ht, ht', h => by
    simp only [netF]
    have hl := hw l (by simp)
    have hn := layerF_nan env hL c l 0 hl (ht l (by simp)) x (hx l rfl) h
    have hlen := @layerF_length B32 (ops L) env c l 0 x hl
    refine netF_nan env hL c outAddr (l' :: ls) _ (by simp) (fun m hm => hw m (by simp [List.mem_cons.mp hm])) hc.2 ?_
      (fun m hm => ht m (by simp only [List.dropLast_cons_cons]; exact List.mem_cons_of_mem _ hm))
      (fun m hm => ht' m (by simpa using hm)) ?_
    · intro m hm
      simp only [List.head?_cons, Option.some.injEq] at hm
      subst hm
      rw [hlen]; exact hc.1
    · have hpos : 0 < (@layerF B32 (ops L) env c l 0 x).length := by rw [hlen]; exact hl.out_pos
      exact ⟨_, List.getElem_mem hpos, hn _ (List.getElem_mem hpos)⟩

/-! ### The vector functions on NaN -/

theorem nan_exp (L : Libm) {x : B32} (hx : x.isNan = true) : ∃ v, Is (@exp256 B32 (baseOps L) expOps x) v ∧ 0 ≤ v ∧
    ExpApprox v (11583653 / 131072) := by
  obtain ⟨v, hv, -, h3, -, -, h0, -⟩ := exp256_float L x
  have hf : x.isFinite = false := by
    simp only [isNan, Bool.and_eq_true, beq_iff_eq] at hx
    simp [isFinite, hx.1]
  have hi : x.isInf = false := by
    simp only [isNan, Bool.and_eq_true, beq_iff_eq, bne_iff_ne] at hx
    simp [isInf, hx.2]
  have ha : expArg x = 11583653 / 131072 := by simp [expArg, hf, hi]
  rw [ha] at h3
  refine ⟨v, hv, h0, .inl ((h3 (by norm_num)).trans ?_)⟩
  exact le_add_of_nonneg_right (by positivity)

theorem logistic_tiny : 1 / (1 + Real.exp (11583653 / 131072)) ≤ 1 / 10 ^ 7 := by
  have h5 := exp_large' (x := 11583653 / 131072) (by norm_num)
  apply one_div_le_one_div_of_le (by norm_num)
  norm_num at h5 ⊢
  linarith

theorem sigmoidV_nan (L : Libm) {x : B32} (hx : x.isNan = true) : (@sigmoidV B32 (ops L) x).isFinite = true ∧
    0 ≤ (@sigmoidV B32 (ops L) x).value ∧ (@sigmoidV B32 (ops L) x).value ≤ 1 / 10 ^ 6 := by
  obtain ⟨v, hv, h0, hA⟩ := nan_exp L (sub_nan_right (zeroS false) hx)
  obtain ⟨s, hs, s0, -, he⟩ := logistic_float hv h0 hA
  have h1 := (abs_le.1 he).2
  have h2 := logistic_tiny
  have e : @sigmoidV B32 (ops L) x = B32.div (ofReal false 1) (B32.add (ofReal false 1)
    (@exp256 B32 (baseOps L) expOps (B32.sub (zeroS false) x))) := rfl
  rw [e, hs.2]
  refine ⟨hs.1, s0, ?_⟩
  linarith

theorem tanhV_nan (L : Libm) {x : B32} (hx : x.isNan = true) : (@tanhV B32 (ops L) x).isFinite = true ∧
    -1 ≤ (@tanhV B32 (ops L) x).value ∧ (@tanhV B32 (ops L) x).value ≤ -1 + 1 / 10 ^ 6 := by
  obtain ⟨v, hv, h0, hA⟩ := nan_exp L (mul_nan_right (ofReal false (((-2 : ℤ) : ℝ) / ((1 : ℕ) : ℝ))) hx)
  obtain ⟨s, hs, s0, -, he⟩ := tanh_float hv h0 hA
  have h1 := (abs_le.1 he).2
  have h2 := logistic_tiny
  have e : @tanhV B32 (ops L) x = B32.add (ofReal false (((-1 : ℤ) : ℝ) / ((1 : ℕ) : ℝ)))
        (B32.div (ofReal false (((2 : ℤ) : ℝ) / ((1 : ℕ) : ℝ))) (B32.add (ofReal false 1)
          (@exp256 B32 (baseOps L) expOps (B32.mul (ofReal false (((-2 : ℤ) : ℝ) / ((1 : ℕ) : ℝ))) x)))) := rfl
  rw [e, hs.2]
  refine ⟨hs.1, s0, ?_⟩
  linarith

/-! ### Infinities -/

theorem isInf_inf (s : Bool) : (inf s).isInf = true := by cases s <;> decide
theorem isNan_inf (s : Bool) : (inf s).isNan = false := by cases s <;> decide
theorem isFinite_inf (s : Bool) : (inf s).isFinite = false := by cases s <;> decide
theorem sign_inf (s : Bool) : (inf s).sign = s := by cases s <;> decide

theorem notInf_of_finite {a : B32} (h : a.isFinite = true) : a.isInf = false ∧ a.isNan = false := by
  simp only [isFinite, bne_iff_ne] at h
  simp [isInf, isNan, h]

theorem eq_inf_finite (s : Bool) {b : B32} (h : b.isFinite = true) : B32.eq (inf s) b = false := by
  simp only [B32.eq, isNan_inf, (notInf_of_finite h).2, Bool.not_false, Bool.true_and, decide_eq_false_iff_not]
  simp only [extVal, isInf_inf, sign_inf, (notInf_of_finite h).1, if_true, Bool.false_eq_true, if_false]
  cases s
  · simp
  · simp

/-- An infinite input moves a finite sum to the infinity with the sign of the product. -/
theorem vmmStep_inf (L : Libm) (c : Cfg) (m k : ℕ) (s : Bool) {w y : B32} (hw : w.isFinite = true) (h0 : w.value ≠ 0)
    (hy : y.isFinite = true) : @vmmStep B32 (ops L) c m k (inf s) w y = inf (w.sign ^^ s) := by
  have e0 : @FloatOps.eq B32 (ops L) (inf s) (zeroS false) = false := eq_inf_finite s (is_zeroS false).1
  have e1 : @FloatOps.eq B32 (ops L) (inf s) (ofReal false 1) = false := eq_inf_finite s is_one.1
  have m1 : B32.mul w (inf s) = inf (w.sign ^^ s) := by
    simp [B32.mul, notInf_of_finite hw, isNan_inf, isInf_inf, sign_inf, h0]
  have m2 : B32.mul (inf s) w = inf (w.sign ^^ s) := by
    simp [B32.mul, notInf_of_finite hw, isNan_inf, isInf_inf, sign_inf, h0, Bool.xor_comm]
  have ad : ∀ t, B32.add y (inf t) = inf t := fun t => by
    simp [B32.add, notInf_of_finite hy, isNan_inf, isInf_inf]
  have fm : B32.fma w (inf s) y = inf (w.sign ^^ s) := by
    simp [B32.fma, notInf_of_finite hw, notInf_of_finite hy, isNan_inf, isInf_inf, sign_inf, h0, isFinite_inf]
  unfold vmmStep
  rw [if_neg (by rw [show (@FloatOps.zero B32 (ops L)) = zeroS false from rfl, e0]; simp),
    if_neg (by rw [show (@FloatOps.one B32 (ops L)) = ofReal false 1 from rfl, e1]; simp)]
  split
  · split
    · exact fm
    · exact (congrArg (B32.add y) m1).trans (ad _)
  · exact (congrArg (B32.add y) m2).trans (ad _)

/-- Infinite products of both signs in a sum make it NaN. -/
theorem vmmStep_inf_inf (L : Libm) (c : Cfg) (m k : ℕ) (s : Bool) {w : B32} (hw : w.isFinite = true) (h0 : w.value ≠ 0) :
    (@vmmStep B32 (ops L) c m k (inf s) w (inf (!(w.sign ^^ s)))).isNan = true := by
  have e0 : @FloatOps.eq B32 (ops L) (inf s) (zeroS false) = false := eq_inf_finite s (is_zeroS false).1
  have e1 : @FloatOps.eq B32 (ops L) (inf s) (ofReal false 1) = false := eq_inf_finite s is_one.1
  have m1 : B32.mul w (inf s) = inf (w.sign ^^ s) := by
    simp [B32.mul, notInf_of_finite hw, isNan_inf, isInf_inf, sign_inf, h0]
  have m2 : B32.mul (inf s) w = inf (w.sign ^^ s) := by
    simp [B32.mul, notInf_of_finite hw, isNan_inf, isInf_inf, sign_inf, h0, Bool.xor_comm]
  have ad : ∀ t, B32.add (inf (!t)) (inf t) = qnan := fun t => by
    simp [B32.add, isNan_inf, isInf_inf, sign_inf]
  have fm : B32.fma w (inf s) (inf (!(w.sign ^^ s))) = qnan := by
    simp [B32.fma, notInf_of_finite hw, isNan_inf, isInf_inf, sign_inf, h0, isFinite_inf]
  unfold vmmStep
  rw [if_neg (by rw [show (@FloatOps.zero B32 (ops L)) = zeroS false from rfl, e0]; simp),
    if_neg (by rw [show (@FloatOps.one B32 (ops L)) = ofReal false 1 from rfl, e1]; simp)]
  have e : ∀ a : B32, a = qnan → a.isNan = true := fun a h => h ▸ isNan_qnan
  split
  · split
    · exact e _ fm
    · exact e _ ((congrArg (B32.add _) m1).trans (ad _))
  · exact e _ ((congrArg (B32.add _) m2).trans (ad _))

/-! ### Theorems -/

/-- **C65** In networks of transparent layers (every build has its own) a NaN among the inputs that are read makes every
output NaN.  (Missing: the other layers, where it is false.) -/
theorem C65_nan_partial (env : CustomEnv B32) {L : Libm} (hL : L.PassesNan) (c : Cfg) (workAddr : ℕ) (junk : ℕ → B32) (nn : Net B32)
    (input out : View B32) (hw : nn.WF c) (hwa : workAddr % c.alignSize = 0) (hin : nn.nInput ≤ input.data.length)
    (hout : nn.nOutput ≤ out.data.length) (hal : AlignedFor c nn.nOutput out.addr)
    (ht : ∀ l ∈ nn.layers.dropLast, Transparent c 0 l) (ht' : ∀ l, nn.layers.getLast? = some l → Transparent c out.addr l)
    (hn : ∃ a ∈ input.data.take nn.nInput, a.isNan = true) :
    ∃ o, @predict B32 (ops L) env c workAddr junk nn input out = .ok ⟨out.addr, o ++ out.data.drop nn.nOutput⟩ ∧
      o.length = nn.nOutput ∧ ∀ a ∈ o, a.isNan = true := by
  obtain ⟨last, hlast, hno, -⟩ := @exists_last B32 (ops L) c nn hw
  refine ⟨_, @predict_netF B32 (ops L) env c workAddr junk nn input out hw hwa hin hout hal, ?_, ?_⟩
  · rw [hno]; exact @netF_length B32 (ops L) env c out.addr nn.layers _ last hlast hw.layer
  · refine netF_nan env hL c out.addr nn.layers _ hw.ne hw.layer hw.chain ?_ ht ht' hn
    intro l hl
    rw [Net.nInput_eq hl] at hin ⊢
    simp; omega

/-- **C65 is false** for `relu` in builds without AVX: the first layer hides the NaN.  Whatever the input was, the network
answers as if all neurons of that layer were silent. -/
theorem C65_relu_false (env : CustomEnv B32) (L : Libm) (c : Cfg) (hc : c.avx = false) (workAddr : ℕ) (junk : ℕ → B32)
    (l l' : Layer B32) (ls : List (Layer B32)) (loss : Option Loss) (input out : View B32)
    (hw : (⟨l :: l' :: ls, loss⟩ : Net B32).WF c) (hr : l.act = .relu)
    (hwa : workAddr % c.alignSize = 0) (hin : l.nIn ≤ input.data.length)
    (hout : (⟨l' :: ls, loss⟩ : Net B32).nOutput ≤ out.data.length)
    (hal : AlignedFor c (⟨l' :: ls, loss⟩ : Net B32).nOutput out.addr) (hn : ∃ a ∈ input.data.take l.nIn, a.isNan = true) :
    @predict B32 (ops L) env c workAddr junk ⟨l :: l' :: ls, loss⟩ input out =
      @predict B32 (ops L) env c workAddr junk ⟨l' :: ls, loss⟩ ⟨0, List.replicate l'.nIn (zeroS false)⟩ out := by
  have hl := hw.layer l (by simp)
  have hch : l.nOut = l'.nIn ∧ Chained (l' :: ls) := hw.chain
  have hw' : (⟨l' :: ls, loss⟩ : Net B32).WF c := ⟨by simp, fun m hm => hw.layer m (by simp [List.mem_cons.mp hm]), hch.2⟩
  have ho : (⟨l :: l' :: ls, loss⟩ : Net B32).nOutput = (⟨l' :: ls, loss⟩ : Net B32).nOutput := by
    simp [Net.nOutput]
  rw [@predict_netF B32 (ops L) env c workAddr junk _ input out hw hwa hin (by rw [ho]; exact hout) (by rw [ho]; exact hal),
    @predict_netF B32 (ops L) env c workAddr junk ⟨l' :: ls, loss⟩ ⟨0, List.replicate l'.nIn (zeroS false)⟩ out hw' hwa
      (by simp [Net.nInput]) hout hal, ho]
  have hx : (input.data.take l.nIn).length = l.nIn := by simp; omega
  have hz : @layerF B32 (ops L) env c l 0 (input.data.take l.nIn) = List.replicate l'.nIn (zeroS false) := by
    rw [List.eq_replicate_iff]
    refine ⟨(@layerF_length B32 (ops L) env c l 0 _ hl).trans hch.1, ?_⟩
    have hv := vmmF_nan L c l hl _ hx hn
    simp only [layerF, hr, activateF]
    refine applyTo_all (P := fun a => a.isNan = true) (Q := fun a => a = zeroS false) _ _ hv ?_
    intro k _ y hy
    simp only [reluOp, hc, Bool.false_eq_true, if_false]
    exact fmax_nan hy
  simp only [netF, Net.nInput]
  rw [hz, show (List.replicate l'.nIn (zeroS false)).take l'.nIn = List.replicate l'.nIn (zeroS false) by simp]

/-- **C65 is false** for `sigmoid` in builds with AVX2: the vector code turns NaN into a number near 0. -/
theorem C65_sigmoid_false (env : CustomEnv B32) (L : Libm) (c : Cfg) (hc : c.hasAvx2 = true) (workAddr : ℕ) (junk : ℕ → B32)
    (l : Layer B32) (loss : Option Loss) (input out : View B32) (hw : l.WF c) (hr : l.act = .sigmoid) (h16 : l.nOut % 16 = 0)
    (hwa : workAddr % c.alignSize = 0) (hin : l.nIn ≤ input.data.length) (hout : l.nOut ≤ out.data.length)
    (hal : out.addr % c.alignSize = 0) (hn : ∃ a ∈ input.data.take l.nIn, a.isNan = true) :
    ∃ o, @predict B32 (ops L) env c workAddr junk ⟨[l], loss⟩ input out = .ok ⟨out.addr, o ++ out.data.drop l.nOut⟩ ∧
      o.length = l.nOut ∧ ∀ a ∈ o, a.isFinite = true ∧ 0 ≤ a.value ∧ a.value ≤ 1 / 10 ^ 6 := by
  have hw' : (⟨[l], loss⟩ : Net B32).WF c := ⟨by simp, fun m hm => by simp at hm; subst hm; exact hw, trivial⟩
  refine ⟨_, @predict_netF B32 (ops L) env c workAddr junk ⟨[l], loss⟩ input out hw' hwa hin hout (AlignedFor.of_aligned hal), ?_, ?_⟩
  · exact @layerF_length B32 (ops L) env c l _ _ hw
  · have hv := vmmF_nan L c l hw (input.data.take l.nIn) (by simp; omega) hn
    simp only [netF, Net.nInput, layerF, hr, activateF]
    refine applyTo_all (P := fun a => a.isNan = true) _ _ hv ?_
    intro k hk y hy
    rw [@vmmF_length B32 (ops L) c _ _ _ _ _ (Nat.le_of_eq hw.bias_len.symm)] at hk ⊢
    simp only [sigmoidOp, hc, if_true, bodyLo_of_aligned hal, regionOp]
    rw [if_pos ⟨Nat.zero_le _, by unfold bodyHi; omega⟩]
    exact sigmoidV_nan L hy

/-- **C65 is false** for `tanh_act` in builds with AVX2: the vector code turns NaN into a number near -1. -/
theorem C65_tanh_false (env : CustomEnv B32) (L : Libm) (c : Cfg) (hc : c.hasAvx2 = true) (workAddr : ℕ) (junk : ℕ → B32)
    (l : Layer B32) (loss : Option Loss) (input out : View B32) (hw : l.WF c) (hr : l.act = .tanh) (h16 : l.nOut % 16 = 0)
    (hwa : workAddr % c.alignSize = 0) (hin : l.nIn ≤ input.data.length) (hout : l.nOut ≤ out.data.length)
    (hal : AlignedFor c l.nOut out.addr) (hn : ∃ a ∈ input.data.take l.nIn, a.isNan = true) :
    ∃ o, @predict B32 (ops L) env c workAddr junk ⟨[l], loss⟩ input out = .ok ⟨out.addr, o ++ out.data.drop l.nOut⟩ ∧
      o.length = l.nOut ∧ ∀ a ∈ o, a.isFinite = true ∧ -1 ≤ a.value ∧ a.value ≤ -1 + 1 / 10 ^ 6 := by
  have hw' : (⟨[l], loss⟩ : Net B32).WF c := ⟨by simp, fun m hm => by simp at hm; subst hm; exact hw, trivial⟩
  refine ⟨_, @predict_netF B32 (ops L) env c workAddr junk ⟨[l], loss⟩ input out hw' hwa hin hout hal, ?_, ?_⟩
  · exact @layerF_length B32 (ops L) env c l _ _ hw
  · have hv := vmmF_nan L c l hw (input.data.take l.nIn) (by simp; omega) hn
    simp only [netF, Net.nInput, layerF, hr, activateF]
    refine applyTo_all (P := fun a => a.isNan = true) _ _ hv ?_
    intro k hk y hy
    rw [@vmmF_length B32 (ops L) c _ _ _ _ _ (Nat.le_of_eq hw.bias_len.symm)] at hk ⊢
    simp only [tanhOp, hc, if_true, regionOp]
    rw [if_pos ⟨Nat.zero_le _, by omega⟩]
    exact tanhV_nan L hy

/-- **C65** NaN also arises without NaN among the inputs: a linear layer of two inputs answers NaN in every neuron when both inputs are
infinite (of signs `s`, `s'`) and the two products have opposite signs, in every build. -/
theorem C65_inf (env : CustomEnv B32) (L : Libm) (c : Cfg) (workAddr : ℕ) (junk : ℕ → B32) (l : Layer B32) (loss : Option Loss)
    (a : ℕ) (s s' : Bool) (out : View B32) (hw : l.WF c) (hr : l.act = .linear) (h2 : l.nIn = 2)
    (hf : ∀ w ∈ l.weight.data, w.isFinite = true ∧ w.value ≠ 0) (hb : ∀ b ∈ l.bias.data, b.isFinite = true)
    (hop : ∀ k < l.nOut, ∀ w w', l.weight.data[k]? = some w → l.weight.data[l.nOut + k]? = some w' → (w.sign ^^ s) = !(w'.sign ^^ s'))
    (hwa : workAddr % c.alignSize = 0) (hout : l.nOut ≤ out.data.length) (hal : AlignedFor c l.nOut out.addr) :
    ∃ o, @predict B32 (ops L) env c workAddr junk ⟨[l], loss⟩ ⟨a, [inf s, inf s']⟩ out = .ok ⟨out.addr, o ++ out.data.drop l.nOut⟩ ∧
      o.length = l.nOut ∧ ∀ x ∈ o, x.isNan = true := by
  have hw' : (⟨[l], loss⟩ : Net B32).WF c := ⟨by simp, fun m hm => by simp at hm; subst hm; exact hw, trivial⟩
  refine ⟨_, @predict_netF B32 (ops L) env c workAddr junk ⟨[l], loss⟩ _ out hw' hwa (by simp [Net.nInput, h2]) hout hal, ?_, ?_⟩
  · exact @layerF_length B32 (ops L) env c l _ _ hw
  · have hwl := hw.weight_len
    have hbl := hw.bias_len
    rw [h2] at hwl
    intro x hx
    simp only [netF, Net.nInput, layerF, hr, activateF, vmmF, List.mem_mapIdx, h2,
      List.take_succ_cons, List.take_zero] at hx
    obtain ⟨k, hk, rfl⟩ := hx
    have hk' : k < l.nOut := by simp at hk; omega
    have w0 : 0 * l.nOut + k < l.weight.data.length := by omega
    have w1 : 1 * l.nOut + k < l.weight.data.length := by omega
    simp only [vmmElem, List.range_succ, List.range_zero, List.nil_append, List.cons_append, List.foldl_cons, List.foldl_nil,
      List.getElem?_cons_zero, List.getElem?_cons_succ, List.getElem?_eq_getElem w0, List.getElem?_eq_getElem w1]
    have f0 := hf _ (List.getElem_mem w0)
    have f1 := hf _ (List.getElem_mem w1)
    rw [vmmStep_inf L c l.nOut k s f0.1 f0.2 (hb _ (List.mem_of_mem_take (List.getElem_mem _)))]
    rw [hop k hk' _ l.weight.data[1 * l.nOut + k] (by rw [← List.getElem?_eq_getElem w0]; congr 1; omega)
      (by rw [← List.getElem?_eq_getElem w1]; congr 1; omega)]
    exact vmmStep_inf_inf L c l.nOut k s' f1.1 f1.2

/-! ### Examples -/

theorem exactLibm_passes : exactLibm.PassesNan := by
  have hf : ∀ a : B32, a.isNan = true → a.isFinite = false ∧ a.isInf = false := by
    intro a h
    simp only [isNan, Bool.and_eq_true, beq_iff_eq, bne_iff_ne] at h
    simp [isFinite, isInf, h.1, h.2]
  constructor <;> intro a h <;> simp [exactLibm, hf a h, h]

/-- The network of C62 (tanh, sigmoid; two hidden neurons) passes NaN on in every build. -/
example (c : Cfg) (junk : ℕ → B32) : ∃ o, @predict B32 (ops exactLibm) (@noCustom B32) c 4096 junk exNetB32
    ⟨20, [ofReal false 1, qnan]⟩ ⟨36, [zeroS false]⟩ = .ok ⟨36, o ++ []⟩ ∧ o.length = 1 ∧ ∀ a ∈ o, a.isNan = true := by
  have ha : 4096 % c.alignSize = 0 := by
    rcases c with ⟨s, _, _⟩
    cases s <;> simp [Cfg.alignSize]
  exact C65_nan_partial (@noCustom B32) exactLibm_passes c 4096 junk exNetB32 ⟨20, [ofReal false 1, qnan]⟩ ⟨36, [zeroS false]⟩ (exNetB32_wf c)
    ha (by simp [exNetB32, Net.nInput]) (by simp [exNetB32, Net.nOutput]) (AlignedFor.of_small (by simp [exNetB32, Net.nOutput]))
    (by intro l hl; simp [exNetB32] at hl; subst hl; exact .inr (by norm_num))
    (by intro l hl; simp [exNetB32] at hl; subst hl; exact .inr (by norm_num))
    ⟨qnan, by simp [exNetB32, Net.nInput], isNan_qnan⟩

/-- Sixteen sigmoid neurons in an AVX2 build do not. -/
example (junk : ℕ → B32) : ∃ o, @predict B32 (ops exactLibm) (@noCustom B32) ⟨.avx, false, true⟩ 4096 junk
    ⟨[⟨1, 16, ⟨64, List.replicate 16 (ofReal false 1)⟩, ⟨128, List.replicate 16 (ofReal false 1)⟩, .sigmoid, none⟩], none⟩
    ⟨20, [qnan]⟩ ⟨64, List.replicate 16 qnan⟩ = .ok ⟨64, o ++ []⟩ ∧ o.length = 16 ∧
      ∀ a ∈ o, a.isFinite = true ∧ 0 ≤ a.value ∧ a.value ≤ 1 / 10 ^ 6 :=
  C65_sigmoid_false (@noCustom B32) exactLibm ⟨.avx, false, true⟩ rfl 4096 junk _ none ⟨20, [qnan]⟩ ⟨64, List.replicate 16 qnan⟩
    ⟨by decide, by decide, by simp, by simp, by decide, by decide⟩ rfl rfl (by decide) (by simp) (by simp) (by decide)
    ⟨qnan, by simp, isNan_qnan⟩

/-- The same with `tanh_act`. -/
example (junk : ℕ → B32) : ∃ o, @predict B32 (ops exactLibm) (@noCustom B32) ⟨.avx, false, true⟩ 4096 junk
    ⟨[⟨1, 16, ⟨64, List.replicate 16 (ofReal false 1)⟩, ⟨128, List.replicate 16 (ofReal false 1)⟩, .tanh, none⟩], none⟩
    ⟨20, [qnan]⟩ ⟨64, List.replicate 16 qnan⟩ = .ok ⟨64, o ++ []⟩ ∧ o.length = 16 ∧
      ∀ a ∈ o, a.isFinite = true ∧ -1 ≤ a.value ∧ a.value ≤ -1 + 1 / 10 ^ 6 :=
  C65_tanh_false (@noCustom B32) exactLibm ⟨.avx, false, true⟩ rfl 4096 junk _ none ⟨20, [qnan]⟩ ⟨64, List.replicate 16 qnan⟩
    ⟨by decide, by decide, by simp, by simp, by decide, by decide⟩ rfl rfl (by decide) (by simp) (by simp)
    (AlignedFor.of_aligned (by decide)) ⟨qnan, by simp, isNan_qnan⟩

/-- A `relu` neuron before a linear one, without AVX: the answer to NaN is the answer of the linear neuron to 0. -/
example (junk : ℕ → B32) : @predict B32 (ops exactLibm) (@noCustom B32) ⟨.sse, false, false⟩ 4096 junk
    ⟨[⟨1, 1, ⟨64, [ofReal false 1]⟩, ⟨128, [ofReal false 1]⟩, .relu, none⟩,
      ⟨1, 1, ⟨192, [ofReal false 1]⟩, ⟨256, [ofReal false 1]⟩, .linear, none⟩], none⟩ ⟨20, [qnan]⟩ ⟨36, [qnan]⟩ =
    @predict B32 (ops exactLibm) (@noCustom B32) ⟨.sse, false, false⟩ 4096 junk
      ⟨[⟨1, 1, ⟨192, [ofReal false 1]⟩, ⟨256, [ofReal false 1]⟩, .linear, none⟩], none⟩ ⟨0, [zeroS false]⟩ ⟨36, [qnan]⟩ :=
  C65_relu_false (@noCustom B32) exactLibm ⟨.sse, false, false⟩ rfl 4096 junk _ _ [] none ⟨20, [qnan]⟩ ⟨36, [qnan]⟩
    ⟨by simp, by
      intro l hl
      simp only [List.mem_cons, List.not_mem_nil, or_false] at hl
      rcases hl with rfl | rfl <;> exact ⟨by decide, by decide, by simp, by simp, by decide, by decide⟩, ⟨rfl, trivial⟩⟩
    rfl (by decide) (by simp) (by simp [Net.nOutput]) (AlignedFor.of_small (by simp [Net.nOutput])) ⟨qnan, by simp, isNan_qnan⟩

/-- Two infinite inputs and the weights 1 and -1. -/
example (c : Cfg) (junk : ℕ → B32) : ∃ o, @predict B32 (ops exactLibm) (@noCustom B32) c 4096 junk
    ⟨[⟨2, 1, ⟨64, [ofReal false 1, ofReal true (-1)]⟩, ⟨128, [zeroS false]⟩, .linear, none⟩], none⟩
    ⟨20, [inf false, inf false]⟩ ⟨36, [zeroS false]⟩ = .ok ⟨36, o ++ []⟩ ∧ o.length = 1 ∧ ∀ a ∈ o, a.isNan = true := by
  have ha : ∀ n, n % 64 = 0 → n % c.alignSize = 0 := by
    intro n hn
    rcases c with ⟨s, _, _⟩
    cases s <;> simp [Cfg.alignSize] <;> omega
  have i1 : Is (ofReal true (-1)) (-1) := by
    have := is_ofReal (s := true) (x := -1) (by unfold maxF32; norm_num)
    rwa [rnd_exact (k := -1) (j := 0) (by norm_num) (by norm_num) (by norm_num)] at this
  have s0 : (ofReal false 1).sign = false := sign_of_pos (by rw [is_one.2]; norm_num)
  have s1 : (ofReal true (-1)).sign = true := sign_of_neg (by rw [i1.2]; norm_num)
  refine C65_inf (@noCustom B32) exactLibm c 4096 junk _ none 20 false false ⟨36, [zeroS false]⟩
    ⟨by decide, by decide, by simp, by simp, ha _ (by decide), ha _ (by decide)⟩ rfl rfl ?_ ?_ ?_ (ha _ (by decide)) (by simp)
    (AlignedFor.of_small (by simp))
  · intro w hw
    simp only [List.mem_cons, List.not_mem_nil, or_false] at hw
    rcases hw with rfl | rfl
    · exact ⟨is_one.1, by rw [is_one.2]; norm_num⟩
    · exact ⟨i1.1, by rw [i1.2]; norm_num⟩
  · intro b hb
    simp only [List.mem_cons, List.not_mem_nil, or_false] at hb
    rw [hb]; exact (is_zeroS false).1
  · intro k hk w w' h h'
    obtain rfl : k = 0 := by simpa using hk
    simp at h h'
    subst h h'
    rw [s0, s1]; rfl

end NN
