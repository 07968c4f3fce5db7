import Verif.Proofs.Forward
import Verif.Proofs.ActivationReal
import Verif.Spec.Network
/-
The forward pass: independence of addresses (lawless), value in exact arithmetic, faults on a
misaligned output.
-/
set_option linter.unusedSimpArgs false
set_option linter.unusedSectionVars false

namespace NN
open FloatOps
section
variable {F : Type} [FloatOps F]

/-- Two SIMD aligned addresses give bit-identical results. -/
theorem activateF_aligned (env : CustomEnv F) (c : Cfg) (a : Act) (addr : Nat)
    (h : addr % c.alignSize = 0) (l : List F) :
    activateF env c a addr l = activateF env c a 0 l := by
  have h0 : (0 : Nat) % c.alignSize = 0 := Nat.zero_mod _
  cases a <;> simp only [activateF, softmaxF, reluOp, sigmoidOp, softmaxExpOp, softmaxSumF,
    bodyLo_of_aligned h, bodyLo_of_aligned h0]

theorem layerF_aligned (env : CustomEnv F) (c : Cfg) (l : Layer F) (addr : Nat)
    (h : addr % c.alignSize = 0) (x : List F) : layerF env c l addr x = layerF env c l 0 x :=
  activateF_aligned env c l.act addr h _

/-- The function computed by `neuralnet_predict` with an output vector at `outAddr`: hidden layers in
aligned buffers. -/
def netF (env : CustomEnv F) (c : Cfg) (outAddr : Nat) : List (Layer F) → List F → List F
  | [], x => x
  | [l], x => layerF env c l outAddr x
  | l :: l' :: ls, x => netF env c outAddr (l' :: ls) (layerF env c l 0 x)

theorem outF_eq_netF (env : CustomEnv F) (c : Cfg) (addr len outAddr : Nat) :
    ∀ (ls : List (Layer F)) (lo : Nat) (os : List Nat) (x : List F),
      Laid c addr len lo ls.dropLast os → outF env c addr outAddr ls os x = netF env c outAddr ls x
  | [], lo, [], x, _ => rfl
  | [], lo, _ :: _, x, h => by simp [Laid] at h
  | [l], lo, os, x, _ => by simp [outF, netF]
  | l :: l' :: ls, lo, [], x, h => by simp [Laid] at h
  | l :: l' :: ls, lo, o :: os, x, h => by
    simp only [List.dropLast_cons_cons, Laid] at h
    simp only [outF, netF]
    rw [layerF_aligned env c l _ h.2.2.1, outF_eq_netF env c addr len outAddr (l' :: ls) _ os _ h.2.2.2]

theorem netF_length (env : CustomEnv F) (c : Cfg) (outAddr : Nat) :
    ∀ (ls : List (Layer F)) (x : List F) (last : Layer F), ls.getLast? = some last →
      (∀ l ∈ ls, l.WF c) → (netF env c outAddr ls x).length = last.nOut
  | [], _, _, h, _ => by simp at h
  | [l], x, last, h, hw => by
    simp at h; subst h
    exact layerF_length env c l outAddr x (hw l (by simp))
  | l :: l' :: ls, x, last, h, hw => by
    simp only [netF]
    exact netF_length env c outAddr (l' :: ls) _ last (by simpa using h)
      (fun m hm => hw m (by simp [List.mem_cons.mp hm]))

theorem exists_last {c : Cfg} {nn : Net F} (hw : nn.WF c) :
    ∃ l, nn.layers.getLast? = some l ∧ nn.nOutput = l.nOut ∧ l.WF c := by
  cases h : nn.layers.getLast? with
  | none => exact absurd (List.getLast?_eq_none_iff.mp h) hw.ne
  | some l => exact ⟨l, rfl, by simp [Net.nOutput, h], hw.layer l (List.mem_of_getLast? h)⟩

theorem predict_netF (env : CustomEnv F) (c : Cfg) (workAddr : Nat) (junk : Nat → F) (nn : Net F)
    (input out : View F) (hw : nn.WF c) (hwa : workAddr % c.alignSize = 0)
    (hin : nn.nInput ≤ input.data.length) (hout : nn.nOutput ≤ out.data.length)
    (hal : AlignedFor c nn.nOutput out.addr) :
    predict env c workAddr junk nn input out =
      .ok ⟨out.addr, netF env c out.addr nn.layers (input.data.take nn.nInput) ++
        out.data.drop nn.nOutput⟩ := by
  rw [predict_eq env c workAddr junk nn input out hw hwa hin hout hal]
  rw [outF_eq_netF env c workAddr (workSize nn.layers + c.lanes * nn.layers.length) out.addr nn.layers 0]
  exact laid_offsets c workAddr hwa _ 0 nn.layers.dropLast (by simp) (by
      have := workSize_dropLast_le nn.layers
      have h2 : c.lanes * nn.layers.dropLast.length ≤ c.lanes * nn.layers.length :=
        Nat.mul_le_mul_left _ (by simp)
      omega)

/-! ### Misaligned output -/

theorem stripLe_fault {σ : Type} {W n j : Nat} {body : Nat → σ → M σ} {s : σ} {e : Fault}
    (hW : 0 < W) (hn : j + W ≤ n) (h : body j s = .error e) : stripLe W n body j s = .error e := by
  rw [stripLe, if_pos ⟨hW, hn⟩, h]

theorem stripLe_skip {σ : Type} {W n j : Nat} {body : Nat → σ → M σ} {s : σ}
    (hn : ¬ j + W ≤ n) : stripLe W n body j s = .ok (j, s) := by
  rw [stripLe, if_neg (fun h => hn h.2)]

theorem vmmBias_misaligned (c : Cfg) (m : Nat) (bias y : View F)
    (hbl : AlignedFor c m bias.addr) (hb : m ≤ bias.data.length)
    (hal : ¬ AlignedFor c m y.addr) : vmmBias c m bias y = .error .misaligned := by
  have step : ∀ w, (w = 16 ∧ c.avx512 = true ∨ w = 8) → c.avx = true → w ≤ m → y.addr % (4 * w) ≠ 0 →
      (do
        let bv ← bias.loada w 0
        y.storea w 0 bv : M (View F)) = .error .misaligned := by
    intro w hw hx hm ha
    rw [loada_ok (by omega) (align_w hw hx (Nat.dvd_zero _) (by omega) hbl)]
    simp [bind, Except.bind, View.storea, ha]
  unfold vmmBias ladder
  by_cases h8 : c.avx = true ∧ 8 ≤ m ∧ y.addr % 32 ≠ 0
  · obtain ⟨hx, hm, ha⟩ := h8
    by_cases h16 : c.avx512 = true ∧ 16 ≤ m
    · simp only [h16.1, if_true]
      have h16' := h16.2
      rw [stripLe_fault (by decide) (by omega) (step 16 (Or.inl ⟨rfl, h16.1⟩) hx h16.2 (by omega))]
      rfl
    · have h2 := step 8 (Or.inr rfl) hx hm (by omega)
      simp only [bind, Except.bind] at h2
      cases h5 : c.avx512
      · simp only [Bool.false_eq_true, if_false, bind, Except.bind, pure, Except.pure, hx, if_true]
        rw [stripLe_fault (by decide) (by omega) h2]
      · simp only [if_true, bind, Except.bind, hx]
        rw [stripLe_skip (fun h => h16 ⟨h5, by omega⟩)]
        simp only
        rw [stripLe_fault (by decide) (by omega) h2]
  · by_cases h16 : c.avx512 = true ∧ 16 ≤ m ∧ y.addr % 64 ≠ 0
    · simp only [h16.1, if_true]
      have h16' := h16.2
      rw [stripLe_fault (by decide) (by omega)
        (step 16 (Or.inl ⟨rfl, h16.1⟩) (Cfg.avx_of_avx512 h16.1) h16.2.1 (by omega))]
      rfl
    · exfalso
      apply hal
      constructor
      · intro h1 h2
        by_contra h3
        exact h8 ⟨h1, h2, h3⟩
      · intro h1 h2
        by_contra h3
        exact h16 ⟨h1, h2, h3⟩

theorem vectorMatrixMultiply_misaligned (c : Cfg) (n m : Nat) (weight bias input y : View F)
    (hbl : AlignedFor c m bias.addr) (hb : m ≤ bias.data.length)
    (hal : ¬ AlignedFor c m y.addr) :
    vectorMatrixMultiply c n m weight bias input y = .error .misaligned := by
  unfold vectorMatrixMultiply
  rw [vmmBias_misaligned c m bias y hbl hb hal]
  rfl

theorem forward_misaligned (env : CustomEnv F) (c : Cfg) (len : Nat) :
    ∀ (ls : List (Layer F)) (os : List Nat) (src : Ptr) (lo : Nat) (s : Bufs F) (x : List F)
      (last : Layer F), ls.getLast? = some last →
      (∀ l ∈ ls, l.WF c) → Chained ls → len = s.work.data.length →
      Laid c s.work.addr len lo ls.dropLast os →
      (∀ l, ls.head? = some l → SrcOk s src l.nIn x lo) →
      ¬ AlignedFor c last.nOut s.out.addr →
      forward env c ls src (os.map .work ++ [.out]) s = .error .misaligned
  | [], _, _, _, _, _, _, h, _, _, _, _, _, _ => by simp at h
  | [l], os, src, lo, s, x, last, h, hw, hc, hlen, hl, hs, ha => by
    simp at h; subst h
    cases os with
    | cons o os => simp [Laid] at hl
    | nil =>
      have hwl := hw l (by simp)
      have hov : overlaps src l.nIn .out l.nOut = false := by
        have hb := (hs l rfl).below
        cases src with
        | input => rfl
        | out => exact hb.elim
        | work a => rfl
      simp only [List.map_nil, List.nil_append, forward, forwardStep, hov, Bool.false_eq_true, if_false]
      rw [vectorMatrixMultiply_misaligned c l.nIn l.nOut l.weight l.bias _ (s.at .out)
        (AlignedFor.of_aligned hwl.bias_al) (Nat.le_of_eq hwl.bias_len.symm) ha]
      rfl
  | l :: l' :: ls, os, src, lo, s, x, last, h, hw, hc, hlen, hl, hs, ha => by
    cases os with
    | nil => simp [Laid] at hl
    | cons o os =>
      simp only [List.dropLast_cons_cons, Laid] at hl
      obtain ⟨h1, h2, h3, h4⟩ := hl
      have hwl := hw l (by simp)
      have step := forwardStep_work env c l hwl src o lo s x (hs l rfl) h1 (by omega) h3
      have hll := layerF_length env c l (s.work.addr + 4 * o) x hwl
      simp only [List.map_cons, List.cons_append, forward, step, bind, Except.bind]
      have hafter := SrcOk.after (s := s) (o := o)
        (a := layerF env c l (s.work.addr + 4 * o) x) (by rw [hll]; omega)
      rw [hll] at hafter
      have hlen' : (setSlice s.work.data o (layerF env c l (s.work.addr + 4 * o) x)).length =
          s.work.data.length := setSlice_length _ _ _ (by rw [hll]; omega)
      exact forward_misaligned env c len (l' :: ls) os (.work o) (o + l.nOut)
        { s with work := ⟨s.work.addr, setSlice s.work.data o (layerF env c l (s.work.addr + 4 * o) x)⟩ }
        (layerF env c l (s.work.addr + 4 * o) x) last (by simpa using h)
        (fun m hm => hw m (by simp [List.mem_cons.mp hm]))
        hc.2 (by rw [hlen, ← hlen']) h4
        (fun m hm => by
          simp at hm; subst hm
          rw [← hc.1]
          exact hafter) ha

theorem predict_misaligned (env : CustomEnv F) (c : Cfg) (workAddr : Nat) (junk : Nat → F) (nn : Net F)
    (input out : View F) (hw : nn.WF c) (hwa : workAddr % c.alignSize = 0)
    (hin : nn.nInput ≤ input.data.length)
    (hal : ¬ AlignedFor c nn.nOutput out.addr) :
    predict env c workAddr junk nn input out = .error .misaligned := by
  unfold predict
  rw [layout_eq c workAddr hwa 0 _ (by simp)]
  simp only [bind, Except.bind]
  obtain ⟨last, hlast, hno, -⟩ := exists_last hw
  rw [hno] at hal
  have hlaid := laid_offsets c workAddr hwa (workSize nn.layers + c.lanes * nn.layers.length) 0
    nn.layers.dropLast (by simp) (by
      have := workSize_dropLast_le nn.layers
      have h2 : c.lanes * nn.layers.dropLast.length ≤ c.lanes * nn.layers.length :=
        Nat.mul_le_mul_left _ (by simp)
      omega)
  rw [forward_misaligned env c (workSize nn.layers + c.lanes * nn.layers.length)
    nn.layers (offsets c 0 nn.layers.dropLast) .input 0
    ⟨input, stackArray workAddr (workSize nn.layers + c.lanes * nn.layers.length) junk, out⟩
    (input.data.take nn.nInput) last hlast hw.layer hw.chain (by rw [stackArray_length])
    hlaid (fun l hl => by
      have hni : nn.nInput = l.nIn := by
        rcases hls : nn.layers with _ | ⟨l0, ls⟩
        · simp [hls] at hl
        · simp [hls] at hl; subst hl; simp [Net.nInput, hls]
      rw [hni] at hin ⊢
      exact ⟨rfl, by simp; omega, trivial⟩) hal]

end

/-! ### Exact arithmetic -/

/-- The mathematical layer represented by a `layer_t`. -/
noncomputable def Layer.toSpec (env : CustomEnv ℝ) (l : Layer ℝ) : Spec.Layer :=
  ⟨l.nIn, l.nOut, l.weight.data, l.bias.data, actSpec env l.act⟩

theorem layerF_real (env : CustomEnv ℝ) (c : Cfg) (l : Layer ℝ) (hw : l.WF c) (addr : ℕ) (x : List ℝ)
    (hx : x.length = l.nIn) : layerF env c l addr x = (l.toSpec env).apply x := by
  rw [layerF, activateF_real, vmmF_real c l.nIn l.nOut _ _ _ hw.bias_len.ge hx.ge hw.weight_len.ge]
  rfl

theorem netF_real (env : CustomEnv ℝ) (c : Cfg) (outAddr : ℕ) :
    ∀ (ls : List (Layer ℝ)) (x : List ℝ), (∀ l ∈ ls, l.WF c) → Chained ls →
      (∀ l, ls.head? = some l → x.length = l.nIn) →
      netF env c outAddr ls x = Spec.network (ls.map (Layer.toSpec env)) x
  | [], _, _, _, _ => rfl
  | [l], x, hw, _, hx => by
    simp only [netF, List.map, Spec.network, List.foldl]
    exact layerF_real env c l (hw l (by simp)) outAddr x (hx l rfl)
  | l :: l' :: ls, x, hw, hc, hx => by
    have hwl := hw l (by simp)
    simp only [netF]
    rw [netF_real env c outAddr (l' :: ls) _ (fun m hm => hw m (by simp [List.mem_cons.mp hm])) hc.2
      (fun m hm => by
        simp at hm; subst hm
        rw [layerF_length env c l 0 x hwl, hc.1])]
    rw [layerF_real env c l hwl 0 x (hx l rfl)]
    rfl

theorem Net.nInput_eq {F : Type} {nn : Net F} {l : Layer F} (h : nn.layers.head? = some l) :
    nn.nInput = l.nIn := by
  rcases hls : nn.layers with _ | ⟨l0, ls⟩
  · simp [hls] at h
  · simp [hls] at h; subst h; simp [Net.nInput, hls]

end NN
