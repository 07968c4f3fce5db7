import Verif.Proofs.NetFloat
import Mathlib.Tactic.IntervalCases
/-
C62: `neuralnet_predict` in `float` arithmetic.
-/
namespace NN
open B32 Finset Spec

/-- **C62** `neuralnet_predict` in IEEE binary32 arithmetic: every operation rounded, in every build, with any C library accurate
to 2 units in the last place.  If parameters and input are finite and the bounds stay in range (`NetSafe`), the call
succeeds, all outputs are finite, and each differs from the exact network function by at most `netError`, a bound that does
not depend on the build. -/
theorem C62_predict (env : CustomEnv B32) (envR : CustomEnv ℝ) {L : Libm} (hL : L.Accurate) (c : Cfg) (workAddr : ℕ) (junk : ℕ → B32)
    (nn : Net B32) (input out : View B32) (hw : nn.WF c) (hwa : workAddr % c.alignSize = 0) (hin : nn.nInput ≤ input.data.length)
    (hout : nn.nOutput ≤ out.data.length) (hal : AlignedFor c nn.nOutput out.addr) (hf : ∀ l ∈ nn.layers, l.Finite)
    (hx : ∀ x ∈ input.data.take nn.nInput, x.isFinite = true)
    (hs : NetSafe envR (nn.layers.map Layer.values) ((input.data.take nn.nInput).map B32.value) (List.replicate nn.nInput 0)) :
    ∃ o, @predict B32 (ops L) env c workAddr junk nn input out = .ok ⟨out.addr, o ++ out.data.drop nn.nOutput⟩ ∧
      o.length = nn.nOutput ∧ ∀ k, k < nn.nOutput → ∃ a, o[k]? = some a ∧ a.isFinite = true ∧
        |a.value - at_ (Spec.network ((nn.layers.map Layer.values).map (Layer.toSpec envR)) ((input.data.take nn.nInput).map B32.value)) k| ≤
          at_ (netError envR (nn.layers.map Layer.values) ((input.data.take nn.nInput).map B32.value) (List.replicate nn.nInput 0)) k := by
  obtain ⟨last, hlast, hno, -⟩ := @exists_last B32 (ops L) c nn hw
  refine ⟨_, @predict_netF B32 (ops L) env c workAddr junk nn input out hw hwa hin hout hal, ?_, ?_⟩
  · rw [hno]; exact @netF_length B32 (ops L) env c out.addr nn.layers _ last hlast hw.layer
  · rw [hno]
    refine netF_within env envR hL c out.addr nn.layers last hlast hw.layer hw.chain hf _ _ _ ?_ ?_ hs
    · intro l hl
      rw [Net.nInput_eq hl] at hin ⊢
      simp; omega
    · intro k hk
      refine ⟨_, List.getElem?_eq_getElem hk, hx _ (List.getElem_mem hk), ?_⟩
      have hk2 : k < nn.nInput := by simp at hk; omega
      have e1 : at_ ((input.data.take nn.nInput).map B32.value) k = ((input.data.take nn.nInput)[k]).value := by
        simp only [at_, List.getD_eq_getElem?_getD, List.getElem?_map, List.getElem?_eq_getElem hk, Option.map_some, Option.getD_some]
      rw [e1, sub_self, abs_zero]
      simp [at_, hk2]

/-- **C62** Two builds of the same network (any instruction sets, any addresses) agree up to twice the bound. -/
theorem C62_builds (env : CustomEnv B32) (envR : CustomEnv ℝ) {L : Libm} (hL : L.Accurate) (c c' : Cfg) (workAddr workAddr' : ℕ)
    (junk junk' : ℕ → B32) (nn : Net B32) (input out out' : View B32) (hw : nn.WF c) (hw' : nn.WF c') (hwa : workAddr % c.alignSize = 0)
    (hwa' : workAddr' % c'.alignSize = 0) (hin : nn.nInput ≤ input.data.length) (hout : nn.nOutput ≤ out.data.length)
    (hout' : nn.nOutput ≤ out'.data.length) (hal : AlignedFor c nn.nOutput out.addr) (hal' : AlignedFor c' nn.nOutput out'.addr)
    (hf : ∀ l ∈ nn.layers, l.Finite) (hx : ∀ x ∈ input.data.take nn.nInput, x.isFinite = true)
    (hs : NetSafe envR (nn.layers.map Layer.values) ((input.data.take nn.nInput).map B32.value) (List.replicate nn.nInput 0)) :
    ∃ o o', @predict B32 (ops L) env c workAddr junk nn input out = .ok ⟨out.addr, o ++ out.data.drop nn.nOutput⟩ ∧
      @predict B32 (ops L) env c' workAddr' junk' nn input out' = .ok ⟨out'.addr, o' ++ out'.data.drop nn.nOutput⟩ ∧
      ∀ k, k < nn.nOutput → ∃ a a', o[k]? = some a ∧ o'[k]? = some a' ∧ a.isFinite = true ∧ a'.isFinite = true ∧ |a.value - a'.value| ≤
        2 * at_ (netError envR (nn.layers.map Layer.values) ((input.data.take nn.nInput).map B32.value) (List.replicate nn.nInput 0)) k := by
  obtain ⟨o, h1, -, h2⟩ := C62_predict env envR hL c workAddr junk nn input out hw hwa hin hout hal hf hx hs
  obtain ⟨o', g1, -, g2⟩ := C62_predict env envR hL c' workAddr' junk' nn input out' hw' hwa' hin hout' hal' hf hx hs
  refine ⟨o, o', h1, g1, ?_⟩
  intro k hk
  obtain ⟨a, a1, a2, a3⟩ := h2 k hk
  obtain ⟨b, b1, b2, b3⟩ := g2 k hk
  refine ⟨a, b, a1, b1, a2, b2, ?_⟩
  rw [abs_sub_comm] at b3
  have := abs_tri a.value (at_ (Spec.network ((nn.layers.map Layer.values).map (Layer.toSpec envR)) ((input.data.take nn.nInput).map B32.value)) k) b.value
  linarith

/-- **C62** A closed form for networks with squashing activation functions, inputs in [-1, 1], fewer than 2^20 inputs per layer and
weights of each neuron adding up to at most `R`: no overflow can occur, and after `D` layers the error is at most
`((N+1) R 2^-22 + 1e-6) (1 + 2R + ... + (2R)^(D-1))`, if that is at most 1. -/
theorem C62_bounded (env : CustomEnv B32) (envR : CustomEnv ℝ) {L : Libm} (hL : L.Accurate) (c : Cfg) (workAddr : ℕ) (junk : ℕ → B32)
    (nn : Net B32) (input out : View B32) (hw : nn.WF c) (hwa : workAddr % c.alignSize = 0) (hin : nn.nInput ≤ input.data.length)
    (hout : nn.nOutput ≤ out.data.length) (hal : AlignedFor c nn.nOutput out.addr) (hf : ∀ l ∈ nn.layers, l.Finite)
    (hx : ∀ x ∈ input.data.take nn.nInput, x.isFinite = true ∧ |x.value| ≤ 1) (N : ℕ) (R : ℝ) (hN : N < 2 ^ 20) (hR : 1 ≤ R) (hR' : R ≤ 2 ^ 100)
    (hsm : ∀ l ∈ nn.layers, SmallLayer N R l.values)
    (hD : ((N + 1) * R * 2 ^ (-22 : ℤ) + 1 / 10 ^ 6) * ∑ i ∈ range nn.layers.length, (2 * R) ^ i ≤ 1) :
    ∃ o, @predict B32 (ops L) env c workAddr junk nn input out = .ok ⟨out.addr, o ++ out.data.drop nn.nOutput⟩ ∧
      o.length = nn.nOutput ∧ ∀ k, k < nn.nOutput → ∃ a, o[k]? = some a ∧ a.isFinite = true ∧
        |a.value - at_ (Spec.network ((nn.layers.map Layer.values).map (Layer.toSpec envR)) ((input.data.take nn.nInput).map B32.value)) k| ≤
          ((N + 1) * R * 2 ^ (-22 : ℤ) + 1 / 10 ^ 6) * ∑ i ∈ range nn.layers.length, (2 * R) ^ i := by
  obtain ⟨last, hlast, hno, -⟩ := @exists_last B32 (ops L) c nn hw
  have hc : ∀ ls : List (Layer B32), Chained ls → Chained (ls.map Layer.values) := by
    intro ls
    induction ls with
    | nil => intro _; trivial
    | cons l ls ih =>
      cases ls with
      | nil => intro _; trivial
      | cons l' ls => intro h; exact ⟨h.1, ih h.2⟩
  obtain ⟨hs, hb⟩ := smallNet_within envR hN hR hR' (nn.layers.map Layer.values) last.values 0 ((input.data.take nn.nInput).map B32.value)
    (List.replicate nn.nInput 0) (by simp [hlast]) (hc _ hw.chain) (by simpa using hsm) (by simpa [depthError, layerδ] using hD)
    (by
      intro l hl i hi
      rw [List.head?_map, Option.map_eq_some_iff] at hl
      obtain ⟨l, hl, rfl⟩ := hl
      have hi' : i < nn.nInput := by rw [Net.nInput_eq hl]; exact hi
      have hk : i < (input.data.take nn.nInput).length := by simp; omega
      have e1 : at_ ((input.data.take nn.nInput).map B32.value) i = ((input.data.take nn.nInput)[i]).value := by
        simp only [at_, List.getD_eq_getElem?_getD, List.getElem?_map, List.getElem?_eq_getElem hk, Option.map_some, Option.getD_some]
      refine ⟨by rw [e1]; exact (hx _ (List.getElem_mem hk)).2, ?_⟩
      have e2 : at_ (List.replicate nn.nInput 0) i = 0 := by simp [at_, hi']
      rw [e2]
      exact ⟨le_rfl, by simp [depthError]⟩)
  obtain ⟨o, h1, h2, h3⟩ := C62_predict env envR hL c workAddr junk nn input out hw hwa hin hout hal hf (fun x h => (hx x h).1) hs
  refine ⟨o, h1, h2, ?_⟩
  intro k hk
  obtain ⟨a, a1, a2, a3⟩ := h3 k hk
  refine ⟨a, a1, a2, a3.trans ?_⟩
  have := hb k (by rw [hno] at hk; exact hk)
  simpa [depthError, layerδ] using this

/-! ### Example -/

/-- A network of floats, 2 inputs, 2 hidden neurons (tanh) and one output (sigmoid). -/
noncomputable def exNetB32 : Net B32 :=
  ⟨[⟨2, 2, ⟨64, [ofReal false (1 / 2), ofReal false 1, ofReal false (1 / 4), ofReal false (1 / 2)]⟩, ⟨128, [ofReal false 1, ofReal false (1 / 2)]⟩, .tanh, none⟩,
    ⟨2, 1, ⟨192, [ofReal false 1, ofReal false (1 / 2)]⟩, ⟨256, [ofReal false (1 / 4)]⟩, .sigmoid, none⟩], none⟩

theorem exNetB32_wf (c : Cfg) : exNetB32.WF c := by
  have h : ∀ n, n % 64 = 0 → n % c.alignSize = 0 := by
    intro n hn
    rcases c with ⟨s, _, _⟩
    cases s <;> simp [Cfg.alignSize] <;> omega
  refine ⟨by simp [exNetB32], ?_, ⟨rfl, trivial⟩⟩
  intro l hl
  simp only [exNetB32, List.mem_cons, List.not_mem_nil, or_false] at hl
  rcases hl with rfl | rfl
  · exact ⟨by decide, by decide, by simp, by simp, h _ (by decide), h _ (by decide)⟩
  · exact ⟨by decide, by decide, by simp, by simp, h _ (by decide), h _ (by decide)⟩

/-- In every build the float network is within 2e-5 of the exact one. -/
example (c : Cfg) (junk : ℕ → B32) : ∃ o, @predict B32 (ops exactLibm) (@noCustom B32) c 4096 junk exNetB32 ⟨20, [ofReal false (1 / 2), ofReal false 1]⟩
      ⟨36, [qnan]⟩ = .ok ⟨36, o ++ []⟩ ∧ o.length = 1 ∧ ∀ k, k < 1 → ∃ a, o[k]? = some a ∧ a.isFinite = true ∧
      |a.value - at_ (Spec.network [⟨2, 2, [1 / 2, 1, 1 / 4, 1 / 2], [1, 1 / 2], List.map Real.tanh⟩, ⟨2, 1, [1, 1 / 2], [1 / 4], List.map Spec.sigmoid⟩]
        [1 / 2, 1]) k| ≤ 2 / 10 ^ 5 := by
  have h1 : B32.Is (ofReal false 1) 1 := is_exact 1 0 (by norm_num) (by norm_num) (by norm_num) (by norm_num [max32])
  have h2 : B32.Is (ofReal false (1 / 2)) (1 / 2) := is_exact 1 (-1) (by norm_num) (by norm_num) (by norm_num) (by norm_num [max32])
  have h4 : B32.Is (ofReal false (1 / 4)) (1 / 4) := is_exact 1 (-2) (by norm_num) (by norm_num) (by norm_num) (by norm_num [max32])
  have ha : 4096 % c.alignSize = 0 := by
    rcases c with ⟨s, _, _⟩
    cases s <;> simp [Cfg.alignSize]
  obtain ⟨o, g1, g2, g3⟩ := C62_bounded (@noCustom B32) (noCustom ℝ) exactLibm_accurate c 4096 junk exNetB32 ⟨20, [ofReal false (1 / 2), ofReal false 1]⟩
    ⟨36, [qnan]⟩ (exNetB32_wf c) ha (by simp [exNetB32, Net.nInput]) (by simp [exNetB32, Net.nOutput])
    (AlignedFor.of_small (by simp [exNetB32, Net.nOutput]))
    (by
      intro l hl
      simp only [exNetB32, List.mem_cons, List.not_mem_nil, or_false] at hl
      rcases hl with rfl | rfl <;> simp [Layer.Finite, -one_div, h1.1, h2.1, h4.1])
    (by
      intro x hx
      simp only [exNetB32, Net.nInput, List.take_succ_cons, List.take_zero, List.mem_cons,
        List.not_mem_nil, or_false] at hx
      rcases hx with rfl | rfl
      · exact ⟨h2.1, by rw [h2.2]; norm_num [abs_of_pos]⟩
      · exact ⟨h1.1, by rw [h1.2]; norm_num⟩)
    2 2 (by norm_num) (by norm_num) (by norm_num)
    (by
      intro l hl
      simp only [exNetB32, List.mem_cons, List.not_mem_nil, or_false] at hl
      rcases hl with rfl | rfl
      · refine ⟨by simp [Squashing, Layer.values], le_rfl, ?_⟩
        intro k hk
        simp only [Layer.values] at hk
        interval_cases k <;> simp [Layer.values, at_, sum_range_succ, -one_div, h1.2, h2.2, h4.2] <;> norm_num [abs_of_pos]
      · refine ⟨by simp [Squashing, Layer.values], le_rfl, ?_⟩
        intro k hk
        simp only [Layer.values] at hk
        interval_cases k
        simp [Layer.values, at_, sum_range_succ, -one_div, h1.2, h2.2, h4.2]
        norm_num [abs_of_pos])
    (by norm_num [exNetB32, sum_range_succ])
  refine ⟨o, by simpa [exNetB32, Net.nOutput] using g1, g2, ?_⟩
  intro k hk
  obtain ⟨a, a1, a2, a3⟩ := g3 k hk
  refine ⟨a, a1, a2, ?_⟩
  have e : Spec.network ((exNetB32.layers.map Layer.values).map (Layer.toSpec (noCustom ℝ)))
      (([ofReal false (1 / 2), ofReal false 1].take exNetB32.nInput).map B32.value) =
      Spec.network [⟨2, 2, [1 / 2, 1, 1 / 4, 1 / 2], [1, 1 / 2], List.map Real.tanh⟩, ⟨2, 1, [1, 1 / 2], [1 / 4], List.map Spec.sigmoid⟩] [1 / 2, 1] := by
    simp only [exNetB32, Net.nInput, Layer.values, Layer.toSpec, List.map_cons, List.map_nil,
      List.take_succ_cons, List.take_zero, h1.2, h2.2, h4.2]
    rfl
  rw [e] at a3
  refine a3.trans ?_
  norm_num [exNetB32, sum_range_succ]

end NN
