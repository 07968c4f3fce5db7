import Verif.Spec.Example02
import Verif.Proofs.TestSgd
import Verif.Proofs.Examples
/-
Lemmas about examples/example_02.c and examples/example_02b.c.
-/
set_option linter.unusedSimpArgs false

namespace NN.Example02
open FloatOps Trainer Spec.Example02
variable {F : Type} [FloatOps F]

/-- With one number, metrics look at one number. -/
theorem runMetric_head (m : Metric) {p q y : View F} (h : p.data.head? = q.data.head?) : runMetric m 1 p y = runMetric m 1 q y := by
  have e : p.load 0 = q.load 0 := by
    have : p.data[0]? = q.data[0]? := by simpa [List.head?_eq_getElem?] using h
    simp only [View.load, this]
  cases m <;> simp [runMetric, sumLoop, forN, argmaxLoop, stripLe, e, bind, Except.bind]

theorem activateF_one (env : CustomEnv F) (c : Cfg) (a b : ℕ) (l : List F) (hl : l.length = 1) :
    activateF env c .sigmoid a l = activateF env c .sigmoid b l := by
  have key : ∀ a i (x : F), sigmoidOp c a 1 i x = sigmoidS x := by
    intro a i x
    unfold sigmoidOp
    split
    · have h1 := bodyLo_le c a 1
      have : bodyHi (bodyLo c a 1) 16 1 = bodyLo c a 1 := by
        unfold bodyHi
        rw [Nat.div_eq_of_lt (by omega)]; omega
      rw [regionOp, this, if_neg (by omega)]
    · rfl
  simp only [activateF, applyTo, hl, key]

theorem netF_one (env : CustomEnv F) (c : Cfg) (a b : ℕ) : ∀ (ls : List (Layer F)) (x : List F) (last : Layer F),
    ls.getLast? = some last → last.WF c → last.nOut = 1 → last.act = .sigmoid → netF env c a ls x = netF env c b ls x
  | [], _, _, h, _, _, _ => by simp at h
  | [l], x, last, h, hw, h1, hs => by
    simp only [List.getLast?_singleton, Option.some.injEq] at h
    subst h
    simp only [netF, layerF, hs]
    exact activateF_one env c a b _ (by rw [vmmF_length _ _ _ _ _ _ (Nat.le_of_eq hw.bias_len.symm), h1])
  | l :: l' :: ls, x, last, h, hw, h1, hs => by
    simp only [netF]
    exact netF_one env c a b (l' :: ls) _ last (by simpa using h) hw h1 hs

theorem AlignedFor_one (c : Cfg) (a : ℕ) : AlignedFor c 1 a := ⟨by omega, by omega⟩

/-- A network with one sigmoid output. -/
structure OneSigmoid (c : Cfg) (nn : Net F) (k : ℕ) : Prop where
  wf : nn.WF c
  nIn : nn.nInput = k
  nOut : nn.nOutput = 1
  last : ∃ l, nn.layers.getLast? = some l ∧ l.act = .sigmoid

theorem OneSigmoid.predict_eq {env : CustomEnv F} {c : Cfg} {nn : Net F} {k : ℕ} (h : OneSigmoid c nn k) {work : ℕ} (hw : work % c.alignSize = 0)
    (junk : ℕ → F) (input out : View F) (hi : k ≤ input.data.length) (ho : 1 ≤ out.data.length) :
    predict env c work junk nn input out = .ok ⟨out.addr, netF env c 0 nn.layers (input.data.take k) ++ out.data.drop 1⟩ ∧
      (netF env c 0 nn.layers (input.data.take k)).length = 1 := by
  obtain ⟨l, hl, hs⟩ := h.last
  obtain ⟨last, hlast, hno, hlw⟩ := exists_last h.wf
  rw [hl] at hlast
  cases hlast
  have h1 := hno.symm.trans h.nOut
  rw [predict_netF env c work junk nn input out h.wf hw (by rw [h.nIn]; exact hi) (by rw [h.nOut]; exact ho) (by rw [h.nOut]; exact AlignedFor_one c _),
    h.nIn, h.nOut, netF_one env c out.addr 0 nn.layers _ l hl hlw h1 hs]
  exact ⟨rfl, (netF_length env c 0 nn.layers _ l hl h.wf.layer).trans h1⟩

omit [FloatOps F] in
theorem row_bounds {n k i : ℕ} {X : View F} (hX : n * k ≤ X.data.length) (hi : i < n) : k ≤ (X.offset (i * k)).data.length := by
  have h1 : (i + 1) * k ≤ n * k := Nat.mul_le_mul_right _ hi
  rw [Nat.succ_mul] at h1
  simp only [View.offset, List.length_drop]
  omega

theorem OneSigmoid.values {c : Cfg} {nn : Net F} {k : ℕ} (h : OneSigmoid c nn k) (env : CustomEnv F) {n : ℕ} {X Y : View F}
    (hX : n * k ≤ X.data.length) (hY : n ≤ Y.data.length) : ∃ val, Values env c nn k n X Y val := by
  have hval : ∀ m i, ∃ r, i < n → runMetric m 1 (⟨0, netF env c 0 nn.layers ((X.offset (i * k)).data.take k)⟩ : View F) (Y.offset i) = .ok r := by
    intro m i
    by_cases hi : i < n
    · have hl := (h.predict_eq (env := env) (work := 0) (Nat.zero_mod _) (fun _ => zero) (X.offset (i * k)) ⟨0, [zero]⟩ (row_bounds hX hi) (le_refl _)).2
      obtain ⟨r, hr⟩ := runMetric_ok m 1 (le_refl _) (⟨0, netF env c 0 nn.layers ((X.offset (i * k)).data.take k)⟩ : View F) (Y.offset i)
        (by simp only [hl]; exact le_refl _) (by simp only [View.offset, List.length_drop]; omega)
      exact ⟨r, fun _ => hr⟩
    · exact ⟨zero, fun h => absurd h hi⟩
  choose val hval using hval
  refine ⟨val, fun m i hi work junk out hw ho => ?_⟩
  obtain ⟨h1, h2⟩ := h.predict_eq (env := env) hw junk (X.offset (i * k)) out (row_bounds hX hi) ho
  refine ⟨_, h1, ?_⟩
  rw [← hval m i hi]
  refine runMetric_head m ?_
  revert h2
  cases netF env c 0 nn.layers ((X.offset (i * k)).data.take k) <;> simp

theorem evaluate_values {env : CustomEnv F} {c : Cfg} {nn : Net F} {k n : ℕ} {X Y : View F} {val : Metric → ℕ → F}
    (hv : Values env c nn k n X Y val) (hw : nn.WF c) (hi : nn.nInput = k) (ho : nn.nOutput = 1) {mem : ℕ → ThreadMem F} {sched : Sched}
    (hs : sched.Covers n) (ms : List Metric) (rest : List (Option Metric)) (results : View F)
    (hmem : ∀ i, (mem i).workAddr % c.alignSize = 0 ∧ (mem i).predAddr % c.alignSize = 0)
    (hX : n * k ≤ X.data.length) (hY : n ≤ Y.data.length) (hr : ms.length ≤ results.data.length) :
    evaluate env c mem sched nn n X Y (ms.map some ++ none :: rest) results =
      .ok ⟨results.addr, (ms.map fun m => div (add zero (Spec.treeSum (val m) sched)) (ofNat n)) ++ results.data.drop ms.length⟩ := by
  obtain ⟨preds, v, h1, h2, h3, h4⟩ := C68_sum env c mem sched nn n hs X Y ms rest results hw hmem (by rw [hi]; exact hX) (by rw [ho]; omega) hr
  rw [h4]
  have e : ∀ m, Spec.treeSum (v m) sched = Spec.treeSum (val m) sched := by
    intro m
    refine TestSgd.treeSum_congr sched fun i hi' => ?_
    have hin : i < n := by have := (hs.mem_iff).mp hi'; simpa using this
    have e1 := h1 i hin
    have e2 := h3 m i hin
    rw [hi] at e1
    rw [ho, Nat.mul_one] at e2
    rw [ho] at e1
    obtain ⟨ans, e3, e4⟩ := hv m i hin (mem i).workAddr (mem i).junk (stackArray (mem i).predAddr 1 (mem i).predJunk) (hmem i).1
      (by rw [stackArray_length])
    rw [e1] at e3
    cases e3
    rw [e2] at e4
    exact Except.ok.inj e4
  simp only [e]

theorem foldl_range_succ (v : ℕ → F) (n : ℕ) : inOrder v (n + 1) = add (inOrder v n) (v n) := by
  simp [inOrder, List.range_succ]

theorem local_values {env : CustomEnv F} {c : Cfg} {nn : Net F} {k n : ℕ} {X Y : View F} {val : Metric → ℕ → F}
    (hv : Values env c nn k n X Y val) (h : OneSigmoid c nn k) {workAddr : ℕ → ℕ} (junk : ℕ → ℕ → F) {order : List ℕ}
    (hwa : ∀ i, workAddr i % c.alignSize = 0) (hord : order.Perm (List.range n)) (predAddr : ℕ) (predJunk : ℕ → F) (ms : List Metric)
    (rest : List (Option Metric)) (results : View F) (hX : n * k ≤ X.data.length) (hr : ms.length ≤ results.data.length) :
    Examples.localEvaluate env c workAddr junk order predAddr predJunk nn n X Y (ms.map some ++ none :: rest) results =
      .ok ⟨results.addr, (ms.map fun m => div (inOrder (val m) n) (ofNat n)) ++ results.data.drop ms.length⟩ := by
  have hb := predictBatch_rows env c workAddr junk nn n X predAddr (stackArray predAddr (nn.nOutput * n) predJunk).data h.wf hwa
    (by rw [h.nOut]; omega) (by rw [h.nIn]; exact hX) (by rw [h.nOut]; simp [stackArray]) (fun i _ => by rw [h.nOut]; exact AlignedFor_one c _)
    order [] (fun i hi => by simpa using hord.mem_iff.1 hi)
  rw [List.append_nil] at hb
  have hnil : rowsF nn.nOutput (rowResult env c nn X predAddr) [] (stackArray predAddr (nn.nOutput * n) predJunk).data =
      (stackArray predAddr (nn.nOutput * n) predJunk).data := rowsF_nil _ _ _
  rw [hnil, show (⟨predAddr, (stackArray predAddr (nn.nOutput * n) predJunk).data⟩ : View F) = stackArray predAddr (nn.nOutput * n) predJunk from rfl,
    rowsF_full nn.nOutput n (by rw [h.nOut]; omega) _ (fun i _ => rowResult_length env c nn h.wf X predAddr i) order.reverse
      (by intro i; rw [List.mem_reverse, hord.mem_iff, List.mem_range]) _ (by rw [h.nOut]; simp [stackArray])] at hb
  rw [h.nOut, Nat.mul_one] at hb
  unfold Examples.localEvaluate
  simp only [metricList_eq, bind, Except.bind, h.nOut, hb, Nat.mul_one]
  have hlen := fun i => (rowResult_length env c nn h.wf X predAddr i).trans h.nOut
  have hsing : ∀ i, ∃ a, rowResult env c nn X predAddr i = [a] := fun i => List.length_eq_one_iff.1 (hlen i)
  choose a ha using hsing
  have hflat : ((List.range n).map (rowResult env c nn X predAddr)).flatten = (List.range n).map a := by
    rw [show rowResult env c nn X predAddr = fun i => [a i] from funext ha, ← List.flatMap_def, ← List.map_eq_flatMap]
  have hdrop : (stackArray predAddr (1 * n) predJunk : View F).data.drop n = [] := by
    rw [List.drop_of_length_le]; simp [stackArray]
  rw [hflat, hdrop, List.append_nil]
  have hf := forN_eq (n := n) (body := fun i res =>
    accMetrics 1 ((⟨predAddr, (List.range n).map a⟩ : View F).offset i) (Y.offset i) ms res)
    (fun j => ms.map fun m => inOrder (val m) j) ?_
  · have hz : (ms.map fun _ => (zero : F)) = ms.map fun m => inOrder (val m) 0 := rfl
    rw [hz, hf]
    simp only []
    rw [writeResults n ms.length _ (by simp) results hr, List.map_map]
    rfl
  · intro i hi
    rw [accMetrics_vals 1 _ _ (fun m => val m i) ms _ ?_ (by simp), List.zipWith_map, List.zipWith_self]
    · simp only [foldl_range_succ]
    · intro m _
      obtain ⟨ans, e1, e2⟩ := hv m i hi 0 (fun _ => zero) ⟨predAddr + 4 * (i * nn.nOutput), [zero]⟩ (Nat.zero_mod _) (le_refl _)
      rw [predict_netF env c 0 _ nn _ _ h.wf (Nat.zero_mod _) (by rw [h.nIn]; exact row_bounds hX hi) (by rw [h.nOut]; exact le_refl _)
        (by rw [h.nOut]; exact AlignedFor_one c _)] at e1
      rw [← e2]
      refine runMetric_head m ?_
      have e3 : rowResult env c nn X predAddr i = netF env c (predAddr + 4 * (i * nn.nOutput)) nn.layers
          (List.take nn.nInput (X.offset (i * k)).data) := by rw [← h.nIn]; rfl
      rw [← Except.ok.inj e1, ← e3, ha]
      simp [View.offset, hi]

end NN.Example02
