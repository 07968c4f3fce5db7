import Verif.Model.BatchBlas
import Verif.Proofs.Batch
import Verif.Proofs.Gradient
/-
The BLAS version of batch prediction refines the row by row network function.
-/
set_option linter.unusedSimpArgs false
set_option linter.unusedSectionVars false

namespace NN
open FloatOps Spec

/-! ### Matrices as concatenated rows -/
section
variable {F : Type}

/-- `n` rows. -/
def mat (n : ℕ) (row : ℕ → List F) : List F := ((List.range n).map row).flatten

theorem mat_succ (n : ℕ) (row : ℕ → List F) : mat (n + 1) row = mat n row ++ row n := by
  simp [mat, List.range_succ]

theorem mat_length (n m : ℕ) (row : ℕ → List F) (h : ∀ i < n, (row i).length = m) :
    (mat n row).length = n * m := by
  induction n with
  | zero => simp [mat]
  | succ n ih =>
    rw [mat_succ, List.length_append, ih (fun i hi => h i (by omega)), h n (by omega), Nat.succ_mul]

theorem mat_congr (n : ℕ) (r r' : ℕ → List F) (h : ∀ i < n, r i = r' i) : mat n r = mat n r' := by
  unfold mat
  congr 1
  exact List.map_congr_left fun i hi => h i (by simpa using hi)

theorem mat_slice (n m : ℕ) (row : ℕ → List F) (h : ∀ i < n, (row i).length = m) (i : ℕ) (hi : i < n)
    (rest : List F) : slice (mat n row ++ rest) (i * m) m = row i := by
  induction n generalizing rest with
  | zero => omega
  | succ n ih =>
    rw [mat_succ, List.append_assoc]
    by_cases hin : i < n
    · exact ih (fun i hi => h i (by omega)) hin _
    · have : i = n := by omega
      subst this
      unfold slice
      rw [List.drop_left' (mat_length i m row fun j hj => h j (by omega)),
        List.take_left' (h i (by omega))]

theorem mat_split (a b : ℕ) (row : ℕ → List F) :
    mat (a + b) row = mat a row ++ mat b (fun i => row (a + i)) := by
  induction b with
  | zero => simp [mat]
  | succ b ih => rw [← Nat.add_assoc, mat_succ, ih, mat_succ, List.append_assoc]

theorem mat_map (n : ℕ) (row : ℕ → List F) (f : F → F) :
    (mat n row).map f = mat n fun i => (row i).map f := by
  simp [mat, List.map_flatten]
  rfl

/-- A loop whose iteration `j` works on the rest of the buffer from row `j` on and replaces that row. -/
theorem rowLoop (m n : ℕ) (g : ℕ → View F → M (View F)) (y : View F) (row : ℕ → List F)
    (hr : ∀ i < n, (row i).length = m) (_hl : n * m ≤ y.data.length)
    (hg : ∀ j < n, ∃ a, g j (⟨y.addr + 4 * (j * m), y.data.drop (j * m)⟩ : View F) =
      .ok ⟨a, row j ++ y.data.drop ((j + 1) * m)⟩) :
    forN n (fun j (y : View F) => do
      let v ← g j (y.offset (j * m))
      pure (putGrad y (j * m) v)) y = .ok ⟨y.addr, mat n row ++ y.data.drop (n * m)⟩ := by
  have h := forN_eq (n := n) (body := fun j (y : View F) => do
      let v ← g j (y.offset (j * m))
      pure (putGrad y (j * m) v))
    (fun j => (⟨y.addr, mat j row ++ y.data.drop (j * m)⟩ : View F)) (fun j hj => by
      obtain ⟨a, ha⟩ := hg j hj
      have hml := mat_length j m row fun i hi => hr i (by omega)
      simp only [View.offset, List.drop_left' hml, ha, bind, Except.bind, pure, Except.pure, putGrad,
        List.take_left' hml, mat_succ, List.append_assoc])
  simpa [mat] using h
end

/-! ### One layer -/
namespace Blas

theorem at_mat (n m : ℕ) (row : ℕ → List ℝ) (h : ∀ i < n, (row i).length = m) (i j : ℕ) (hi : i < n)
    (hj : j < m) (rest : List ℝ) : at_ (mat n row ++ rest) (i * m + j) = at_ (row i) j := by
  rw [← mat_slice n m row h i hi rest, slice, at_take hj, at_drop]

theorem map_range_mat (n m : ℕ) (f : ℕ → ℝ) :
    (List.range (n * m)).map f = mat n fun i => (List.range m).map fun k => f (i * m + k) := by
  induction n with
  | zero => simp [mat]
  | succ n ih =>
    rw [mat_succ, ← ih, Nat.succ_mul, List.range_add, List.map_append, List.map_map]
    rfl

theorem sgemm_rows (l : Layer ℝ) (n : ℕ) (hm : 0 < l.nOut) (row : ℕ → List ℝ)
    (hr : ∀ i < n, (row i).length = l.nIn) (vx vy : View ℝ) (hW : l.nIn * l.nOut ≤ l.weight.data.length)
    (hb : l.bias.data.length = l.nOut) (hx : vx.data.take (n * l.nIn) = mat n row)
    (hy : vy.data.take (n * l.nOut) = mat n fun _ => l.bias.data) :
    sgemm n l.nOut l.nIn vx l.weight vy =
      .ok ⟨vy.addr, mat n (fun i => Spec.affine l.nIn l.nOut l.weight.data l.bias.data (row i)) ++
        vy.data.drop (n * l.nOut)⟩ := by
  have hxl := congrArg List.length hx
  have hyl := congrArg List.length hy
  rw [mat_length n l.nIn row hr, List.length_take] at hxl
  rw [mat_length n l.nOut _ (fun _ _ => hb), List.length_take] at hyl
  unfold sgemm
  rw [if_pos ⟨by omega, hW, by omega⟩, map_range_mat]
  congr 3
  refine mat_congr _ _ _ fun i hi => ?_
  unfold Spec.affine
  refine List.map_congr_left fun k hk => ?_
  have hk' : k < l.nOut := by simpa using hk
  have hdiv : (i * l.nOut + k) / l.nOut = i := by
    rw [Nat.mul_comm, Nat.mul_add_div hm, Nat.div_eq_of_lt hk', Nat.add_zero]
  have hmod : (i * l.nOut + k) % l.nOut = k := by
    rw [Nat.mul_comm, Nat.mul_add_mod, Nat.mod_eq_of_lt hk']
  rw [hdiv, hmod, add_comm]
  have e1 : ∀ j < l.nIn, at_ vx.data (i * l.nIn + j) = at_ (row i) j := by
    intro j hj
    have : i * l.nIn + j < n * l.nIn := by
      have : (i + 1) * l.nIn ≤ n * l.nIn := Nat.mul_le_mul_right _ hi
      rw [Nat.succ_mul] at this; omega
    rw [← at_take this, hx, ← List.append_nil (mat n row), at_mat n l.nIn row hr i j hi hj]
  have e2 : at_ vy.data (i * l.nOut + k) = at_ l.bias.data k := by
    have : i * l.nOut + k < n * l.nOut := by
      have : (i + 1) * l.nOut ≤ n * l.nOut := Nat.mul_le_mul_right _ hi
      rw [Nat.succ_mul] at this; omega
    rw [← at_take this, hy, ← List.append_nil (mat n _), at_mat n l.nOut _ (fun _ _ => hb) i k hi hk']
  rw [e2]
  congr 1
  exact Finset.sum_congr rfl fun j hj => by rw [e1 j (by simpa using hj)]

/-- The activation can be applied to all rows at once, or it is softmax (applied row by row). -/
def RowWise (env : CustomEnv ℝ) (a : Act) : Prop :=
  a = .softmax ∨ ∃ f : ℝ → ℝ, actSpec env a = List.map f

theorem rowWise_of (env : CustomEnv ℝ) (a : Act)
    (h : ∀ i, a = .custom i → ∃ f : ℝ → ℝ, env.act i = List.map f) : RowWise env a := by
  cases a with
  | softmax => exact Or.inl rfl
  | custom i => exact Or.inr (h i rfl)
  | linear => exact Or.inr ⟨id, by funext l; simp [actSpec]⟩
  | relu => exact Or.inr ⟨_, rfl⟩
  | sigmoid => exact Or.inr ⟨_, rfl⟩
  | tanh => exact Or.inr ⟨_, rfl⟩
  | exponential => exact Or.inr ⟨_, rfl⟩
  | softplus => exact Or.inr ⟨_, rfl⟩
  | softsign => exact Or.inr ⟨_, rfl⟩
  | hardSigmoid => exact Or.inr ⟨_, rfl⟩

theorem activateRows_eq (env : CustomEnv ℝ) (c : Cfg) (n : ℕ) (l : Layer ℝ) (ho : 1 ≤ l.nOut)
    (hrw : RowWise env l.act) (row : ℕ → List ℝ) (hr : ∀ i < n, (row i).length = l.nOut) (y : View ℝ)
    (rest : List ℝ) (hy : y.data = mat n row ++ rest)
    (ht : l.act = .tanh → c.hasAvx2 = true → 16 ≤ l.nOut * n → y.addr % 32 = 0) :
    activateRows env c n l y = .ok ⟨y.addr, mat n (fun i => actSpec env l.act (row i)) ++ rest⟩ := by
  have hml := mat_length n l.nOut row hr
  have hlen : n * l.nOut ≤ y.data.length := by rw [hy]; simp [hml]
  unfold activateRows
  split
  · rename_i hs
    rw [rowLoop l.nOut n (fun _ v => activate env c l.act l.nOut v) y (fun i => actSpec env l.act (row i))
      (fun i hi => by rw [actSpec_length, hr i hi]) hlen (fun j hj => by
        have h1 : (j + 1) * l.nOut ≤ n * l.nOut := Nat.mul_le_mul_right _ hj
        refine ⟨y.addr + 4 * (j * l.nOut), ?_⟩
        rw [activate_eq' env c l.act l.nOut _ (fun _ => ho) (by
            simp only [List.length_drop]; rw [Nat.succ_mul] at h1; omega)
          (by intro h; rw [hs] at h; cases h)]
        simp only [activateF_real, List.drop_drop, Nat.succ_mul]
        congr 3
        have := mat_slice n l.nOut row hr j hj rest
        rw [← hy] at this
        rw [← this]; rfl)]
    rw [hy, List.drop_left' hml]
  · rename_i hs
    obtain ⟨f, hf⟩ := hrw.resolve_left hs
    rw [Nat.mul_comm] at ht ⊢
    rw [activate_eq' env c l.act (n * l.nOut) y (fun h => absurd h hs) hlen ht, activateF_real, hy,
      List.take_left' hml, List.drop_left' hml, hf, mat_map]

/-- One layer on destination and source views. -/
theorem layerRows (env : CustomEnv ℝ) (c : Cfg) (n : ℕ) (l : Layer ℝ) (hw : l.WF c)
    (hrw : RowWise env l.act) (row : ℕ → List ℝ) (hr : ∀ i < n, (row i).length = l.nIn)
    (vx vy : View ℝ) (hx : vx.data.take (n * l.nIn) = mat n row)
    (hy : vy.data.take (n * l.nOut) = mat n fun _ => l.bias.data)
    (ht : l.act = .tanh → c.hasAvx2 = true → 16 ≤ l.nOut * n → vy.addr % 32 = 0) :
    (do
      let y ← sgemm n l.nOut l.nIn vx l.weight vy
      activateRows env c n l y : M (View ℝ)) =
      .ok ⟨vy.addr, mat n (fun i => (l.toSpec env).apply (row i)) ++ vy.data.drop (n * l.nOut)⟩ := by
  rw [sgemm_rows l n hw.out_pos row hr vx vy hw.weight_len.ge hw.bias_len hx hy]
  simp only [bind, Except.bind]
  exact activateRows_eq env c n l hw.out_pos hrw
    (fun i => Spec.affine l.nIn l.nOut l.weight.data l.bias.data (row i))
    (fun i _ => by simp [Spec.affine]) ⟨vy.addr, _⟩ _ rfl ht

theorem apply_length (env : CustomEnv ℝ) (l : Layer ℝ) (x : List ℝ) :
    ((l.toSpec env).apply x).length = l.nOut := by
  simp [Spec.Layer.apply, Layer.toSpec, actSpec_length, Spec.affine]

/-! ### The loops over the layers -/

/-- Buffers of the hidden layers: increasing and inside the work memory of length `len`. -/
def Laid (n len : ℕ) : ℕ → List (Layer ℝ) → List ℕ → Prop
  | _, [], [] => True
  | lo, l :: ls, o :: os => lo ≤ o ∧ o + n * l.nOut ≤ len ∧ Laid n len (o + n * l.nOut) ls os
  | _, _, _ => False

theorem laid_offsets (n len : ℕ) (ls : List (Layer ℝ)) (lo : ℕ) (h : lo + workSize ls * n ≤ len) :
    Laid n len lo ls (offsets n lo ls) := by
  induction ls generalizing lo with
  | nil => trivial
  | cons l ls ih =>
    simp only [workSize, List.map_cons, List.sum_cons, Nat.add_mul] at h ih
    refine ⟨Nat.le_refl _, by rw [Nat.mul_comm n]; omega, ?_⟩
    rw [Nat.mul_comm n]
    exact ih (lo + l.nOut * n) (by omega)

/-- The biases have been copied. -/
def Filled (n : ℕ) (w : List ℝ) : List (Layer ℝ) → List ℕ → Prop
  | l :: ls, o :: os => slice w o (n * l.nOut) = mat n (fun _ => l.bias.data) ∧ Filled n w ls os
  | _, _ => True

theorem slice_setSlice_above {α : Type} (l : List α) (i n o : ℕ) (xs : List α)
    (h : i + xs.length ≤ l.length) (ho : i + xs.length ≤ o) : slice (setSlice l i xs) o n = slice l o n := by
  apply List.ext_getElem?; intro k
  rw [slice_getElem?, slice_getElem?]
  by_cases hk : k < n
  · rw [if_pos hk, if_pos hk, setSlice_getElem? _ _ _ h, if_neg (by omega)]
  · simp [hk]

theorem Filled.of_above (n : ℕ) (w w' : List ℝ) (len : ℕ) :
    ∀ (ls : List (Layer ℝ)) (os : List ℕ) (lo : ℕ), Laid n len lo ls os → Filled n w ls os →
      (∀ o k, lo ≤ o → slice w' o k = slice w o k) → Filled n w' ls os
  | [], _, _, _, _, _ => by simp [Filled]
  | l :: ls, [], _, h, _, _ => h.elim
  | l :: ls, o :: os, lo, h, hf, hs => by
    refine ⟨by rw [hs o _ h.1]; exact hf.1, ?_⟩
    exact Filled.of_above n w w' len ls os _ h.2.2 hf.2 (fun o' k ho' => hs o' k (by have := h.1; omega))

theorem fillBias_eq (n : ℕ) (l : Layer ℝ) (hb : l.bias.data.length = l.nOut) (y : View ℝ)
    (hy : n * l.nOut ≤ y.data.length) :
    fillBias n l y = .ok ⟨y.addr, mat n (fun _ => l.bias.data) ++ y.data.drop (n * l.nOut)⟩ := by
  unfold fillBias
  exact rowLoop l.nOut n (fun _ v => memcpyF v l.bias l.nOut) y (fun _ => l.bias.data) (fun _ _ => hb) hy
    (fun j hj => by
      have h1 : (j + 1) * l.nOut ≤ n * l.nOut := Nat.mul_le_mul_right _ hj
      rw [Nat.succ_mul] at h1
      refine ⟨y.addr + 4 * (j * l.nOut), ?_⟩
      unfold memcpyF
      rw [if_pos ⟨by simp only [List.length_drop]; omega, by omega⟩]
      simp only [List.drop_drop, Nat.succ_mul, List.take_of_length_le hb.le])

theorem fillAll_eq (c : Cfg) (n len : ℕ) :
    ∀ (ls : List (Layer ℝ)) (os : List ℕ) (lo : ℕ) (s : Bufs ℝ) (last : Layer ℝ),
      ls.getLast? = some last → (∀ l ∈ ls, l.WF c) → s.work.data.length = len →
      Laid n len lo ls.dropLast os → n * last.nOut ≤ s.out.data.length →
      ∃ w, fillAll n ls (os.map .work ++ [.out]) s =
          .ok ⟨s.input, ⟨s.work.addr, w⟩, ⟨s.out.addr, mat n (fun _ => last.bias.data) ++
            s.out.data.drop (n * last.nOut)⟩⟩ ∧
        w.length = len ∧ Filled n w ls.dropLast os ∧ (∀ o k, o + k ≤ lo → slice w o k = slice s.work.data o k)
  | [], _, _, _, _, h, _, _, _, _ => by simp at h
  | [l], os, lo, s, last, h, hw, hlen, hl, ho => by
    simp at h; subst h
    cases os with
    | cons o os => simp [Laid] at hl
    | nil =>
      simp only [List.map_nil, List.nil_append, fillAll, Bufs.at]
      rw [fillBias_eq n l (hw l (by simp)).bias_len _ ho]
      exact ⟨s.work.data, rfl, hlen, trivial, fun _ _ _ => rfl⟩
  | l :: l' :: ls, os, lo, s, last, h, hw, hlen, hl, ho => by
    cases os with
    | nil => simp [Laid] at hl
    | cons o os =>
      simp only [List.dropLast_cons_cons, Laid] at hl
      obtain ⟨h1, h2, h3⟩ := hl
      have hb := (hw l (by simp)).bias_len
      have hml := mat_length n l.nOut (fun _ => l.bias.data) (fun _ _ => hb)
      simp only [List.map_cons, List.cons_append, fillAll]
      rw [fillBias_eq n l hb _ (by simp [Bufs.at, View.offset]; omega)]
      simp only [bind, Except.bind, Bufs.put, Bufs.at, View.offset]
      have hset := setSlice_eq_take_drop s.work.data o (mat n fun _ => l.bias.data)
      rw [hml] at hset
      rw [hset]
      have hbound : o + (mat n fun _ => l.bias.data).length ≤ s.work.data.length := by rw [hml]; omega
      obtain ⟨w, e, hwl, hf, hbl⟩ := fillAll_eq c n len (l' :: ls) os (o + n * l.nOut)
        ⟨s.input, ⟨s.work.addr, setSlice s.work.data o (mat n fun _ => l.bias.data)⟩, s.out⟩ last
        (by simpa using h) (fun m hm => hw m (by simp [List.mem_cons.mp hm]))
        (by simp only; rw [setSlice_length _ _ _ hbound, hlen]) h3 ho
      refine ⟨w, e, hwl, ⟨?_, hf⟩, ?_⟩
      · rw [hbl o _ (Nat.le_refl _)]
        have := setSlice_self s.work.data o (mat n fun _ => l.bias.data) hbound
        rw [hml] at this
        exact this
      · intro o' k hk
        rw [hbl o' k (by omega)]
        exact slice_setSlice_below _ _ _ _ _ hbound (by omega)

theorem stepB_work (env : CustomEnv ℝ) (c : Cfg) (n : ℕ) (l : Layer ℝ) (hw : l.WF c)
    (hrw : RowWise env l.act) (src : Ptr) (o lo : ℕ) (s : Bufs ℝ) (row : ℕ → List ℝ)
    (hr : ∀ i < n, (row i).length = l.nIn)
    (hs : SrcOk s src (n * l.nIn) (mat n row) lo) (hlo : lo ≤ o)
    (hf : slice s.work.data o (n * l.nOut) = mat n fun _ => l.bias.data)
    (ht : l.act = .tanh → c.hasAvx2 = true → 16 ≤ l.nOut * n → (s.work.addr + 4 * o) % 32 = 0) :
    stepB env c n l src (.work o) s = .ok { s with work := ⟨s.work.addr,
        setSlice s.work.data o (mat n fun i => (l.toSpec env).apply (row i))⟩ } := by
  have hov : overlaps src (n * l.nIn) (.work o) (n * l.nOut) = false := by
    have hb := hs.below
    cases src with
    | input => rfl
    | out => rfl
    | work a =>
      simp only [overlaps, decide_eq_false_iff_not]
      simp only at hb
      by_cases hn : n = 0
      · subst hn; omega
      · have : 1 ≤ n * l.nIn := Nat.mul_pos (by omega) hw.in_pos
        omega
  unfold stepB
  rw [hov]
  have h := layerRows env c n l hw hrw row hr (s.at src) (s.at (.work o)) hs.val
    (by simpa [Bufs.at, View.offset, slice] using hf) (by simpa [Bufs.at, View.offset] using ht)
  have hlen := mat_length n l.nOut (fun i => (l.toSpec env).apply (row i)) (fun i _ => apply_length env l _)
  simp only [Bool.false_eq_true, if_false, bind, Except.bind] at h ⊢
  split at h
  · exact absurd h (by simp)
  · simp only [h]
    simp only [pure, Except.pure, Bufs.put, Bufs.at, View.offset]
    have := setSlice_eq_take_drop s.work.data o (mat n fun i => (l.toSpec env).apply (row i))
    rw [hlen] at this
    rw [this]

theorem stepB_out (env : CustomEnv ℝ) (c : Cfg) (n : ℕ) (l : Layer ℝ) (hw : l.WF c)
    (hrw : RowWise env l.act) (src : Ptr) (lo : ℕ) (s : Bufs ℝ) (row : ℕ → List ℝ)
    (hr : ∀ i < n, (row i).length = l.nIn)
    (hs : SrcOk s src (n * l.nIn) (mat n row) lo)
    (hf : s.out.data.take (n * l.nOut) = mat n fun _ => l.bias.data)
    (ht : l.act = .tanh → c.hasAvx2 = true → 16 ≤ l.nOut * n → s.out.addr % 32 = 0) :
    stepB env c n l src .out s = .ok { s with out := ⟨s.out.addr,
        mat n (fun i => (l.toSpec env).apply (row i)) ++ s.out.data.drop (n * l.nOut)⟩ } := by
  have hov : overlaps src (n * l.nIn) .out (n * l.nOut) = false := by
    have hb := hs.below
    cases src with
    | input => rfl
    | out => exact hb.elim
    | work a => rfl
  unfold stepB
  rw [hov]
  have h := layerRows env c n l hw hrw row hr (s.at src) (s.at .out) hs.val hf ht
  simp only [Bool.false_eq_true, if_false, bind, Except.bind] at h ⊢
  split at h
  · exact absurd h (by simp)
  · simp only [h]
    rfl

theorem forwardB_eq (env : CustomEnv ℝ) (c : Cfg) (n len : ℕ) :
    ∀ (ls : List (Layer ℝ)) (os : List ℕ) (src : Ptr) (lo : ℕ) (s : Bufs ℝ) (row : ℕ → List ℝ)
      (last : Layer ℝ), ls.getLast? = some last → (∀ l ∈ ls, l.WF c) →
      (∀ l ∈ ls, RowWise env l.act) →
      (∀ l ∈ ls, l.act = .tanh → c.hasAvx2 = true → l.nOut * n < 16) → Chained ls →
      s.work.data.length = len → Laid n len lo ls.dropLast os → Filled n s.work.data ls.dropLast os →
      (∀ l, ls.head? = some l → SrcOk s src (n * l.nIn) (mat n row) lo ∧ ∀ i < n, (row i).length = l.nIn) →
      s.out.data.take (n * last.nOut) = mat n (fun _ => last.bias.data) →
      ∃ w, forwardB env c n ls src (os.map .work ++ [.out]) s = .ok ⟨s.input, w, ⟨s.out.addr,
        mat n (fun i => Spec.network (ls.map (Layer.toSpec env)) (row i)) ++
          s.out.data.drop (n * last.nOut)⟩⟩
  | [], _, _, _, _, _, _, h, _, _, _, _, _, _, _, _, _ => by simp at h
  | [l], os, src, lo, s, row, last, h, hw, hrw, ht, hc, hlen, hl, hf, hs, ho => by
    simp at h; subst h
    cases os with
    | cons o os => simp [Laid] at hl
    | nil =>
      have := stepB_out env c n l (hw l (by simp)) (hrw l (by simp)) src lo s row (hs l rfl).2 (hs l rfl).1 ho
        (fun h1 h2 h3 => by have := ht l (by simp) h1 h2; omega)
      simp only [List.map_nil, List.nil_append, forwardB, this, bind, Except.bind, pure, Except.pure]
      exact ⟨s.work, rfl⟩
  | l :: l' :: ls, os, src, lo, s, row, last, h, hw, hrw, ht, hc, hlen, hl, hf, hs, ho => by
    cases os with
    | nil => simp [Laid] at hl
    | cons o os =>
      simp only [List.dropLast_cons_cons, Laid, Filled] at hl hf
      obtain ⟨h1, h2, h3⟩ := hl
      obtain ⟨hf1, hf2⟩ := hf
      have hwl := hw l (by simp)
      have step := stepB_work env c n l hwl (hrw l (by simp)) src o lo s row (hs l rfl).2 (hs l rfl).1 h1 hf1
        (fun h1 h2 h3 => by have := ht l (by simp) h1 h2; omega)
      have hll := mat_length n l.nOut (fun i => (l.toSpec env).apply (row i))
        (fun i _ => apply_length env l (row i))
      simp only [List.map_cons, List.cons_append, forwardB, step, bind, Except.bind]
      have hbound : o + (mat n fun i => (l.toSpec env).apply (row i)).length ≤ s.work.data.length := by
        rw [hll]; omega
      have hafter := SrcOk.after (s := s) (o := o) (a := mat n fun i => (l.toSpec env).apply (row i)) hbound
      rw [hll] at hafter
      have hlen' := setSlice_length s.work.data o (mat n fun i => (l.toSpec env).apply (row i)) hbound
      obtain ⟨w, e⟩ := forwardB_eq env c n len (l' :: ls) os (.work o) (o + n * l.nOut)
        { s with work := ⟨s.work.addr, setSlice s.work.data o (mat n fun i => (l.toSpec env).apply (row i))⟩ }
        (fun i => (l.toSpec env).apply (row i)) last (by simpa using h)
        (fun m hm => hw m (by simp [List.mem_cons.mp hm]))
        (fun m hm => hrw m (by simp [List.mem_cons.mp hm]))
        (fun m hm => ht m (by simp [List.mem_cons.mp hm]))
        hc.2 (by simp only; rw [hlen', hlen]) h3
        (Filled.of_above n s.work.data _ len _ _ _ h3 hf2 (fun o' k ho' =>
          slice_setSlice_above _ _ _ _ _ hbound (by rw [hll]; exact ho')))
        (fun m hm => by
          simp at hm; subst hm
          rw [← hc.1]
          exact ⟨hafter, fun i _ => apply_length env l (row i)⟩) ho
      refine ⟨w, ?_⟩
      rw [e]
      rfl

/-- The hypotheses under which the batch computation is right. -/
structure BatchOk (env : CustomEnv ℝ) (c : Cfg) (nn : Net ℝ) (n : ℕ) : Prop where
  wf : nn.WF c
  rows : ∀ l ∈ nn.layers, RowWise env l.act
  tanh : ∀ l ∈ nn.layers, l.act = .tanh → c.hasAvx2 = true → l.nOut * n < 16

theorem BatchOk.mono {env : CustomEnv ℝ} {c : Cfg} {nn : Net ℝ} {n m : ℕ} (h : BatchOk env c nn n)
    (hm : m ≤ n) : BatchOk env c nn m :=
  ⟨h.wf, h.rows, fun l hl h1 h2 => Nat.lt_of_le_of_lt (Nat.mul_le_mul_left _ hm) (h.tanh l hl h1 h2)⟩

theorem network_length (env : CustomEnv ℝ) (c : Cfg) (nn : Net ℝ) (hw : nn.WF c) (x : List ℝ) :
    (Spec.network (nn.layers.map (Layer.toSpec env)) x).length = nn.nOutput := by
  obtain ⟨last, hlast, hno, -⟩ := exists_last hw
  rw [hno]
  generalize nn.layers = ls at hlast
  induction ls generalizing x with
  | nil => simp at hlast
  | cons l ls ih =>
    cases ls with
    | nil => simp at hlast; subst hlast; exact apply_length env l x
    | cons l' ls => exact ih _ (by simpa using hlast)

/-- Row `i` of the input through the network. -/
noncomputable def netRow (env : CustomEnv ℝ) (nn : Net ℝ) (X : List ℝ) (i : ℕ) : List ℝ :=
  Spec.network (nn.layers.map (Layer.toSpec env)) (slice X (i * nn.nInput) nn.nInput)

theorem netRow_length (env : CustomEnv ℝ) (c : Cfg) (nn : Net ℝ) (hw : nn.WF c) (X : List ℝ) (i : ℕ) :
    (netRow env nn X i).length = nn.nOutput := network_length env c nn hw _

theorem take_eq_mat {α : Type} (l : List α) (n m : ℕ) (h : n * m ≤ l.length) :
    l.take (n * m) = mat n fun i => slice l (i * m) m := by
  induction n with
  | zero => simp [mat]
  | succ n ih =>
    rw [Nat.succ_mul] at h
    rw [mat_succ, ← ih (by omega), Nat.succ_mul, List.take_add]
    rfl

theorem batchBase_eq (env : CustomEnv ℝ) (c : Cfg) (N workAddr : ℕ) (junk : ℕ → ℝ) (nn : Net ℝ) (n : ℕ)
    (hok : BatchOk env c nn n) (input out : View ℝ) (hN : workSize nn.layers * n ≤ N)
    (hin : n * nn.nInput ≤ input.data.length) (hout : n * nn.nOutput ≤ out.data.length) :
    batchBase env c N workAddr junk nn n input out =
      .ok ⟨out.addr, mat n (netRow env nn input.data) ++ out.data.drop (n * nn.nOutput)⟩ := by
  obtain ⟨last, hlast, hno, hlw⟩ := exists_last hok.wf
  have hlaid := laid_offsets n N nn.layers.dropLast 0 (by
    have := Nat.mul_le_mul_right n (workSize_dropLast_le nn.layers)
    omega)
  rw [hno] at hout ⊢
  obtain ⟨w, e, hwl, hf, -⟩ := fillAll_eq c n N nn.layers (offsets n 0 nn.layers.dropLast) 0
    ⟨input, stackArray workAddr N junk, out⟩ last hlast hok.wf.layer (stackArray_length _ _ _) hlaid hout
  have hml := mat_length n last.nOut (fun _ => last.bias.data) (fun _ _ => hlw.bias_len)
  obtain ⟨w', e'⟩ := forwardB_eq env c n N nn.layers (offsets n 0 nn.layers.dropLast) .input 0
    ⟨input, ⟨workAddr, w⟩, ⟨out.addr, mat n (fun _ => last.bias.data) ++ out.data.drop (n * last.nOut)⟩⟩
    (fun i => slice input.data (i * nn.nInput) nn.nInput) last hlast hok.wf.layer hok.rows hok.tanh
    hok.wf.chain hwl hlaid hf
    (fun l hl => by
      rw [Net.nInput_eq hl] at hin ⊢
      have hrow : ∀ i < n, (slice input.data (i * l.nIn) l.nIn).length = l.nIn := by
        intro i hi
        have : (i + 1) * l.nIn ≤ n * l.nIn := Nat.mul_le_mul_right _ hi
        rw [Nat.succ_mul] at this
        simp [slice]; omega
      exact ⟨⟨take_eq_mat _ _ _ hin, mat_length n l.nIn _ hrow, trivial⟩, hrow⟩)
    (List.take_left' hml)
  unfold batchBase
  simp only [e, bind, Except.bind]
  simp only [stackArray, e', pure, Except.pure, List.drop_left' hml]
  rfl

/-- The whole recursion. -/
theorem predictBatch_eq (env : CustomEnv ℝ) (c : Cfg) (N : ℕ) (workAddr : ℕ → ℕ → ℕ)
    (junk : ℕ → ℕ → ℕ → ℝ) (nn : Net ℝ) (hN : workSize nn.layers ≤ N) :
    ∀ (fuel start n : ℕ) (input out : View ℝ), BatchOk env c nn n → workSize nn.layers * n ≤ intMax →
      n + 1 ≤ fuel → n * nn.nInput ≤ input.data.length → n * nn.nOutput ≤ out.data.length →
      predictBatch env c N workAddr junk nn fuel start n input out =
        .ok ⟨out.addr, mat n (netRow env nn input.data) ++ out.data.drop (n * nn.nOutput)⟩
  | 0, _, _, _, _, _, _, hf, _, _ => by omega
  | fuel + 1, start, n, input, out, hok, hov, hf, hin, hout => by
    unfold predictBatch
    rw [if_neg (by omega)]
    split
    · rename_i hlt
      have hn2 : 2 ≤ n := by
        by_contra hcon
        have : n ≤ 1 := by omega
        have := Nat.mul_le_mul_left (workSize nn.layers) this
        omega
      set h := n / 2 with hh
      have hsplit : h + (n - h) = n := by omega
      have hov1 : workSize nn.layers * h ≤ intMax :=
        Nat.le_trans (Nat.mul_le_mul_left _ (by omega)) hov
      have hov2 : workSize nn.layers * (n - h) ≤ intMax :=
        Nat.le_trans (Nat.mul_le_mul_left _ (by omega)) hov
      have hin' : h * nn.nInput + (n - h) * nn.nInput = n * nn.nInput := by rw [← Nat.add_mul, hsplit]
      have hout' : h * nn.nOutput + (n - h) * nn.nOutput = n * nn.nOutput := by rw [← Nat.add_mul, hsplit]
      rw [predictBatch_eq env c N workAddr junk nn hN fuel start h input out (hok.mono (by omega)) hov1
        (by omega) (by omega) (by omega)]
      have hml := mat_length h nn.nOutput (netRow env nn input.data)
        (fun i _ => netRow_length env c nn hok.wf _ i)
      simp only [bind, Except.bind, View.offset, List.drop_left' hml]
      rw [predictBatch_eq env c N workAddr junk nn hN fuel (start + h) (n - h) _ _ (hok.mono (by omega)) hov2
        (by omega) (by simp only [List.length_drop]; omega)
        (by simp only [List.length_drop]; omega)]
      simp only [pure, Except.pure, putGrad, List.take_left' hml]
      congr 2
      have hcat := mat_split h (n - h) (netRow env nn input.data)
      rw [hsplit] at hcat
      rw [hcat, List.drop_drop, ← hout', List.append_assoc]
      congr 2
      refine mat_congr _ _ _ fun i _ => ?_
      simp only [netRow, Nat.add_mul, slice_drop]
    · exact batchBase_eq env c N _ _ nn n hok input out (by omega) hin hout

/-! ### Non-termination -/

theorem predictBatch_diverges (env : CustomEnv ℝ) (c : Cfg) (N : ℕ) (workAddr : ℕ → ℕ → ℕ)
    (junk : ℕ → ℕ → ℕ → ℝ) (nn : Net ℝ) (hok : BatchOk env c nn 0) (hN : N < workSize nn.layers) :
    ∀ (fuel start n : ℕ) (input out : View ℝ), 1 ≤ n → workSize nn.layers * n ≤ intMax →
      predictBatch env c N workAddr junk nn fuel start n input out = .error .diverge
  | 0, _, _, _, _, _, _ => rfl
  | fuel + 1, start, n, input, out, hn, hov => by
    have h1 : workSize nn.layers * 1 ≤ workSize nn.layers * n := Nat.mul_le_mul_left _ hn
    unfold predictBatch
    rw [if_neg (by omega), if_pos (by omega)]
    by_cases hn1 : n / 2 = 0
    · cases fuel with
      | zero => rfl
      | succ fuel =>
        have h0 : predictBatch env c N workAddr junk nn (fuel + 1) start (n / 2) input out =
            .ok ⟨out.addr, mat 0 (netRow env nn input.data) ++ out.data.drop (0 * nn.nOutput)⟩ := by
          rw [hn1]
          unfold predictBatch
          rw [if_neg (by simp), if_neg (by simp)]
          exact batchBase_eq env c N _ _ nn 0 hok input out (by simp) (by simp) (by simp)
        rw [h0]
        simp only [bind, Except.bind]
        rw [predictBatch_diverges env c N workAddr junk nn hok hN (fuel + 1) _ (n - n / 2) _ _ (by omega)
          (Nat.le_trans (Nat.mul_le_mul_left _ (by omega)) hov)]
    · rw [predictBatch_diverges env c N workAddr junk nn hok hN fuel start (n / 2) input out (by omega)
        (Nat.le_trans (Nat.mul_le_mul_left _ (by omega)) hov)]
      rfl

/-- With enough fuel, more fuel changes nothing. -/
theorem predictBatch_fuel (env : CustomEnv ℝ) (c : Cfg) (N : ℕ) (workAddr : ℕ → ℕ → ℕ)
    (junk : ℕ → ℕ → ℕ → ℝ) (nn : Net ℝ) (hN : workSize nn.layers ≤ N) :
    ∀ (fuel start n : ℕ) (input out : View ℝ), n + 1 ≤ fuel →
      predictBatch env c N workAddr junk nn fuel start n input out =
        predictBatch env c N workAddr junk nn (n + 1) start n input out
  | 0, _, _, _, _, h => by omega
  | fuel + 1, start, n, input, out, h => by
    unfold predictBatch
    by_cases hov : intMax < workSize nn.layers * n
    · rw [if_pos hov, if_pos hov]
    · rw [if_neg hov, if_neg hov]
      by_cases hlt : N < workSize nn.layers * n
      · rw [if_pos hlt, if_pos hlt]
        have hn2 : 2 ≤ n := by
          by_contra hcon
          have : n ≤ 1 := by omega
          have := Nat.mul_le_mul_left (workSize nn.layers) this
          omega
        rw [predictBatch_fuel env c N workAddr junk nn hN fuel start (n / 2) input out (by omega),
          predictBatch_fuel env c N workAddr junk nn hN n start (n / 2) input out (by omega)]
        congr 1
        funext o
        rw [predictBatch_fuel env c N workAddr junk nn hN fuel _ (n - n / 2) _ _ (by omega),
          predictBatch_fuel env c N workAddr junk nn hN n _ (n - n / 2) _ _ (by omega)]
      · rw [if_neg hlt, if_neg hlt]
termination_by fuel _ n => (n, fuel)
decreasing_by all_goals (apply Prod.Lex.left; omega)

end Blas
end NN
