import Verif.Model.MatrixOps
import Verif.Proofs.Elem
/-
Refinement of the kernels of src/matrix_operations.c to list functions, for arbitrary (lawless)
floats.
-/
set_option linter.unusedSimpArgs false
set_option linter.unusedSectionVars false

namespace NN
open FloatOps
variable {F : Type}

/-- The alignment a buffer of `n` floats needs for the aligned vector accesses: 32 bytes if AVX code
handles 8 floats of it, 64 bytes if AVX512 code handles 16. -/
def AlignedFor (c : Cfg) (n addr : Nat) : Prop :=
  (c.avx = true → 8 ≤ n → addr % 32 = 0) ∧ (c.avx512 = true → 16 ≤ n → addr % 64 = 0)

theorem AlignedFor.of_aligned {c : Cfg} {n a : Nat} (h : a % c.alignSize = 0) : AlignedFor c n a := by
  rcases c with ⟨s, _, _⟩
  cases s <;> simp_all [AlignedFor, Cfg.avx, Cfg.avx512, Cfg.alignSize] <;> omega

theorem AlignedFor.of_small {c : Cfg} {n a : Nat} (h : n < 8) : AlignedFor c n a :=
  ⟨fun _ _ => by omega, fun _ _ => by omega⟩

theorem slice_slice_zip {f : F → F → F} {l b : List F} {k w t : Nat} (ht : t < w) :
    (List.zipWith f (slice l k w) (slice b k w))[t]? =
      match l[k + t]?, b[k + t]? with
      | some x, some y => some (f x y)
      | _, _ => none := by
  simp only [List.getElem?_zipWith, slice_getElem?, ht, if_true]
  rcases l[k+t]? with _ | x <;> rcases b[k+t]? with _ | y <;> rfl

/-- Generic ladder over one mutable view; `vec w` is the vector body of width `w`. -/
theorem ladder_elem {c : Cfg} {n : Nat} {v : View F} {vec : Nat → Nat → View F → M (View F)}
    {b1 : Nat → View F → M (View F)} (g : Nat → F → F)
    (hv : ∀ w k, (w = 16 ∧ c.avx512 = true ∨ w = 8) → c.avx = true → w ∣ k → k + w ≤ n →
      k + w ≤ vcut c n →
      vec w k ⟨v.addr, applyTo g k v.data⟩ = .ok ⟨v.addr, applyTo g (k + w) v.data⟩)
    (h1 : ∀ k, k < n → vcut c n ≤ k →
      b1 k ⟨v.addr, applyTo g k v.data⟩ = .ok ⟨v.addr, applyTo g (k + 1) v.data⟩) :
    ladder c n vec b1 v = .ok ⟨v.addr, applyTo g n v.data⟩ := by
  have := ladder_eq (c := c) (n := n) (vec := vec) (b1 := b1)
    (fun k => (⟨v.addr, applyTo g k v.data⟩ : View F))
    (fun h k hk hn hc => hv 16 k (Or.inl ⟨rfl, h⟩) (Cfg.avx_of_avx512 h) hk hn hc)
    (fun h k hk hn hc => hv 8 k (Or.inr rfl) h hk hn hc) h1
  simpa using this

theorem ladderLt_elem {c : Cfg} {n : Nat} {v : View F} {vec : Nat → Nat → View F → M (View F)}
    {b1 : Nat → View F → M (View F)} (g : Nat → F → F)
    (hv : ∀ w k, (w = 16 ∧ c.avx512 = true ∨ w = 8) → c.avx = true → w ∣ k → k + w ≤ n →
      k + w ≤ vcutLt c n →
      vec w k ⟨v.addr, applyTo g k v.data⟩ = .ok ⟨v.addr, applyTo g (k + w) v.data⟩)
    (h1 : ∀ k, k < n → vcutLt c n ≤ k →
      b1 k ⟨v.addr, applyTo g k v.data⟩ = .ok ⟨v.addr, applyTo g (k + 1) v.data⟩) :
    ladderLt c n vec b1 v = .ok ⟨v.addr, applyTo g n v.data⟩ := by
  have := ladderLt_eq (c := c) (n := n) (vec := vec) (b1 := b1)
    (fun k => (⟨v.addr, applyTo g k v.data⟩ : View F))
    (fun h k hk hn hc => hv 16 k (Or.inl ⟨rfl, h⟩) (Cfg.avx_of_avx512 h) hk hn hc)
    (fun h k hk hn hc => hv 8 k (Or.inr rfl) h hk hn hc) h1
  simpa using this

theorem align_w {c : Cfg} {n a w k : Nat} (hw : w = 16 ∧ c.avx512 = true ∨ w = 8)
    (hx : c.avx = true) (hk : w ∣ k) (hn : k + w ≤ n) (ha : AlignedFor c n a) :
    (a + 4 * k) % (4 * w) = 0 := by
  rcases hw with ⟨rfl, h5⟩ | rfl
  · have := ha.2 h5 (by omega)
    omega
  · have := ha.1 hx (by omega)
    omega

section
variable [FloatOps F]

theorem vectorAccumulate_eq (c : Cfg) (n : Nat) (a b : View F) (hal : AlignedFor c n a.addr)
    (hbl : AlignedFor c n b.addr) (ha : n ≤ a.data.length) (hb : n ≤ b.data.length) :
    vectorAccumulate c n a b = .ok ⟨a.addr, applyTo (zipOp add b.data) n a.data⟩ := by
  unfold vectorAccumulate
  apply ladder_elem
  · intro w k hw hx hk hn _
    rw [loada_applyTo (by omega) (align_w hw hx hk hn hal), loada_ok (by omega) (align_w hw hx hk hn hbl)]
    simp only [bind, Except.bind]
    apply storea_applyTo (align_w hw hx hk hn hal)
    · simp [vop2, set1]; omega
    · omega
    · intro t ht
      have h1 : k + t < a.data.length := by omega
      have h2 : k + t < b.data.length := by omega
      simp [vop2, set1, List.getElem?_zipWith, List.getElem?_replicate, slice_getElem?, ht, zipOp, h1, h2]
  · intro k hk _
    rw [load_applyTo (by omega), load_ok (by omega)]
    apply store_applyTo (by omega)
    simp [zipOp, show k < b.data.length by omega]

theorem vectorAccumulateUnaligned_eq (c : Cfg) (n : Nat) (y b : View F) (ha : n ≤ y.data.length) (hb : n ≤ b.data.length) :
    vectorAccumulateUnaligned c n y b = .ok ⟨y.addr, applyTo (zipOp add b.data) n y.data⟩ := by
  unfold vectorAccumulateUnaligned
  apply ladder_elem
  · intro w k hw hx hk hn _
    rw [loadu_applyTo (by omega), loadu_ok (by omega)]
    simp only [bind, Except.bind]
    apply storeu_applyTo
    · simp [vop2, set1]; omega
    · omega
    · intro t ht
      have h1 : k + t < y.data.length := by omega
      have h2 : k + t < b.data.length := by omega
      simp [vop2, set1, List.getElem?_zipWith, List.getElem?_replicate, slice_getElem?, ht, zipOp, h1, h2]
  · intro k hk _
    rw [load_applyTo (by omega), load_ok (by omega)]
    apply store_applyTo (by omega)
    simp [zipOp, show k < b.data.length by omega]

theorem vectorSaxpy_eq (c : Cfg) (n : Nat) (a : View F) (alpha : F) (b : View F) (hal : AlignedFor c n a.addr)
    (hbl : AlignedFor c n b.addr) (ha : n ≤ a.data.length) (hb : n ≤ b.data.length) :
    vectorSaxpy c n a alpha b = .ok ⟨a.addr, applyTo (zipOp (fun x y => add x (mul alpha y)) b.data) n a.data⟩ := by
  unfold vectorSaxpy
  apply ladder_elem
  · intro w k hw hx hk hn _
    rw [loada_applyTo (by omega) (align_w hw hx hk hn hal), loada_ok (by omega) (align_w hw hx hk hn hbl)]
    simp only [bind, Except.bind]
    apply storea_applyTo (align_w hw hx hk hn hal)
    · simp [vop2, set1]; omega
    · omega
    · intro t ht
      have h1 : k + t < a.data.length := by omega
      have h2 : k + t < b.data.length := by omega
      simp [vop2, set1, List.getElem?_zipWith, List.getElem?_replicate, slice_getElem?, ht, zipOp, h1, h2]
  · intro k hk _
    rw [load_applyTo (by omega), load_ok (by omega)]
    apply store_applyTo (by omega)
    simp [zipOp, show k < b.data.length by omega]

theorem vectorScale_eq (c : Cfg) (n : Nat) (v : View F) (s : F) (hal : AlignedFor c n v.addr)
    (ha : n ≤ v.data.length) :
    vectorScale c n v s = .ok ⟨v.addr, applyTo (fun _ x => mul x s) n v.data⟩ := by
  unfold vectorScale
  apply ladder_elem
  · intro w k hw hx hk hn _
    rw [loada_applyTo (by omega) (align_w hw hx hk hn hal)]
    simp only [bind, Except.bind]
    apply storea_applyTo (align_w hw hx hk hn hal)
    · simp [vop2, set1]; omega
    · omega
    · intro t ht
      have h1 : k + t < v.data.length := by omega
      simp [vop2, set1, List.getElem?_zipWith, List.getElem?_replicate, slice_getElem?, ht, h1]
  · intro k hk _
    rw [load_applyTo (by omega)]
    exact store_applyTo (by omega) rfl

theorem vectorDivideByScalar_eq (c : Cfg) (n : Nat) (v : View F) (s : F) (hal : AlignedFor c n v.addr)
    (ha : n ≤ v.data.length) :
    vectorDivideByScalar c n v s = .ok ⟨v.addr, applyTo (fun _ x => div x s) n v.data⟩ := by
  unfold vectorDivideByScalar
  apply ladder_elem
  · intro w k hw hx hk hn _
    rw [loada_applyTo (by omega) (align_w hw hx hk hn hal)]
    simp only [bind, Except.bind]
    apply storea_applyTo (align_w hw hx hk hn hal)
    · simp [vop2, set1]; omega
    · omega
    · intro t ht
      have h1 : k + t < v.data.length := by omega
      simp [vop2, set1, List.getElem?_zipWith, List.getElem?_replicate, slice_getElem?, ht, h1]
  · intro k hk _
    rw [load_applyTo (by omega)]
    exact store_applyTo (by omega) rfl

/-- Result of `vector_saxpby` on element `k`: the vector part multiplies in the other order. -/
def saxpbyOp (c : Cfg) (n : Nat) (alpha beta : F) (b : List F) : Nat → F → F :=
  fun k x => match b[k]? with
    | some y => if k < vcut c n then add (mul x beta) (mul alpha y) else add (mul beta x) (mul alpha y)
    | none => x

theorem vectorSaxpby_eq (c : Cfg) (n : Nat) (a : View F) (alpha : F) (b : View F) (beta : F)
    (hal : AlignedFor c n a.addr) (hbl : AlignedFor c n b.addr)
    (ha : n ≤ a.data.length) (hb : n ≤ b.data.length) :
    vectorSaxpby c n a alpha b beta =
      .ok ⟨a.addr, applyTo (saxpbyOp c n alpha beta b.data) n a.data⟩ := by
  unfold vectorSaxpby
  apply ladder_elem
  · intro w k hw hx hk hn hcut
    rw [loada_applyTo (by omega) (align_w hw hx hk hn hal), loada_ok (by omega) (align_w hw hx hk hn hbl)]
    simp only [bind, Except.bind]
    apply storea_applyTo (align_w hw hx hk hn hal)
    · simp [vop2, set1]; omega
    · omega
    · intro t ht
      have h1 : k + t < a.data.length := by omega
      have h2 : k + t < b.data.length := by omega
      have h3 : k + t < vcut c n := by omega
      simp [vop2, set1, List.getElem?_zipWith, List.getElem?_replicate, slice_getElem?, ht, saxpbyOp, h1, h2, h3]
  · intro k hk hcut
    rw [load_applyTo (by omega), load_ok (by omega)]
    apply store_applyTo (by omega)
    simp [saxpbyOp, show k < b.data.length by omega, show ¬ k < vcut c n by omega]

theorem vectorSquareElements_eq (c : Cfg) (n : Nat) (y x : View F)
    (hal : AlignedFor c n y.addr) (hbl : AlignedFor c n x.addr)
    (ha : n ≤ y.data.length) (hb : n ≤ x.data.length) :
    vectorSquareElements c n y x =
      .ok ⟨y.addr, applyTo (zipOp (fun _ b => mul b b) x.data) n y.data⟩ := by
  unfold vectorSquareElements
  apply ladder_elem
  · intro w k hw hx hk hn hcut
    rw [loada_ok (by omega) (align_w hw hx hk hn hbl)]
    simp only [bind, Except.bind]
    apply storea_applyTo (align_w hw hx hk hn hal)
    · simp [vop2]; omega
    · omega
    · intro t ht
      have h1 : k + t < y.data.length := by omega
      have h2 : k + t < x.data.length := by omega
      simp [vop2, List.getElem?_zipWith, slice_getElem?, ht, zipOp, h1, h2]
  · intro k hk hcut
    rw [load_ok (by omega)]
    apply store_applyTo (by omega)
    simp [zipOp, show k < x.data.length by omega]

theorem vmmBias_eq (c : Cfg) (m : Nat) (bias y : View F)
    (hal : AlignedFor c m y.addr) (hbl : AlignedFor c m bias.addr)
    (ha : m ≤ y.data.length) (hb : m ≤ bias.data.length) :
    vmmBias c m bias y = .ok ⟨y.addr, applyTo (zipOp (fun _ b => b) bias.data) m y.data⟩ := by
  unfold vmmBias
  apply ladder_elem
  · intro w k hw hx hk hn hcut
    rw [loada_ok (by omega) (align_w hw hx hk hn hbl)]
    simp only [bind, Except.bind]
    apply storea_applyTo (align_w hw hx hk hn hal)
    · simp; omega
    · omega
    · intro t ht
      have h1 : k + t < y.data.length := by omega
      have h2 : k + t < bias.data.length := by omega
      simp [slice_getElem?, ht, zipOp, h1, h2]
  · intro k hk hcut
    rw [load_ok (by omega)]
    apply store_applyTo (by omega)
    simp [zipOp, show k < bias.data.length by omega]

/-- One multiply-accumulate of `vector_matrix_multiply` at output index `k`. -/
def vmmStep (c : Cfg) (m k : Nat) (inp w y : F) : F :=
  if FloatOps.eq inp zero then y
  else if FloatOps.eq inp one then add y w
  else if k < vcutLt c m then
    if c.fma then fma w inp y else add y (mul w inp)
  else add y (mul inp w)

/-- `g k x` uses element `o + k` of the second list. -/
def zipOpAt (f : Nat → F → F → F) (b : List F) (o : Nat) : Nat → F → F :=
  fun k x => match b[o + k]? with
    | some y => f k x y
    | none => x

theorem vmmRowOne_eq (c : Cfg) (m : Nat) (weight : View F) (wo : Nat) (y : View F)
    (hal : AlignedFor c m y.addr) (ha : m ≤ y.data.length) (hb : wo + m ≤ weight.data.length) :
    vmmRowOne c m weight wo y =
      .ok ⟨y.addr, applyTo (zipOpAt (fun _ y w => add y w) weight.data wo) m y.data⟩ := by
  unfold vmmRowOne
  apply ladder_elem
  · intro w k hw hx hk hn hcut
    rw [loada_applyTo (by omega) (align_w hw hx hk hn hal), loadu_ok (by omega)]
    simp only [bind, Except.bind]
    apply storea_applyTo (align_w hw hx hk hn hal)
    · simp [vop2]; omega
    · omega
    · intro t ht
      have h1 : k + t < y.data.length := by omega
      have h2 : wo + (k + t) < weight.data.length := by omega
      simp [vop2, List.getElem?_zipWith, slice_getElem?, ht, zipOpAt, h1, h2, Nat.add_assoc]
  · intro k hk hcut
    rw [load_applyTo (by omega), load_ok (by omega)]
    apply store_applyTo (by omega)
    simp [zipOpAt, show wo + k < weight.data.length by omega]

theorem vfma_getElem? (a b d : List F) (t : Nat) :
    (vfma a b d)[t]? = match a[t]?, b[t]?, d[t]? with
      | some x, some y, some z => some (fma x y z)
      | _, _, _ => none := by
  simp only [vfma, List.getElem?_zipWith, List.zip]
  rcases a[t]? with _ | x <;> rcases b[t]? with _ | y <;> rcases d[t]? with _ | z <;> rfl

theorem vmmRowMul_eq (c : Cfg) (m : Nat) (weight : View F) (wo : Nat) (inp : F) (y : View F)
    (hal : AlignedFor c m y.addr) (ha : m ≤ y.data.length) (hb : wo + m ≤ weight.data.length) :
    vmmRowMul c m weight wo inp y =
      .ok ⟨y.addr, applyTo (zipOpAt (fun k y w => if k < vcutLt c m then
          (if c.fma then fma w inp y else add y (mul w inp)) else add y (mul inp w))
        weight.data wo) m y.data⟩ := by
  unfold vmmRowMul
  apply ladderLt_elem
  · intro w k hw hx hk hn hcut
    rw [loadu_ok (by omega), loada_applyTo (by omega) (align_w hw hx hk hn hal)]
    simp only [bind, Except.bind]
    apply storea_applyTo (align_w hw hx hk hn hal)
    · split
      · simp [vfma, set1]; omega
      · simp [vop2, set1]; omega
    · omega
    · intro t ht
      have h1 : k + t < y.data.length := by omega
      have h2 : wo + (k + t) < weight.data.length := by omega
      have h3 : k + t < vcutLt c m := by omega
      cases hf : c.fma
      · simp [vop2, set1, List.getElem?_zipWith, slice_getElem?, List.getElem?_replicate, ht, zipOpAt, h1, h2, h3,
          Nat.add_assoc]
      · simp [vfma_getElem?, set1, slice_getElem?, List.getElem?_replicate, ht, zipOpAt, h1, h2, h3,
          Nat.add_assoc]
  · intro k hk hcut
    rw [load_applyTo (by omega), load_ok (by omega)]
    apply store_applyTo (by omega)
    simp [zipOpAt, show wo + k < weight.data.length by omega, show ¬ k < vcutLt c m by omega]

/-- Output element `k` of `vector_matrix_multiply` after the first `n` inputs, starting from `b`. -/
def vmmElem (c : Cfg) (m : Nat) (w x : List F) (n k : Nat) (b : F) : F :=
  (List.range n).foldl (fun y i =>
    match x[i]?, w[i * m + k]? with
    | some xi, some wv => vmmStep c m k xi wv y
    | _, _ => y) b

/-- The list computed by `vector_matrix_multiply`. -/
def vmmF (c : Cfg) (n m : Nat) (w b x : List F) : List F :=
  (b.take m).mapIdx (fun k bk => vmmElem c m w x n k bk)

theorem applyTo_comp (g h : Nat → F → F) (n : Nat) (l : List F) :
    applyTo g n (applyTo h n l) = applyTo (fun k x => g k (h k x)) n l := by
  apply List.ext_getElem?; intro i
  simp only [applyTo_getElem?, Option.map_map]
  congr 1; funext x
  by_cases hi : i < n <;> simp [hi]

theorem vectorMatrixMultiply_eq (c : Cfg) (n m : Nat) (weight bias input y : View F)
    (hal : AlignedFor c m y.addr) (hbl : AlignedFor c m bias.addr)
    (hy : m ≤ y.data.length) (hb : m ≤ bias.data.length) (hx : n ≤ input.data.length)
    (hw : n * m ≤ weight.data.length) :
    vectorMatrixMultiply c n m weight bias input y =
      .ok ⟨y.addr, vmmF c n m weight.data bias.data input.data ++ y.data.drop m⟩ := by
  unfold vectorMatrixMultiply
  rw [vmmBias_eq c m bias y hal hbl hy hb]
  simp only [bind, Except.bind]
  let f : Nat → View F := fun i =>
    ⟨y.addr, applyTo (zipOpAt (fun k _ b => vmmElem c m weight.data input.data i k b) bias.data 0)
      m y.data⟩
  have h0 : (⟨y.addr, applyTo (zipOp (fun _ b => b) bias.data) m y.data⟩ : View F) = f 0 := by
    simp only [f]
    congr 1
    apply applyTo_congr
    intro k hk x _
    simp only [zipOp, zipOpAt, vmmElem, Nat.zero_add, List.range_zero, List.foldl_nil]
    rcases bias.data[k]? with _ | b <;> rfl
  rw [h0]
  rw [forN_eq f]
  · simp only [f]
    congr 2
    apply List.ext_getElem?; intro i
    simp only [applyTo_getElem?]
    have hlen : (vmmF c n m weight.data bias.data input.data).length = m := by
      simp [vmmF]; omega
    by_cases hi : i < m
    · rw [List.getElem?_append_left (by omega)]
      have h1 : i < y.data.length := by omega
      have h2 : i < bias.data.length := by omega
      simp [vmmF, hi, zipOpAt, h1, h2]
    · rw [List.getElem?_append_right (by omega), List.getElem?_drop, hlen]
      have : m + (i - m) = i := by omega
      simp [hi, this]
  · intro i hi
    have hwi : i * m + m ≤ weight.data.length := by
      have : (i + 1) * m ≤ n * m := Nat.mul_le_mul_right m hi
      rw [Nat.succ_mul] at this; omega
    have hfl : (f i).data.length = y.data.length := by simp [f]
    rw [load_ok (by omega)]
    simp only
    have key : ∀ g : Nat → F → F → F,
        (∀ k y w, g k y w = vmmStep c m k (input.data[i]) w y) →
        (⟨y.addr, applyTo (zipOpAt g weight.data (i * m)) m (f i).data⟩ : View F) = f (i + 1) := by
      intro g hg
      simp only [f]
      rw [applyTo_comp]
      congr 1
      apply applyTo_congr
      intro k hk x _
      have h2 : k < bias.data.length := by omega
      have h3 : i * m + k < weight.data.length := by omega
      have h4 : i < input.data.length := by omega
      simp [zipOpAt, h2, h3, vmmElem, List.range_succ, List.foldl_append, hg, h4]
    cases hz : FloatOps.eq (input.data[i]) (zero : F)
    · cases ho : FloatOps.eq (input.data[i]) (one : F)
      · simp only [Bool.false_eq_true, if_false]
        rw [vmmRowMul_eq c m weight (i * m) _ (f i) hal (by omega) hwi]
        rw [show (f i).addr = y.addr from rfl]
        rw [key]
        intro k y w
        simp [vmmStep, hz, ho]
      · simp only [Bool.false_eq_true, if_false, if_true]
        rw [vmmRowOne_eq c m weight (i * m) (f i) hal (by omega) hwi]
        rw [show (f i).addr = y.addr from rfl]
        rw [key]
        intro k y w
        simp [vmmStep, hz, ho]
    · simp only [if_true, pure, Except.pure]
      rw [← key (fun k y w => vmmStep c m k (input.data[i]) w y) (fun _ _ _ => rfl)]
      congr 1
      simp only [f]
      rw [applyTo_comp]
      congr 1
      apply applyTo_congr
      intro k hk x _
      have h3 : i * m + k < weight.data.length := by omega
      simp [zipOpAt, h3, vmmStep, hz]

/-- Effect of `vector_vector_outer` on flat index `k` of the matrix. -/
def outerOp (nCols : Nat) (x y : List F) : Nat → F → F :=
  fun k old => match x[k / nCols]?, y[k % nCols]? with
    | some a, some b => if FloatOps.eq a zero then old else mul a b
    | _, _ => old

theorem vectorVectorOuter_eq (c : Cfg) (n m : Nat) (x y mat : View F)
    (hx : n ≤ x.data.length) (hy : m ≤ y.data.length) (hm : n * m ≤ mat.data.length) :
    vectorVectorOuter c n m x y mat =
      .ok ⟨mat.addr, applyTo (outerOp m x.data y.data) (n * m) mat.data⟩ := by
  unfold vectorVectorOuter
  have hz : mat = (fun i => (⟨mat.addr, applyTo (outerOp m x.data y.data) (i * m) mat.data⟩ : View F)) 0 := by
    simp
  refine (congrArg (forN n _) hz).trans ?_
  rw [forN_eq (fun i => (⟨mat.addr, applyTo (outerOp m x.data y.data) (i * m) mat.data⟩ : View F))]
  intro i hi
  have hwi : i * m + m ≤ mat.data.length := by
    have : (i + 1) * m ≤ n * m := Nat.mul_le_mul_right m hi
    rw [Nat.succ_mul] at this; omega
  have hop : ∀ j, j < m → ∀ old, outerOp m x.data y.data (i * m + j) old =
      (match y.data[j]? with
        | some b => if FloatOps.eq (x.data[i]) (zero : F) then old else mul (x.data[i]) b
        | none => old) := by
    intro j hj old
    have h1 : (i * m + j) / m = i := by
      rw [Nat.mul_comm, Nat.mul_add_div (by omega), Nat.div_eq_of_lt hj]; omega
    have h2 : (i * m + j) % m = j := by
      rw [Nat.mul_comm, Nat.mul_add_mod, Nat.mod_eq_of_lt hj]
    have h3 : i < x.data.length := by omega
    simp only [outerOp, h1, h2, h3, List.getElem?_eq_getElem]
    rcases y.data[j]? with _ | b <;> rfl
  rw [load_ok (by omega)]
  simp only [bind, Except.bind]
  cases he : FloatOps.eq (x.data[i]) (zero : F)
  · simp only [Bool.false_eq_true, if_false]
    have hvec : ∀ w k, k + w ≤ m → (do
        let yv ← y.loadu w k
        View.storeu ⟨mat.addr, applyTo (outerOp m x.data y.data) (i * m + k) mat.data⟩ (i * m + k)
          (vop2 mul (set1 w x.data[i]) yv) : M (View F)) =
        .ok ⟨mat.addr, applyTo (outerOp m x.data y.data) (i * m + (k + w)) mat.data⟩ := by
      intro w k hn
      rw [loadu_ok (by omega)]
      simp only [bind, Except.bind]
      rw [← Nat.add_assoc]
      apply storeu_applyTo (w := w)
      · simp [vop2, set1]; omega
      · omega
      · intro t ht
        have h1 : i * m + k + t < mat.data.length := by omega
        have h2 : k + t < y.data.length := by omega
        have h4 := hop (k + t) (by omega)
        simp only [he, ← Nat.add_assoc] at h4
        simp [vop2, set1, List.getElem?_zipWith, List.getElem?_replicate, slice_getElem?, ht, h1, h2, h4]
    have := ladder_eq (c := c) (n := m)
      (vec := fun w j (mat : View F) => (do
        let yv ← y.loadu w j
        mat.storeu (i * m + j) (vop2 mul (set1 w x.data[i]) yv) : M (View F)))
      (b1 := fun j (mat : View F) => (do
        let b ← y.load j
        mat.store (i * m + j) (mul x.data[i] b) : M (View F)))
      (fun j => (⟨mat.addr, applyTo (outerOp m x.data y.data) (i * m + j) mat.data⟩ : View F))
    simp only [Nat.add_zero, ← Nat.succ_mul] at this
    apply this
    · intro _ k hk hn hc; exact hvec 16 k hn
    · intro _ k hk hn hc; exact hvec 8 k hn
    · intro k hk hc
      rw [load_ok (by omega)]
      apply store_applyTo (by omega)
      rw [hop k hk]
      simp [he, show k < y.data.length by omega]
  · simp only [if_true, pure, Except.pure, Nat.succ_mul]
    congr 2
    apply List.ext_getElem?; intro k
    simp only [applyTo_getElem?]
    congr 1; funext old
    by_cases h1 : k < i * m
    · have : k < i * m + m := by omega
      simp [h1, this]
    · by_cases h2 : k < i * m + m
      · simp only [h1, h2, if_false, if_true]
        have := hop (k - i * m) (by omega) old
        rw [show i * m + (k - i * m) = k by omega] at this
        rw [this]
        rcases y.data[k - i * m]? with _ | b <;> simp [he]
      · simp [h1, h2]

/-! ### matrix_vector_multiply -/

/-- Lane accumulators of one row after `t` vector steps of width `w` starting at column `j0`. -/
def lanesAcc (c : Cfg) (w j0 : Nat) (row v : List F) : Nat → List F
  | 0 => set1 w zero
  | t + 1 =>
    let vv := slice v (j0 + w * t) w
    let mv := slice row (j0 + w * t) w
    let sums := lanesAcc c w j0 row v t
    if c.fma then vfma vv mv sums else vop2 add sums (vop2 mul vv mv)

/-- Scalar tail of one row from column `j0`: `t` further columns. -/
def tailAcc (j0 : Nat) (row v : List F) (y : F) : Nat → F
  | 0 => y
  | t + 1 => match v[j0 + t]?, row[j0 + t]? with
    | some a, some b => add (tailAcc j0 row v y t) (mul a b)
    | _, _ => tailAcc j0 row v y t

/-- What one row of `matrix_vector_multiply` leaves in `y[i]`, where `y` was there before. -/
def dotF (c : Cfg) (n : Nat) (row v : List F) (y : F) : F :=
  let y1 := if c.avx512 then reduceAdd512 (lanesAcc c 16 0 row v (n / 16)) else y
  let j1 := if c.avx512 then 16 * (n / 16) else 0
  let y2 := if c.avx then add y1 (horizontalsumAvx (lanesAcc c 8 j1 row v ((n - j1) / 8))) else y1
  let j2 := if c.avx then j1 + 8 * ((n - j1) / 8) else j1
  tailAcc j2 row v y2 (n - j2)

/-- Alignment of the rows of the matrix needed by the aligned loads of `matrix_vector_multiply`. -/
def RowsAligned (c : Cfg) (nRows nCols addr : Nat) : Prop :=
  ∀ i, i < nRows → AlignedFor c nCols (addr + 4 * (i * nCols))

theorem slice_drop {α : Type} (l : List α) (o j w : Nat) : slice l (o + j) w = slice (l.drop o) j w := by
  simp [slice, List.drop_drop]

theorem mvmStrip_eq (c : Cfg) (w n j0 mo : Nat) (matrix v : View F) (hw : 0 < w)
    (hv : n ≤ v.data.length) (hm : mo + n ≤ matrix.data.length)
    (ha : ∀ k, j0 ≤ k → (k - j0) % w = 0 → k + w ≤ n → (matrix.addr + 4 * (mo + k)) % (4 * w) = 0) :
    stripLe w n (mvmStep c w matrix v mo) j0 (set1 w zero) =
      .ok (j0 + w * ((n - j0) / w), lanesAcc c w j0 (matrix.data.drop mo) v.data ((n - j0) / w)) := by
  have h := stripLe_eq (W := w) (n := n) (j := j0) (body := mvmStep c w matrix v mo)
    (fun k => lanesAcc c w j0 (matrix.data.drop mo) v.data ((k - j0) / w)) hw
    (fun k hk hmod hkn => by
      have e : (k + w - j0) / w = (k - j0) / w + 1 := by
        rw [show k + w - j0 = (k - j0) + w by omega, Nat.add_div_right _ hw]
      have e2 : j0 + w * ((k - j0) / w) = k := by
        have := Nat.div_add_mod (k - j0) w
        rw [hmod] at this; omega
      simp only [mvmStep]
      rw [loadu_ok (by omega), loada_ok (by omega) (ha k hk hmod hkn)]
      simp only [bind, Except.bind, pure, Except.pure, e, lanesAcc, e2]
      rw [slice_drop])
  have e0 : (j0 + w * ((n - j0) / w) - j0) / w = (n - j0) / w := by
    rw [Nat.add_sub_cancel_left, Nat.mul_div_cancel_left _ hw]
  simp only [Nat.sub_self, Nat.zero_div, lanesAcc, e0] at h
  exact h

theorem mvmRow_eq (c : Cfg) (n : Nat) (matrix v : View F) (i : Nat) (y : View F)
    (hy : i < y.data.length) (hv : n ≤ v.data.length) (hm : i * n + n ≤ matrix.data.length)
    (h8 : c.avx = true → 8 ≤ n → (matrix.addr + 4 * (i * n)) % 32 = 0)
    (h16 : c.avx512 = true → 16 ≤ n → (matrix.addr + 4 * (i * n)) % 64 = 0) :
    mvmRow c n matrix v i y =
      .ok ⟨y.addr, y.data.set i (dotF c n (matrix.data.drop (i * n)) v.data y.data[i])⟩ := by
  have hst : ∀ (z : View F) (x : F), z.data.length = y.data.length →
      z.store i x = .ok ⟨z.addr, z.data.set i x⟩ := by
    intro z x hz; simp [View.store, hz, hy]
  have hld : ∀ (a : Nat) (x : F), View.load ⟨a, y.data.set i x⟩ i = .ok x := by
    intro a x; simp [View.load, hy]
  have htail : ∀ (j2 : Nat) (y2 : F), j2 ≤ n →
      stripLe 1 n (fun j y => do
        let y0 ← View.load y i
        let a ← v.load j
        let b ← matrix.load (i * n + j)
        y.store i (add y0 (mul a b))) j2 ⟨y.addr, y.data.set i y2⟩ =
      .ok (n, ⟨y.addr, y.data.set i (tailAcc j2 (matrix.data.drop (i * n)) v.data y2 (n - j2))⟩) := by
    intro j2 y2 hj
    have h := stripLe_eq (W := 1) (n := n) (j := j2) (body := (fun j (y : View F) => (do
        let y0 ← View.load y i
        let a ← v.load j
        let b ← matrix.load (i * n + j)
        y.store i (add y0 (mul a b)) : M (View F))))
      (fun k => ⟨y.addr, y.data.set i (tailAcc j2 (matrix.data.drop (i * n)) v.data y2 (k - j2))⟩)
      (by decide) (fun k hk _ hkn => by
        rw [hld, load_ok (by omega), load_ok (by omega)]
        simp only [bind, Except.bind]
        rw [hst _ _ (by simp)]
        have e : k + 1 - j2 = (k - j2) + 1 := by omega
        have e2 : j2 + (k - j2) = k := by omega
        have h1 : k < v.data.length := by omega
        have h2 : i * n + k < matrix.data.length := by omega
        simp [e, tailAcc, e2, h1, h2])
    have e3 : j2 + 1 * ((n - j2) / 1) = n := by omega
    simp only [Nat.sub_self, tailAcc, e3] at h
    exact h
  unfold mvmRow
  have h512 := @Cfg.avx_of_avx512 c
  simp only [dotF]
  have hset : y = ⟨y.addr, y.data.set i y.data[i]⟩ := by simp
  cases h5 : c.avx512 <;> cases hx : c.avx <;> simp only [h5, hx] at h512 ⊢
  · simp only [Bool.false_eq_true, if_false, bind, Except.bind, pure, Except.pure]
    have := htail 0 y.data[i] (by omega)
    rw [← hset] at this
    simp only [bind, Except.bind] at this
    rw [this]
  · simp only [Bool.false_eq_true, if_false, if_true, bind, Except.bind, pure, Except.pure]
    rw [mvmStrip_eq c 8 n 0 (i * n) matrix v (by decide) hv hm
      (fun k _ hk hkn => by have := h8 hx (by omega); omega)]
    simp only
    rw [load_ok hy]
    simp only
    rw [hst _ _ rfl]
    simp only [Nat.sub_zero, Nat.zero_add]
    have := htail (8 * (n / 8)) (add y.data[i] (horizontalsumAvx
      (lanesAcc c 8 0 (matrix.data.drop (i * n)) v.data (n / 8)))) (by omega)
    simp only [bind, Except.bind] at this
    rw [this]
  · simp at h512
  · simp only [if_true, bind, Except.bind, pure, Except.pure]
    rw [mvmStrip_eq c 16 n 0 (i * n) matrix v (by decide) hv hm
      (fun k _ hk hkn => by have := h16 h5 (by omega); omega)]
    simp only
    rw [hst _ _ rfl]
    simp only [Nat.sub_zero, Nat.zero_add]
    rw [mvmStrip_eq c 8 n (16 * (n / 16)) (i * n) matrix v (by decide) hv hm
      (fun k _ hk hkn => by have := h8 hx (by omega); omega)]
    simp only
    rw [hld]
    simp only
    rw [hst _ _ (by simp)]
    simp only [List.set_set]
    have := htail (16 * (n / 16) + 8 * ((n - 16 * (n / 16)) / 8)) (add (reduceAdd512
      (lanesAcc c 16 0 (matrix.data.drop (i * n)) v.data (n / 16))) (horizontalsumAvx
      (lanesAcc c 8 (16 * (n / 16)) (matrix.data.drop (i * n)) v.data ((n - 16 * (n / 16)) / 8))))
      (by omega)
    simp only [bind, Except.bind] at this
    rw [this]

theorem matrixVectorMultiply_eq (c : Cfg) (nRows nCols : Nat) (matrix v y : View F)
    (hy : nRows ≤ y.data.length) (hv : nCols ≤ v.data.length)
    (hm : nRows * nCols ≤ matrix.data.length) (hr : RowsAligned c nRows nCols matrix.addr) :
    matrixVectorMultiply c nRows nCols matrix v y =
      .ok ⟨y.addr, applyTo (fun i y0 => dotF c nCols (matrix.data.drop (i * nCols)) v.data y0)
        nRows y.data⟩ := by
  unfold matrixVectorMultiply
  let g : Nat → F → F := fun i y0 => dotF c nCols (matrix.data.drop (i * nCols)) v.data y0
  have h0 : y = (fun i => (⟨y.addr, applyTo g i y.data⟩ : View F)) 0 := by simp
  refine (congrArg (forN nRows _) h0).trans ?_
  rw [forN_eq (fun i => (⟨y.addr, applyTo g i y.data⟩ : View F))]
  intro i hi
  have hwi : i * nCols + nCols ≤ matrix.data.length := by
    have : (i + 1) * nCols ≤ nRows * nCols := Nat.mul_le_mul_right nCols hi
    rw [Nat.succ_mul] at this; omega
  rw [mvmRow_eq c nCols matrix v i _ (by simp; omega) hv hwi (hr i hi).1 (hr i hi).2]
  congr 2
  apply List.ext_getElem?; intro k
  simp only [List.getElem?_set, applyTo_length, applyTo_getElem?]
  by_cases hk : i = k
  · subst hk
    have h1 : i < y.data.length := by omega
    have h2 : (applyTo g i y.data)[i]'(by simpa using h1) = y.data[i] := by
      have := applyTo_getElem? g i y.data i
      rw [List.getElem?_eq_getElem (by simpa using h1), List.getElem?_eq_getElem h1] at this
      simpa using this
    simp [h1, h2, g]
  · have : (k < i) ↔ (k < i + 1) := by omega
    simp [hk, this]

end
end NN
