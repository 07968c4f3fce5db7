import Verif.Model.Batch
import Verif.Proofs.ForwardReal
/-
Row-wise filling of a buffer in any order.
-/
set_option linter.unusedSimpArgs false
set_option linter.unusedSectionVars false

namespace NN
open FloatOps
variable {F : Type}

/-- `l` with the rows (of length `m`) in `done` replaced by `rowF`. -/
def rowsF (m : Nat) (rowF : Nat → List F) (done : List Nat) (l : List F) : List F :=
  l.mapIdx fun k x => if k / m ∈ done then (rowF (k / m)).getD (k % m) x else x

@[simp] theorem rowsF_length (m : Nat) (rowF : Nat → List F) (done : List Nat) (l : List F) :
    (rowsF m rowF done l).length = l.length := by simp [rowsF]

theorem rowsF_nil (m : Nat) (rowF : Nat → List F) (l : List F) : rowsF m rowF [] l = l := by
  apply List.ext_getElem? ; intro k; simp [rowsF]

theorem rowsF_getElem? (m : Nat) (rowF : Nat → List F) (done : List Nat) (l : List F) (k : Nat) :
    (rowsF m rowF done l)[k]? =
      l[k]?.map fun x => if k / m ∈ done then (rowF (k / m)).getD (k % m) x else x := by
  simp [rowsF]

theorem rowsF_step (m i : Nat) (hm : 0 < m) (rowF : Nat → List F) (hr : (rowF i).length = m)
    (done : List Nat) (l : List F) (hl : (i + 1) * m ≤ l.length) :
    setSlice (rowsF m rowF done l) (i * m) (rowF i) = rowsF m rowF (i :: done) l := by
  have hl' : i * m + m ≤ l.length := by rw [← Nat.succ_mul]; exact hl
  apply List.ext_getElem?; intro k
  rw [setSlice_getElem? _ _ _ (by simp [hr]; omega), rowsF_getElem?, rowsF_getElem?, hr]
  by_cases h1 : i * m ≤ k ∧ k < i * m + m
  · have hd : k / m = i := by
      rw [Nat.div_eq_iff hm]; constructor <;> omega
    have hmod : k % m = k - i * m := by
      have := Nat.div_add_mod k m
      rw [hd, Nat.mul_comm] at this; omega
    rw [if_pos h1, hd, hmod]
    have hk : k < l.length := by omega
    simp [List.getElem?_eq_getElem hk, List.getD,
      List.getElem?_eq_getElem (show k - i * m < (rowF i).length by omega)]
  · rw [if_neg h1]
    have hd : k / m ≠ i := by
      intro h
      rw [Nat.div_eq_iff hm] at h
      omega
    simp [hd]

theorem rowsF_congr (m : Nat) (rowF : Nat → List F) (d d' : List Nat) (l : List F)
    (h : ∀ i, i ∈ d ↔ i ∈ d') : rowsF m rowF d l = rowsF m rowF d' l := by
  simp [rowsF, h]

theorem rowsF_slice (m i : Nat) (hm : 0 < m) (rowF : Nat → List F) (hr : (rowF i).length = m)
    (done : List Nat) (hi : i ∈ done) (l : List F) (hl : (i + 1) * m ≤ l.length) :
    slice (rowsF m rowF done l) (i * m) m = rowF i := by
  have hl' : i * m + m ≤ l.length := by rw [← Nat.succ_mul]; exact hl
  apply List.ext_getElem?; intro k
  rw [slice_getElem?, rowsF_getElem?]
  by_cases hk : k < m
  · rw [if_pos hk]
    have hd : (i * m + k) / m = i := by rw [Nat.div_eq_iff hm]; constructor <;> omega
    have hmod : (i * m + k) % m = k := by rw [Nat.mul_comm, Nat.mul_add_mod, Nat.mod_eq_of_lt hk]
    rw [hd, hmod]
    have hk' : i * m + k < l.length := by omega
    simp [List.getElem?_eq_getElem hk', hi, List.getD,
      List.getElem?_eq_getElem (show k < (rowF i).length by omega)]
  · rw [if_neg hk, List.getElem?_eq_none (by omega)]

theorem rowsF_drop (m n : Nat) (hm : 0 < m) (rowF : Nat → List F) (done : List Nat)
    (hd : ∀ i ∈ done, i < n) (l : List F) : (rowsF m rowF done l).drop (n * m) = l.drop (n * m) := by
  apply List.ext_getElem?; intro k
  rw [List.getElem?_drop, List.getElem?_drop, rowsF_getElem?]
  have : ¬ ((n * m + k) / m ∈ done) := by
    intro h
    have := hd _ h
    rw [Nat.div_lt_iff_lt_mul hm] at this
    omega
  simp [this]

/-- All rows `0 .. n-1` filled. -/
theorem rowsF_full (m n : Nat) (hm : 0 < m) (rowF : Nat → List F)
    (hr : ∀ i < n, (rowF i).length = m) (done : List Nat) (hd : ∀ i, i ∈ done ↔ i < n) (l : List F)
    (hl : n * m ≤ l.length) :
    rowsF m rowF done l = ((List.range n).map rowF).flatten ++ l.drop (n * m) := by
  induction n generalizing done with
  | zero =>
    have : done = [] := by
      rw [List.eq_nil_iff_forall_not_mem]; intro i hi; simpa using (hd i).mp hi
    simp [this, rowsF_nil]
  | succ n ih =>
    have hl' : n * m + m ≤ l.length := by rw [← Nat.succ_mul]; exact hl
    have e := rowsF_step m n hm rowF (hr n (by omega)) (List.range n) l hl
    rw [rowsF_congr m rowF done (n :: List.range n) l (by intro i; rw [hd]; simp; omega), ← e,
      ih (fun i hi => hr i (by omega)) (List.range n) (by simp) (by omega)]
    have hfl : ((List.range n).map rowF).flatten.length = n * m := by
      rw [List.length_flatten, List.map_map]
      have : (List.range n).map (List.length ∘ rowF) = List.replicate n m := by
        apply List.ext_getElem
        · simp
        · intro i h1 h2
          simp at h1
          simpa using hr i (by omega)
      rw [this]; simp
    rw [setSlice, List.take_left' hfl, List.drop_append, hfl, hr n (by omega),
      List.drop_of_length_le (by omega), List.range_succ, List.map_append, List.flatten_append]
    simp only [List.map_cons, List.map_nil, List.flatten_cons, List.flatten_nil, List.append_nil,
      List.nil_append, List.append_assoc, List.drop_drop]
    congr 3
    rw [Nat.succ_mul]; omega

variable [FloatOps F]

/-- What the iteration for row `i` writes. -/
def rowResult (env : CustomEnv F) (c : Cfg) (nn : Net F) (input : View F) (outAddr : Nat) (i : Nat) :
    List F :=
  netF env c (outAddr + 4 * (i * nn.nOutput)) nn.layers
    ((input.data.drop (i * nn.nInput)).take nn.nInput)

theorem rowResult_length (env : CustomEnv F) (c : Cfg) (nn : Net F) (hw : nn.WF c) (input : View F)
    (outAddr i : Nat) : (rowResult env c nn input outAddr i).length = nn.nOutput := by
  obtain ⟨last, hlast, hno, -⟩ := exists_last hw
  rw [hno]; exact netF_length env c _ nn.layers _ last hlast hw.layer

theorem batchRow_eq (env : CustomEnv F) (c : Cfg) (workAddr : Nat) (junk : Nat → F) (nn : Net F)
    (input out : View F) (i : Nat) (hw : nn.WF c) (hwa : workAddr % c.alignSize = 0)
    (hin : (i + 1) * nn.nInput ≤ input.data.length) (hout : (i + 1) * nn.nOutput ≤ out.data.length)
    (hal : AlignedFor c nn.nOutput (out.addr + 4 * (i * nn.nOutput))) :
    batchRow env c workAddr junk nn input i out =
      .ok ⟨out.addr, setSlice out.data (i * nn.nOutput) (rowResult env c nn input out.addr i)⟩ := by
  rw [Nat.succ_mul] at hin hout
  unfold batchRow
  rw [predict_netF env c workAddr junk nn _ _ hw hwa (by simp [View.offset]; omega)
    (by simp [View.offset]; omega) (by simpa [View.offset] using hal)]
  simp only [bind, Except.bind, pure, Except.pure, putGrad, View.offset, setSlice,
    rowResult_length env c nn hw, rowResult, List.drop_drop, List.append_assoc]
  have := rowResult_length env c nn hw input out.addr i
  simp only [rowResult] at this
  rw [this]

theorem predictBatch_rows (env : CustomEnv F) (c : Cfg) (workAddr : Nat → Nat) (junk : Nat → Nat → F)
    (nn : Net F) (n : Nat) (input : View F) (addr : Nat) (l : List F) (hw : nn.WF c)
    (hwa : ∀ i, workAddr i % c.alignSize = 0) (hm : 0 < nn.nOutput)
    (hin : n * nn.nInput ≤ input.data.length) (hout : n * nn.nOutput ≤ l.length)
    (hal : ∀ i < n, AlignedFor c nn.nOutput (addr + 4 * (i * nn.nOutput))) :
    ∀ (order done : List Nat), (∀ i ∈ order, i < n) →
      predictBatch env c workAddr junk nn order input
          ⟨addr, rowsF nn.nOutput (rowResult env c nn input addr) done l⟩ =
        .ok ⟨addr, rowsF nn.nOutput (rowResult env c nn input addr) (order.reverse ++ done) l⟩
  | [], done, _ => by simp [predictBatch, pure, Except.pure]
  | i :: order, done, ho => by
    have hi : i < n := ho i (by simp)
    have h1 : (i + 1) * nn.nInput ≤ n * nn.nInput := Nat.mul_le_mul_right _ hi
    have h2 : (i + 1) * nn.nOutput ≤ n * nn.nOutput := Nat.mul_le_mul_right _ hi
    have ih := predictBatch_rows env c workAddr junk nn n input addr l hw hwa hm hin hout hal order
      (i :: done) (fun j hj => ho j (by simp [hj]))
    simp only [predictBatch] at ih ⊢
    rw [List.foldlM_cons, batchRow_eq env c _ _ nn input _ i hw (hwa i) (by omega) (by simp; omega)
      (hal i hi)]
    simp only [bind, Except.bind]
    rw [rowsF_step _ i hm _ (rowResult_length env c nn hw input addr i) done l (by omega), ih]
    simp

end NN
