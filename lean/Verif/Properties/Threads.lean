import Verif.Proofs.Threads
import Verif.Properties.Batch
import Verif.Properties.Training
import Verif.Model.Optimizer
/-
C72: the OpenMP regions under every interleaving of their threads.
-/
namespace NN
open Finset
variable {F T : Type} [Fintype T] [DecidableEq T]

/-- **C72** Threads none of which stores where another one loads or stores: no data race, every execution ends after the same number of steps,
every thread ends as if it had run alone — in particular one of them faults exactly if it would alone —, and memory outside is unchanged. -/
theorem C72_alone (R W : T → Set ℕ) (hsep : ∀ t u, t ≠ u → ∀ a ∈ W t, a ∉ R u ∧ a ∉ W u) (m : Mem F) (p : T → Prog F)
    (ht : ∀ t, Touches (R t) (W t) (p t)) (n : ℕ) (s : State T F) (h : Steps ⟨m, p⟩ n s) :
    ¬ s.Race ∧ n ≤ ∑ t, (p t).len m ∧ ((∀ s', ¬ Step s s') ↔ n = ∑ t, (p t).len m) ∧
    (∀ t, s.thread t = .halt → ∃ m', (p t).run m = .ok m' ∧ ∀ a ∈ W t, s.mem a = m' a) ∧
    (∀ t f, s.thread t = .fault f → (p t).run m = .error f) ∧ ∀ a, (∀ t, a ∉ W t) → s.mem a = m a := by
  obtain ⟨m0, hI⟩ := h.inv hsep ht
  refine ⟨no_race hsep hI.touches, by have := hI.count; omega, ?_, fun t hh => ⟨m0 t, ?_, fun a ha => (hI.agree t a (.inr ha)).symm⟩, fun t f hf => ?_, hI.frame⟩
  · have hc := hI.count
    constructor
    · intro hno
      have : ∀ t, (s.thread t).len (m0 t) = 0 := by
        intro t
        cases hp : s.thread t with
        | halt => rfl
        | fault f => rfl
        | load a k => exact absurd (Step.load s t a k hp) (hno _)
        | store a v k => exact absurd (Step.store s t a v k hp) (hno _)
      simpa [this] using hc
    · intro hn s' hs
      have hz : ∑ t, (s.thread t).len (m0 t) = 0 := by omega
      rw [Finset.sum_eq_zero_iff] at hz
      cases hs with
      | load t a k hp => have := hz t (mem_univ t); rw [hp] at this; simp [Prog.len] at this
      | store t a v k hp => have := hz t (mem_univ t); rw [hp] at this; simp [Prog.len] at this
  · rw [← hI.run t, hh]; rfl
  · rw [← hI.run t, hf]; rfl

/-- **C72** Every execution of such threads can be continued to its end, and all ends agree on the number of steps (by `C72_alone`). -/
theorem C72_ends (R W : T → Set ℕ) (hsep : ∀ t u, t ≠ u → ∀ a ∈ W t, a ∉ R u ∧ a ∉ W u) (m : Mem F) (p : T → Prog F)
    (ht : ∀ t, Touches (R t) (W t) (p t)) (n : ℕ) (s : State T F) (h : Steps ⟨m, p⟩ n s) :
    ∃ s', Steps ⟨m, p⟩ (∑ t, (p t).len m) s' ∧ ∀ s'', ¬ Step s' s'' := by
  obtain ⟨j, hj⟩ : ∃ j, (∑ t, (p t).len m) - n = j := ⟨_, rfl⟩
  induction j generalizing n s with
  | zero =>
    obtain ⟨-, h2, h3, -⟩ := C72_alone R W hsep m p ht n s h
    have e : n = ∑ t, (p t).len m := by omega
    exact ⟨s, e ▸ h, h3.2 e⟩
  | succ j ih =>
    obtain ⟨-, h2, h3, -⟩ := C72_alone R W hsep m p ht n s h
    have hne : ¬ ∀ s', ¬ Step s s' := fun h' => by have := h3.1 h'; omega
    push Not at hne
    obtain ⟨s', hs'⟩ := hne
    exact ih (n + 1) s' (.succ h hs') (by omega)

/-- **C72** Loop iterations or sections without common data, distributed over threads in any way: no race, and if none of them faults alone, none
faults and each of them ends as if it had run alone from the initial memory `m`. -/
theorem C72_jobs {J : Type} (R W : J → Set ℕ) (S : T → Set ℕ) (hWR : ∀ j k, j ≠ k → ∀ a ∈ W j, a ∉ R k ∧ a ∉ W k)
    (hS : ∀ t j, ∀ a ∈ S t, a ∉ R j ∧ a ∉ W j) (hSS : ∀ t u, t ≠ u → ∀ a ∈ S t, a ∉ S u) (share : T → List J) (hnd : ∀ t, (share t).Nodup)
    (hdis : ∀ t u, t ≠ u → ∀ j ∈ share t, j ∉ share u) (code : T → J → Prog F) (htouch : ∀ t, ∀ j ∈ share t, Touches (R j) (W j ∪ S t) (code t j))
    (m : Mem F) (Post : J → Mem F → Prop) (hcongr : ∀ j m1 m2, (∀ a ∈ W j, m1 a = m2 a) → Post j m1 → Post j m2)
    (n : ℕ) (s : State T F) (h : Steps ⟨m, fun t => Prog.share (code t) (share t)⟩ n s) :
    ¬ s.Race ∧ n ≤ ∑ t, (Prog.share (code t) (share t)).len m ∧ (∀ a, (∀ j, a ∉ W j) → (∀ t, a ∉ S t) → s.mem a = m a) ∧
    ((∀ t, ∀ j ∈ share t, ∀ m1, (∀ a, a ∈ R j ∨ a ∈ W j → m1 a = m a) → ∃ m', (code t j).run m1 = .ok m' ∧ Post j m') →
      ¬ s.Faulty ∧ ((∀ s', ¬ Step s s') → s.Done) ∧ (s.Done → ∀ t, ∀ j ∈ share t, Post j s.mem)) ∧
    ∀ t, ∀ j ∈ share t, (∀ m1, (∀ a, a ∈ R j ∨ a ∈ W j → m1 a = m a) → ∃ e, (code t j).run m1 = .error e) → ¬ s.Done := by
  have htt : ∀ t, Touches (⋃ j ∈ share t, R j) ((⋃ j ∈ share t, W j) ∪ S t) (Prog.share (code t) (share t)) := by
    intro t
    refine Touches.share _ _ fun j hj => (htouch t j hj).mono (fun a ha => .inl ?_) ?_
    · exact Set.mem_iUnion₂.2 ⟨j, hj, ha⟩
    · exact Set.union_subset_union_left _ fun a ha => Set.mem_iUnion₂.2 ⟨j, hj, ha⟩
  have hsep : ∀ t u, t ≠ u → ∀ a ∈ (⋃ j ∈ share t, W j) ∪ S t, a ∉ (⋃ j ∈ share u, R j) ∧ a ∉ (⋃ j ∈ share u, W j) ∪ S u := by
    intro t u htu a ha
    simp only [Set.mem_union, Set.mem_iUnion, not_or, not_exists] at ha ⊢
    rcases ha with ⟨j, hj, ha⟩ | ha
    · have hjk : ∀ k ∈ share u, j ≠ k := by rintro k hk rfl; exact hdis t u htu j hj hk
      exact ⟨fun k hk => (hWR j k (hjk k hk) a ha).1, fun k hk => (hWR j k (hjk k hk) a ha).2, fun h' => (hS u j a h').2 ha⟩
    · exact ⟨fun k _ => (hS t k a ha).1, fun k _ => (hS t k a ha).2, hSS t u htu a ha⟩
  obtain ⟨h1, h2, h3, h4, h5, h6⟩ := C72_alone _ _ hsep m _ htt n s h
  refine ⟨h1, h2, ?_, ?_, ?_⟩
  · intro a ha hs
    refine h6 a fun t ht => ?_
    simp only [Set.mem_union, Set.mem_iUnion] at ht
    rcases ht with ⟨j, -, h'⟩ | h'
    · exact ha j h'
    · exact hs t h'
  · intro hpost
    have key : ∀ t, ∃ m', (Prog.share (code t) (share t)).run m = .ok m' ∧ ∀ j ∈ share t, Post j m' := by
      intro t
      obtain ⟨m', e, p, -⟩ := share_run m R W (S t) hWR (hS t) (code t) Post hcongr (share t) (hnd t) (htouch t) (hpost t) m (fun _ _ _ _ => rfl)
      exact ⟨m', e, p⟩
    have hnf : ¬ s.Faulty := by
      rintro ⟨t, f, hf⟩
      obtain ⟨m', e, -⟩ := key t
      rw [h5 t f hf] at e
      simp at e
    refine ⟨hnf, fun hno t => ?_, fun hd t j hj => ?_⟩
    · cases hp : s.thread t with
      | halt => rfl
      | fault f => exact absurd ⟨t, f, hp⟩ hnf
      | load a k => exact absurd (Step.load s t a k hp) (hno _)
      | store a v k => exact absurd (Step.store s t a v k hp) (hno _)
    · obtain ⟨m', e, p⟩ := key t
      obtain ⟨m'', e', he⟩ := h4 t (hd t)
      rw [e] at e'
      obtain rfl := Except.ok.inj e'
      exact hcongr j m' s.mem (fun a ha => (he a (.inl (Set.mem_iUnion₂.2 ⟨j, hj, ha⟩))).symm) (p j hj)
  · intro t j hj herr hd
    obtain ⟨m', e, -⟩ := h4 t (hd t)
    obtain ⟨m2, m3, e2, e3⟩ := share_ok m R W (S t) hWR (hS t) (code t) (share t) (hnd t) (htouch t) m (fun _ _ _ _ => rfl) m' e j hj
    obtain ⟨x, hx⟩ := herr m2 e2
    rw [hx] at e3
    simp at e3

/-! ### neuralnet_predict_batch -/

/-- Addresses of the parameters of a network. -/
def paramCells (nn : Net F) : Set ℕ := {a | ∃ l ∈ nn.layers, a ∈ floatCells l.weight.addr l.weight.data.length ∨ a ∈ floatCells l.bias.addr l.bias.data.length}

/-- The parameters of the network are in memory. -/
def HoldsNet (nn : Net F) (m : Mem F) : Prop := ∀ l ∈ nn.layers, l.weight.In m ∧ l.bias.In m

theorem HoldsNet.congr {nn : Net F} {m m' : Mem F} (h : ∀ a ∈ paramCells nn, m a = m' a) (hm : HoldsNet nn m) : HoldsNet nn m' := by
  intro l hl
  refine ⟨?_, ?_⟩
  · have := (hm l hl).1
    unfold View.In at this ⊢
    rw [← this]
    simp only [readCells_length]
    exact (readCells_congr fun a ha => h a ⟨l, hl, .inl ha⟩).symm
  · have := (hm l hl).2
    unfold View.In at this ⊢
    rw [← this]
    simp only [readCells_length]
    exact (readCells_congr fun a ha => h a ⟨l, hl, .inr ha⟩).symm

variable [FloatOps F]

/-- Machine code `p` for iteration `i` of `neuralnet_predict_batch` on a thread with stack `S`: it loads parameters and its input row, stores to its
output row and the stack, and when run alone does what `neuralnet_predict` does. -/
structure RowCode (env : CustomEnv F) (c : Cfg) (nn : Net F) (ia oa : ℕ) (S : Set ℕ) (wa i : ℕ) (p : Prog F) : Prop where
  touches : Touches (paramCells nn ∪ floatCells (ia + 4 * (i * nn.nInput)) nn.nInput) (floatCells (oa + 4 * (i * nn.nOutput)) nn.nOutput ∪ S) p
  ok : ∀ m, HoldsNet nn m → ∃ junk, ∀ v, predict env c wa junk nn ⟨ia + 4 * (i * nn.nInput), readCells m (ia + 4 * (i * nn.nInput)) nn.nInput⟩
      ⟨oa + 4 * (i * nn.nOutput), readCells m (oa + 4 * (i * nn.nOutput)) nn.nOutput⟩ = .ok v →
    ∃ m', p.run m = .ok m' ∧ readCells m' (oa + 4 * (i * nn.nOutput)) nn.nOutput = v.data
  error : ∀ m, HoldsNet nn m → ∃ junk, ∀ e, predict env c wa junk nn ⟨ia + 4 * (i * nn.nInput), readCells m (ia + 4 * (i * nn.nInput)) nn.nInput⟩
      ⟨oa + 4 * (i * nn.nOutput), readCells m (oa + 4 * (i * nn.nOutput)) nn.nOutput⟩ = .error e → p.run m = .error e

omit [FloatOps F] in
theorem rows_ext {n k : ℕ} (hk : 0 < k) {l l' : List F} (hl : l.length = n * k) (hl' : l'.length = n * k)
    (h : ∀ i < n, slice l (i * k) k = slice l' (i * k) k) : l = l' := by
  apply List.ext_getElem?
  intro j
  by_cases hj : j < n * k
  · have hi := (Nat.div_lt_iff_lt_mul hk).2 hj
    have := congrArg (fun x => x[j % k]?) (h _ hi)
    simp only [slice, List.getElem?_take, List.getElem?_drop, Nat.mod_lt _ hk, if_true] at this
    rwa [Nat.mul_comm, Nat.div_add_mod] at this
  · rw [List.getElem?_eq_none (by omega), List.getElem?_eq_none (by omega)]

theorem cells_rows {a k i j : ℕ} (hij : i ≠ j) : ∀ x ∈ floatCells (a + 4 * (i * k)) k, x ∉ floatCells (a + 4 * (j * k)) k := by
  rintro x ⟨p, hp, rfl⟩ ⟨q, hq, h⟩
  have h' : i * k + p = j * k + q := by omega
  apply hij
  have e1 : (i * k + p) / k = i := by rw [Nat.mul_comm, Nat.mul_add_div (by omega), Nat.div_eq_of_lt hp, Nat.add_zero]
  have e2 : (j * k + q) / k = j := by rw [Nat.mul_comm, Nat.mul_add_div (by omega), Nat.div_eq_of_lt hq, Nat.add_zero]
  rw [← e1, ← e2, h']

theorem cells_sub {a n k i : ℕ} (hi : i < n) : floatCells (a + 4 * (i * k)) k ⊆ floatCells a (n * k) := by
  rintro x ⟨p, hp, rfl⟩
  have : (i + 1) * k ≤ n * k := Nat.mul_le_mul_right _ hi
  rw [Nat.succ_mul] at this
  exact ⟨i * k + p, by omega, by omega⟩

/-- **C72** `neuralnet_predict_batch` at the level of loads and stores: whatever code is generated for an iteration, however the rows are distributed
over threads and however the threads are interleaved, there is no data race, and the execution ends.  If the rows are aligned as C04 requires, no
thread faults, and the output is what the sequential loop computes (for every order, by C04); nothing else but the stacks is changed.  If some row is
not, no execution gets through. -/
theorem C72_predict_batch (env : CustomEnv F) (c : Cfg) (nn : Net F) (hw : nn.WF c) (n ia oa : ℕ) (S : T → Set ℕ) (wa : T → ℕ) (hwa : ∀ t, wa t % c.alignSize = 0)
    (share : T → List (Fin n)) (hnd : ∀ t, (share t).Nodup) (hdis : ∀ t u, t ≠ u → ∀ i ∈ share t, i ∉ share u) (hall : ∀ i, ∃ t, i ∈ share t)
    (code : T → Fin n → Prog F) (hcode : ∀ t (i : Fin n), RowCode env c nn ia oa (S t) (wa t) i (code t i))
    (hout : Apart (floatCells oa (n * nn.nOutput)) (paramCells nn ∪ floatCells ia (n * nn.nInput)))
    (hS : ∀ t, Apart (S t) (paramCells nn ∪ floatCells ia (n * nn.nInput) ∪ floatCells oa (n * nn.nOutput))) (hSS : ∀ t u, t ≠ u → Apart (S t) (S u))
    (m : Mem F) (hm : HoldsNet nn m) (k : ℕ) (s : State T F) (h : Steps ⟨m, fun t => Prog.share (code t) (share t)⟩ k s) :
    ¬ s.Race ∧ k ≤ ∑ t, (Prog.share (code t) (share t)).len m ∧
    (∀ a, a ∉ floatCells oa (n * nn.nOutput) → (∀ t, a ∉ S t) → s.mem a = m a) ∧
    ((∀ i < n, AlignedFor c nn.nOutput (oa + 4 * (i * nn.nOutput))) → ¬ s.Faulty ∧ ((∀ s', ¬ Step s s') → s.Done) ∧
      (s.Done → ∀ (order : List ℕ), order.Perm (List.range n) → ∀ (workAddr : ℕ → ℕ) (junk : ℕ → ℕ → F), (∀ i, workAddr i % c.alignSize = 0) →
        predictBatch env c workAddr junk nn order ⟨ia, readCells m ia (n * nn.nInput)⟩ ⟨oa, readCells m oa (n * nn.nOutput)⟩ =
          .ok ⟨oa, readCells s.mem oa (n * nn.nOutput)⟩)) ∧
    ((∃ i < n, ¬ AlignedFor c nn.nOutput (oa + 4 * (i * nn.nOutput))) → ¬ s.Done) := by
  have hcell : ∀ (i : Fin n) a, a ∈ floatCells (oa + 4 * (i * nn.nOutput)) nn.nOutput → a ∈ floatCells oa (n * nn.nOutput) := fun i a ha => cells_sub i.2 ha
  have hcelli : ∀ (i : Fin n) a, a ∈ floatCells (ia + 4 * (i * nn.nInput)) nn.nInput → a ∈ floatCells ia (n * nn.nInput) := fun i a ha => cells_sub i.2 ha
  have hpm : ∀ (i : Fin n) (m1 : Mem F), (∀ a, a ∈ paramCells nn ∪ floatCells (ia + 4 * (i * nn.nInput)) nn.nInput ∨
      a ∈ floatCells (oa + 4 * (i * nn.nOutput)) nn.nOutput → m1 a = m a) → HoldsNet nn m1 := fun i m1 h1 => hm.congr fun a ha => (h1 a (.inl (.inl ha))).symm
  obtain ⟨h1, h2, h3, h4, h5⟩ := C72_jobs (fun i : Fin n => paramCells nn ∪ floatCells (ia + 4 * (i * nn.nInput)) nn.nInput)
    (fun i : Fin n => floatCells (oa + 4 * (i * nn.nOutput)) nn.nOutput) S
    (by
      intro i j hij a ha
      refine ⟨?_, cells_rows (fun h => hij (Fin.ext h)) a ha⟩
      rintro (h' | h')
      · exact hout a (hcell i a ha) (.inl h')
      · exact hout a (hcell i a ha) (.inr (hcelli j a h')))
    (by
      intro t i a ha
      refine ⟨?_, fun h' => hS t a ha (.inr (hcell i a h'))⟩
      rintro (h' | h')
      · exact hS t a ha (.inl (.inl h'))
      · exact hS t a ha (.inl (.inr (hcelli i a h'))))
    hSS share hnd hdis code (fun t i _ => (hcode t i).touches) m
    (fun i m' => readCells m' (oa + 4 * (i * nn.nOutput)) nn.nOutput =
      netF env c (oa + 4 * (i * nn.nOutput)) nn.layers (readCells m (ia + 4 * (i * nn.nInput)) nn.nInput))
    (by
      intro i m1 m2 he hp
      rw [← hp]
      exact (readCells_congr he).symm) k s h
  refine ⟨h1, h2, fun a ha hs => h3 a (fun i h' => ha (hcell i a h')) hs, ?_, ?_⟩
  · intro hal
    obtain ⟨g1, g2, g3⟩ := h4 (by
      intro t i _ m1 hm1
      obtain ⟨junk, hj⟩ := (hcode t i).ok m1 (hpm i m1 hm1)
      have hin : readCells m1 (ia + 4 * (i * nn.nInput)) nn.nInput = readCells m (ia + 4 * (i * nn.nInput)) nn.nInput :=
        readCells_congr fun a ha => hm1 a (.inl (.inr ha))
      rw [hin] at hj
      obtain ⟨m', e1, e2⟩ := hj _ (predict_netF env c (wa t) junk nn _ _ hw (hwa t) (by simp) (by simp) (hal i i.2))
      refine ⟨m', e1, ?_⟩
      rw [e2]
      simp only [List.drop_of_length_le (show (readCells m1 (oa + 4 * (i * nn.nOutput)) nn.nOutput).length ≤ nn.nOutput by simp), List.append_nil]
      rw [List.take_of_length_le (by simp)])
    refine ⟨g1, g2, fun hd order ho workAddr junk hwa' => ?_⟩
    have hpos : 0 < nn.nOutput := by
      obtain ⟨last, -, hno, hlw⟩ := exists_last hw
      rw [hno]; exact hlw.out_pos
    obtain ⟨r, r1, r2, r3, -, r5⟩ := C04_rows_partial env c workAddr junk nn n order ho ⟨ia, readCells m ia (n * nn.nInput)⟩ ⟨oa, readCells m oa (n * nn.nOutput)⟩
      hw hwa' (by simp) (by simp) hal
    rw [r1]
    rcases r with ⟨ra, rd⟩
    simp only at r2 r3
    rw [r2]
    congr 2
    refine rows_ext hpos (by simpa using r3) (by simp) fun i hi => ?_
    obtain ⟨t, ht⟩ := hall ⟨i, hi⟩
    have hp := g3 hd t ⟨i, hi⟩ ht
    have hle : i * nn.nOutput + nn.nOutput ≤ n * nn.nOutput := by rw [← Nat.succ_mul]; exact Nat.mul_le_mul_right _ hi
    have hli : i * nn.nInput + nn.nInput ≤ n * nn.nInput := by rw [← Nat.succ_mul]; exact Nat.mul_le_mul_right _ hi
    rw [readCells_slice _ _ _ _ _ hle, hp]
    have := r5 i hi (wa t) (fun _ => FloatOps.zero) (List.replicate nn.nOutput FloatOps.zero) (hwa t) (by simp)
    rw [predict_netF env c (wa t) _ nn _ _ hw (hwa t) (by simp [View.offset]; omega) (by simp) (hal i hi)] at this
    have e := congrArg View.data (Except.ok.inj this)
    simp only [View.offset, List.drop_replicate, Nat.sub_self, List.replicate_zero, List.append_nil] at e
    rw [← e]
    congr 1
    exact readCells_slice m ia _ _ _ hli
  · rintro ⟨i, hi, hna⟩
    obtain ⟨t, ht⟩ := hall ⟨i, hi⟩
    refine h5 t ⟨i, hi⟩ ht fun m1 hm1 => ?_
    obtain ⟨junk, hj⟩ := (hcode t ⟨i, hi⟩).error m1 (hpm ⟨i, hi⟩ m1 hm1)
    exact ⟨.misaligned, hj _ (predict_misaligned env c (wa t) junk nn _ _ hw (hwa t) (by simp) hna)⟩

/-! ### Reductions: evaluate, optimizer_calc_batch_gradient -/

omit [FloatOps F] in
/-- The iterations of one thread on its private copy. -/
theorem private_run (R P : Set ℕ) (pa k : ℕ) (body : ℕ → List F → M (List F)) (code : ℕ → Prog F) (m : Mem F) (hPR : Apart P R) :
    ∀ (bs : List ℕ), (∀ b ∈ bs, Touches R P (code b)) →
      (∀ b ∈ bs, ∀ m1, (∀ a ∈ R, m1 a = m a) → (∀ acc, body b (readCells m1 pa k) = .ok acc → ∃ m', (code b).run m1 = .ok m' ∧ readCells m' pa k = acc) ∧
        ∀ e, body b (readCells m1 pa k) = .error e → (code b).run m1 = .error e) →
      ∀ m1, (∀ a ∈ R, m1 a = m a) →
      (∀ acc, bs.foldlM (fun s i => body i s) (readCells m1 pa k) = .ok acc → ∃ m', (Prog.share code bs).run m1 = .ok m' ∧ readCells m' pa k = acc) ∧
      ∀ e, bs.foldlM (fun s i => body i s) (readCells m1 pa k) = .error e → (Prog.share code bs).run m1 = .error e := by
  intro bs
  induction bs with
  | nil =>
    intro _ _ m1 _
    refine ⟨fun acc h => ⟨m1, rfl, ?_⟩, fun e h => ?_⟩
    · simp only [List.foldlM_nil, pure, Except.pure] at h
      exact Except.ok.inj h
    · simp [pure, Except.pure] at h
  | cons b bs ih =>
    intro ht hc m1 h1
    obtain ⟨c1, c2⟩ := hc b (by simp) m1 h1
    simp only [List.foldlM_cons, bind, Except.bind, Prog.share, run_andThen]
    cases hb : body b (readCells m1 pa k) with
    | error e => simp [c2 e hb]
    | ok acc1 =>
      obtain ⟨m2, e2, r2⟩ := c1 acc1 hb
      simp only [e2]
      have := ih (fun b hb => ht b (by simp [hb])) (fun b hb => hc b (by simp [hb])) m2 (fun a ha => by
        rw [(ht b (by simp)).frame e2 a fun h => hPR a h ha, h1 a ha])
      rw [r2] at this
      exact this

omit [FloatOps F] in
/-- **C72** A `parallel for` with reduction: the threads work on private copies at `pa t` (`k` floats, initially `init`), with code that does what the
model `body` of an iteration does, and loads nothing but the shared data `R` else.  In every interleaving: no data race; the private copies
end as in the model `Sched.reduce`, for every way of combining them; a thread faults exactly if the model does. -/
theorem C72_reduction (k : ℕ) (init : List F) (body : ℕ → List F → M (List F)) (comb : List F → List F → List F) (R : Set ℕ) (S : T → Set ℕ) (pa : T → ℕ)
    (share : T → List ℕ) (code : T → ℕ → Prog F) (htouch : ∀ t, ∀ b ∈ share t, Touches R (floatCells (pa t) k ∪ S t) (code t b))
    (hR : ∀ t, Apart (floatCells (pa t) k ∪ S t) R) (hsep : ∀ t u, t ≠ u → Apart (floatCells (pa t) k ∪ S t) (floatCells (pa u) k ∪ S u))
    (m : Mem F) (hinit : ∀ t, readCells m (pa t) k = init)
    (hcode : ∀ t, ∀ b ∈ share t, ∀ m1, (∀ a ∈ R, m1 a = m a) →
      (∀ acc, body b (readCells m1 (pa t) k) = .ok acc → ∃ m', (code t b).run m1 = .ok m' ∧ readCells m' (pa t) k = acc) ∧
      ∀ e, body b (readCells m1 (pa t) k) = .error e → (code t b).run m1 = .error e)
    (n : ℕ) (s : State T F) (h : Steps ⟨m, fun t => Prog.share (code t) (share t)⟩ n s) :
    ¬ s.Race ∧ n ≤ ∑ t, (Prog.share (code t) (share t)).len m ∧ (∀ a, (∀ t, a ∉ floatCells (pa t) k ∪ S t) → s.mem a = m a) ∧
    (∀ t f, s.thread t = .fault f → (share t).foldlM (fun s i => body i s) init = .error f) ∧
    (∀ t, s.thread t = .halt → (share t).foldlM (fun s i => body i s) init = .ok (readCells s.mem (pa t) k)) ∧
    (s.Done → ∀ team : Team T, (team.sched share).reduce init body comb = .ok (team.value comb fun t => readCells s.mem (pa t) k)) := by
  obtain ⟨h1, h2, -, h4, h5, h6⟩ := C72_alone (fun _ => R) (fun t => floatCells (pa t) k ∪ S t) (fun t u htu a ha => ⟨hR t a ha, hsep t u htu a ha⟩) m _
    (fun t => Touches.share _ _ (htouch t)) n s h
  have key := fun t => private_run R (floatCells (pa t) k ∪ S t) (pa t) k body (code t) m (hR t) (share t) (htouch t) (hcode t) m (fun _ _ => rfl)
  have hh : ∀ t, s.thread t = .halt → (share t).foldlM (fun s i => body i s) init = .ok (readCells s.mem (pa t) k) := by
    intro t ht
    obtain ⟨m', e1, e2⟩ := h4 t ht
    obtain ⟨k1, k2⟩ := key t
    rw [hinit t] at k1 k2
    cases hf : (share t).foldlM (fun s i => body i s) init with
    | error e => rw [k2 e hf] at e1; simp at e1
    | ok acc =>
      obtain ⟨m'', e3, e4⟩ := k1 acc hf
      rw [e1] at e3
      obtain rfl := Except.ok.inj e3
      rw [← e4]
      exact congrArg Except.ok (readCells_congr fun a ha => (e2 a (.inl ha)).symm)
  refine ⟨h1, h2, h6, ?_, hh, ?_⟩
  · intro t f hf
    obtain ⟨k1, k2⟩ := key t
    rw [hinit t] at k1 k2
    have e := h5 t f hf
    cases hf' : (share t).foldlM (fun s i => body i s) init with
    | error e' => rw [k2 e' hf'] at e; rw [Except.error.inj e]
    | ok acc =>
      obtain ⟨m'', e3, -⟩ := k1 acc hf'
      rw [e] at e3; simp at e3
  · intro hd team
    induction team with
    | leaf t => exact hh t (hd t)
    | node a b iha ihb => simp only [Team.sched, Sched.reduce, iha, ihb, bind, Except.bind, pure, Except.pure, Team.value]

omit [Fintype T] [DecidableEq T] [FloatOps F] in
/-- If every thread takes part once and every iteration is in one share, the schedule covers the loop: the theorems about all schedules
(C24, C29, C68, C71) apply to every execution on threads. -/
theorem C72_covers (n : ℕ) (share : T → List ℕ) (team : Team T) (hteam : team.threads.Nodup) (hmem : ∀ t, t ∈ team.threads)
    (hnd : ∀ t, (share t).Nodup) (hdis : ∀ t u, t ≠ u → ∀ i ∈ share t, i ∉ share u) (hall : ∀ i, i < n ↔ ∃ t, i ∈ share t) :
    (team.sched share).Covers n := by
  have hit : ∀ team : Team T, (team.sched share).iters = team.threads.flatMap share := by
    intro team
    induction team with
    | leaf t => simp [Team.sched, Sched.iters, Team.threads]
    | node a b iha ihb => simp [Team.sched, Sched.iters, Team.threads, iha, ihb]
  unfold Sched.Covers
  rw [hit, List.perm_ext_iff_of_nodup]
  · intro i
    simp only [List.mem_flatMap, List.mem_range, hall]
    exact ⟨fun ⟨t, _, ht⟩ => ⟨t, ht⟩, fun ⟨t, ht⟩ => ⟨t, hmem t, ht⟩⟩
  · rw [List.nodup_flatMap]
    refine ⟨fun t _ => hnd t, hteam.imp fun htu => ?_⟩
    intro i hi hi'
    exact hdis _ _ htu i hi hi'
  · exact List.nodup_range

/-- **C72** `evaluate` (build without BLAS): in every interleaving of the threads the reported values are those of the model with the schedule of the
team. -/
theorem C72_evaluate (env : CustomEnv F) (c : Cfg) (mem : ℕ → ThreadMem F) (nn : Net F) (nSamples : ℕ) (X Y : View F) (metrics : List (Option Metric))
    (ms : List Metric) (hms : metricList metrics = .ok ms) (results : View F) (R : Set ℕ) (S : T → Set ℕ) (pa : T → ℕ) (share : T → List ℕ) (code : T → ℕ → Prog F)
    (htouch : ∀ t, ∀ b ∈ share t, Touches R (floatCells (pa t) ms.length ∪ S t) (code t b)) (hR : ∀ t, Apart (floatCells (pa t) ms.length ∪ S t) R)
    (hsep : ∀ t u, t ≠ u → Apart (floatCells (pa t) ms.length ∪ S t) (floatCells (pa u) ms.length ∪ S u))
    (m : Mem F) (hinit : ∀ t, readCells m (pa t) ms.length = ms.map fun _ => FloatOps.zero)
    (hcode : ∀ t, ∀ b ∈ share t, ∀ m1, (∀ a ∈ R, m1 a = m a) →
      (∀ acc, evaluateBody env c mem nn X Y ms b (readCells m1 (pa t) ms.length) = .ok acc → ∃ m', (code t b).run m1 = .ok m' ∧ readCells m' (pa t) ms.length = acc) ∧
      ∀ e, evaluateBody env c mem nn X Y ms b (readCells m1 (pa t) ms.length) = .error e → (code t b).run m1 = .error e)
    (n : ℕ) (s : State T F) (h : Steps ⟨m, fun t => Prog.share (code t) (share t)⟩ n s) :
    ¬ s.Race ∧ (s.Done → ∀ team : Team T, evaluate env c mem (team.sched share) nn nSamples X Y metrics results =
      storeResults nSamples ms.length (List.zipWith FloatOps.add (ms.map fun _ => FloatOps.zero)
        (team.value (List.zipWith FloatOps.add) fun t => readCells s.mem (pa t) ms.length)) results) := by
  obtain ⟨h1, -, -, -, -, h6⟩ := C72_reduction ms.length _ (evaluateBody env c mem nn X Y ms) (List.zipWith FloatOps.add) R S pa share code htouch hR hsep m hinit hcode n s h
  refine ⟨h1, fun hd team => ?_⟩
  simp only [evaluate, hms, bind, Except.bind, h6 hd team]

/-- **C72** `optimizer_calc_batch_gradient`: in every interleaving of the threads the gradient is that of the model with the schedule of the team. -/
theorem C72_batch_gradient (env : CustomEnv F) (c : Cfg) (mem : ℕ → ThreadGrad F) (nn : Net F) (pivot : Option (List ℕ)) (batchsize n : ℕ) (hn : n < 2 ^ 31) (X Y : View F)
    (i : ℕ) (buf : View F) (hk : nParams nn.layers ≤ buf.data.length) (hpad : nParamPadding c (nParams nn.layers) ≤ buf.data.length)
    (R : Set ℕ) (S : T → Set ℕ) (pa : T → ℕ) (share : T → List ℕ) (code : T → ℕ → Prog F)
    (htouch : ∀ t, ∀ b ∈ share t, Touches R (floatCells (pa t) (nParamPadding c (nParams nn.layers)) ∪ S t) (code t b))
    (hR : ∀ t, Apart (floatCells (pa t) (nParamPadding c (nParams nn.layers)) ∪ S t) R)
    (hsep : ∀ t u, t ≠ u → Apart (floatCells (pa t) (nParamPadding c (nParams nn.layers)) ∪ S t) (floatCells (pa u) (nParamPadding c (nParams nn.layers)) ∪ S u))
    (m : Mem F) (hinit : ∀ t, readCells m (pa t) (nParamPadding c (nParams nn.layers)) = List.replicate (nParamPadding c (nParams nn.layers)) FloatOps.zero)
    (hcode : ∀ t, ∀ b ∈ share t, ∀ m1, (∀ a ∈ R, m1 a = m a) →
      (∀ acc, batchBody env c mem nn pivot X Y i b (readCells m1 (pa t) (nParamPadding c (nParams nn.layers))) = .ok acc →
        ∃ m', (code t b).run m1 = .ok m' ∧ readCells m' (pa t) (nParamPadding c (nParams nn.layers)) = acc) ∧
      ∀ e, batchBody env c mem nn pivot X Y i b (readCells m1 (pa t) (nParamPadding c (nParams nn.layers))) = .error e → (code t b).run m1 = .error e)
    (k : ℕ) (s : State T F) (h : Steps ⟨m, fun t => Prog.share (code t) (share t)⟩ k s) :
    ¬ s.Race ∧ (s.Done → ∀ team : Team T, calcBatchGradient env c mem (team.sched share) nn pivot batchsize n X Y i buf = do
      let cleared := List.replicate (nParams nn.layers) FloatOps.zero ++ buf.data.drop (nParams nn.layers)
      let pad := nParamPadding c (nParams nn.layers)
      let total := team.value (List.zipWith FloatOps.add) fun t => readCells s.mem (pa t) pad
      let g ← vectorDivideByScalar c (nParams nn.layers) ⟨buf.addr, List.zipWith FloatOps.add (cleared.take pad) total ++ cleared.drop pad⟩
        (FloatOps.ofNat (batchLen n batchsize i))
      pure (i + batchLen n batchsize i, g)) := by
  obtain ⟨h1, -, -, -, -, h6⟩ := C72_reduction _ _ (batchBody env c mem nn pivot X Y i) (List.zipWith FloatOps.add) R S pa share code htouch hR hsep m hinit hcode k s h
  refine ⟨h1, fun hd team => ?_⟩
  have hlen : (List.replicate (nParams nn.layers) FloatOps.zero ++ buf.data.drop (nParams nn.layers)).length = buf.data.length := by simp; omega
  simp only [calcBatchGradient, if_pos hn, memsetZero, if_pos hk, bind, Except.bind, hlen, if_pos hpad, h6 hd team]

/-! ### The parallel sections of Adam -/

/-- **C72** The two sections of `adam_run_epoch` (`true`: first moment, `false`: second moment) on any threads: no data race, and in every interleaving
the moments become what the model computes one after the other; the gradient is unchanged. -/
theorem C72_adam (c : Cfg) (k sa ra ga : ℕ) (rho1 rho2 : F) (S : T → Set ℕ) (share : T → List Bool) (hnd : ∀ t, (share t).Nodup)
    (hdis : ∀ t u, t ≠ u → ∀ j ∈ share t, j ∉ share u) (hall : ∀ j, ∃ t, j ∈ share t) (code : T → Bool → Prog F)
    (htouch : ∀ t j, Touches (floatCells ga k) (floatCells (bif j then sa else ra) k ∪ S t) (code t j))
    (hcode : ∀ t (m : Mem F), (∀ v, updateFirstMoment c k ⟨sa, readCells m sa k⟩ ⟨ga, readCells m ga k⟩ rho1 = .ok v →
        ∃ m', (code t true).run m = .ok m' ∧ readCells m' sa k = v.data) ∧
      ∀ v, updateSecondMoment c k ⟨ra, readCells m ra k⟩ ⟨ga, readCells m ga k⟩ rho2 = .ok v →
        ∃ m', (code t false).run m = .ok m' ∧ readCells m' ra k = v.data)
    (hsr : Apart (floatCells sa k) (floatCells ra k)) (hsg : Apart (floatCells sa k) (floatCells ga k)) (hrg : Apart (floatCells ra k) (floatCells ga k))
    (hS : ∀ t, Apart (S t) (floatCells sa k ∪ floatCells ra k ∪ floatCells ga k)) (hSS : ∀ t u, t ≠ u → Apart (S t) (S u)) (m : Mem F) (v w : View F)
    (hv : updateFirstMoment c k ⟨sa, readCells m sa k⟩ ⟨ga, readCells m ga k⟩ rho1 = .ok v)
    (hw : updateSecondMoment c k ⟨ra, readCells m ra k⟩ ⟨ga, readCells m ga k⟩ rho2 = .ok w)
    (n : ℕ) (s : State T F) (h : Steps ⟨m, fun t => Prog.share (code t) (share t)⟩ n s) :
    ¬ s.Race ∧ ¬ s.Faulty ∧ ((∀ s', ¬ Step s s') → s.Done) ∧
      (s.Done → readCells s.mem sa k = v.data ∧ readCells s.mem ra k = w.data ∧ readCells s.mem ga k = readCells m ga k) := by
  obtain ⟨h1, -, h3, h4, -⟩ := C72_jobs (fun _ : Bool => floatCells ga k) (fun j => floatCells (bif j then sa else ra) k) S
    (by
      intro i j hij a ha
      cases i <;> cases j <;> simp at hij ha ⊢
      · exact ⟨hrg a ha, fun h => hsr a h ha⟩
      · exact ⟨hsg a ha, hsr a ha⟩)
    (by
      intro t j a ha
      have := hS t a ha
      simp only [Set.mem_union, not_or] at this
      cases j
      · exact ⟨this.2, this.1.2⟩
      · exact ⟨this.2, this.1.1⟩)
    hSS share hnd hdis code (fun t j _ => htouch t j) m
    (fun j m' => readCells m' (bif j then sa else ra) k = bif j then v.data else w.data)
    (by
      intro j m1 m2 he hp
      rw [← hp]
      exact (readCells_congr he).symm) n s h
  obtain ⟨g1, g2, g3⟩ := h4 (by
    intro t j _ m1 hm1
    have eg : readCells m1 ga k = readCells m ga k := readCells_congr fun a ha => hm1 a (.inl ha)
    have ew : readCells m1 (bif j then sa else ra) k = readCells m (bif j then sa else ra) k := readCells_congr fun a ha => hm1 a (.inr ha)
    cases j
    · exact (hcode t m1).2 w (by simp only [cond_false] at ew; rw [eg, ew]; exact hw)
    · exact (hcode t m1).1 v (by simp only [cond_true] at ew; rw [eg, ew]; exact hv))
  refine ⟨h1, g1, g2, fun hd => ?_⟩
  obtain ⟨t, ht⟩ := hall true
  obtain ⟨u, hu⟩ := hall false
  refine ⟨g3 hd t true ht, g3 hd u false hu, readCells_congr fun a ha => h3 a (fun j h' => ?_) fun t h' => ?_⟩
  · cases j
    · exact hrg a h' ha
    · exact hsg a h' ha
  · exact hS t a h' (.inr ha)

/-! ### Code that meets the hypotheses, and code that does not -/

/-- Code for row `i` of `neuralnet_predict_batch`, for any network. -/
def rowBlock (env : CustomEnv F) (c : Cfg) (nn : Net F) (ia oa wa i : ℕ) : Prog F :=
  .block (cellList (ia + 4 * (i * nn.nInput)) nn.nInput ++ cellList (oa + 4 * (i * nn.nOutput)) nn.nOutput) (cellList (oa + 4 * (i * nn.nOutput)) nn.nOutput)
    fun xs => (predict env c wa (fun _ => FloatOps.zero) nn ⟨ia + 4 * (i * nn.nInput), xs.take nn.nInput⟩
      ⟨oa + 4 * (i * nn.nOutput), xs.drop nn.nInput⟩).map View.data

theorem rowBlock_code (env : CustomEnv F) (c : Cfg) (nn : Net F) (hw : nn.WF c) (ia oa wa i : ℕ) (hwa : wa % c.alignSize = 0) (S : Set ℕ) :
    RowCode env c nn ia oa S wa i (rowBlock env c nn ia oa wa i) := by
  have e : ∀ m : Mem F, (cellList (ia + 4 * (i * nn.nInput)) nn.nInput ++ cellList (oa + 4 * (i * nn.nOutput)) nn.nOutput).map m =
      readCells m (ia + 4 * (i * nn.nInput)) nn.nInput ++ readCells m (oa + 4 * (i * nn.nOutput)) nn.nOutput := by
    intro m; rw [List.map_append, map_cellList, map_cellList]
  refine ⟨touches_block _ _ _ ?_ ?_, fun m hm => ⟨fun _ => FloatOps.zero, fun v hv => ?_⟩, fun m hm => ⟨fun _ => FloatOps.zero, fun x hx => ?_⟩⟩
  · intro a ha
    rcases List.mem_append.1 ha with ha | ha
    · exact .inl (.inr (mem_cellList.1 ha))
    · exact .inr (.inl (mem_cellList.1 ha))
  · exact fun a ha => .inl (mem_cellList.1 ha)
  · refine run_block_ok _ _ _ _ m v.data ?_ ?_
    · rw [e, List.take_left' (by simp), List.drop_left' (by simp), hv]; rfl
    · by_cases hal : AlignedFor c nn.nOutput (oa + 4 * (i * nn.nOutput))
      · rw [predict_netF env c wa _ nn _ _ hw hwa (by simp) (by simp) hal] at hv
        rw [← Except.ok.inj hv]
        simp only [List.length_append, List.length_drop, readCells_length, Nat.sub_self, Nat.add_zero]
        obtain ⟨last, hlast, hno, -⟩ := exists_last hw
        rw [hno]; exact netF_length env c _ nn.layers _ last hlast hw.layer
      · rw [predict_misaligned env c wa _ nn _ _ hw hwa (by simp) hal] at hv; simp at hv
  · refine run_block_error _ _ _ _ x ?_
    rw [e, List.take_left' (by simp), List.drop_left' (by simp), hx]; rfl

/-- A memory with the parameters of the example network. -/
noncomputable def exMemory (a : ℕ) : ℝ :=
  if a < 128 then [1, 2, 3, -1, 0, 1].getD ((a - 64) / 4) 0 else if a < 192 then [0, 1, -1].getD ((a - 128) / 4) 0
  else if a < 256 then [1, 2, 3].getD ((a - 192) / 4) 0 else 10

theorem exMemory_holds : HoldsNet exNet exMemory := by
  intro l hl
  simp only [exNet, List.mem_cons, List.not_mem_nil, or_false] at hl
  rcases hl with rfl | rfl <;> simp [View.In, readCells, exMemory, List.range_succ]

/-- `paramCells` of the example network lie below 260. -/
theorem exNet_cells : ∀ a ∈ paramCells exNet, a < 260 := by
  rintro a ⟨l, hl, h⟩
  simp only [exNet, List.mem_cons, List.not_mem_nil, or_false] at hl
  rcases hl with rfl | rfl <;> rcases h with ⟨j, hj, rfl⟩ | ⟨j, hj, rfl⟩ <;> simp at hj ⊢ <;> omega

/-- Three rows on two threads, one of which takes rows 2 and 0: all executions can be completed, and give the result of the sequential loop. -/
example (c : Cfg) : ∃ n s, Steps ⟨exMemory, fun t : Bool => Prog.share (fun i : Fin 3 => rowBlock (noCustom ℝ) c exNet 400 448 (bif t then 4096 else 8192) i)
      (bif t then [2, 0] else [1])⟩ n s ∧ s.Done ∧ ∀ (order : List ℕ), order.Perm (List.range 3) → ∀ (workAddr : ℕ → ℕ) (junk : ℕ → ℕ → ℝ),
      (∀ i, workAddr i % c.alignSize = 0) →
      predictBatch (noCustom ℝ) c workAddr junk exNet order ⟨400, readCells exMemory 400 6⟩ ⟨448, readCells exMemory 448 3⟩ = .ok ⟨448, readCells s.mem 448 3⟩ := by
  obtain ⟨n, s, hs, he⟩ := exists_end (⟨exMemory, fun t : Bool => Prog.share (fun i : Fin 3 => rowBlock (noCustom ℝ) c exNet 400 448 (bif t then 4096 else 8192) i)
      (bif t then [2, 0] else [1])⟩ : State Bool ℝ)
  have hwa : ∀ t : Bool, (bif t then 4096 else 8192) % c.alignSize = 0 := fun t => align64 c _ (by cases t <;> rfl)
  obtain ⟨-, -, -, h4, -⟩ := C72_predict_batch (T := Bool) (noCustom ℝ) c exNet (exNet_wf c) 3 400 448 (fun _ => ∅) (fun t => bif t then 4096 else 8192) hwa
    (fun t => bif t then [2, 0] else [1]) (by intro t; cases t <;> decide) (by intro t u; cases t <;> cases u <;> decide)
    (by intro i; fin_cases i; exacts [⟨true, by decide⟩, ⟨false, by decide⟩, ⟨true, by decide⟩])
    (fun t i => rowBlock (noCustom ℝ) c exNet 400 448 (bif t then 4096 else 8192) i) (fun t i => rowBlock_code _ c exNet (exNet_wf c) _ _ _ _ (hwa t) _)
    (by
      rintro a ⟨j, hj, rfl⟩ (h | ⟨k, hk, h⟩)
      · have := exNet_cells _ h; omega
      · simp [exNet, Net.nInput, Net.nOutput] at hj hk; omega)
    (fun t a ha => absurd ha (by simp)) (fun t u _ a ha => absurd ha (by simp)) exMemory exMemory_holds n s hs
  obtain ⟨-, h5, h6⟩ := h4 (fun i _ => by simp [AlignedFor, exNet, Net.nOutput])
  exact ⟨n, s, hs, h5 he, h6 (h5 he)⟩

/-- Code for one iteration of a reduction. -/
def privBlock (body : ℕ → List F → M (List F)) (pa k b : ℕ) : Prog F := .block (cellList pa k) (cellList pa k) (body b)

omit [FloatOps F] in
theorem privBlock_code (body : ℕ → List F → M (List F)) (pa k b : ℕ) (S : Set ℕ) (hl : ∀ l r, l.length = k → body b l = .ok r → r.length = k) :
    Touches ∅ (floatCells pa k ∪ S) (privBlock body pa k b) ∧
    ∀ m1, (∀ acc, body b (readCells m1 pa k) = .ok acc → ∃ m', (privBlock body pa k b).run m1 = .ok m' ∧ readCells m' pa k = acc) ∧
      ∀ e, body b (readCells m1 pa k) = .error e → (privBlock body pa k b).run m1 = .error e := by
  refine ⟨touches_block _ _ _ (fun a ha => .inr (.inl (mem_cellList.1 ha))) fun a ha => .inl (mem_cellList.1 ha), fun m1 => ⟨fun acc h => ?_, fun e h => ?_⟩⟩
  · exact run_block_ok _ _ _ _ m1 acc (by rw [map_cellList]; exact h) (hl _ _ (by simp) h)
  · exact run_block_error _ _ _ m1 e (by rw [map_cellList]; exact h)

theorem accMetrics_length (n : ℕ) (p y : View F) : ∀ (ms : List Metric) (res r : List F), accMetrics n p y ms res = .ok r → r.length = res.length
  | [], res, r, h => by
    simp only [accMetrics, pure, Except.pure] at h
    rw [← Except.ok.inj h]
  | m :: ms, [], r, h => by simp [accMetrics] at h
  | m :: ms, x :: res, r, h => by
    simp only [accMetrics, bind, Except.bind] at h
    split at h
    · simp at h
    · split at h
      · simp at h
      · rename_i q hq
        simp only [pure, Except.pure] at h
        rw [← Except.ok.inj h]
        simp [accMetrics_length n p y ms res q hq]

/-- Private copies at 1024 and 2048. -/
theorem exApart (k : ℕ) (hk : k ≤ 100) (t u : Bool) (htu : t ≠ u) :
    Apart (floatCells (bif t then 1024 else 2048) k ∪ (∅ : Set ℕ)) (floatCells (bif u then 1024 else 2048) k ∪ ∅) := by
  intro a ha hb
  simp only [Set.union_empty] at ha hb
  obtain ⟨i, hi, rfl⟩ := ha
  obtain ⟨j, hj, h⟩ := hb
  cases t <;> cases u <;> simp at htu h <;> omega

/-- `evaluate` of three samples on two threads, with two metrics. -/
example (c : Cfg) (jk : ℕ → ℝ) (n : ℕ) (s : State Bool ℝ)
    (h : Steps ⟨fun _ => 0, fun t => Prog.share (privBlock (evaluateBody (noCustom ℝ) c (fun _ => ⟨4096, jk, 8192, jk⟩) exNet ⟨20, [1, 2, 0, 0, 0, 1]⟩ ⟨52, [27, 14, 0]⟩
      [.mse, .mae]) (bif t then 1024 else 2048) 2) (bif t then [2, 0] else [1])⟩ n s) :
    ¬ s.Race ∧ (s.Done → evaluate (noCustom ℝ) c (fun _ => ⟨4096, jk, 8192, jk⟩) (.combine (.thread [1]) (.thread [2, 0])) exNet 3 ⟨20, [1, 2, 0, 0, 0, 1]⟩
      ⟨52, [27, 14, 0]⟩ [some .mse, some .mae, none] ⟨0, [0, 0]⟩ = storeResults 3 2 (List.zipWith FloatOps.add [0, 0] (List.zipWith FloatOps.add
        (readCells s.mem 2048 2) (readCells s.mem 1024 2))) ⟨0, [0, 0]⟩) := by
  have hb : ∀ (t : Bool) b, _ := fun t b => privBlock_code (evaluateBody (noCustom ℝ) c (fun _ => ⟨4096, jk, 8192, jk⟩) exNet ⟨20, [1, 2, 0, 0, 0, 1]⟩ ⟨52, [27, 14, 0]⟩
    [.mse, .mae]) (bif t then 1024 else 2048) 2 b ∅ (by
      intro l r hl hr
      simp only [evaluateBody, bind, Except.bind] at hr
      split at hr
      · simp at hr
      · rw [accMetrics_length _ _ _ _ _ _ hr, hl])
  obtain ⟨h1, h2⟩ := C72_evaluate (noCustom ℝ) c (fun _ => ⟨4096, jk, 8192, jk⟩) exNet 3 ⟨20, [1, 2, 0, 0, 0, 1]⟩ ⟨52, [27, 14, 0]⟩ [some .mse, some .mae, none] [.mse, .mae] rfl
    ⟨0, [0, 0]⟩ ∅ (fun _ => ∅) (fun t => bif t then 1024 else 2048) (fun t => bif t then [2, 0] else [1]) _ (fun t b _ => (hb t b).1)
    (fun t a _ => by simp) (fun t u htu => exApart 2 (by norm_num) t u htu) (fun _ => 0) (fun t => by simp [readCells, List.range_succ])
    (fun t b _ m1 _ => (hb t b).2 m1) n s h
  exact ⟨h1, fun hd => h2 hd (.node (.leaf false) (.leaf true))⟩

/-- The first batch of the example of C30 on two threads, one sample each. -/
example (c : Cfg) (jk : ℕ → ℝ) (n : ℕ) (s : State Bool ℝ)
    (h : Steps ⟨fun _ => 0, fun t => Prog.share (privBlock (batchBody (noCustom ℝ) c (exMem c jk 0).thread exTrain (some [2, 0, 1]) ⟨20, [1, 2, 0, 0, 0, 1]⟩ ⟨52, [27, 14, 0]⟩ 0)
      (bif t then 1024 else 2048) (nParamPadding c (nParams exTrain.layers))) (bif t then [0] else [1])⟩ n s) :
    ¬ s.Race ∧ (s.Done → (Sched.combine (.thread [0]) (.thread [1])).Covers 2 ∧
      ∃ g, calcBatchGradient (noCustom ℝ) c (exMem c jk 0).thread (.combine (.thread [0]) (.thread [1])) exTrain (some [2, 0, 1]) 2 3 ⟨20, [1, 2, 0, 0, 0, 1]⟩ ⟨52, [27, 14, 0]⟩ 0
          ⟨64, List.replicate 29 7⟩ = .ok (2, g) ∧
        vectorDivideByScalar c 13 ⟨64, List.zipWith FloatOps.add ((List.replicate 13 (0 : ℝ) ++ List.replicate 16 7).take (nParamPadding c 13)) (List.zipWith FloatOps.add
          (readCells s.mem 1024 (nParamPadding c 13)) (readCells s.mem 2048 (nParamPadding c 13))) ++ (List.replicate 13 (0 : ℝ) ++ List.replicate 16 7).drop (nParamPadding c 13)⟩ 2 =
          .ok g) := by
  have hk : nParams exTrain.layers = 13 := by rw [exTrain_eq]; simp [nParams]
  have hr : nParamPadding c (nParams exTrain.layers) ≤ 29 := by
    rw [hk, nParamPadding]; split <;> omega
  have hge := le_padding c (nParams exTrain.layers)
  have hb : ∀ (t : Bool) b, b ∈ (bif t then [0] else [1] : List ℕ) → _ := fun t b hb => privBlock_code (batchBody (noCustom ℝ) c (exMem c jk 0).thread exTrain (some [2, 0, 1]) ⟨20, [1, 2, 0, 0, 0, 1]⟩ ⟨52, [27, 14, 0]⟩ 0)
      (bif t then 1024 else 2048) (nParamPadding c (nParams exTrain.layers)) b ∅ (by
      intro l r hl hr
      have hb2 : b < 2 := by cases t <;> simp at hb <;> omega
      rw [batchBody_eq (noCustom ℝ) c (exMem c jk 0) .mse 3 _ _ exTrain (exTrainable c) _ _ (exMem_ok c jk 0) [2, 0, 1] 0 b l (by simp; omega) (by decide) (by omega)] at hr
      rw [← Except.ok.inj hr]
      have := sampleGrad_length (noCustom ℝ) c .mse 3 _ _ exTrain (exTrainable c) ([2, 0, 1].getD (0 + b) 0) (by interval_cases b <;> simp)
      simp only [List.length_append, List.length_zipWith, List.length_take, this, List.length_drop]
      omega)
  obtain ⟨h1, h2⟩ := C72_batch_gradient (noCustom ℝ) c (exMem c jk 0).thread exTrain (some [2, 0, 1]) 2 3 (by norm_num) ⟨20, [1, 2, 0, 0, 0, 1]⟩ ⟨52, [27, 14, 0]⟩ 0
    ⟨64, List.replicate 29 7⟩ (by simp; omega) (by simp; omega) ∅ (fun _ => ∅) (fun t => bif t then 1024 else 2048) (fun t => bif t then [0] else [1]) _
    (fun t b hm => (hb t b hm).1) (fun t a _ => by simp) (fun t u htu => exApart _ (by omega) t u htu) (fun _ => 0)
    (fun t => by simp [readCells]) (fun t b hm m1 _ => (hb t b hm).2 m1) n s h
  refine ⟨h1, fun hd => ⟨?_, ?_⟩⟩
  · exact C72_covers 2 (fun t : Bool => bif t then [0] else [1]) (.node (.leaf true) (.leaf false)) (by decide) (by decide) (by intro t; cases t <;> decide)
      (by intro t u; cases t <;> cases u <;> decide) (by
        intro i
        constructor
        · intro hi; interval_cases i
          · exact ⟨true, by decide⟩
          · exact ⟨false, by decide⟩
        · rintro ⟨t, ht⟩; cases t <;> simp at ht <;> omega)
  · have h3 := h2 hd (.node (.leaf true) (.leaf false))
    obtain ⟨g, g1, g2⟩ := C30_room_partial (noCustom ℝ) c ⟨.combine (.thread [0]) (.thread [1]), (exMem c jk 0).thread, 16384, jk, if c.avx then 16 else 0, 32768, jk⟩ .mse 3 _ _ exTrain (exTrainable c) 2 0
      ⟨by exact List.Perm.refl _, fun _ => align64 c 4096 rfl, fun _ => align64 c 8192 rfl, align64 c 16384 rfl, align64 c 32768 rfl, (exMem_ok c jk 0).room⟩ [2, 0, 1] rfl (by decide) 64 (List.replicate 29 7) [] (align64 c _ rfl) (by simp [hk])
    simp only [List.append_nil] at g1
    refine ⟨⟨64, g⟩, by simpa [batchLen] using g1, ?_⟩
    have h3' : calcBatchGradient (noCustom ℝ) c (exMem c jk 0).thread (.combine (.thread [0]) (.thread [1])) exTrain (some [2, 0, 1]) 2 3 ⟨20, [1, 2, 0, 0, 0, 1]⟩
      ⟨52, [27, 14, 0]⟩ 0 ⟨64, List.replicate 29 7⟩ = _ := h3
    rw [g1] at h3'
    simp only [hk, Team.value, show batchLen 3 2 0 = 2 from rfl, bind, Except.bind, pure, Except.pure, List.drop_replicate, cond_true, cond_false] at h3'
    generalize hX : vectorDivideByScalar (F := ℝ) c 13 _ _ = r at h3'
    cases r with
    | error e => simp at h3'
    | ok g' =>
      have e := (Prod.mk.inj (Except.ok.inj h3')).2
      rw [e, ← hX]

/-- The sections of Adam on two threads. -/
def momentBlock (c : Cfg) (k sa ra ga : ℕ) (rho1 rho2 : F) (j : Bool) : Prog F :=
  .block (cellList (bif j then sa else ra) k ++ cellList ga k) (cellList (bif j then sa else ra) k) fun xs =>
    (bif j then updateFirstMoment c k ⟨sa, xs.take k⟩ ⟨ga, xs.drop k⟩ rho1 else updateSecondMoment c k ⟨ra, xs.take k⟩ ⟨ga, xs.drop k⟩ rho2).map View.data

example (c : Cfg) (m : Mem ℝ) (n : ℕ) (s : State Bool ℝ)
    (h : Steps ⟨m, fun t => Prog.share (momentBlock c 20 0 128 256 (9 / 10) (999 / 1000)) [t]⟩ n s) :
    ¬ s.Race ∧ ¬ s.Faulty ∧ ∃ v w, updateFirstMoment c 20 ⟨0, readCells m 0 20⟩ ⟨256, readCells m 256 20⟩ (9 / 10) = .ok v ∧
      updateSecondMoment c 20 ⟨128, readCells m 128 20⟩ ⟨256, readCells m 256 20⟩ (999 / 1000) = .ok w ∧
      (s.Done → readCells s.mem 0 20 = v.data ∧ readCells s.mem 128 20 = w.data) := by
  have al : ∀ a, a % 64 = 0 → AlignedFor c 20 a := fun a ha => .of_aligned (align64 c a ha)
  have e1 := fun m' : Mem ℝ => updateFirstMoment_eq c 20 ⟨0, readCells m' 0 20⟩ ⟨256, readCells m' 256 20⟩ (9 / 10) (al _ (by norm_num)) (al _ (by norm_num)) (by simp) (by simp)
  have e2 := fun m' : Mem ℝ => updateSecondMoment_eq c 20 ⟨128, readCells m' 128 20⟩ ⟨256, readCells m' 256 20⟩ (999 / 1000) (al _ (by norm_num)) (al _ (by norm_num)) (by simp) (by simp)
  obtain ⟨h1, h2, -, h4⟩ := C72_adam c 20 0 128 256 (9 / 10 : ℝ) (999 / 1000) (fun _ : Bool => ∅) (fun t => [t]) (by simp) (by simp) (fun j => ⟨j, by simp⟩)
    (fun _ => momentBlock c 20 0 128 256 (9 / 10) (999 / 1000))
    (by
      intro t j
      refine touches_block _ _ _ (fun a ha => ?_) fun a ha => .inl (mem_cellList.1 ha)
      rcases List.mem_append.1 ha with ha | ha
      · exact .inr (.inl (mem_cellList.1 ha))
      · exact .inl (mem_cellList.1 ha))
    (by
      intro t m'
      refine ⟨fun v hv => run_block_ok _ _ _ _ m' v.data ?_ ?_, fun v hv => run_block_ok _ _ _ _ m' v.data ?_ ?_⟩
      · rw [List.map_append, map_cellList, map_cellList, List.take_left' (by simp), List.drop_left' (by simp)]
        simp only [cond_true]
        rw [hv]; rfl
      · rw [e1] at hv; rw [← Except.ok.inj hv]; simp [applyTo_length]
      · rw [List.map_append, map_cellList, map_cellList, List.take_left' (by simp), List.drop_left' (by simp)]
        simp only [cond_false]
        rw [hv]; rfl
      · rw [e2] at hv; rw [← Except.ok.inj hv]; simp [applyTo_length])
    (by rintro a ⟨i, hi, rfl⟩ ⟨j, hj, h⟩; omega) (by rintro a ⟨i, hi, rfl⟩ ⟨j, hj, h⟩; omega) (by rintro a ⟨i, hi, rfl⟩ ⟨j, hj, h⟩; omega)
    (fun t a ha => absurd ha (by simp)) (fun t u _ a ha => absurd ha (by simp)) m _ _ (e1 m) (e2 m) n s h
  exact ⟨h1, h2, _, _, e1 m, e2 m, fun hd => ⟨(h4 hd).1, (h4 hd).2.1⟩⟩

/-- What the reduction clause is for: two threads that add 1 to the same cell.  There is a data race, and an update can be lost. -/
theorem C72_shared_false : let p : Bool → Prog ℕ := fun _ => .load 0 fun v => .store 0 (v + 1) .halt
    (∃ n s, Steps ⟨fun _ => 0, p⟩ n s ∧ s.Race) ∧
    (∃ n s, Steps ⟨fun _ => 0, p⟩ n s ∧ s.Done ∧ s.mem 0 = 1) ∧ ∃ n s, Steps ⟨fun _ => 0, p⟩ n s ∧ s.Done ∧ s.mem 0 = 2 := by
  intro p
  have s1 := Step.load (⟨fun _ => 0, p⟩ : State Bool ℕ) true 0 _ rfl
  have s2 := Step.load _ false 0 _ (show (State.thread ⟨fun _ => (0 : ℕ), Function.update p true (.store 0 (0 + 1) .halt)⟩ false) = .load 0 fun v => .store 0 (v + 1) .halt from rfl)
  have s3 := Step.store _ true 0 _ _ (show (State.thread ⟨fun _ => (0 : ℕ), Function.update (Function.update p true (.store 0 (0 + 1) .halt)) false (.store 0 (0 + 1) .halt)⟩ true) =
    .store 0 (0 + 1) .halt from rfl)
  have s4 := Step.store _ false 0 (0 + 1) .halt (show (State.thread ⟨Function.update (fun _ => (0 : ℕ)) 0 (0 + 1),
    Function.update (Function.update (Function.update p true (.store 0 (0 + 1) .halt)) false (.store 0 (0 + 1) .halt)) true .halt⟩ false) = .store 0 (0 + 1) .halt from rfl)
  refine ⟨⟨2, _, .succ (.succ .zero s1) s2, true, false, 0, true, true, by decide, rfl, rfl, .inl rfl⟩,
    ⟨4, _, .succ (.succ (.succ (.succ .zero s1) s2) s3) s4, fun t => by cases t <;> rfl, rfl⟩, ?_⟩
  have r2 := Step.store _ true 0 (0 + 1) .halt (show (State.thread ⟨fun _ => (0 : ℕ), Function.update p true (.store 0 (0 + 1) .halt)⟩ true) = .store 0 (0 + 1) .halt from rfl)
  have r3 := Step.load _ false 0 (fun v => .store 0 (v + 1) .halt) (show (State.thread ⟨Function.update (fun _ => (0 : ℕ)) 0 (0 + 1),
    Function.update (Function.update p true (.store 0 (0 + 1) .halt)) true .halt⟩ false) = .load 0 fun v => .store 0 (v + 1) .halt from rfl)
  have r4 := Step.store _ false 0 (1 + 1) .halt (show (State.thread ⟨Function.update (fun _ => (0 : ℕ)) 0 (0 + 1),
    Function.update (Function.update (Function.update p true (.store 0 (0 + 1) .halt)) true .halt) false (.store 0 (1 + 1) .halt)⟩ false) = .store 0 (1 + 1) .halt from rfl)
  exact ⟨4, _, .succ (.succ (.succ (.succ .zero s1) r2) r3) r4, fun t => by cases t <;> rfl, rfl⟩

end NN
