import Verif.Model.Idx
import Verif.Proofs.Loops
import Verif.Properties.Progress
import Verif.Proofs.ExpFloat
import Mathlib.Data.List.GetD
import Mathlib.Algebra.BigOperators.Group.List.Basic
/-
C67: reading the MNIST files, examples/example_03.c.
-/
namespace NN
open FloatOps
variable {F : Type} [FloatOps F]

/-! ### Specification: the IDX format -/

/-- A number below 2^32 as four bytes, the most significant first. -/
def Spec.be32 (n : Nat) : Bytes :=
  [(n / 2 ^ 24 % 256).toUInt8, (n / 2 ^ 16 % 256).toUInt8, (n / 2 ^ 8 % 256).toUInt8, (n % 256).toUInt8]

/-- The file with the images, each given by its `rows * cols` bytes. -/
def Spec.idxImages (rows cols : Nat) (images : List Bytes) : Bytes :=
  [0, 0, 8, 3] ++ be32 images.length ++ be32 rows ++ be32 cols ++ images.flatten

/-- The file with the labels. -/
def Spec.idxLabelFile (labels : Bytes) : Bytes := [0, 0, 8, 1] ++ be32 labels.length ++ labels

/-- A grey value of the image as the network sees it. -/
def Spec.pixel (b : UInt8) : F := div (ofNat b.toNat) (lit 255 1)

/-- The target vector of class `c` out of `k`. -/
def Spec.oneHot (k c : Nat) : List F := (List.range k).map fun j => if j = c then one else zero

/-- All memory is available. -/
def Spec.plenty : Nat → Bool := fun _ => true

/-! ### Proof -/

theorem toUInt8_toNat {n : Nat} (h : n < 256) : (n.toUInt8).toNat = n := by simp [Nat.toUInt8]; omega

theorem readUintBE_be32 {n : Nat} (h : n < 2 ^ 32) (s : Bytes) : readUintBE (Spec.be32 n ++ s) = .ok (n, s) := by
  simp only [readUintBE, Spec.be32, rawAt, List.cons_append, List.nil_append, List.take_succ_cons, List.take_zero,
    List.getElem?_cons_zero, List.getElem?_cons_succ, bind, Except.bind, pure, Except.pure, List.drop_succ_cons, List.drop_zero]
  rw [toUInt8_toNat (by omega), toUInt8_toNat (by omega), toUInt8_toNat (by omega), toUInt8_toNat (by omega)]
  congr 2
  omega

theorem idxMagic_ok (dim : UInt8) (s : Bytes) : idxMagic dim ([0, 0, 8, dim] ++ s) = .ok s := by
  simp [idxMagic, rawAt, assertC, bind, Except.bind, pure, Except.pure]

theorem scaleLoop_ok (raw : Bytes) : ∀ (n i : Nat), i + n ≤ raw.length →
    scaleLoop (F := F) raw i n = .ok (((raw.drop i).take n).map Spec.pixel)
  | 0, i, _ => by simp [scaleLoop, pure, Except.pure]
  | n + 1, i, h => by
    have hi : i < raw.length := by omega
    rw [scaleLoop, scaleLoop_ok raw n (i + 1) (by omega), rawAt, List.getElem?_eq_getElem hi,
      List.drop_eq_getElem_cons hi]
    simp only [bind, Except.bind, pure, Except.pure, List.take_succ_cons, List.map_cons]
    rfl

theorem scaleLoop_short (raw : Bytes) : ∀ (n i : Nat), raw.length < i + n → i ≤ raw.length →
    scaleLoop (F := F) raw i n = .error .uninit
  | 0, i, h, h' => by omega
  | n + 1, i, h, h' => by
    rw [scaleLoop]
    by_cases hi : i < raw.length
    · rw [scaleLoop_short raw n (i + 1) (by omega) (by omega), rawAt, List.getElem?_eq_getElem hi]
      simp [bind, Except.bind, pure, Except.pure]
    · rw [rawAt, List.getElem?_eq_none (by omega)]
      simp [bind, Except.bind]

/-- The array after the labels `ls` of the first rows, for the exact behaviour. -/
def setOnes (k : Nat) (init : List F) : Bytes → Nat → List F
  | _, 0 => init
  | ls, i + 1 => (setOnes k init ls i).set (i * k + (ls.getD i 0).toNat) one

theorem setOnes_length (k : Nat) (init : List F) (ls : Bytes) : ∀ i, (setOnes k init ls i).length = init.length
  | 0 => rfl
  | i + 1 => by rw [setOnes, List.length_set, setOnes_length k init ls i]

theorem oneHotLoop_ok (k : Nat) (ls : Bytes) (init : List F) (hn : ls.length * k < 2 ^ 32)
    (h : ∀ i (hi : i < ls.length), i * k + ls[i].toNat < init.length) (addr : Nat) :
    oneHotLoop ls ls.length k ⟨addr, init⟩ = .ok ⟨addr, setOnes k init ls ls.length⟩ := by
  rw [oneHotLoop]
  refine forN_eq (fun i => (⟨addr, setOnes k init ls i⟩ : View F)) ?_
  intro i hi
  have hw : i * k % 2 ^ 32 = i * k := Nat.mod_eq_of_lt (lt_of_le_of_lt (Nat.mul_le_mul_right k hi.le) hn)
  have := h i hi
  simp only [rawAt, List.getElem?_eq_getElem hi, bind, Except.bind, pure, Except.pure, View.store, hw, setOnes,
    setOnes_length, if_pos this]
  simp [List.getD_eq_getElem?_getD, hi]

theorem stripLe_error {σ : Type} {n : Nat} {body : Nat → σ → M σ} (f : Nat → σ) {e : Fault} {m : Nat} (hm : m < n)
    (he : body m (f m) = .error e) : ∀ (d j : Nat), j + d = m → (∀ k, j ≤ k → k < m → body k (f k) = .ok (f (k + 1))) →
    stripLe 1 n body j (f j) = .error e
  | 0, j, hj, _ => by
    obtain rfl : j = m := by omega
    rw [stripLe, if_pos ⟨by omega, by omega⟩, he]
  | d + 1, j, hj, h => by
    rw [stripLe, if_pos ⟨by omega, by omega⟩, h j le_rfl (by omega)]
    exact stripLe_error f hm he d (j + 1) (by omega) fun k hk => h k (by omega)

theorem oneHotLoop_oob (k : Nat) (ls : Bytes) (init : List F) (hn : ls.length * k < 2 ^ 32)
    (h : ∃ i, ∃ hi : i < ls.length, init.length ≤ i * k + ls[i].toNat) (addr : Nat) :
    oneHotLoop ls ls.length k ⟨addr, init⟩ = .error .oob := by
  classical
  have hb : ∃ i, i < ls.length ∧ init.length ≤ i * k + (ls.getD i 0).toNat := by
    obtain ⟨i, hi, h⟩ := h
    exact ⟨i, hi, by rw [List.getD_eq_getElem?_getD, List.getElem?_eq_getElem hi]; exact h⟩
  have hm := Nat.find_spec hb
  have hmin := fun j (hj : j < Nat.find hb) => Nat.find_min hb hj
  set m := Nat.find hb with hmd
  have step : ∀ i, i < ls.length → (do
      let b ← rawAt ls i
      (⟨addr, setOnes k init ls i⟩ : View F).store (i * k % 2 ^ 32 + b.toNat) one : M (View F)) =
      if i * k + (ls.getD i 0).toNat < init.length then .ok ⟨addr, setOnes k init ls (i + 1)⟩ else .error .oob := by
    intro i hi
    have hw : i * k % 2 ^ 32 = i * k := Nat.mod_eq_of_lt (lt_of_le_of_lt (Nat.mul_le_mul_right k hi.le) hn)
    simp only [rawAt, List.getElem?_eq_getElem hi, bind, Except.bind, pure, Except.pure, View.store, hw, setOnes,
      setOnes_length, List.getD_eq_getElem?_getD, Option.getD_some]
  rw [oneHotLoop, forN]
  have := stripLe_error (n := ls.length) (body := fun i labels => do
      let b ← rawAt ls i
      labels.store (i * k % 2 ^ 32 + b.toNat) one) (fun i => (⟨addr, setOnes k init ls i⟩ : View F)) (e := .oob) hm.1
    (by rw [step m hm.1, if_neg (by omega)]) m 0 (by omega) (fun j _ hj => by
      have h1 : j < ls.length := by omega
      have := hmin j hj
      rw [step j h1, if_pos (by omega)])
  simp only [setOnes] at this
  rw [this]
  rfl

/-- With labels below `k` the array is the rows of unit vectors. -/
theorem setOnes_rows (k : Nat) (ls : Bytes) (h : ∀ b ∈ ls, b.toNat < k) : ∀ i, i ≤ ls.length →
    setOnes (F := F) k (List.replicate (ls.length * k) zero) ls i =
      ((ls.take i).map fun b => Spec.oneHot k b.toNat).flatten ++ List.replicate ((ls.length - i) * k) zero
  | 0, _ => by simp [setOnes]
  | i + 1, hi => by
    have hlt : i < ls.length := by omega
    have hb : (ls.getD i 0) = ls[i] := by rw [List.getD_eq_getElem?_getD, List.getElem?_eq_getElem hlt]; rfl
    have hk : ls[i].toNat < k := h _ (List.getElem_mem _)
    have hl : (((ls.take i).map fun b => Spec.oneHot (F := F) k b.toNat).flatten).length = i * k := by
      rw [List.length_flatten, List.map_map, List.map_congr_left (g := fun _ => k) (by intro b _; simp [Spec.oneHot])]
      simp [List.map_const', hlt.le]
    rw [setOnes, setOnes_rows k ls h i hlt.le, hb, List.set_append_right _ _ (by omega), hl, List.take_add_one,
      List.getElem?_eq_getElem hlt]
    simp only [Option.toList_some, List.map_append, List.map_cons, List.map_nil, List.flatten_append, List.flatten_cons,
      List.flatten_nil, List.append_nil, List.append_assoc]
    congr 1
    have e : (ls.length - i) * k = k + (ls.length - (i + 1)) * k := by
      rw [show ls.length - i = 1 + (ls.length - (i + 1)) by omega, Nat.add_mul, one_mul]
    rw [e, List.replicate_add, Nat.add_sub_cancel_left, List.set_append_left _ _ (by simpa using hk)]
    congr 1
    apply List.ext_getElem
    · simp [Spec.oneHot]
    · intro j h1 h2
      simp only [List.getElem_set, List.getElem_replicate, Spec.oneHot, List.getElem_map, List.getElem_range]
      by_cases hj : j = ls[i].toNat
      · simp [hj]
      · rw [if_neg (fun h => hj h.symm), if_neg hj]

/-- Every element of the array: 1 if some label points to it. -/
theorem setOnes_getElem (k : Nat) (ls : Bytes) (N : Nat) : ∀ (i p : Nat), i ≤ ls.length → p < N →
    (setOnes (F := F) k (List.replicate N zero) ls i)[p]? =
      some (open Classical in if ∃ j < i, j * k + (ls.getD j 0).toNat = p then one else zero)
  | 0, p, _, hp => by simp [setOnes, hp]
  | i + 1, p, hi, hp => by
    rw [setOnes, List.getElem?_set, setOnes_length, List.length_replicate]
    by_cases h : i * k + (ls.getD i 0).toNat = p
    · rw [if_pos h, if_pos (by omega), if_pos ⟨i, by omega, h⟩]
    · rw [if_neg h, setOnes_getElem k ls N i p (by omega) hp]
      congr 1
      have : (∃ j < i, j * k + (ls.getD j 0).toNat = p) ↔ ∃ j < i + 1, j * k + (ls.getD j 0).toNat = p := by
        constructor
        · rintro ⟨j, h1, h2⟩; exact ⟨j, by omega, h2⟩
        · rintro ⟨j, h1, h2⟩
          refine ⟨j, ?_, h2⟩
          rcases Nat.lt_succ_iff_lt_or_eq.1 h1 with h3 | h3
          · exact h3
          · subst h3; exact absurd h2 h
      simp only [this]

/-- The reader of the features for any header: `n` is the wrapped product of the three counts. -/
theorem idxFeatures_header (mem : Nat → Bool) {num rows cols : Nat} (h1 : num < 2 ^ 32) (h2 : rows < 2 ^ 32) (h3 : cols < 2 ^ 32)
    (s : Bytes) (hm : mem (num * (rows * cols % 2 ^ 32) % 2 ^ 32)) (hm4 : mem (4 * (num * (rows * cols % 2 ^ 32) % 2 ^ 32)))
    (hs : num * (rows * cols % 2 ^ 32) % 2 ^ 32 ≤ s.length) :
    idxFeatures (F := F) mem ([0, 0, 8, 3] ++ Spec.be32 num ++ Spec.be32 rows ++ Spec.be32 cols ++ s) =
      .ok (some (num, rows * cols % 2 ^ 32, (s.take (num * (rows * cols % 2 ^ 32) % 2 ^ 32)).map Spec.pixel)) := by
  rw [idxFeatures, List.append_assoc, List.append_assoc, List.append_assoc, idxMagic_ok]
  simp only [bind, Except.bind]
  rw [readUintBE_be32 h1]
  dsimp only
  rw [readUintBE_be32 h2]
  dsimp only
  rw [readUintBE_be32 h3]
  simp only [mallocFor, hm, hm4, true_or, if_true, pure, Except.pure]
  rw [scaleLoop_ok _ _ _ (by rw [List.length_take]; omega)]
  simp

theorem idxFeatures_short (mem : Nat → Bool) {num rows cols : Nat} (h1 : num < 2 ^ 32) (h2 : rows < 2 ^ 32) (h3 : cols < 2 ^ 32)
    (s : Bytes) (hm : mem (num * (rows * cols % 2 ^ 32) % 2 ^ 32)) (hm4 : mem (4 * (num * (rows * cols % 2 ^ 32) % 2 ^ 32)))
    (hs : s.length < num * (rows * cols % 2 ^ 32) % 2 ^ 32) :
    idxFeatures (F := F) mem ([0, 0, 8, 3] ++ Spec.be32 num ++ Spec.be32 rows ++ Spec.be32 cols ++ s) = .error .uninit := by
  rw [idxFeatures, List.append_assoc, List.append_assoc, List.append_assoc, idxMagic_ok]
  simp only [bind, Except.bind]
  rw [readUintBE_be32 h1]
  dsimp only
  rw [readUintBE_be32 h2]
  dsimp only
  rw [readUintBE_be32 h3]
  simp only [mallocFor, hm, hm4, true_or, if_true, pure, Except.pure]
  rw [scaleLoop_short _ _ _ (by rw [List.length_take]; omega) (by omega)]

theorem idxLabels_header (mem : Nat → Bool) (k : Nat) (ls s : Bytes) (h1 : ls.length < 2 ^ 32)
    (hm : mem ls.length) (hm4 : mem (4 * (ls.length * k % 2 ^ 32))) :
    idxLabels (F := F) mem k (Spec.idxLabelFile ls ++ s) =
      (oneHotLoop ls ls.length k ⟨0, List.replicate (ls.length * k % 2 ^ 32) zero⟩).map
        fun l => some (ls.length, l.data) := by
  rw [idxLabels, Spec.idxLabelFile, List.append_assoc, List.append_assoc, idxMagic_ok]
  simp only [bind, Except.bind]
  rw [readUintBE_be32 h1]
  simp only [mallocFor, hm, hm4, true_or, if_true, pure, Except.pure, List.take_left']
  cases oneHotLoop (F := F) ls ls.length k ⟨0, List.replicate (ls.length * k % 2 ^ 32) zero⟩ <;> rfl

theorem flatten_length_of {n : Nat} : ∀ {l : List Bytes}, (∀ x ∈ l, x.length = n) → l.flatten.length = l.length * n
  | [], _ => by simp
  | x :: xs, h => by
    rw [List.flatten_cons, List.length_append, h x (by simp), flatten_length_of (l := xs) fun y hy => h y (by simp [hy]),
      List.length_cons, Nat.add_mul, one_mul, Nat.add_comm]

/-! ### C67 -/

/-- Images: for every IDX file with `rows * cols` bytes per image (and anything behind) the array holds the grey values in the order
of the file, and the counts are those of the file, as long as the number of values is below 2^32. -/
theorem C67_features_partial (d : Disk) (mem : Nat → Bool) (filename : String) (rows cols : Nat) (images : List Bytes) (rest : Bytes)
    (hd : d.content filename = some (Spec.idxImages rows cols images ++ rest)) (hr : d.readable filename)
    (hrows : rows < 2 ^ 32) (hcols : cols < 2 ^ 32) (hnum : images.length < 2 ^ 32) (hrc : rows * cols < 2 ^ 32)
    (hall : images.length * (rows * cols) < 2 ^ 32) (hi : ∀ x ∈ images, x.length = rows * cols)
    (hm : mem (images.length * (rows * cols))) (hm4 : mem (4 * (images.length * (rows * cols)))) :
    readIdxFeatures (F := F) d mem filename = .ok (some (images.length, rows * cols, images.flatten.map Spec.pixel)) := by
  have hl := flatten_length_of hi
  rw [readIdxFeatures, hd]
  simp only [hr, if_true]
  rw [Spec.idxImages, List.append_assoc,
    idxFeatures_header mem hnum hrows hcols (images.flatten ++ rest) (by rwa [Nat.mod_eq_of_lt hrc, Nat.mod_eq_of_lt hall])
      (by rwa [Nat.mod_eq_of_lt hrc, Nat.mod_eq_of_lt hall])
      (by rw [Nat.mod_eq_of_lt hrc, Nat.mod_eq_of_lt hall, List.length_append]; omega),
    Nat.mod_eq_of_lt hrc, Nat.mod_eq_of_lt hall, List.take_left' hl]

/-- Labels below `k`: the array holds one unit vector per sample. -/
theorem C67_labels_partial (d : Disk) (mem : Nat → Bool) (filename : String) (k : Nat) (labels rest : Bytes)
    (hd : d.content filename = some (Spec.idxLabelFile labels ++ rest)) (hr : d.readable filename)
    (hnum : labels.length < 2 ^ 32) (hall : labels.length * k < 2 ^ 32) (hk : ∀ b ∈ labels, b.toNat < k)
    (hm : mem labels.length) (hm4 : mem (4 * (labels.length * k))) :
    readIdxLabels (F := F) d mem filename k =
      .ok (some (labels.length, (labels.map fun b => Spec.oneHot k b.toNat).flatten)) := by
  rw [readIdxLabels, hd]
  simp only [hr, if_true]
  rw [idxLabels_header mem k labels rest hnum hm (by rwa [Nat.mod_eq_of_lt hall]), Nat.mod_eq_of_lt hall,
    oneHotLoop_ok k labels _ hall (by
      intro i hi
      have := hk _ (List.getElem_mem hi)
      rw [List.length_replicate]
      have : (i + 1) * k ≤ labels.length * k := Nat.mul_le_mul_right k hi
      rw [Nat.add_mul] at this
      omega)]
  simp [Except.map, setOnes_rows k labels hk labels.length le_rfl]

/-- The exact outcome for any labels: a fault if a label of one of the last rows points behind the array, otherwise element `p`
is 1 exactly if it is `i * k + label i` for some sample. -/
theorem C67_labels_exact (mem : Nat → Bool) (k : Nat) (labels rest : Bytes) (hnum : labels.length < 2 ^ 32)
    (hall : labels.length * k < 2 ^ 32) (hm : mem labels.length) (hm4 : mem (4 * (labels.length * k))) :
    ((∃ i, ∃ hi : i < labels.length, labels.length * k ≤ i * k + labels[i].toNat) →
      idxLabels (F := F) mem k (Spec.idxLabelFile labels ++ rest) = .error .oob) ∧
    ((∀ i (hi : i < labels.length), i * k + labels[i].toNat < labels.length * k) →
      ∃ a : List F, idxLabels mem k (Spec.idxLabelFile labels ++ rest) = .ok (some (labels.length, a)) ∧
        a.length = labels.length * k ∧
        ∀ p < labels.length * k, a[p]? = some (open Classical in
          if ∃ i, ∃ hi : i < labels.length, i * k + labels[i].toNat = p then one else zero)) := by
  rw [idxLabels_header mem k labels rest hnum hm (by rwa [Nat.mod_eq_of_lt hall]), Nat.mod_eq_of_lt hall]
  constructor
  · intro h
    rw [oneHotLoop_oob k labels _ hall (by simpa using h)]
    rfl
  · intro h
    rw [oneHotLoop_ok k labels _ hall (by simpa using h)]
    refine ⟨_, rfl, by simp [setOnes_length], fun p hp => ?_⟩
    rw [setOnes_getElem k labels _ _ p le_rfl hp]
    congr 1
    have : (∃ j < labels.length, j * k + (labels.getD j 0).toNat = p) ↔
        ∃ i, ∃ hi : i < labels.length, i * k + labels[i].toNat = p := by
      constructor
      · rintro ⟨j, h1, h2⟩
        exact ⟨j, h1, by rw [List.getD_eq_getElem?_getD, List.getElem?_eq_getElem h1] at h2; exact h2⟩
      · rintro ⟨j, h1, h2⟩
        exact ⟨j, h1, by rw [List.getD_eq_getElem?_getD, List.getElem?_eq_getElem h1]; exact h2⟩
    simp only [this]

/-- **C67 is false**: a label `k` or more in the last row is written behind the array. -/
theorem C67_label_false (mem : Nat → Bool) (k : Nat) (labels rest : Bytes) (b : UInt8) (hb : k ≤ b.toNat)
    (hnum : (labels ++ [b]).length < 2 ^ 32) (hall : (labels ++ [b]).length * k < 2 ^ 32)
    (hm : mem (labels ++ [b]).length) (hm4 : mem (4 * ((labels ++ [b]).length * k))) :
    idxLabels (F := F) mem k (Spec.idxLabelFile (labels ++ [b]) ++ rest) = .error .oob := by
  refine (C67_labels_exact mem k (labels ++ [b]) rest hnum hall hm hm4).1 ⟨labels.length, by simp, ?_⟩
  simp only [List.length_append, List.length_cons, List.length_nil, Nat.add_mul, zero_add, one_mul, List.getElem_concat_length]
  omega

/-- **C67 is false**: in an earlier row such a label goes unnoticed; the target vector of the sample is 0. -/
theorem C67_row_false (mem : Nat → Bool) (k : Nat) (labels rest : Bytes) (hnum : labels.length < 2 ^ 32)
    (hall : labels.length * k < 2 ^ 32) (hm : mem labels.length) (hm4 : mem (4 * (labels.length * k)))
    (i : Nat) (hi : i < labels.length) (hbig : k ≤ labels[i].toNat) (hin : i * k + labels[i].toNat < labels.length * k)
    (hother : ∀ j (hj : j < labels.length), j ≠ i → labels[j].toNat < k) :
    ∃ a : List F, idxLabels mem k (Spec.idxLabelFile labels ++ rest) = .ok (some (labels.length, a)) ∧
      ∀ j < k, a[i * k + j]? = some zero := by
  obtain ⟨a, h1, _, h3⟩ := (C67_labels_exact (F := F) mem k labels rest hnum hall hm hm4).2 (by
    intro j hj
    by_cases h : j = i
    · subst h; exact hin
    · have := hother j hj h
      have h2 : (j + 1) * k ≤ labels.length * k := Nat.mul_le_mul_right k hj
      rw [Nat.add_mul] at h2
      omega)
  refine ⟨a, h1, fun j hj => ?_⟩
  have h2 : (i + 1) * k ≤ labels.length * k := Nat.mul_le_mul_right k hi
  rw [Nat.add_mul] at h2
  rw [h3 (i * k + j) (by omega), if_neg]
  rintro ⟨m, hmlt, he⟩
  by_cases h : m = i
  · subst h; omega
  · have hmk := hother m hmlt h
    rcases Nat.lt_or_gt_of_ne h with hlt | hgt
    · have : (m + 1) * k ≤ i * k := Nat.mul_le_mul_right k hlt
      rw [Nat.add_mul] at this; omega
    · have : (i + 1) * k ≤ m * k := Nat.mul_le_mul_right k hgt
      rw [Nat.add_mul] at this; omega

/-- **C67 is false** from 2^32 values on: the array is shorter than the counts say. -/
theorem C67_wrap_false (mem : Nat → Bool) (num rows cols : Nat) (s : Bytes) (h1 : num < 2 ^ 32) (h2 : rows < 2 ^ 32)
    (h3 : cols < 2 ^ 32) (hrc : rows * cols < 2 ^ 32) (hwrap : 2 ^ 32 ≤ num * (rows * cols)) (hmem : ∀ n, mem n)
    (hs : num * (rows * cols) ≤ s.length) :
    ∃ a : List F, idxFeatures mem ([0, 0, 8, 3] ++ Spec.be32 num ++ Spec.be32 rows ++ Spec.be32 cols ++ s) =
      .ok (some (num, rows * cols, a)) ∧ a.length < num * (rows * cols) := by
  have hlt := Nat.mod_lt (num * (rows * cols)) (show 0 < 2 ^ 32 by norm_num)
  rw [idxFeatures_header mem h1 h2 h3 s (hmem _) (hmem _) (by rw [Nat.mod_eq_of_lt hrc]; omega), Nat.mod_eq_of_lt hrc]
  refine ⟨_, rfl, ?_⟩
  rw [List.length_map, List.length_take]
  omega

/-- **C67 is false** for a file that ends early: the missing pixels are read from memory that was never written. -/
theorem C67_short_false (mem : Nat → Bool) (num rows cols : Nat) (s : Bytes) (h1 : num < 2 ^ 32) (h2 : rows < 2 ^ 32)
    (h3 : cols < 2 ^ 32) (hrc : rows * cols < 2 ^ 32) (hall : num * (rows * cols) < 2 ^ 32) (hmem : ∀ n, mem n)
    (hs : s.length < num * (rows * cols)) :
    idxFeatures (F := F) mem ([0, 0, 8, 3] ++ Spec.be32 num ++ Spec.be32 rows ++ Spec.be32 cols ++ s) = .error .uninit :=
  idxFeatures_short mem h1 h2 h3 s (hmem _) (hmem _) (by rwa [Nat.mod_eq_of_lt hrc, Nat.mod_eq_of_lt hall])

/-- A file of another type (any of the first four bytes differs) is refused by an assertion, whatever follows. -/
theorem C67_magic (mem : Nat → Bool) (k : Nat) (m0 m1 m2 m3 : UInt8) (s : Bytes) :
    ([m0, m1, m2, m3] ≠ [0, 0, 8, 3] → idxFeatures (F := F) mem ([m0, m1, m2, m3] ++ s) = .error .assertFail) ∧
    ([m0, m1, m2, m3] ≠ [0, 0, 8, 1] → idxLabels (F := F) mem k ([m0, m1, m2, m3] ++ s) = .error .assertFail) := by
  have key : ∀ dim : UInt8, [m0, m1, m2, m3] ≠ [0, 0, 8, dim] → idxMagic dim ([m0, m1, m2, m3] ++ s) = .error .assertFail := by
    intro dim h
    simp only [idxMagic, rawAt, assertC, List.cons_append, List.nil_append, List.take_succ_cons, List.take_zero,
      List.getElem?_cons_zero, List.getElem?_cons_succ, bind, Except.bind, pure, Except.pure]
    by_cases h0 : m0 = 0 <;> by_cases h1 : m1 = 0 <;> by_cases h2 : m2 = 8 <;> by_cases h3 : m3 = dim <;> simp [h0, h1, h2, h3]
    exact h (by simp [h0, h1, h2, h3])
  exact ⟨fun h => by rw [idxFeatures, key 3 h]; rfl, fun h => by rw [idxLabels, key 1 h]; rfl⟩

/-- The grey values in the binary32 arithmetic of the code: the float nearest to `b / 255`, between 0 and 1, black is 0 and white
is 1, and no two grey values become equal. -/
theorem C67_pixel (L : B32.Libm) (b : UInt8) :
    letI := B32.ops L
    B32.Is (Spec.pixel b) (B32.rnd (b.toNat / 255)) ∧ 0 ≤ (Spec.pixel b : B32).value ∧ (Spec.pixel b : B32).value ≤ 1 ∧
    (Spec.pixel (F := B32) 0).value = 0 ∧ (Spec.pixel (F := B32) 255).value = 1 ∧
    ∀ c : UInt8, b < c → (Spec.pixel b : B32).value < (Spec.pixel c : B32).value := by
  let _ := B32.ops L
  have hIs : ∀ b : UInt8, B32.Is (Spec.pixel b) (B32.rnd (b.toNat / 255)) := by
    intro b
    have hb := b.toNat_lt
    have hbr : (b.toNat : ℝ) ≤ 255 := by exact_mod_cast Nat.lt_succ_iff.1 hb
    have h1 : B32.Is (B32.ofReal false (b.toNat : ℝ)) (b.toNat : ℝ) := by
      have := B32.is_ofReal (s := false) (x := (b.toNat : ℝ)) (by
        rw [abs_of_nonneg (by positivity)]; unfold B32.maxF32; exact hbr.trans (by norm_num))
      rwa [B32.rnd_natCast (by omega)] at this
    have h2 := B32.is_lit (p := 255) (q := 1) 0 (by norm_num) (by norm_num) (by norm_num)
    have := B32.div_is h1 h2 (by norm_num) (by
      rw [abs_of_nonneg (by positivity)]; unfold B32.maxF32
      have : (b.toNat : ℝ) / (((255 : ℤ) : ℝ) / ((1 : ℕ) : ℝ)) ≤ 1 := by rw [div_le_one (by norm_num)]; push_cast; linarith
      exact this.trans (by norm_num))
    have e : ((255 : ℤ) : ℝ) / ((1 : ℕ) : ℝ) = 255 := by norm_num
    have hp : (Spec.pixel b : B32) = B32.div (B32.ofReal false (b.toNat : ℝ)) (B32.ofReal false (((255 : ℤ) : ℝ) / ((1 : ℕ) : ℝ))) := rfl
    rw [hp]
    rwa [e] at this ⊢
  have hmono : ∀ b c : UInt8, b < c → (Spec.pixel b : B32).value < (Spec.pixel c : B32).value := by
    intro b c h
    have hc := c.toNat_lt
    have hcr : (c.toNat : ℝ) ≤ 255 := by exact_mod_cast Nat.lt_succ_iff.1 hc
    have hlt : (b.toNat : ℝ) + 1 ≤ c.toNat := by exact_mod_cast h
    rw [(hIs b).2, (hIs c).2]
    have e1 := abs_le.1 (B32.rnd_abs ((b.toNat : ℝ) / 255))
    have e2 := abs_le.1 (B32.rnd_abs ((c.toNat : ℝ) / 255))
    rw [abs_of_nonneg (by positivity)] at e1 e2
    have u1 : (2 : ℝ) ^ (-24 : ℤ) ≤ 1 / 10000 := by norm_num
    have u2 : (2 : ℝ) ^ (-150 : ℤ) ≤ 1 / 10000 := by norm_num
    have b0 : (0 : ℝ) ≤ b.toNat / 255 := by positivity
    have c0 : (0 : ℝ) ≤ c.toNat / 255 := by positivity
    have b1 : (b.toNat : ℝ) / 255 ≤ 1 := by rw [div_le_one (by norm_num)]; linarith
    have c1 : (c.toNat : ℝ) / 255 ≤ 1 := by rw [div_le_one (by norm_num)]; linarith
    have m1 := mul_le_mul u1 b1 b0 (by norm_num)
    have m2 := mul_le_mul u1 c1 c0 (by norm_num)
    have : (b.toNat : ℝ) / 255 + 1 / 255 ≤ c.toNat / 255 := by rw [← add_div]; gcongr
    linarith [e1.2, e2.1]
  refine ⟨hIs b, ?_, ?_, ?_, ?_, hmono b⟩
  · rw [(hIs b).2]; exact B32.rnd_nonneg (by positivity)
  · rw [(hIs b).2]
    have hb := b.toNat_lt
    have hbr : (b.toNat : ℝ) ≤ 255 := by exact_mod_cast Nat.lt_succ_iff.1 hb
    have := B32.rnd_mono (x := (b.toNat : ℝ) / 255) (y := 1) (by rw [div_le_one (by norm_num)]; exact hbr)
    rwa [B32.rnd_one] at this
  · rw [(hIs 0).2]
    have := B32.rnd_natCast (k := 0) (by norm_num)
    simpa using this
  · rw [(hIs 255).2]
    have := B32.rnd_natCast (k := 1) (by norm_num)
    have e : (((255 : UInt8).toNat : ℝ)) / 255 = 1 := by
      rw [show (255 : UInt8).toNat = 255 from rfl]; norm_num
    rw [e]; simpa using this

/-- Both pairs of files are as described by the format and belong together: the program gets the images and unit vectors of both, with
buffers of the size the training functions expect. -/
theorem C67_data_partial (d : Disk) (rows cols : Nat) (trainX testX : List Bytes) (trainY testY : Bytes)
    (h1 : d.content "train-images-idx3-ubyte" = some (Spec.idxImages rows cols trainX))
    (h2 : d.content "train-labels-idx1-ubyte" = some (Spec.idxLabelFile trainY))
    (h3 : d.content "t10k-images-idx3-ubyte" = some (Spec.idxImages rows cols testX))
    (h4 : d.content "t10k-labels-idx1-ubyte" = some (Spec.idxLabelFile testY)) (hr : ∀ f, d.readable f)
    (hrows : rows < 2 ^ 32) (hcols : cols < 2 ^ 32) (hrc : rows * cols < 2 ^ 32)
    (hx : trainX.length = trainY.length) (hv : testX.length = testY.length)
    (hsize : trainX.length * (rows * cols) < 2 ^ 32 ∧ trainX.length * 10 < 2 ^ 32 ∧ testX.length * (rows * cols) < 2 ^ 32 ∧
      testX.length * 10 < 2 ^ 32)
    (himg : ∀ x ∈ trainX ++ testX, x.length = rows * cols) (hlab : ∀ b ∈ trainY ++ testY, b.toNat < 10) :
    ∃ data : IdxData F, readIdxData d Spec.plenty = .ok (some data) ∧
      data.nTrain = trainX.length ∧ data.nTest = testX.length ∧ data.nFeatures = rows * cols ∧
      data.trainFeatures = trainX.flatten.map Spec.pixel ∧ data.testFeatures = testX.flatten.map Spec.pixel ∧
      data.trainLabels = (trainY.map fun b => Spec.oneHot 10 b.toNat).flatten ∧
      data.testLabels = (testY.map fun b => Spec.oneHot 10 b.toNat).flatten ∧
      data.trainFeatures.length = data.nTrain * data.nFeatures ∧ data.trainLabels.length = data.nTrain * 10 ∧
      data.testFeatures.length = data.nTest * data.nFeatures ∧ data.testLabels.length = data.nTest * 10 := by
  obtain ⟨hs1, hs2, hs3, hs4⟩ := hsize
  have hi1 : ∀ x ∈ trainX, x.length = rows * cols := fun x hx => himg x (by simp [hx])
  have hi2 : ∀ x ∈ testX, x.length = rows * cols := fun x hx => himg x (by simp [hx])
  have e1 := C67_features_partial (F := F) d Spec.plenty _ rows cols trainX [] (by rwa [List.append_nil]) (hr _) hrows hcols (by omega)
    hrc hs1 hi1 rfl rfl
  have e2 := C67_labels_partial (F := F) d Spec.plenty _ 10 trainY [] (by rwa [List.append_nil]) (hr _) (by omega) (by omega)
    (fun b hb => hlab b (by simp [hb])) rfl rfl
  have e3 := C67_features_partial (F := F) d Spec.plenty _ rows cols testX [] (by rwa [List.append_nil]) (hr _) hrows hcols (by omega)
    hrc hs3 hi2 rfl rfl
  have e4 := C67_labels_partial (F := F) d Spec.plenty _ 10 testY [] (by rwa [List.append_nil]) (hr _) (by omega) (by omega)
    (fun b hb => hlab b (by simp [hb])) rfl rfl
  have hot : ∀ l : Bytes, ((l.map fun b => Spec.oneHot (F := F) 10 b.toNat).flatten).length = l.length * 10 := by
    intro l
    rw [List.length_flatten, List.map_map, List.map_congr_left (g := fun _ => 10) (by intro b _; simp [Spec.oneHot])]
    simp [List.map_const']
  simp only [readIdxData, e1, e2, e3, e4, bind, Except.bind, pure, Except.pure]
  refine ⟨_, rfl, hx.symm, hv.symm, rfl, rfl, rfl, rfl, rfl, ?_, hot _, ?_, hot _⟩
  · rw [List.length_map, flatten_length_of hi1, hx]
  · rw [List.length_map, flatten_length_of hi2, hv]

/-- **C67 is false** if there are more labels than images: the program takes the number of samples from the labels and trains behind the
end of the features. -/
theorem C67_count_false (d : Disk) (rows cols : Nat) (trainX testX : List Bytes) (trainY testY : Bytes)
    (h1 : d.content "train-images-idx3-ubyte" = some (Spec.idxImages rows cols trainX))
    (h2 : d.content "train-labels-idx1-ubyte" = some (Spec.idxLabelFile trainY))
    (h3 : d.content "t10k-images-idx3-ubyte" = some (Spec.idxImages rows cols testX))
    (h4 : d.content "t10k-labels-idx1-ubyte" = some (Spec.idxLabelFile testY)) (hr : ∀ f, d.readable f)
    (hrows : rows < 2 ^ 32) (hcols : cols < 2 ^ 32) (hrc : rows * cols < 2 ^ 32) (hpos : 0 < rows * cols)
    (hx : trainX.length < trainY.length)
    (hsize : trainX.length * (rows * cols) < 2 ^ 32 ∧ trainY.length * 10 < 2 ^ 32 ∧ testX.length * (rows * cols) < 2 ^ 32 ∧
      testY.length * 10 < 2 ^ 32)
    (himg : ∀ x ∈ trainX ++ testX, x.length = rows * cols) (hlab : ∀ b ∈ trainY ++ testY, b.toNat < 10) :
    ∃ data : IdxData F, readIdxData d Spec.plenty = .ok (some data) ∧
      data.trainFeatures.length < data.nTrain * data.nFeatures := by
  obtain ⟨hs1, hs2, hs3, hs4⟩ := hsize
  have hi1 : ∀ x ∈ trainX, x.length = rows * cols := fun x hx => himg x (by simp [hx])
  have hi2 : ∀ x ∈ testX, x.length = rows * cols := fun x hx => himg x (by simp [hx])
  have hn2 : testX.length < 2 ^ 32 := lt_of_le_of_lt (Nat.le_mul_of_pos_right _ hpos) hs3
  have e1 := C67_features_partial (F := F) d Spec.plenty _ rows cols trainX [] (by rwa [List.append_nil]) (hr _) hrows hcols (by omega)
    hrc hs1 hi1 rfl rfl
  have e2 := C67_labels_partial (F := F) d Spec.plenty _ 10 trainY [] (by rwa [List.append_nil]) (hr _) (by omega) (by omega)
    (fun b hb => hlab b (by simp [hb])) rfl rfl
  have e3 := C67_features_partial (F := F) d Spec.plenty _ rows cols testX [] (by rwa [List.append_nil]) (hr _) hrows hcols hn2
    hrc hs3 hi2 rfl rfl
  have e4 := C67_labels_partial (F := F) d Spec.plenty _ 10 testY [] (by rwa [List.append_nil]) (hr _) (by omega) (by omega)
    (fun b hb => hlab b (by simp [hb])) rfl rfl
  simp only [readIdxData, e1, e2, e3, e4, bind, Except.bind, pure, Except.pure]
  refine ⟨_, rfl, ?_⟩
  rw [List.length_map, flatten_length_of hi1]
  exact Nat.mul_lt_mul_of_pos_right hx hpos

/-! ### Examples -/

/-- Two 1x2 images with their labels, and one of each for the test. -/
def exIdxDisk : Disk where
  content f :=
    if f = "train-images-idx3-ubyte" then some (Spec.idxImages 1 2 [[0, 255], [7, 8]])
    else if f = "train-labels-idx1-ubyte" then some (Spec.idxLabelFile [3, 9])
    else if f = "t10k-images-idx3-ubyte" then some (Spec.idxImages 1 2 [[1, 2]])
    else if f = "t10k-labels-idx1-ubyte" then some (Spec.idxLabelFile [0])
    else none
  readable _ := true
  writable _ := false

example : ∃ data : IdxData F, readIdxData exIdxDisk Spec.plenty = .ok (some data) ∧ data.nTrain = 2 ∧
    data.trainFeatures = [Spec.pixel 0, Spec.pixel 255, Spec.pixel 7, Spec.pixel 8] := by
  obtain ⟨data, h, h1, _, _, h2, _⟩ := C67_data_partial (F := F) exIdxDisk 1 2 [[0, 255], [7, 8]] [[1, 2]] [3, 9] [0] rfl rfl rfl rfl
    (fun _ => rfl) (by norm_num) (by norm_num) (by norm_num) rfl rfl (by simp) (by simp) (by decide)
  exact ⟨data, h, h1, h2⟩

/-- 258 is stored as 0, 0, 1, 2. -/
example : Spec.be32 258 = [0, 0, 1, 2] := by decide

example : idxLabels (F := F) Spec.plenty 10 (Spec.idxLabelFile ([4] ++ [10])) = .error .oob := by
  simpa using C67_label_false (F := F) Spec.plenty 10 [4] [] 10 (by decide) (by decide) (by decide) rfl rfl

example : ∃ a : List F, idxLabels Spec.plenty 2 (Spec.idxLabelFile [2, 1] ++ []) = .ok (some (2, a)) ∧
    ∀ j < 2, a[0 * 2 + j]? = some zero :=
  C67_row_false (F := F) Spec.plenty 2 [2, 1] [] (by decide) (by decide) rfl rfl 0 (by decide) (by decide) (by decide) (by
    intro j hj h
    have : j = 1 := by simp at hj; omega
    subst this; simp)

/-- 65536 images of 256 x 256 bytes. -/
example (s : Bytes) (hs : s.length = 2 ^ 32) : ∃ a : List F,
    idxFeatures Spec.plenty ([0, 0, 8, 3] ++ Spec.be32 65536 ++ Spec.be32 256 ++ Spec.be32 256 ++ s) = .ok (some (65536, 65536, a)) ∧
    a.length < 2 ^ 32 :=
  C67_wrap_false (F := F) Spec.plenty 65536 256 256 s (by norm_num) (by norm_num) (by norm_num) (by norm_num) (by norm_num)
    (fun _ => rfl) (by rw [hs]; norm_num)

end NN
