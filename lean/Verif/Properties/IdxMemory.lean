import Verif.Properties.Idx
/-
C67: the IDX files without memory.
-/
namespace NN
open FloatOps
variable {F : Type} [FloatOps F]

/-- **C67 is false** when memory ends: neither allocation is checked, a NULL pointer is used.  (Except for files without any
elements, for which no element is read.) -/
theorem C67_memory_false (mem : Nat → Bool) (rows cols : Nat) (images : List Bytes) (rest : Bytes)
    (hrows : rows < 2 ^ 32) (hcols : cols < 2 ^ 32) (hnum : images.length < 2 ^ 32) (hrc : rows * cols < 2 ^ 32)
    (hall : images.length * (rows * cols) < 2 ^ 32) (hpos : 0 < images.length * (rows * cols))
    (hm : mem (images.length * (rows * cols)) = false ∨ mem (4 * (images.length * (rows * cols))) = false) :
    idxFeatures (F := F) mem (Spec.idxImages rows cols images ++ rest) = .error .nullDeref := by
  rw [idxFeatures, Spec.idxImages]
  simp only [List.append_assoc]
  rw [idxMagic_ok]
  simp only [bind, Except.bind]
  rw [readUintBE_be32 hnum]
  dsimp only
  rw [readUintBE_be32 hrows]
  dsimp only
  rw [readUintBE_be32 hcols]
  dsimp only
  rw [Nat.mod_eq_of_lt hrc, Nat.mod_eq_of_lt hall]
  have h0 : ¬ images.length * (rows * cols) = 0 := by omega
  rcases hm with h | h
  · simp only [mallocFor, h, h0, or_self, if_false, Bool.false_eq_true]
  · cases h' : mem (images.length * (rows * cols)) <;>
      simp only [mallocFor, h, h', h0, or_self, true_or, if_false, if_true, Bool.false_eq_true, pure, Except.pure]

/-- **C67 is false** when memory ends, for the labels. -/
theorem C67_labels_memory_false (mem : Nat → Bool) (k : Nat) (labels rest : Bytes) (hnum : labels.length < 2 ^ 32)
    (hall : labels.length * k < 2 ^ 32) (hpos : labels ≠ []) (hm : mem labels.length = false ∨ mem (4 * (labels.length * k)) = false) :
    idxLabels (F := F) mem k (Spec.idxLabelFile labels ++ rest) = .error .nullDeref := by
  rw [idxLabels, Spec.idxLabelFile, List.append_assoc, List.append_assoc, idxMagic_ok]
  simp only [bind, Except.bind]
  rw [readUintBE_be32 hnum]
  dsimp only
  rw [Nat.mod_eq_of_lt hall]
  have h0 : ¬ labels.length = 0 := by simpa using hpos
  rcases hm with h | h
  · simp only [mallocFor, h, h0, or_self, if_false, Bool.false_eq_true]
  · cases h' : mem labels.length <;>
      simp only [mallocFor, h, h', h0, or_self, true_or, if_false, if_true, Bool.false_eq_true, pure, Except.pure]

/-- Two images of 1×2 pixels and room for 4 bytes but not for 16. -/
example : idxFeatures (F := F) (fun n => n ≤ 8) (Spec.idxImages 1 2 [[1, 2], [3, 4]] ++ []) = .error .nullDeref :=
  C67_memory_false _ 1 2 [[1, 2], [3, 4]] [] (by decide) (by decide) (by decide) (by decide) (by decide) (by decide) (.inr (by decide))

/-- Three labels of 10 classes. -/
example : idxLabels (F := F) (fun n => n ≤ 8) 10 (Spec.idxLabelFile [1, 2, 3] ++ []) = .error .nullDeref :=
  C67_labels_memory_false _ 10 [1, 2, 3] [] (by decide) (by decide) (by decide) (.inr (by decide))

end NN
