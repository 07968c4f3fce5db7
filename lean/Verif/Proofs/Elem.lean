import Verif.Proofs.Loops
/-
Elementwise updates of the first `k` elements of a view.
-/
namespace NN
variable {F : Type}

/-- The list `l` with `g` applied to its first `k` elements. -/
def applyTo (g : Nat → F → F) (k : Nat) (l : List F) : List F :=
  l.mapIdx (fun i x => if i < k then g i x else x)

@[simp] theorem applyTo_length (g : Nat → F → F) (k : Nat) (l : List F) :
    (applyTo g k l).length = l.length := by simp [applyTo]

theorem applyTo_getElem? (g : Nat → F → F) (k : Nat) (l : List F) (i : Nat) :
    (applyTo g k l)[i]? = (l[i]?).map (fun x => if i < k then g i x else x) := by
  simp [applyTo]

@[simp] theorem applyTo_zero (g : Nat → F → F) (l : List F) : applyTo g 0 l = l := by
  apply List.ext_getElem?; intro i; simp [applyTo_getElem?]

@[simp] theorem slice_length {α : Type} (l : List α) (i w : Nat) :
    (slice l i w).length = min w (l.length - i) := by
  simp [slice]

theorem slice_getElem? {α : Type} (l : List α) (i w k : Nat) :
    (slice l i w)[k]? = if k < w then l[i + k]? else none := by
  simp only [slice, List.getElem?_take, List.getElem?_drop]

theorem setSlice_length {α : Type} (l : List α) (i : Nat) (xs : List α) (h : i + xs.length ≤ l.length) :
    (setSlice l i xs).length = l.length := by
  simp [setSlice]; omega

theorem setSlice_getElem? {α : Type} (l : List α) (i : Nat) (xs : List α)
    (h : i + xs.length ≤ l.length) (k : Nat) :
    (setSlice l i xs)[k]? =
      if i ≤ k ∧ k < i + xs.length then xs[k - i]? else l[k]? := by
  unfold setSlice
  by_cases h1 : k < i
  · rw [List.getElem?_append_left (by simp; omega), List.getElem?_append_left (by simp; omega)]
    have : ¬ (i ≤ k ∧ k < i + xs.length) := by omega
    rw [if_neg this, List.getElem?_take, if_pos h1]
  · by_cases h2 : k < i + xs.length
    · rw [List.getElem?_append_left (by simp; omega), List.getElem?_append_right (by simp; omega),
        if_pos ⟨by omega, h2⟩]
      congr 1
      simp; omega
    · rw [List.getElem?_append_right (by simp; omega)]
      have : ¬ (i ≤ k ∧ k < i + xs.length) := by omega
      rw [if_neg this, List.getElem?_drop]
      congr 1
      simp; omega

theorem loadu_ok {w i : Nat} {v : View F} (h : i + w ≤ v.data.length) :
    v.loadu w i = .ok (slice v.data i w) := by simp [View.loadu, h]

theorem loada_ok {w i : Nat} {v : View F} (h : i + w ≤ v.data.length)
    (ha : (v.addr + 4 * i) % (4 * w) = 0) :
    v.loada w i = .ok (slice v.data i w) := by simp [View.loada, View.loadu, h, ha]

theorem load_ok {i : Nat} {v : View F} (h : i < v.data.length) :
    v.load i = .ok (v.data[i]) := by simp [View.load, h]

theorem slice_applyTo_ge (g : Nat → F → F) (k w : Nat) (l : List F) :
    slice (applyTo g k l) k w = slice l k w := by
  apply List.ext_getElem?; intro i
  simp only [slice_getElem?, applyTo_getElem?]
  split
  · have : ¬ (k + i < k) := by omega
    simp [this]
  · rfl

/-- A vector store of the next `w` results. -/
theorem storeu_applyTo {g : Nat → F → F} {k w : Nat} {l : List F} {a : Nat} {xs : List F}
    (hlen : xs.length = w) (hk : k + w ≤ l.length)
    (hx : ∀ t, t < w → xs[t]? = (l[k + t]?).map (g (k + t))) :
    View.storeu ⟨a, applyTo g k l⟩ k xs = .ok ⟨a, applyTo g (k + w) l⟩ := by
  subst hlen
  simp only [View.storeu, applyTo_length, hk, if_true]
  congr 2
  apply List.ext_getElem?; intro i
  rw [setSlice_getElem? _ _ _ (by simpa using hk)]
  simp only [applyTo_getElem?]
  by_cases h : k ≤ i ∧ i < k + xs.length
  · rw [if_pos h, hx (i - k) (by omega)]
    have e : k + (i - k) = i := by omega
    simp [e, h.2]
  · rw [if_neg h]
    have : (i < k) ↔ (i < k + xs.length) := by omega
    simp [this]

theorem storea_applyTo {g : Nat → F → F} {k w : Nat} {l : List F} {a : Nat} {xs : List F}
    (ha : (a + 4 * k) % (4 * w) = 0)
    (hlen : xs.length = w) (hk : k + w ≤ l.length)
    (hx : ∀ t, t < w → xs[t]? = (l[k + t]?).map (g (k + t))) :
    View.storea w ⟨a, applyTo g k l⟩ k xs = .ok ⟨a, applyTo g (k + w) l⟩ := by
  simp only [View.storea, ha, if_true]
  exact storeu_applyTo hlen hk hx

theorem load_applyTo {g : Nat → F → F} {k : Nat} {l : List F} {a : Nat} (h : k < l.length) :
    View.load ⟨a, applyTo g k l⟩ k = .ok (l[k]) := by
  simp only [View.load, applyTo_getElem?]; simp [h]

theorem store_applyTo {g : Nat → F → F} {k : Nat} {l : List F} {a : Nat} (h : k < l.length) {x : F}
    (hx : x = g k l[k]) :
    View.store ⟨a, applyTo g k l⟩ k x = .ok ⟨a, applyTo g (k + 1) l⟩ := by
  simp only [View.store, applyTo_length, h, if_true]
  congr 2
  apply List.ext_getElem?; intro i
  simp only [List.getElem?_set, applyTo_length, applyTo_getElem?]
  by_cases hi : k = i
  · subst hi; simp [h, hx]
  · have : (i < k) ↔ (i < k + 1) := by omega
    simp [hi, this]

theorem loadu_applyTo {g : Nat → F → F} {k w : Nat} {l : List F} {a : Nat} (h : k + w ≤ l.length) :
    View.loadu w ⟨a, applyTo g k l⟩ k = .ok (slice l k w) := by
  rw [loadu_ok (by simpa using h)]; simp [slice_applyTo_ge]

theorem loada_applyTo {g : Nat → F → F} {k w : Nat} {l : List F} {a : Nat} (h : k + w ≤ l.length)
    (ha : (a + 4 * k) % (4 * w) = 0) :
    View.loada w ⟨a, applyTo g k l⟩ k = .ok (slice l k w) := by
  rw [loada_ok (by simpa using h) ha]; simp [slice_applyTo_ge]

/-- Applying everywhere. -/
theorem applyTo_full (g : F → F) {n : Nat} {l : List F} (h : l.length ≤ n) :
    applyTo (fun _ => g) n l = l.map g := by
  apply List.ext_getElem?; intro i
  simp only [applyTo_getElem?, List.getElem?_map]
  by_cases hi : i < n
  · simp [hi]
  · have : l[i]? = none := by rw [List.getElem?_eq_none]; omega
    simp [this]

/-- `g k x` uses element `k` of the second list. -/
def zipOp (f : F → F → F) (b : List F) : Nat → F → F :=
  fun k x => match b[k]? with
    | some y => f x y
    | none => x

theorem applyTo_zip (f : F → F → F) (n : Nat) (l b : List F) (hb : n ≤ b.length) (hl : n ≤ l.length) :
    applyTo (zipOp f b) n l = List.zipWith f (l.take n) (b.take n) ++ l.drop n := by
  apply List.ext_getElem?; intro i
  simp only [applyTo_getElem?, zipOp]
  by_cases hi : i < n
  · rw [List.getElem?_append_left (by simp; omega)]
    have h1 : i < b.length := by omega
    have h2 : i < l.length := by omega
    simp [List.getElem?_zipWith, hi, h1, h2]
  · rw [List.getElem?_append_right (by simp; omega), List.getElem?_drop]
    have : n + (i - (List.zipWith f (l.take n) (b.take n)).length) = i := by
      simp; omega
    rw [this]; simp [hi]

theorem applyTo_map (g : F → F) (n : Nat) (l : List F) (hl : n ≤ l.length) :
    applyTo (fun _ => g) n l = (l.take n).map g ++ l.drop n := by
  apply List.ext_getElem?; intro i
  simp only [applyTo_getElem?]
  by_cases hi : i < n
  · rw [List.getElem?_append_left (by simp; omega)]
    simp [hi]
  · rw [List.getElem?_append_right (by simp; omega), List.getElem?_drop]
    have : n + (i - ((l.take n).map g).length) = i := by simp; omega
    rw [this]; simp [hi]

theorem applyTo_congr {g g' : Nat → F → F} {n : Nat} {l : List F}
    (h : ∀ k, k < n → ∀ x, l[k]? = some x → g k x = g' k x) : applyTo g n l = applyTo g' n l := by
  apply List.ext_getElem?; intro i
  simp only [applyTo_getElem?]
  rcases hx : l[i]? with _ | x
  · rfl
  · by_cases hi : i < n
    · simp [hi, h i hi x hx]
    · simp [hi]

end NN
