import Verif.Properties.Npy
/-
C43 and C46: saved arrays read with `npy_array_mmap`.
-/
namespace NN

/-- **C43** Mapping a saved array gives the same array as loading it, marked as mapped; the other files are unchanged. -/
theorem C43_mmap {m : NpyArray} (hm : m.Savable) (mem : Nat → Bool) (hmem : mem 104 = true)
    (hmem2 : mem m.meaning.nbytes = true) (d : Disk) (f : String) (hw : d.writable f = true) (hr : d.readable f = true) :
    ∃ d' r, npySave d f (some m) = .ok d' ∧ npyLoad d' mem f = .ok (some r) ∧
      npyMmap d' mem true f = .ok (some { r with mapped := true }) ∧ r.meaning = m.meaning ∧ r.data = m.meaning.data := by
  obtain ⟨d', r, h1, h2, h3, -, -, h5, -⟩ := C43_roundtrip hm mem hmem hmem2 d f hw hr
  refine ⟨d', r, h1, h2, ?_, h3, h5⟩
  have hd : d' = { d with content := fun g => if g = f then some (m.meaning.file 0 (117 - m.meaning.dict.length)) else d.content g } := by
    simp only [npySave, hw, if_true, C44_file hm, bind, Except.bind, pure, Except.pure, Except.ok.injEq] at h1
    exact h1.symm
  obtain ⟨r', k1, k2⟩ := C46_mmap hm mem hmem hmem2
  have hne : m.meaning.file 0 (117 - m.meaning.dict.length) ≠ [] := by
    have := file_split m.meaning 0 (117 - m.meaning.dict.length) []
    rw [List.append_nil] at this
    rw [this]
    simp
  rw [hd] at h2 ⊢
  simp only [npyLoad, npyMmap, if_true, hr, k1, k2, hne, Bool.and_self, ne_eq, not_false_eq_true, decide_true] at h2 ⊢
  simp only [Except.ok.injEq, Option.some.injEq] at h2
  rw [h2]

/-- **C43** Mapping a file that is missing, not readable or empty, or that the system does not map, gives NULL. -/
theorem C43_mmap_null (d : Disk) (mem : Nat → Bool) (f : String) :
    npyMmap d mem false f = .ok none ∧ (d.content f = none → ∀ c, npyMmap d mem c f = .ok none) ∧
    (d.readable f = false → ∀ c, npyMmap d mem c f = .ok none) ∧ (d.content f = some [] → ∀ c, npyMmap d mem c f = .ok none) := by
  refine ⟨?_, fun h c => ?_, fun h c => ?_, fun h c => ?_⟩
  · cases h : d.content f <;> simp [npyMmap, h, pure, Except.pure]
  · simp [npyMmap, h, pure, Except.pure]
  · cases h' : d.content f <;> simp [npyMmap, h, h', pure, Except.pure]
  · simp [npyMmap, h, pure, Except.pure]

/-- A 2×3 array, saved and mapped. -/
example : ∃ d' r, npySave ⟨fun _ => none, fun _ => true, fun _ => true⟩ "a.npy" (some exNpy) = .ok d' ∧
    npyMmap d' (fun _ => true) true "a.npy" = .ok (some r) ∧ r.mapped = true ∧ r.data = List.replicate 24 7 := by
  obtain ⟨d', r, h1, -, h3, -, h5⟩ := C43_mmap exNpy_savable (fun _ => true) rfl rfl ⟨fun _ => none, fun _ => true, fun _ => true⟩ "a.npy"
    rfl rfl
  exact ⟨d', _, h1, h3, rfl, h5.trans rfl⟩

/-- A file that does not exist. -/
example : npyMmap ⟨fun _ => none, fun _ => true, fun _ => true⟩ (fun _ => true) true "a.npy" = .ok none :=
  (C43_mmap_null _ _ _).2.1 rfl _

/-- **C43** Failures leave things alone: NULL and a file that cannot be written change nothing (whatever the array is), whenever
`npy_array_save` returns no other file and no permission has changed, and a file that cannot be read, does not exist, or (for
`npy_array_mmap`) is empty or cannot be mapped gives NULL. -/
theorem C43_failures (d : Disk) (f : String) (m : Option NpyArray) (mem : Nat → Bool) (canMap : Bool) :
    npySave d f none = .ok d ∧ (d.writable f = false → npySave d f m = .ok d) ∧
    (∀ d', npySave d f m = .ok d' → d'.readable = d.readable ∧ d'.writable = d.writable ∧ ∀ g, g ≠ f → d'.content g = d.content g) ∧
    (d.readable f = false ∨ d.content f = none → npyLoad d mem f = .ok none ∧ npyMmap d mem canMap f = .ok none) ∧
    (canMap = false ∨ d.content f = some [] → npyMmap d mem canMap f = .ok none) := by
  refine ⟨rfl, fun h => ?_, fun d' h => ?_, fun h => ?_, fun h => ?_⟩
  · cases m with
    | none => rfl
    | some m => simp [npySave, h, pure, Except.pure]
  · cases m with
    | none => cases h; exact ⟨rfl, rfl, fun _ _ => rfl⟩
    | some m =>
      rw [npySave] at h
      split at h
      · cases hb : npyBytes m with
        | error e => rw [hb] at h; cases h
        | ok b =>
          rw [hb] at h
          cases h
          exact ⟨rfl, rfl, fun g hg => if_neg hg⟩
      · cases h; exact ⟨rfl, rfl, fun _ _ => rfl⟩
  · rw [npyLoad, npyMmap]
    rcases h with h | h
    · cases d.content f <;> simp [h, pure, Except.pure]
    · simp [h, pure, Except.pure]
  · rw [npyMmap]
    rcases h with h | h
    · cases d.content f <;> simp [h, pure, Except.pure]
    · simp [h, pure, Except.pure]

/-- A write-protected file stays as it is. -/
example : npySave ⟨fun _ => some [1, 2], fun _ => true, fun _ => false⟩ "a.npy" (some exNpy) =
    .ok ⟨fun _ => some [1, 2], fun _ => true, fun _ => false⟩ := (C43_failures _ _ _ (fun _ => true) true).2.1 rfl

end NN
