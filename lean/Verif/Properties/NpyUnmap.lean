import Verif.Model.NpyUnmap
import Verif.Properties.Npy
/-
C85: what npy_array_free unmaps.
-/
namespace NN
namespace NpyUnmap

theorem shapeLoop_short (s : Bytes) (dims out : List Nat) (h : shapeLoop s dims = .ok out) (hd : dims.length < 8) : out.length < 8 := by
  induction s, dims using shapeLoop.induct with
  | case1 dims => rw [shapeLoop] at h; cases h
  | case2 dims cs => rw [shapeLoop, if_pos rfl] at h; cases h; exact hd
  | case3 dims c cs h1 h2 dims' h3 ih =>
    rw [shapeLoop, if_neg h1, if_pos h2, if_pos h3] at h
    exact ih h h3
  | case4 dims c cs h1 h2 dims' h3 =>
    rw [shapeLoop, if_neg h1, if_pos h2, if_neg h3] at h; cases h
  | case5 dims c cs h1 h2 ih =>
    rw [shapeLoop, if_neg h1, if_neg h2] at h
    exact ih h hd

theorem countElements_total : ∀ (ds zs : List Nat) (k acc : Nat), ∃ n, countElements (ds ++ 0 :: zs) k acc = .ok n
  | [], zs, k, acc => ⟨acc, by rw [List.nil_append, countElements, if_neg (by simp)]; rfl⟩
  | d :: ds, zs, k, acc => by
    rw [List.cons_append, countElements]
    split
    · exact countElements_total ds zs _ _
    · exact ⟨acc, rfl⟩

theorem bind_ok {α β : Type} {x : M α} {f : α → M β} {r : β} (e : (x >>= f) = .ok r) : ∃ a, x = .ok a ∧ f a = .ok r := by
  cases x with
  | error _ => cases e
  | ok a => exact ⟨a, rfl, e⟩

theorem parse_size {buf : Bytes} {m : NpyArray} (h : parseHeader buf = .ok m) (f : NpyArray → NpyArray)
    (hf : (f m).shape = m.shape ∧ (f m).ndim = m.ndim) : ∃ n, npyDatasize (f m) = .ok n ∧ n < 2 ^ 64 := by
  rw [parseHeader] at h
  obtain ⟨descr, -, h⟩ := bind_ok h
  obtain ⟨c, -, h⟩ := bind_ok h
  obtain ⟨t, -, h⟩ := bind_ok h
  obtain ⟨t2, -, h⟩ := bind_ok h
  dsimp only at h
  split at h
  · obtain ⟨fo, -, h⟩ := bind_ok h
    obtain ⟨sh, -, h⟩ := bind_ok h
    obtain ⟨dims, hd, h⟩ := bind_ok h
    have hs := shapeLoop_short _ _ _ hd (by simp)
    simp only [pure, Except.pure, Except.ok.injEq] at h
    have e : m.shape = dims ++ 0 :: List.replicate (7 - dims.length) 0 := by
      rw [← h, ← List.replicate_succ, show 7 - dims.length + 1 = 8 - dims.length by omega]
    obtain ⟨n, hn⟩ := countElements_total dims (List.replicate (7 - dims.length) 0) m.ndim 1
    refine ⟨n * (f m).elemSize % 2 ^ 64, ?_, Nat.mod_lt _ (by norm_num)⟩
    rw [npyDatasize, hf.1, hf.2, e, hn]
    rfl
  · cases h

theorem read_size {mem : Nat → Bool} {s : Bytes} {m : NpyArray} (h : readMatrix true mem s = .ok (some m)) :
    10 ≤ s.length ∧ ∃ n, npyDatasize m = .ok n ∧ n < 2 ^ 64 := by
  rw [readMatrix] at h
  obtain ⟨x, h1, h⟩ := bind_ok h
  rw [readBytes] at h1
  split at h1
  · next hl =>
    refine ⟨hl, ?_⟩
    cases h1
    dsimp only at h
    split at h
    · cases h
    · split at h
      · cases h
      · obtain ⟨y, h2, h⟩ := bind_ok h
        cases y with
        | none => cases h
        | some y =>
          obtain ⟨hd, r⟩ := y
          dsimp only at h
          split at h
          · obtain ⟨m0, hp, h⟩ := bind_ok h
            simp only [if_true, pure, Except.pure, Except.ok.injEq, Option.some.injEq] at h
            rw [← h]
            exact parse_size hp (fun m => { m with data := r, mapped := true }) ⟨rfl, rfl⟩
          · cases h
  · cases h1

theorem pageCount_pos {n : Nat} (h : 0 < n) : 0 < pageCount n := by rw [pageCount]; omega

theorem munmap_eq {a len i : Nat} {p : Pages} (h0 : 0 < len) (h1 : a * 4096 + len ≤ 2 ^ 47) :
    munmap a len p i = (p i && !(decide (a ≤ i) && decide (i < a + pageCount len))) := by
  rw [munmap, if_neg (by omega)]

end NpyUnmap
open NpyUnmap

/-- **C85** For every file that `npy_array_mmap` accepts: `npy_array_free` does not fault, and it computes a length (10 bytes, what it
takes for the length of the header, and the size of the array, reduced to 64 bits).  If that many bytes are in the address space, then
afterwards exactly those pages are mapped that were mapped and are not among the pages of these bytes. -/
theorem C85_any {mem : Nat → Bool} {s : Bytes} {m : NpyArray} {a : Nat} {p p1 : Pages} (h : mapFile mem s a p = .ok (some m, p1)) :
    ∃ lo hi n len p2, s[8]? = some lo ∧ s[9]? = some hi ∧ npyDatasize m = .ok n ∧ freeLength s m = .ok len ∧
      len = (10 + headerLength lo hi + n) % 2 ^ 64 ∧ freeMapped s m a p1 = .ok p2 ∧
      (0 < len → a * 4096 + len ≤ 2 ^ 47 → ∀ i, p2 i = true ↔
        (p i = true ∨ a ≤ i ∧ i < a + pageCount s.length) ∧ ¬ (a ≤ i ∧ i < a + pageCount len)) := by
  rw [mapFile] at h
  split at h
  · cases h
  · obtain ⟨x, h1, h⟩ := bind_ok h
    cases x with
    | none => cases h
    | some m' =>
      cases h
      obtain ⟨hl, n, hn, -⟩ := read_size h1
      have e8 : s[8]? = some s[8] := List.getElem?_eq_getElem (by omega)
      have e9 : s[9]? = some s[9] := List.getElem?_eq_getElem (by omega)
      have hf : freeLength s m = .ok ((10 + headerLength s[8] s[9] + n) % 2 ^ 64) := by
        rw [freeLength, e8, e9]
        simp only [hn, bind, Except.bind, pure, Except.pure]
      refine ⟨_, _, n, _, munmap a ((10 + headerLength s[8] s[9] + n) % 2 ^ 64) (mmap a s.length p), e8, e9, hn, hf, rfl, ?_, ?_⟩
      · rw [freeMapped, hf]; rfl
      · intro h0 h2 i
        rw [munmap_eq h0 h2]
        simp only [mmap, Bool.and_eq_true, Bool.or_eq_true, Bool.not_eq_true', ← Bool.not_eq_true, decide_eq_true_eq]

/-- **C85** A file that is not an array leaves no pages mapped: those of `[a, …)` are free again. -/
theorem C85_rejected {mem : Nat → Bool} {s : Bytes} {a : Nat} {p p1 : Pages} (h : mapFile mem s a p = .ok (none, p1))
    (hs : a * 4096 + s.length ≤ 2 ^ 47) (hfree : ∀ i, a ≤ i → i < a + pageCount s.length → p i = false) : p1 = p := by
  rw [mapFile] at h
  split at h
  · cases h; rfl
  · next hne =>
    obtain ⟨x, h1, h⟩ := bind_ok h
    cases x with
    | some m => cases h
    | none =>
      cases h
      funext i
      rw [munmap_eq (List.length_pos_iff.2 hne) hs, mmap]
      by_cases h2 : a ≤ i ∧ i < a + pageCount s.length
      · simp [h2.1, h2.2, hfree i h2.1 h2.2]
      · have : (decide (a ≤ i) && decide (i < a + pageCount s.length)) = false := by
          rw [← Bool.not_eq_true]; simpa using h2
        simp [this]

/-- **C85** A file written by `npy_array_save` whose data has been replaced by any bytes (more, fewer, or others): the pages after
mapping and freeing it. -/
theorem C85_exact {m : NpyArray} (hm : m.Savable) (mem : Nat → Bool) (hmem : mem 104 = true) (rest : Bytes) (a : Nat) (p : Pages)
    (hs : a * 4096 + (128 + m.meaning.nbytes) ≤ 2 ^ 47) :
    let s := (m.meaning.file 0 (117 - m.meaning.dict.length)).take 128 ++ rest
    ∃ r p1 p2, mapFile mem s a p = .ok (some r, p1) ∧ freeMapped s r a p1 = .ok p2 ∧ ∀ i, p2 i = true ↔
        (p i = true ∨ a ≤ i ∧ i < a + pageCount (128 + rest.length)) ∧ ¬ (a ≤ i ∧ i < a + pageCount (128 + m.meaning.nbytes)) := by
  intro s
  have e : m.meaning.dict.length + (117 - m.meaning.dict.length) + 1 = 118 := by have := hm.fits; omega
  have hs0 := file_split m.meaning 0 (117 - m.meaning.dict.length) []
  rw [List.append_nil, List.append_nil, ← List.append_assoc] at hs0
  have hhd : (m.meaning.dict ++ List.replicate (117 - m.meaning.dict.length) 32 ++ str "\n").length = 118 := by
    simp only [List.length_append, List.length_replicate, show (str "\n").length = 1 from rfl]; omega
  have hse : s = ((0x93 :: str "NUMPY") ++ [1, 0] ++ [((m.meaning.dict.length + (117 - m.meaning.dict.length) + 1) % 256).toUInt8,
      ((m.meaning.dict.length + (117 - m.meaning.dict.length) + 1) / 256).toUInt8]) ++
      ((m.meaning.dict ++ List.replicate (117 - m.meaning.dict.length) 32 ++ str "\n") ++ rest) := by
    show List.take 128 _ ++ rest = _
    rw [hs0, List.take_left' (by rw [List.length_append, hhd]; rfl), List.append_assoc]
  have hr : readMatrix true mem s = .ok (some { headerArray m with data := rest, mapped := true }) := by
    rw [hse, readMatrix_header hm.toWF true mem hmem 0 _ (by rw [e]; norm_num) (by rw [e]; norm_num)]
    rfl
  have hlen : s.length = 128 + rest.length := by
    rw [hse, ← List.append_assoc, List.length_append, List.length_append, hhd]
    rfl
  have hmap : mapFile mem s a p = .ok (some { headerArray m with data := rest, mapped := true }, mmap a s.length p) := by
    rw [mapFile, if_neg (by rw [← List.length_eq_zero_iff]; omega), hr]
    rfl
  obtain ⟨lo, hi, n, len, p2, h8, h9, hn, -, hlen2, hf, hp⟩ := C85_any hmap
  have e8 : s[8]? = some (118 % 256).toUInt8 := by rw [hse, e]; rfl
  have e9 : s[9]? = some (118 / 256).toUInt8 := by rw [hse, e]; rfl
  rw [h8, Option.some.injEq] at e8
  rw [h9, Option.some.injEq] at e9
  have hhl : headerLength lo hi = 118 := by rw [e8, e9]; exact headerLength_eq (n := 118) (by norm_num) (by norm_num)
  have hnn : n = m.meaning.nbytes := by
    have h1 : npyDatasize ({ headerArray m with data := rest, mapped := true } : NpyArray) = .ok m.meaning.nbytes := by
      have hl : (m.shape.take m.ndim).length = m.ndim := by
        rw [List.length_take, hm.shape]; have := hm.ndim; omega
      have hprod : 1 * (m.shape.take m.ndim).prod < 2 ^ 64 := by
        rw [one_mul]
        exact lt_of_le_of_lt (Nat.le_mul_of_pos_right _ hm.elem.1) hm.size
      have h := countElements_eq (m.shape.take m.ndim) (List.replicate (8 - m.ndim) 0) hm.pos 1 (by
        rw [← List.length_pos_iff, List.length_replicate]; have := hm.ndim; omega) hprod
      rw [hl] at h
      rw [npyDatasize]
      show (countElements (headerArray m).shape m.ndim 1 >>= fun n => pure (n * m.elemSize % 2 ^ 64)) = _
      rw [show (headerArray m).shape = m.shape.take m.ndim ++ List.replicate (8 - m.ndim) 0 from rfl, h]
      simp only [bind, Except.bind, pure, Except.pure, one_mul, Except.ok.injEq]
      exact Nat.mod_eq_of_lt hm.size
    rw [h1] at hn
    exact (Except.ok.inj hn).symm
  have hl3 : len = 128 + m.meaning.nbytes := by
    rw [hlen2, hhl, hnn, Nat.mod_eq_of_lt (by omega)]
  refine ⟨_, _, p2, hmap, hf, ?_⟩
  rw [hl3, hlen] at hp
  exact hp (by omega) hs

theorem saved_split {m : NpyArray} (hm : m.Savable) :
    (m.meaning.file 0 (117 - m.meaning.dict.length)).take 128 ++ m.meaning.data = m.meaning.file 0 (117 - m.meaning.dict.length) := by
  have hs0 := file_split m.meaning 0 (117 - m.meaning.dict.length) []
  have hhd : (m.meaning.dict ++ List.replicate (117 - m.meaning.dict.length) 32 ++ str "\n").length = 118 := by
    have := hm.fits
    simp only [List.length_append, List.length_replicate, show (str "\n").length = 1 from rfl]; omega
  rw [List.append_nil, List.append_nil, ← List.append_assoc] at hs0
  rw [hs0, List.take_left' (by rw [List.length_append, hhd]; rfl)]

/-- **C85** Mapping and freeing a file written by `npy_array_save` leaves the address space as it was. -/
theorem C85_saved {m : NpyArray} (hm : m.Savable) (mem : Nat → Bool) (hmem : mem 104 = true) (a : Nat) (p : Pages)
    (hs : a * 4096 + (128 + m.meaning.nbytes) ≤ 2 ^ 47)
    (hfree : ∀ i, a ≤ i → i < a + pageCount (128 + m.meaning.nbytes) → p i = false) :
    ∃ r p1, mapFile mem (m.meaning.file 0 (117 - m.meaning.dict.length)) a p = .ok (some r, p1) ∧
      freeMapped (m.meaning.file 0 (117 - m.meaning.dict.length)) r a p1 = .ok p := by
  obtain ⟨r, p1, p2, h1, h2, h3⟩ := C85_exact hm mem hmem m.meaning.data a p hs
  rw [saved_split hm] at h1 h2
  refine ⟨r, p1, h1, ?_⟩
  rw [h2]
  congr 1
  funext i
  rw [Bool.eq_iff_iff, h3, meaning_data_length hm]
  constructor
  · rintro ⟨h | h, hn⟩
    · exact h
    · exact absurd h hn
  · intro h
    refine ⟨.inl h, fun hi => ?_⟩
    rw [hfree i hi.1 hi.2] at h; cases h

/-- **C85 is false** for a file with bytes after the array that need another page: that page stays mapped for ever. -/
theorem C85_trailing_false {m : NpyArray} (hm : m.Savable) (mem : Nat → Bool) (hmem : mem 104 = true) (rest : Bytes) (a : Nat) (p : Pages)
    (hs : a * 4096 + (128 + m.meaning.nbytes) ≤ 2 ^ 47) (hlong : pageCount (128 + m.meaning.nbytes) < pageCount (128 + rest.length)) :
    let s := (m.meaning.file 0 (117 - m.meaning.dict.length)).take 128 ++ rest
    ∃ r p1 p2, mapFile mem s a p = .ok (some r, p1) ∧ freeMapped s r a p1 = .ok p2 ∧
      p2 (a + pageCount (128 + m.meaning.nbytes)) = true := by
  obtain ⟨r, p1, p2, h1, h2, h3⟩ := C85_exact hm mem hmem rest a p hs
  exact ⟨r, p1, p2, h1, h2, (h3 _).2 ⟨.inr (by omega), by omega⟩⟩

/-- **C85 is false** for a truncated file that needs fewer pages than the array it announces: a page behind the mapping, which
belongs to something else, is unmapped. -/
theorem C85_truncated_false {m : NpyArray} (hm : m.Savable) (mem : Nat → Bool) (hmem : mem 104 = true) (rest : Bytes) (a : Nat)
    (p : Pages) (hs : a * 4096 + (128 + m.meaning.nbytes) ≤ 2 ^ 47)
    (hshort : pageCount (128 + rest.length) < pageCount (128 + m.meaning.nbytes))
    (hother : p (a + pageCount (128 + rest.length)) = true) :
    let s := (m.meaning.file 0 (117 - m.meaning.dict.length)).take 128 ++ rest
    ∃ r p1 p2, mapFile mem s a p = .ok (some r, p1) ∧ p1 (a + pageCount (128 + rest.length)) = true ∧
      freeMapped s r a p1 = .ok p2 ∧ p2 (a + pageCount (128 + rest.length)) = false := by
  obtain ⟨r, p1, p2, h1, h2, h3⟩ := C85_exact hm mem hmem rest a p hs
  refine ⟨r, p1, p2, h1, ?_, h2, ?_⟩
  · rw [mapFile] at h1
    split at h1
    · cases h1
    · obtain ⟨x, -, h1⟩ := bind_ok h1
      cases x with
      | none => cases h1
      | some m' => cases h1; simp [mmap, hother]
  · rw [← Bool.not_eq_true, h3]
    rintro ⟨-, h⟩
    exact h ⟨by omega, by omega⟩

/-! ### Examples -/

/-- The 2×3 array of `C43`, at page 7. -/
example : ∃ r p1, mapFile (fun _ => true) (exNpy.meaning.file 0 (117 - exNpy.meaning.dict.length)) 7 (fun i => i == 3) = .ok (some r, p1) ∧
    freeMapped (exNpy.meaning.file 0 (117 - exNpy.meaning.dict.length)) r 7 p1 = .ok (fun i => i == 3) :=
  C85_saved exNpy_savable _ rfl 7 _ (by decide) (by
    intro i h1 _
    simp; omega)

/-- 5000 more bytes: page 8 stays mapped. -/
example : ∃ r p1 p2, mapFile (fun _ => true) ((exNpy.meaning.file 0 (117 - exNpy.meaning.dict.length)).take 128 ++ List.replicate 5000 0)
      7 (fun _ => false) = .ok (some r, p1) ∧
    freeMapped ((exNpy.meaning.file 0 (117 - exNpy.meaning.dict.length)).take 128 ++ List.replicate 5000 0) r 7 p1 = .ok p2 ∧
    p2 8 = true :=
  C85_trailing_false exNpy_savable _ rfl (List.replicate 5000 0) 7 _ (by decide) (by rw [List.length_replicate]; decide)

/-- A 9×9×9×9 array of single precision floats: 26244 bytes. -/
def bigNpy : NpyArray := ⟨List.replicate 26244 7, [9, 9, 9, 9, 0, 0, 0, 0], 4, 0, 102, 4, false, false⟩

theorem bigNpy_savable : bigNpy.Savable where
  shape := rfl
  ndim := by decide
  dims := by show ∀ d ∈ [9, 9, 9, 9], d < 2 ^ 31; decide
  elem := by show 0 < 4 ∧ 4 < 2 ^ 63; decide
  typechar := by decide
  pos := by show ∀ d ∈ [9, 9, 9, 9], 0 < d; decide
  size := by show [9, 9, 9, 9].prod * 4 < 2 ^ 64; decide
  data := by show [9, 9, 9, 9].prod * 4 ≤ (List.replicate 26244 (7 : UInt8)).length; rw [List.length_replicate]; decide
  fits := by
    have : bigNpy.meaning.dict = str "{'descr': '<f4', 'fortran_order': False, 'shape': (9,9,9,9,), }" := by
      simp only [Spec.Array.dict, NpyArray.meaning, bigNpy, guessEndianness, List.take, List.map,
        dec_small (show 4 < 10 by decide), dec_small (show 9 < 10 by decide)]
      decide
    rw [this]; decide

/-- Its file, cut after the header, takes one page.  The page behind it belongs to something else and is lost. -/
example : ∃ r p1 p2, mapFile (fun _ => true) ((bigNpy.meaning.file 0 (117 - bigNpy.meaning.dict.length)).take 128 ++ []) 7 (fun i => i == 8) =
      .ok (some r, p1) ∧ p1 8 = true ∧
    freeMapped ((bigNpy.meaning.file 0 (117 - bigNpy.meaning.dict.length)).take 128 ++ []) r 7 p1 = .ok p2 ∧ p2 8 = false :=
  C85_truncated_false bigNpy_savable _ rfl [] 7 _ (by decide) (by decide) rfl

end NN
