import Verif.Proofs.Npy
import Verif.Spec.Npy
/-
C43-C46: .npy files.
-/
namespace NN
open Spec

/-- The meaning of an array in memory. -/
def NpyArray.meaning (m : NpyArray) : Spec.Array :=
  ⟨guessEndianness m, m.typechar, m.elemSize, m.fortran, m.shape.take m.ndim,
    m.data.take ((m.shape.take m.ndim).prod * m.elemSize)⟩

/-- An array that can be saved: `WF`, no dimension 0, size below 2^64, the data is there, and the dictionary fits. -/
structure NpyArray.Savable (m : NpyArray) : Prop extends m.WF where
  pos : ∀ d ∈ m.shape.take m.ndim, 0 < d
  size : m.meaning.nbytes < 2 ^ 64
  data : m.meaning.nbytes ≤ m.data.length
  fits : m.meaning.dict.length < 108

theorem dictText_meaning {m : NpyArray} (hm : m.WF) : dictText m = m.meaning.dict := by
  have : shapeText (m.shape.take m.ndim) = ((m.shape.take m.ndim).map fun d => dec d ++ str ",").flatten := by
    rw [shapeText]
    congr 1
    apply List.map_congr_left
    intro d hd
    rw [castInt_eq (hm.dims d hd), decInt_nat]
  simp only [dictText, Spec.Array.dict, NpyArray.meaning, this]
  rcases m with ⟨_, _, _, _, _, _, f, _⟩
  cases f <;> rfl

theorem nbytes_pos {m : NpyArray} (hm : m.Savable) : 0 < m.meaning.nbytes :=
  Nat.mul_pos (List.prod_pos hm.pos) hm.elem.1

theorem datasize_eq {m : NpyArray} (hm : m.Savable) : npyDatasize m = .ok m.meaning.nbytes := by
  have hlen : (m.shape.take m.ndim).length = m.ndim := by
    rw [List.length_take, hm.shape]; have := hm.ndim; omega
  have hsz := hm.size
  have hprod : 1 * (m.shape.take m.ndim).prod < 2 ^ 64 := by
    rw [one_mul]
    exact lt_of_le_of_lt (Nat.le_mul_of_pos_right _ hm.elem.1) hsz
  have h := countElements_eq (m.shape.take m.ndim) (m.shape.drop m.ndim) hm.pos 1 (by
    rw [← List.length_pos_iff, List.length_drop, hm.shape]; have := hm.ndim; omega) hprod
  rw [hlen, List.take_append_drop] at h
  rw [npyDatasize, h]
  simp only [bind, Except.bind, pure, Except.pure, one_mul, Except.ok.injEq]
  exact Nat.mod_eq_of_lt hsz

theorem dict_no_nul (k : Nat) : (0 : UInt8) ∉ List.replicate k (32 : UInt8) ++ str "\n" := by
  rw [List.mem_append, not_or]
  refine ⟨fun h => ?_, by decide⟩
  exact absurd (List.eq_of_mem_replicate h) (by decide)

/-- **C44** The header is magic, version 1.0, length 118, the dictionary, spaces and a newline: 128 bytes. -/
theorem C44_header {m : NpyArray} (hm : m.WF) (hfit : m.meaning.dict.length < 108) :
    npyGetHeader m = .ok ((0x93 :: str "NUMPY") ++ [1, 0] ++ [118, 0] ++ m.meaning.dict ++
      List.replicate (117 - m.meaning.dict.length) 32 ++ str "\n") ∧
    ∃ h, npyGetHeader m = .ok h ∧ h.length = 128 := by
  have key : npyGetHeader m = .ok ((0x93 :: str "NUMPY") ++ [1, 0] ++ [118, 0] ++ m.meaning.dict ++
      List.replicate (117 - m.meaning.dict.length) 32 ++ str "\n") := by
    have h1 : ¬ m.shape.length < m.ndim := by rw [hm.shape]; have := hm.ndim; omega
    have hpad : padLeft (headerLen - m.meaning.dict.length + 10 - 1) 32 (str " ") =
        List.replicate (117 - m.meaning.dict.length) 32 := by
      have e1 : headerLen - m.meaning.dict.length + 10 - 1 = (116 - m.meaning.dict.length) + 1 := by
        simp only [headerLen]; omega
      have e2 : 117 - m.meaning.dict.length = (116 - m.meaning.dict.length) + 1 := by omega
      rw [e1, e2, padLeft, List.replicate_succ']
      rfl
    have hl : (m.meaning.dict ++ (List.replicate (117 - m.meaning.dict.length) (32 : UInt8) ++ str "\n")).length = 118 := by
      simp only [List.length_append, List.length_replicate, show (str "\n").length = 1 from rfl]; omega
    simp only [npyGetHeader, if_neg h1, dictText_meaning hm, if_pos (show m.meaning.dict.length < headerLen from hfit), hpad, hl]
    simp only [npyMagic, List.append_assoc]
    rfl
  refine ⟨key, _, key, ?_⟩
  simp only [List.length_append, List.length_replicate, List.length_cons, List.length_nil, show (str "\n").length = 1 from rfl,
    show (str "NUMPY").length = 5 from rfl]
  omega

/-- **C44** The file written is a version 1.0 file in the sense of the specification. -/
theorem C44_file {m : NpyArray} (hm : m.Savable) :
    npyBytes m = .ok (m.meaning.file 0 (117 - m.meaning.dict.length)) := by
  have hd := hm.data
  have e : m.meaning.dict.length + (117 - m.meaning.dict.length) + 1 = 118 := by have := hm.fits; omega
  have hle : m.meaning.nbytes ≤ m.data.length := hm.data
  simp only [npyBytes, (C44_header hm.toWF hm.fits).1, datasize_eq hm, bind, Except.bind, if_pos hle, pure, Except.pure,
    Spec.Array.file, e]
  rfl

theorem toUInt8_toNat {n : Nat} (h : n < 256) : n.toUInt8.toNat = n := by
  rw [Nat.toUInt8, UInt8.toNat_ofNat']; omega

theorem headerLength_eq {n : Nat} (h : n < 2 ^ 16) (h7 : n % 256 < 128) :
    headerLength (n % 256).toUInt8 (n / 256).toUInt8 = n := by
  have h1 := toUInt8_toNat (n := n % 256) (by omega)
  have h2 := toUInt8_toNat (n := n / 256) (by omega)
  rw [headerLength, if_neg, h1, h2]
  · omega
  · rw [UInt8.le_iff_toNat_le, h1]
    have : (128 : UInt8).toNat = 128 := rfl
    omega

theorem headerLength_bad {n : Nat} (h7 : 128 ≤ n % 256) (hi : UInt8) :
    headerLength (n % 256).toUInt8 hi = 65280 + n % 256 := by
  have h1 := toUInt8_toNat (n := n % 256) (by omega)
  rw [headerLength, if_pos, h1]
  rw [UInt8.le_iff_toNat_le, h1]
  exact h7

/-- The pieces `readMatrix` reads from a file. -/
theorem file_split (a : Spec.Array) (minor : UInt8) (k : Nat) (extra : Bytes) :
    a.file minor k ++ extra = ((0x93 :: str "NUMPY") ++ [1, minor] ++
      [((a.dict.length + k + 1) % 256).toUInt8, ((a.dict.length + k + 1) / 256).toUInt8]) ++
      ((a.dict ++ List.replicate k 32 ++ str "\n") ++ (a.data ++ extra)) := by
  simp only [Spec.Array.file, List.append_assoc]

theorem readBytes_append (mapped : Bool) {n : Nat} {a b : Bytes} (h : a.length = n) :
    readBytes mapped n (a ++ b) = .ok (some (a, b)) := by
  rw [readBytes, if_pos (by rw [List.length_append]; omega), List.take_left' h, List.drop_left' h]
  rfl

/-- Reading the header, for any reader. -/
theorem readMatrix_header {m : NpyArray} (hm : m.WF) (mapped : Bool) (mem : Nat → Bool) (hmem : mem 104 = true) (minor : UInt8)
    (k : Nat) (hL : m.meaning.dict.length + k + 1 < 2 ^ 16) (h7 : (m.meaning.dict.length + k + 1) % 256 < 128) (rest : Bytes) :
    readMatrix mapped mem (((0x93 :: str "NUMPY") ++ [1, minor] ++ [((m.meaning.dict.length + k + 1) % 256).toUInt8,
      ((m.meaning.dict.length + k + 1) / 256).toUInt8]) ++ ((m.meaning.dict ++ List.replicate k 32 ++ str "\n") ++ rest)) =
    if mapped then .ok (some { headerArray m with data := rest, mapped := true })
    else
      (if mem (shapeElements (headerArray m).shape 1 * m.elemSize % 2 ^ 64) then do
        match ← readBytes false (shapeElements (headerArray m).shape 1 * m.elemSize % 2 ^ 64) rest with
        | none => pure none
        | some (data, _) => pure (some { headerArray m with data := data })
      else .ok none) := by
  have hlen : (m.meaning.dict ++ List.replicate k 32 ++ str "\n").length = m.meaning.dict.length + k + 1 := by
    simp only [List.length_append, List.length_replicate, show (str "\n").length = 1 from rfl]
  have hp : parseHeader ((m.meaning.dict ++ List.replicate k 32 ++ str "\n") ++ [0]) = .ok (headerArray m) := by
    rw [List.append_assoc m.meaning.dict, ← dictText_meaning hm]
    exact parseHeader_dict hm _ (dict_no_nul k)
  rw [readMatrix, readBytes_append mapped (n := 10) (by rfl)]
  simp only [bind, Except.bind]
  rw [if_neg (by intro h; exact h rfl), if_neg (by intro h; exact h rfl)]
  rw [show ((0x93 :: str "NUMPY") ++ [1, minor] ++ [((m.meaning.dict.length + k + 1) % 256).toUInt8,
      ((m.meaning.dict.length + k + 1) / 256).toUInt8]).getD 8 0 = ((m.meaning.dict.length + k + 1) % 256).toUInt8 from rfl,
    show ((0x93 :: str "NUMPY") ++ [1, minor] ++ [((m.meaning.dict.length + k + 1) % 256).toUInt8,
      ((m.meaning.dict.length + k + 1) / 256).toUInt8]).getD 9 0 = ((m.meaning.dict.length + k + 1) / 256).toUInt8 from rfl,
    headerLength_eq hL h7, readBytes_append mapped hlen]
  simp only [hmem, if_true, hp]
  cases mapped with
  | true => rfl
  | false => rfl

theorem shapeElements_header {m : NpyArray} (hm : m.Savable) :
    shapeElements (headerArray m).shape 1 * m.elemSize % 2 ^ 64 = m.meaning.nbytes := by
  have hprod : 1 * (m.shape.take m.ndim).prod < 2 ^ 64 := by
    rw [one_mul]
    exact lt_of_le_of_lt (Nat.le_mul_of_pos_right _ hm.elem.1) hm.size
  simp only [headerArray]
  rw [shapeElements_eq _ _ hm.pos 1 hprod, one_mul]
  exact Nat.mod_eq_of_lt hm.size

theorem meaning_data_length {m : NpyArray} (hm : m.Savable) : m.meaning.data.length = m.meaning.nbytes := by
  have := hm.data
  show (m.data.take _).length = _
  rw [List.length_take]
  exact Nat.min_eq_left this

/-- **C45** A version 1 file with any amount of padding whose header length has a low byte below 128 is read correctly,
followed by anything.  (Missing: low byte 128 or more, where it is false.) -/
theorem C45_partial {m : NpyArray} (hm : m.Savable) (mem : Nat → Bool) (hmem : mem 104 = true)
    (hmem2 : mem m.meaning.nbytes = true) (minor : UInt8) (k : Nat) (hL : m.meaning.dict.length + k + 1 < 2 ^ 16)
    (h7 : (m.meaning.dict.length + k + 1) % 256 < 128) (extra : Bytes) :
    ∃ r, readMatrix false mem (m.meaning.file minor k ++ extra) = .ok (some r) ∧ r.meaning = m.meaning ∧
      r.ndim = m.ndim ∧ r.mapped = false ∧ r.data = m.meaning.data := by
  refine ⟨{ headerArray m with data := m.meaning.data }, ?_, ?_, rfl, rfl, rfl⟩
  · rw [file_split, readMatrix_header hm.toWF false mem hmem minor k hL h7, shapeElements_header hm, hmem2]
    simp only [Bool.false_eq_true, if_false, if_true, readBytes_append false (meaning_data_length hm), bind, Except.bind]
    rfl
  · have hlen : (m.shape.take m.ndim).length = m.ndim := by
      rw [List.length_take, hm.shape]; have := hm.ndim; omega
    have hdims : (headerArray m).shape.take m.ndim = m.shape.take m.ndim := List.take_left' hlen
    have hg : guessEndianness { headerArray m with data := m.meaning.data } = guessEndianness m := by
      rw [guessEndianness]
      exact if_pos (guess_mem m)
    have hdims2 : ({ headerArray m with data := m.meaning.data } : NpyArray).shape.take
      ({ headerArray m with data := m.meaning.data } : NpyArray).ndim = m.shape.take m.ndim := hdims
    rw [NpyArray.meaning, hg, hdims2]
    have : m.meaning.data.take ((m.shape.take m.ndim).prod * m.elemSize) = m.meaning.data :=
      List.take_of_length_le (meaning_data_length hm).le
    simp only [headerArray, this]
    rfl

/-- **C45 is false** for header lengths whose low byte is 128 or more (and high byte is not 255): the length is taken to be
at least 65408, and a file that is not that long is rejected. -/
theorem C45_false (a : Spec.Array) (mem : Nat → Bool) (minor : UInt8) (k : Nat)
    (h7 : 128 ≤ (a.dict.length + k + 1) % 256) (hlen : (a.file minor k).length < 10 + 65408) :
    readMatrix false mem (a.file minor k) = .ok none := by
  have hs := file_split a minor k []
  rw [List.append_nil] at hs
  have hlen2 : (a.dict ++ List.replicate k 32 ++ str "\n" ++ (a.data ++ [])).length < 65408 := by
    rw [hs, List.length_append] at hlen
    have : ((0x93 :: str "NUMPY") ++ [1, minor] ++ [((a.dict.length + k + 1) % 256).toUInt8,
      ((a.dict.length + k + 1) / 256).toUInt8]).length = 10 := rfl
    omega
  rw [hs, readMatrix, readBytes_append false (n := 10) (by rfl)]
  simp only [bind, Except.bind]
  rw [if_neg (by intro h; exact h rfl), if_neg (by intro h; exact h rfl)]
  rw [show ((0x93 :: str "NUMPY") ++ [1, minor] ++ [((a.dict.length + k + 1) % 256).toUInt8,
      ((a.dict.length + k + 1) / 256).toUInt8]).getD 8 0 = ((a.dict.length + k + 1) % 256).toUInt8 from rfl,
    headerLength_bad h7]
  rw [readBytes, if_neg (by omega)]
  rfl

/-- **C43** Saving and loading gives back dimensions, type, element size, order and data.  No other file is touched. -/
theorem C43_roundtrip {m : NpyArray} (hm : m.Savable) (mem : Nat → Bool) (hmem : mem 104 = true)
    (hmem2 : mem m.meaning.nbytes = true) (d : Disk) (f : String) (hw : d.writable f = true) (hr : d.readable f = true) :
    ∃ d' r, npySave d f (some m) = .ok d' ∧ npyLoad d' mem f = .ok (some r) ∧ r.meaning = m.meaning ∧ r.ndim = m.ndim ∧
      r.mapped = false ∧ r.data = m.meaning.data ∧ ∀ g, g ≠ f → d'.content g = d.content g := by
  have e : m.meaning.dict.length + (117 - m.meaning.dict.length) + 1 = 118 := by have := hm.fits; omega
  obtain ⟨r, h1, h2, h3, h4, h5⟩ := C45_partial hm mem hmem hmem2 0 (117 - m.meaning.dict.length) (by rw [e]; norm_num)
    (by rw [e]; norm_num) []
  rw [List.append_nil] at h1
  refine ⟨{ d with content := fun g => if g = f then some (m.meaning.file 0 (117 - m.meaning.dict.length)) else d.content g },
    r, ?_, ?_, h2, h3, h4, h5, fun g hg => by simp [hg]⟩
  · simp only [npySave, hw, if_true, C44_file hm, bind, Except.bind, pure, Except.pure]
  · simp only [npyLoad, if_true, hr]
    exact h1

/-- **C43 is false** for 8 dimensions: `npy_array_calculate_datasize` reads beyond the shape. -/
theorem C43_ndim8_false {m : NpyArray} (hs : m.shape.length = 8) (hn : m.ndim = 8) (hpos : ∀ d ∈ m.shape, 0 < d) :
    npyDatasize m = .error .oob := by
  have key : ∀ (l : List Nat) (acc : Nat), (∀ d ∈ l, 0 < d) → countElements l l.length acc = .error .oob := by
    intro l
    induction l with
    | nil => intro acc _; rfl
    | cons d l ih =>
      intro acc h
      rw [countElements, if_pos ⟨h d (by simp), by simp⟩]
      exact ih _ (fun x hx => h x (List.mem_cons_of_mem _ hx))
  rw [npyDatasize, hn, ← hs, key _ _ hpos]
  rfl

/-- **C43 is false** for empty arrays: with first dimension 0 one element is written, which is not there. -/
theorem C43_empty_false {m : NpyArray} (hm : m.WF) (hfit : m.meaning.dict.length < 108) (ds : List Nat)
    (h0 : m.shape = 0 :: ds) (hdata : m.data = []) : npyBytes m = .error .oob := by
  have : npyDatasize m = .ok m.elemSize := by
    rw [npyDatasize, h0, countElements, if_neg (by simp)]
    simp only [bind, Except.bind, pure, Except.pure, one_mul, Except.ok.injEq]
    exact Nat.mod_eq_of_lt (lt_trans hm.elem.2 (by norm_num))
  have he := hm.elem.1
  simp only [npyBytes, (C44_header hm hfit).1, this, bind, Except.bind, hdata, List.length_nil]
  rw [if_neg (by omega)]

/-- **C43 is false** for dimensions of 2^31 or more: 2^32 - d is written as "-d" and read as d. -/
theorem C43_wrap_false {m : NpyArray} (he0 : 0 < m.elemSize) (he1 : m.elemSize < 2 ^ 63) (htc : m.typechar ≠ 0) (d : Nat)
    (hd0 : 0 < d) (hd : d ≤ 2 ^ 31) (hdims : m.shape.take m.ndim = [2 ^ 32 - d]) (tail : Bytes) (ht : (0 : UInt8) ∉ tail) :
    ∃ r, parseHeader (dictText m ++ tail ++ [0]) = .ok r ∧ r.ndim = 1 ∧ r.shape.take 1 = [d] := by
  have hcast : castInt (2 ^ 32 - d) = -(d : Int) := by
    have h1 : (2 ^ 32 - d) % 2 ^ 32 = 2 ^ 32 - d := Nat.mod_eq_of_lt (Nat.sub_lt (by norm_num) hd0)
    rw [castInt, h1, if_neg (by norm_num at hd ⊢; omega)]
    norm_num at hd ⊢
    omega
  have htext : shapeText (m.shape.take m.ndim) = 45 :: (dec d ++ str ",") := by
    rw [hdims]
    simp only [shapeText, List.map_cons, List.map_nil, List.flatten_cons, List.flatten_nil, List.append_nil, hcast]
    rw [decInt, if_pos (by omega), Int.natAbs_neg, Int.natAbs_natCast]
    rfl
  refine ⟨_, parseHeader_text he0 he1 htc [d] ?_ (fun rest => ?_) tail ht [], rfl, rfl⟩
  · rw [htext]
    intro h
    rw [List.mem_cons, List.mem_append] at h
    rcases h with h | h | h
    · exact absurd h (by decide)
    · exact absurd (dec_digits d _ h) (by decide)
    · exact absurd h (by decide)
  · rw [htext, List.cons_append, shapeLoop_skip (by decide) rfl, List.append_assoc]
    have : str "," ++ 41 :: rest = 44 :: 41 :: rest := rfl
    rw [this, shapeLoop_number (lt_of_le_of_lt hd (by norm_num)) (by simp; rfl) (by simp), shapeLoop_skip (by decide) rfl,
      shapeLoop, if_pos rfl]
    rfl

/-- **C46** Every proper prefix of a saved file is rejected by `npy_array_load`. -/
theorem C46_truncated {m : NpyArray} (hm : m.Savable) (mem : Nat → Bool) (hmem : mem 104 = true) (n : Nat)
    (hn : n < (m.meaning.file 0 (117 - m.meaning.dict.length)).length) :
    readMatrix false mem ((m.meaning.file 0 (117 - m.meaning.dict.length)).take n) = .ok none := by
  set k := 117 - m.meaning.dict.length with hk
  have e : m.meaning.dict.length + k + 1 = 118 := by have := hm.fits; omega
  have hs := file_split m.meaning 0 k []
  rw [List.append_nil, List.append_nil] at hs
  set pre := ((0x93 :: str "NUMPY") ++ [1, 0] ++ [((m.meaning.dict.length + k + 1) % 256).toUInt8,
      ((m.meaning.dict.length + k + 1) / 256).toUInt8] : Bytes) with hpre
  set hd := m.meaning.dict ++ List.replicate k 32 ++ str "\n" with hhd
  have hprel : pre.length = 10 := rfl
  have hhdl : hd.length = 118 := by
    simp only [hhd, List.length_append, List.length_replicate, show (str "\n").length = 1 from rfl]; omega
  rw [hs] at hn ⊢
  by_cases h10 : n < 10
  · rw [readMatrix, readBytes, if_neg (by rw [List.length_take]; omega)]
    rfl
  · have t1 : (pre ++ (hd ++ m.meaning.data)).take n = pre ++ (hd ++ m.meaning.data).take (n - 10) := by
      rw [List.take_append, List.take_of_length_le (by omega), hprel]
    rw [t1]
    by_cases h128 : n < 128
    · rw [readMatrix, readBytes_append false hprel]
      simp only [bind, Except.bind]
      rw [if_neg (by intro h; exact h rfl), if_neg (by intro h; exact h rfl)]
      rw [show pre.getD 8 0 = ((m.meaning.dict.length + k + 1) % 256).toUInt8 from rfl,
        show pre.getD 9 0 = ((m.meaning.dict.length + k + 1) / 256).toUInt8 from rfl,
        headerLength_eq (by rw [e]; norm_num) (by rw [e]; norm_num), e, readBytes,
        if_neg (by rw [List.length_take]; omega)]
      rfl
    · have t2 : (hd ++ m.meaning.data).take (n - 10) = hd ++ m.meaning.data.take (n - 128) := by
        rw [List.take_append, List.take_of_length_le (by omega), hhdl]
        congr 2
      rw [t2, hpre, hhd, readMatrix_header hm.toWF false mem hmem 0 k (by rw [e]; norm_num) (by rw [e]; norm_num),
        shapeElements_header hm]
      simp only [Bool.false_eq_true, if_false]
      split_ifs
      · have : (pre ++ (hd ++ m.meaning.data)).length = 10 + (118 + m.meaning.nbytes) := by
          rw [List.length_append, List.length_append (as := hd), hprel, hhdl, meaning_data_length hm]
        rw [readBytes, if_neg (by rw [List.length_take, meaning_data_length hm]; omega)]
        rfl
      · rfl

/-- **C46** On a complete file `npy_array_mmap` gives the same array as `npy_array_load`. -/
theorem C46_mmap {m : NpyArray} (hm : m.Savable) (mem : Nat → Bool) (hmem : mem 104 = true)
    (hmem2 : mem m.meaning.nbytes = true) :
    ∃ r, readMatrix false mem (m.meaning.file 0 (117 - m.meaning.dict.length)) = .ok (some r) ∧
      readMatrix true mem (m.meaning.file 0 (117 - m.meaning.dict.length)) = .ok (some { r with mapped := true }) := by
  have e : m.meaning.dict.length + (117 - m.meaning.dict.length) + 1 = 118 := by have := hm.fits; omega
  have hs := file_split m.meaning 0 (117 - m.meaning.dict.length) []
  rw [List.append_nil, List.append_nil] at hs
  refine ⟨{ headerArray m with data := m.meaning.data }, ?_, ?_⟩
  · rw [hs, readMatrix_header hm.toWF false mem hmem 0 _ (by rw [e]; norm_num) (by rw [e]; norm_num), shapeElements_header hm,
      hmem2]
    have := readBytes_append false (b := []) (meaning_data_length hm)
    rw [List.append_nil] at this
    simp only [Bool.false_eq_true, if_false, if_true, this, bind, Except.bind]
    rfl
  · rw [hs, readMatrix_header hm.toWF true mem hmem 0 _ (by rw [e]; norm_num) (by rw [e]; norm_num)]
    rfl

/-- **C46 is false** for `npy_array_mmap`: a file truncated in its data is accepted, and the array claims more bytes than
are mapped. -/
theorem C46_mmap_false {m : NpyArray} (hm : m.Savable) (mem : Nat → Bool) (hmem : mem 104 = true) (n : Nat)
    (hn : n < m.meaning.nbytes) :
    ∃ r, readMatrix true mem ((m.meaning.file 0 (117 - m.meaning.dict.length)).take (128 + n)) = .ok (some r) ∧
      r.data.length < r.meaning.nbytes := by
  set k := 117 - m.meaning.dict.length with hk
  have e : m.meaning.dict.length + k + 1 = 118 := by have := hm.fits; omega
  have hs := file_split m.meaning 0 k []
  rw [List.append_nil, List.append_nil] at hs
  set pre := ((0x93 :: str "NUMPY") ++ [1, 0] ++ [((m.meaning.dict.length + k + 1) % 256).toUInt8,
      ((m.meaning.dict.length + k + 1) / 256).toUInt8] : Bytes) with hpre
  set hd := m.meaning.dict ++ List.replicate k 32 ++ str "\n" with hhd
  have hprel : pre.length = 10 := rfl
  have hhdl : hd.length = 118 := by
    simp only [hhd, List.length_append, List.length_replicate, show (str "\n").length = 1 from rfl]; omega
  have t1 : (pre ++ (hd ++ m.meaning.data)).take (128 + n) = pre ++ (hd ++ m.meaning.data.take n) := by
    rw [List.take_append, List.take_of_length_le (by omega), hprel, List.take_append, List.take_of_length_le (by omega), hhdl]
    rw [show 128 + n - 10 - 118 = n by omega]
  refine ⟨{ headerArray m with data := m.meaning.data.take n, mapped := true }, ?_, ?_⟩
  · rw [hs, t1, hpre, hhd, readMatrix_header hm.toWF true mem hmem 0 k (by rw [e]; norm_num) (by rw [e]; norm_num)]
    rfl
  · have hlen : (m.shape.take m.ndim).length = m.ndim := by
      rw [List.length_take, hm.shape]; have := hm.ndim; omega
    have hdims : (headerArray m).shape.take m.ndim = m.shape.take m.ndim := List.take_left' hlen
    have : ({ headerArray m with data := m.meaning.data.take n, mapped := true } : NpyArray).meaning.nbytes = m.meaning.nbytes := by
      show ((headerArray m).shape.take m.ndim).prod * m.elemSize = _
      rw [hdims]; rfl
    rw [this]
    show (m.meaning.data.take n).length < _
    rw [List.length_take]
    omega

/-! ### Examples -/

theorem dec_small {n : Nat} (h : n < 10) : dec n = [(48 + n).toUInt8] := by rw [dec, if_pos h]

/-- A 2×3 array of single precision floats. -/
def exNpy : NpyArray := ⟨List.replicate 24 7, [2, 3, 0, 0, 0, 0, 0, 0], 2, 0, 102, 4, false, false⟩

theorem exNpy_dict : exNpy.meaning.dict = str "{'descr': '<f4', 'fortran_order': False, 'shape': (2,3,), }" := by
  simp only [Spec.Array.dict, NpyArray.meaning, exNpy, guessEndianness, List.take, List.map,
    dec_small (show 4 < 10 by decide), dec_small (show 2 < 10 by decide), dec_small (show 3 < 10 by decide)]
  decide

theorem exNpy_savable : exNpy.Savable where
  shape := rfl
  ndim := by decide
  dims := by simp [exNpy]
  elem := by simp [exNpy]
  typechar := by decide
  pos := by simp [exNpy]
  size := by simp [exNpy, NpyArray.meaning, Spec.Array.nbytes]
  data := by simp [exNpy, NpyArray.meaning, Spec.Array.nbytes]
  fits := by rw [exNpy_dict]; decide

example : ∃ d' r, npySave ⟨fun _ => none, fun _ => true, fun _ => true⟩ "a.npy" (some exNpy) = .ok d' ∧
    npyLoad d' (fun _ => true) "a.npy" = .ok (some r) ∧ r.meaning = exNpy.meaning := by
  obtain ⟨d', r, h1, h2, h3, -⟩ := C43_roundtrip exNpy_savable (fun _ => true) rfl rfl ⟨fun _ => none, fun _ => true, fun _ => true⟩ "a.npy" rfl rfl
  exact ⟨d', r, h1, h2, h3⟩

/-- The same array with a header of 182 bytes (as NumPy would write a longer dictionary): rejected. -/
example : readMatrix false (fun _ => true) (exNpy.meaning.file 0 122) = .ok none := by
  apply C45_false
  · rw [exNpy_dict]; decide
  · simp only [Spec.Array.file, List.length_append, List.length_replicate, exNpy_dict]; decide

/-- An empty array. -/
example : npyBytes ⟨[], [0, 3, 0, 0, 0, 0, 0, 0], 2, 0, 102, 4, false, false⟩ = .error .oob := by
  refine C43_empty_false ⟨rfl, by decide, by simp, by simp, by decide⟩ ?_ [3, 0, 0, 0, 0, 0, 0] rfl rfl
  simp only [Spec.Array.dict, NpyArray.meaning, guessEndianness, List.take, List.map,
    dec_small (show 4 < 10 by decide), dec_small (show 0 < 10 by decide), dec_small (show 3 < 10 by decide)]
  decide

/-- A dimension of 2^32 - 5. -/
example : ∃ r, parseHeader (dictText ⟨[], [4294967291, 0, 0, 0, 0, 0, 0, 0], 1, 0, 102, 4, false, false⟩ ++ [10] ++ [0]) = .ok r ∧
    r.ndim = 1 ∧ r.shape.take 1 = [5] :=
  C43_wrap_false (by norm_num) (by norm_num) (by decide) 5 (by norm_num) (by norm_num) (by norm_num) [10] (by decide)

end NN
