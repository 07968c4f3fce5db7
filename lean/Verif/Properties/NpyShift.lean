import Verif.Properties.Npy
/-
C45: which header lengths are read correctly, exactly, and what happens to the data otherwise.
-/
namespace NN

theorem split_nul : ∀ {s : Bytes}, (0 : UInt8) ∈ s → ∃ t z, s = t ++ 0 :: z ∧ (0 : UInt8) ∉ t
  | c :: s, h => by
    by_cases hc : c = 0
    · exact ⟨[], s, by rw [hc]; rfl, by simp⟩
    · obtain ⟨t, z, e, ht⟩ := split_nul (s := s) (by
        rcases List.mem_cons.1 h with h | h
        · exact absurd h.symm hc
        · exact h)
      exact ⟨c :: t, z, by rw [e]; rfl, by simp only [List.mem_cons, not_or]; exact ⟨fun h => hc h.symm, ht⟩⟩

/-- The header with some of the data behind it gives the same array. -/
theorem parseHeader_more {m : NpyArray} (hm : m.WF) (k : Nat) (more : Bytes) :
    parseHeader ((m.meaning.dict ++ List.replicate k 32 ++ str "\n" ++ more) ++ [0]) = .ok (headerArray m) := by
  obtain ⟨t, z, e, ht⟩ := split_nul (s := more ++ [0]) (by simp)
  have h0 : (0 : UInt8) ∉ (List.replicate k 32 ++ str "\n") ++ t := by
    rw [List.mem_append, not_or]
    exact ⟨dict_no_nul k, ht⟩
  rw [List.append_assoc _ more, e, ← dictText_meaning hm]
  have := parseHeader_dict_any hm _ h0 z
  simpa only [List.append_assoc] using this

/-- The header length the code takes for the true one, `L`. -/
def takenLength (L : Nat) : Nat := if L % 256 < 128 then L else 65280 + L % 256

theorem takenLength_ge {L : Nat} (h : L < 2 ^ 16) : L ≤ takenLength L := by
  rw [takenLength]; split <;> omega

theorem takenLength_eq {L : Nat} (h : L < 2 ^ 16) : takenLength L = L ↔ L % 256 < 128 ∨ 65280 ≤ L := by
  rw [takenLength]; split <;> omega

theorem headerLength_taken {L : Nat} (h : L < 2 ^ 16) :
    headerLength (L % 256).toUInt8 (L / 256).toUInt8 = takenLength L := by
  rw [takenLength]
  split
  · next h7 => exact headerLength_eq h h7
  · next h7 => exact headerLength_bad (by omega) _

/-- Reading a version 1 file: so many bytes of the data are taken for the end of the header. -/
theorem readMatrix_taken {m : NpyArray} (hm : m.WF) (mapped : Bool) (mem : Nat → Bool) (hmem : mem 104 = true) (minor : UInt8)
    (k : Nat) (hL : m.meaning.dict.length + k + 1 < 2 ^ 16) (extra : Bytes) {n : Nat}
    (hn : n = takenLength (m.meaning.dict.length + k + 1) - (m.meaning.dict.length + k + 1)) :
    readMatrix mapped mem (m.meaning.file minor k ++ extra) =
    if n ≤ (m.meaning.data ++ extra).length then
      if mapped then .ok (some { headerArray m with data := (m.meaning.data ++ extra).drop n, mapped := true })
      else
        (if mem (shapeElements (headerArray m).shape 1 * m.elemSize % 2 ^ 64) then do
          match ← readBytes false (shapeElements (headerArray m).shape 1 * m.elemSize % 2 ^ 64) ((m.meaning.data ++ extra).drop n) with
          | none => pure none
          | some (data, _) => pure (some { headerArray m with data := data })
        else .ok none)
    else if mapped then .error .uninit else .ok none := by
  have hge := takenLength_ge hL
  set R := m.meaning.data ++ extra with hR
  have hlen : (m.meaning.dict ++ List.replicate k 32 ++ str "\n").length = m.meaning.dict.length + k + 1 := by
    simp only [List.length_append, List.length_replicate, show (str "\n").length = 1 from rfl]
  rw [file_split, readMatrix, readBytes_append mapped (n := 10) (by rfl)]
  simp only [bind, Except.bind]
  rw [if_neg (by intro h; exact h rfl), if_neg (by intro h; exact h rfl)]
  rw [show ((0x93 :: str "NUMPY") ++ [1, minor] ++ [((m.meaning.dict.length + k + 1) % 256).toUInt8,
      ((m.meaning.dict.length + k + 1) / 256).toUInt8]).getD 8 0 = ((m.meaning.dict.length + k + 1) % 256).toUInt8 from rfl,
    show ((0x93 :: str "NUMPY") ++ [1, minor] ++ [((m.meaning.dict.length + k + 1) % 256).toUInt8,
      ((m.meaning.dict.length + k + 1) / 256).toUInt8]).getD 9 0 = ((m.meaning.dict.length + k + 1) / 256).toUInt8 from rfl,
    headerLength_taken hL, ← hR]
  by_cases hfit : n ≤ R.length
  · have e : (m.meaning.dict ++ List.replicate k 32 ++ str "\n") ++ R =
        ((m.meaning.dict ++ List.replicate k 32 ++ str "\n") ++ R.take n) ++ R.drop n := by
      rw [List.append_assoc _ (R.take n), List.take_append_drop]
    have hl2 : ((m.meaning.dict ++ List.replicate k 32 ++ str "\n") ++ R.take n).length =
        takenLength (m.meaning.dict.length + k + 1) := by
      rw [List.length_append, hlen, List.length_take, Nat.min_eq_left hfit]; omega
    rw [if_pos hfit, e, readBytes_append mapped hl2]
    simp only [hmem, if_true, parseHeader_more hm k (R.take n)]
    cases mapped with
    | true => rfl
    | false => rfl
  · rw [if_neg hfit, readBytes, if_neg (by rw [List.length_append, hlen]; omega)]
    cases mapped <;> rfl

theorem headerArray_meaning {m : NpyArray} (hm : m.Savable) (mp : Bool) {data : Bytes} (hd : data.length = m.meaning.nbytes) :
    ({ headerArray m with data := data, mapped := mp } : NpyArray).meaning = { m.meaning with data := data } := by
  have hlen : (m.shape.take m.ndim).length = m.ndim := by
    rw [List.length_take, hm.shape]; have := hm.ndim; omega
  have hdims : (headerArray m).shape.take m.ndim = m.shape.take m.ndim := List.take_left' hlen
  have hg : guessEndianness { headerArray m with data := data, mapped := mp } = guessEndianness m := by
    rw [guessEndianness]
    exact if_pos (guess_mem m)
  simp only [NpyArray.meaning]
  rw [show ({ headerArray m with data := data, mapped := mp } : NpyArray).shape.take
    ({ headerArray m with data := data, mapped := mp } : NpyArray).ndim = m.shape.take m.ndim from hdims, hg]
  have : data.take ((m.shape.take m.ndim).prod * m.elemSize) = data := List.take_of_length_le hd.le
  simp only [headerArray, this]

/-- **C45** Exactly these lengths `L` of a version 1 header are read correctly: the low byte is below 128 or the high byte
is 255.  A file with any other length is refused, whatever its size. -/
theorem C45_exact {m : NpyArray} (hm : m.Savable) (mem : Nat → Bool) (hmem : mem 104 = true)
    (hmem2 : mem m.meaning.nbytes = true) (minor : UInt8) (k : Nat) {L : Nat} (hLe : L = m.meaning.dict.length + k + 1)
    (hL : L < 2 ^ 16) :
    (L % 256 < 128 ∨ 65280 ≤ L → ∃ r, readMatrix false mem (m.meaning.file minor k) = .ok (some r) ∧ r.meaning = m.meaning) ∧
    (¬ (L % 256 < 128 ∨ 65280 ≤ L) → readMatrix false mem (m.meaning.file minor k) = .ok none) := by
  subst hLe
  have hge := takenLength_ge hL
  have hiff := takenLength_eq hL
  have key := readMatrix_taken hm.toWF false mem hmem minor k hL [] rfl
  rw [List.append_nil, List.append_nil, shapeElements_header hm, hmem2] at key
  have hdl := meaning_data_length hm
  refine ⟨fun h => ?_, fun h => ?_⟩
  · have h0 : takenLength (m.meaning.dict.length + k + 1) - (m.meaning.dict.length + k + 1) = 0 := by
      rw [hiff.2 h, Nat.sub_self]
    have hr := readBytes_append false (b := []) hdl
    rw [List.append_nil] at hr
    refine ⟨{ headerArray m with data := m.meaning.data, mapped := false }, ?_, by rw [headerArray_meaning hm false hdl]⟩
    rw [key, h0, if_pos (Nat.zero_le _), List.drop_zero, hr]
    rfl
  · have hlt : m.meaning.dict.length + k + 1 ≠ takenLength (m.meaning.dict.length + k + 1) := fun e => h (hiff.1 e.symm)
    have hpos : 0 < m.meaning.nbytes := by
      have h1 : 0 < (m.shape.take m.ndim).prod := List.prod_pos hm.pos
      exact Nat.mul_pos h1 hm.elem.1
    rw [key]
    split
    · have hr : readBytes false m.meaning.nbytes (m.meaning.data.drop
          (takenLength (m.meaning.dict.length + k + 1) - (m.meaning.dict.length + k + 1))) = .ok none := by
        rw [readBytes, if_neg (by rw [List.length_drop]; omega)]
        rfl
      rw [hr]
      rfl
    · rfl

/-- **C45 is false** in a worse way for the other lengths when the file goes on after the array: it is accepted, and the
data begin `n` bytes too late. -/
theorem C45_shift_false {m : NpyArray} (hm : m.Savable) (mem : Nat → Bool) (hmem : mem 104 = true)
    (hmem2 : mem m.meaning.nbytes = true) (minor : UInt8) (k : Nat) {L n : Nat} (hLe : L = m.meaning.dict.length + k + 1)
    (hL : L < 2 ^ 16) (h7 : 128 ≤ L % 256) (hn : L + n = 65280 + L % 256) (extra : Bytes) (hx : n ≤ extra.length) :
    ∃ r, readMatrix false mem (m.meaning.file minor k ++ extra) = .ok (some r) ∧
      r.meaning = { m.meaning with data := ((m.meaning.data ++ extra).drop n).take m.meaning.nbytes } := by
  subst hLe
  have ht : takenLength (m.meaning.dict.length + k + 1) = 65280 + (m.meaning.dict.length + k + 1) % 256 := by
    rw [takenLength, if_neg (by omega)]
  have key := readMatrix_taken hm.toWF false mem hmem minor k hL extra (n := n) (by omega)
  rw [shapeElements_header hm, hmem2] at key
  have hdl := meaning_data_length hm
  have hfit : m.meaning.nbytes ≤ ((m.meaning.data ++ extra).drop n).length := by
    rw [List.length_drop, List.length_append]; omega
  refine ⟨{ headerArray m with data := ((m.meaning.data ++ extra).drop n).take m.meaning.nbytes, mapped := false }, ?_,
    headerArray_meaning hm false (by rw [List.length_take, Nat.min_eq_left hfit])⟩
  rw [key, if_pos (by rw [List.length_append]; omega), readBytes, if_pos hfit]
  rfl

/-- **C45 is false** for `npy_array_mmap` even without anything after the array: if the file has room for the length the
code takes, it is accepted and the data begin `n` bytes too late, so that the last `n` bytes are not in the file. -/
theorem C45_mmap_false {m : NpyArray} (hm : m.Savable) (mem : Nat → Bool) (hmem : mem 104 = true) (minor : UInt8) (k : Nat)
    {L n : Nat} (hLe : L = m.meaning.dict.length + k + 1) (hL : L < 2 ^ 16) (h7 : 128 ≤ L % 256) (hn : L + n = 65280 + L % 256)
    (hx : n ≤ m.meaning.nbytes) :
    ∃ r, readMatrix true mem (m.meaning.file minor k) = .ok (some r) ∧ r.shape.take r.ndim = m.shape.take m.ndim ∧
      r.elemSize = m.elemSize ∧ r.data = m.meaning.data.drop n ∧ r.data.length + n = m.meaning.nbytes := by
  subst hLe
  have ht : takenLength (m.meaning.dict.length + k + 1) = 65280 + (m.meaning.dict.length + k + 1) % 256 := by
    rw [takenLength, if_neg (by omega)]
  have key := readMatrix_taken hm.toWF true mem hmem minor k hL [] (n := n) (by omega)
  rw [List.append_nil, List.append_nil] at key
  have hdl := meaning_data_length hm
  have hlen : (m.shape.take m.ndim).length = m.ndim := by
    rw [List.length_take, hm.shape]; have := hm.ndim; omega
  refine ⟨{ headerArray m with data := m.meaning.data.drop n, mapped := true }, ?_, List.take_left' hlen, rfl, rfl, ?_⟩
  · rw [key, if_pos (by omega)]
    rfl
  · show (m.meaning.data.drop n).length + n = _
    rw [List.length_drop]; omega

/-! ### Examples -/

/-- Both kinds of lengths exist: 118 and 65408 are right, 128 is taken for 65408 (65280 bytes too late). -/
example : takenLength 118 = 118 ∧ takenLength 65408 = 65408 ∧ takenLength 128 = 65408 ∧ takenLength 246 = 65526 := by decide

/-- An array of 65280 bytes whose header has 128 bytes: mapped, none of the data is left. -/
example : ∃ (m : NpyArray) (k : Nat), m.Savable ∧ m.meaning.dict.length + k + 1 = 128 ∧ m.meaning.nbytes = 65280 ∧
    ∃ r, readMatrix true (fun _ => true) (m.meaning.file 0 k) = .ok (some r) ∧ r.data = [] := by
  let m : NpyArray := ⟨List.replicate 65280 7, [65280, 0, 0, 0, 0, 0, 0, 0], 1, 60, 117, 1, false, false⟩
  have e : m.shape.take m.ndim = [65280] := rfl
  have hb : m.meaning.nbytes = 65280 := by
    simp only [Spec.Array.nbytes, NpyArray.meaning, e]; rfl
  have hdict : m.meaning.dict.length < 108 := by
    have hd : (dec 65280).length ≤ 10 := dec_length (by norm_num) (by norm_num)
    have h1 : (dec 1).length = 1 := by rw [dec_small (by decide)]; rfl
    simp only [Spec.Array.dict, NpyArray.meaning, e, List.length_append, List.map_cons, List.map_nil, List.flatten_cons,
      List.flatten_nil, List.length_nil]
    rw [show m.elemSize = 1 from rfl, h1, show m.fortran = false from rfl]
    simp only [Bool.false_eq_true, if_false, List.length_cons, List.length_nil,
      show (str "{'descr': '").length = 11 from rfl, show (str "', 'fortran_order': ").length = 20 from rfl,
      show (str "False").length = 5 from rfl, show (str ", 'shape': (").length = 12 from rfl, show (str "), }").length = 4 from rfl,
      show (str ",").length = 1 from rfl]
    omega
  have hm : m.Savable := by
    refine ⟨⟨rfl, by decide, ?_, ⟨by decide, by decide⟩, by decide⟩, ?_, ?_, ?_, hdict⟩
    · rw [e]; simp
    · rw [e]; simp
    · rw [hb]; norm_num
    · rw [hb]; show _ ≤ (List.replicate 65280 7).length
      rw [List.length_replicate]
  obtain ⟨r, h1, -, -, -, h5⟩ := C45_mmap_false hm (fun _ => true) rfl 0 (127 - m.meaning.dict.length) (L := 128) (n := 65280)
    (by omega) (by norm_num) (by norm_num) (by norm_num) (by rw [hb])
  exact ⟨m, 127 - m.meaning.dict.length, hm, by omega, hb, r, h1, List.length_eq_zero_iff.1 (by omega)⟩

end NN
