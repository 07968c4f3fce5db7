import Verif.Model.HowTo
import Verif.Spec.HowTo
import Verif.Properties.NpyList
import Verif.Proofs.OptRun
/-
C77: `npy_array_dump` and the programs of npy_array/example.
-/
namespace NN

/-! ### npy_array_dump -/

theorem shapeAt_ok {m : NpyArray} {i d : Nat} (h : m.shape[i]? = some d) : m.shapeAt i = .ok d := by
  show m.shapeAt (Int.ofNat i) = _
  simp only [NpyArray.shapeAt, h]; rfl

theorem dumpShape_ok (m : NpyArray) : ∀ (k i : Nat) (rest : List Nat) (ds : List Nat), m.shape.drop i = ds ++ rest → ds.length = k →
    (∀ d ∈ ds, d < 2 ^ 31) → dumpShape m i k = .ok (ds.flatMap fun d => dec d ++ str ", ")
  | 0, i, rest, ds, _, h, _ => by
    obtain rfl := List.length_eq_zero_iff.1 h
    rfl
  | k + 1, i, rest, d :: ds, h, hk, hd => by
    have h1 : m.shape[i]? = some d := by
      have := congrArg (·[0]?) h
      simpa using this
    have h2 : m.shape.drop (i + 1) = ds ++ rest := by
      rw [← List.drop_drop, h]; rfl
    rw [dumpShape, shapeAt_ok h1, dumpShape_ok m k (i + 1) rest ds h2 (by simpa using hk) (fun x hx => hd x (by simp [hx]))]
    simp only [bind, Except.bind, pure, Except.pure, castInt_eq (hd d (by simp)), decInt_nat]
    simp
  | k + 1, i, rest, [], _, h, _ => by simp at h

theorem intercalate_last (s : Bytes) : ∀ (xs : List Bytes) (y : Bytes),
    s.intercalate (xs ++ [y]) = (xs.flatMap fun x => x ++ s) ++ y
  | [], y => by simp [List.intercalate]
  | [x], y => by simp [List.intercalate]
  | x :: x' :: xs, y => by
    have := intercalate_last s (x' :: xs) y
    simp only [List.intercalate, List.cons_append, List.intersperse, List.flatten_cons, List.flatMap_cons, List.append_assoc] at this ⊢
    rw [this]

theorem dump_core {m : NpyArray} (hlen : m.meaning.dims.length = m.ndim) (hlt : ∀ d ∈ m.meaning.dims, d < 2 ^ 31) (h1 : 1 ≤ m.ndim)
    (he : m.elemSize < 2 ^ 31) : npyDump (some m) = .ok m.meaning.describe := by
  replace hlen : (m.shape.take m.ndim).length = m.ndim := hlen
  replace hlt : ∀ d ∈ m.shape.take m.ndim, d < 2 ^ 31 := hlt
  obtain ⟨ds, d, hds⟩ : ∃ ds d, m.shape.take m.ndim = ds ++ [d] := by
    rcases List.eq_nil_or_concat (m.shape.take m.ndim) with h | ⟨ds, d, h⟩
    · simp [h] at hlen; omega
    · exact ⟨ds, d, by simpa using h⟩
  have hk : ds.length = m.ndim - 1 := by
    have := congrArg List.length hds
    simp [hlen] at this; omega
  have hsh : m.shape = ds ++ d :: m.shape.drop m.ndim := by
    conv_lhs => rw [← List.take_append_drop m.ndim m.shape, hds]
    simp
  rw [hds] at hlt
  have hd : m.shape[m.ndim - 1]? = some d := by
    rw [hsh, ← hk]; simp
  have e1 : ((m.ndim : Int) - 1) = ((m.ndim - 1 : Nat) : Int) := by omega
  rw [npyDump, dumpShape_ok m (m.ndim - 1) 0 (d :: m.shape.drop m.ndim) ds (by simpa using hsh) hk (fun x hx => hlt x (by simp [hx])),
    e1, shapeAt_ok hd]
  simp only [bind, Except.bind, pure, Except.pure, castInt_eq (hlt d (by simp)), castInt_eq he, decInt_nat]
  have e2 : (str ", ").intercalate (m.meaning.dims.map dec) = (ds.flatMap fun d => dec d ++ str ", ") ++ dec d := by
    have : m.meaning.dims = ds ++ [d] := hds
    rw [this, List.map_append, List.map_singleton, intercalate_last, List.flatMap_map]
  have e3 : m.meaning.dims.length = m.ndim := hlen
  have s1 : str "\nShape        : ( " = str "\n" ++ str "Shape        : ( " := by decide
  have s2 : str " )\nType         : '" = str " )\n" ++ str "Type         : '" := by decide
  have s3 : str "' (" = str "' " ++ str "(" := by decide
  have s4 : str " bytes each element)\nFortran order: " = str " bytes each element)\n" ++ str "Fortran order: " := by decide
  rw [Spec.Array.describe, e2, e3, s1, s2, s3, s4]
  simp only [NpyArray.meaning, List.append_assoc]
  rcases m with ⟨_, _, _, _, _, _, f, _⟩
  cases f <;> rfl

/-- **C77** `npy_array_dump` describes the array. -/
theorem C77_dump {m : NpyArray} (hm : m.WF) (h1 : 1 ≤ m.ndim) (he : m.elemSize < 2 ^ 31) :
    npyDump (some m) = .ok m.meaning.describe := by
  refine dump_core ?_ hm.dims h1 he
  show (m.shape.take m.ndim).length = m.ndim
  rw [List.length_take, hm.shape]; have := hm.ndim; omega

/-- **C77 is false** for arrays without dimensions (a single number): `shape[-1]` is read. -/
theorem C77_scalar_false (m : NpyArray) (h : m.ndim = 0) : npyDump (some m) = .error .oob := by
  rw [npyDump, h]; rfl

/-! ### how_to_load -/

/-- What `npy_array_load` returns, exactly. -/
theorem load_exact {m : NpyArray} (hm : m.Savable) {mem : Nat → Bool} (hmem : ∀ n, mem n = true) {d : Disk} {f : String} {minor : UInt8} {k : Nat}
    (hL : m.meaning.dict.length + k + 1 < 2 ^ 16) (h7 : (m.meaning.dict.length + k + 1) % 256 < 128) (extra : Bytes)
    (hc : d.content f = some (m.meaning.file minor k ++ extra)) (hr : d.readable f = true) :
    npyLoad d mem f = .ok (some { headerArray m with data := m.meaning.data }) := by
  rw [npyLoad, hc]
  simp only [hr, if_true]
  rw [file_split, readMatrix_header hm.toWF false mem (hmem _) minor k hL h7, shapeElements_header hm, hmem]
  simp only [Bool.false_eq_true, if_false, if_true, readBytes_append false (meaning_data_length hm), bind, Except.bind]
  rfl

theorem header_wf {m : NpyArray} (hm : m.WF) (data : Bytes) : ({ headerArray m with data := data } : NpyArray).WF := by
  have hlen : (m.shape.take m.ndim).length = m.ndim := by
    rw [List.length_take, hm.shape]; have := hm.ndim; omega
  refine ⟨?_, hm.ndim, ?_, hm.elem, hm.typechar⟩
  · simp only [headerArray, List.length_append, List.length_replicate, hlen]; have := hm.ndim; omega
  · have : (headerArray m).shape.take m.ndim = m.shape.take m.ndim := List.take_left' hlen
    show ∀ d ∈ (headerArray m).shape.take m.ndim, _
    rw [this]; exact hm.dims

theorem header_meaning {m : NpyArray} (hm : m.Savable) : ({ headerArray m with data := m.meaning.data } : NpyArray).meaning = m.meaning := by
  have hlen : (m.shape.take m.ndim).length = m.ndim := by
    rw [List.length_take, hm.shape]; have := hm.ndim; omega
  have hdims : (headerArray m).shape.take m.ndim = m.shape.take m.ndim := List.take_left' hlen
  have hg : guessEndianness { headerArray m with data := m.meaning.data } = guessEndianness m := by
    rw [guessEndianness]
    exact if_pos (guess_mem m)
  have hd : (m.meaning.data).take ((m.shape.take m.ndim).prod * m.elemSize) = m.meaning.data :=
    List.take_of_length_le (meaning_data_length hm).le
  rw [NpyArray.meaning, hg]
  show Spec.Array.mk _ _ _ _ ((headerArray m).shape.take m.ndim) (m.meaning.data.take (((headerArray m).shape.take m.ndim).prod * m.elemSize)) = _
  rw [hdims, hd]; rfl

theorem printRow_ok (fmt : Bytes → Bytes) (m : NpyArray) (r c i : Nat) (out : Bytes) (hi : i < r) (hb : r * c < 2 ^ 31)
    (hl : 4 * (r * c) ≤ m.data.length) : printRow fmt m c i out =
      .ok (out ++ (((List.range c).flatMap fun j => fmt ((m.data.drop (4 * (i * c + j))).take 4)) ++ str "\n")) := by
  have hle : i * c + c ≤ r * c := by
    have : (i + 1) * c ≤ r * c := Nat.mul_le_mul_right c hi
    rwa [Nat.succ_mul] at this
  unfold printRow
  have h := forN_eq (n := (c : Int).toNat) (body := fun j out => (do
      let b ← floatAt m i j (c : Int)
      pure (out ++ fmt b) : M Bytes))
    (fun k => out ++ (List.range k).flatMap fun j => fmt ((m.data.drop (4 * (i * c + j))).take 4)) (by
      intro j hj
      have hj' : j < c := by simpa using hj
      have e : floatAt m i j (c : Int) = .ok ((m.data.drop (4 * (i * c + j))).take 4) := by
        rw [floatAt]
        have e1 : ((i : Int) * (c : Int)) = ((i * c : Nat) : Int) := by push_cast; ring
        rw [e1]
        rw [if_pos (by omega)]
        simp only
        rw [if_pos (by omega)]
        congr 4
      rw [e]
      simp only [bind, Except.bind, pure, Except.pure, List.range_succ, List.flatMap_append, List.flatMap_singleton, List.append_assoc])
  simp only [List.range_zero, List.flatMap_nil, List.append_nil] at h
  rw [h]
  simp [bind, Except.bind, pure, Except.pure]

/-- The output of `how_to_load` on any array of floats with two or more dimensions: as many elements as the first two dimensions say,
in the order of the file. -/
theorem load_text_any (fmt : Bytes → Bytes) (prog : Bytes) {m : NpyArray} (hm : m.Savable) {mem : Nat → Bool} (hmem : ∀ n, mem n = true) {d : Disk}
    {f : String} {minor : UInt8} {k : Nat} (hL : m.meaning.dict.length + k + 1 < 2 ^ 16)
    (h7 : (m.meaning.dict.length + k + 1) % 256 < 128) (extra : Bytes)
    (hc : d.content f = some (m.meaning.file minor k ++ extra)) (hr : d.readable f = true) {r c : Nat} {rest : List Nat}
    (hs : m.shape.take m.ndim = r :: c :: rest) (ht : m.typechar = 102) (he : m.elemSize = 4) (hb : r * c < 2 ^ 31) :
    howToLoad fmt prog d mem [f] = .ok (m.meaning.describe ++ (List.range r).flatMap (fun i =>
      ((List.range c).flatMap fun j => fmt ((m.meaning.data.drop (4 * (i * c + j))).take 4)) ++ str "\n"), 0) := by
  have hn : 2 ≤ m.ndim := by
    have := congrArg List.length hs
    rw [List.length_take, hm.shape] at this
    have h2 := hm.ndim
    simp at this; omega
  have hdl := meaning_data_length hm
  have hnb : 4 * (r * c) ≤ m.meaning.nbytes := by
    show _ ≤ (m.shape.take m.ndim).prod * m.elemSize
    have hp : 0 < rest.prod := List.prod_pos fun d hd => hm.pos d (by rw [hs]; simp [hd])
    have e : (r :: c :: rest).prod * 4 = 4 * (r * c) * rest.prod := by rw [List.prod_cons, List.prod_cons]; ring
    rw [hs, he, e]
    exact Nat.le_mul_of_pos_right _ hp
  have hrl : r < 2 ^ 31 ∧ c < 2 ^ 31 := by
    have := hm.dims
    rw [hs] at this
    exact ⟨this r (by simp), this c (by simp)⟩
  simp only [howToLoad, load_exact hm hmem hL h7 extra hc hr, bind, Except.bind]
  rw [C77_dump (header_wf hm.toWF _) (by show 1 ≤ m.ndim; omega) (by show m.elemSize < _; rw [he]; norm_num), header_meaning hm]
  simp only
  have hsh : (headerArray m).shape = r :: c :: (rest ++ List.replicate (8 - m.ndim) 0) := by
    simp [headerArray, hs]
  rw [if_pos (show (headerArray m).typechar = 102 ∧ (headerArray m).elemSize = 4 from ⟨ht, he⟩)]
  have q0 : ∀ x : NpyArray, x.shape = (headerArray m).shape → x.shapeAt 0 = .ok r ∧ x.shapeAt 1 = .ok c := by
    intro x hx
    constructor
    · exact shapeAt_ok (i := 0) (by rw [hx, hsh]; rfl)
    · exact shapeAt_ok (i := 1) (by rw [hx, hsh]; rfl)
  obtain ⟨q1, q2⟩ := q0 { headerArray m with data := m.meaning.data, ndim := 2 } rfl
  simp only [q1, q2, castInt_eq hrl.1, castInt_eq hrl.2, Int.toNat_natCast]
  have h := forN_eq (n := r) (body := printRow fmt { headerArray m with data := m.meaning.data, ndim := 2 } (c : Int))
    (fun k => m.meaning.describe ++ (List.range k).flatMap (fun i =>
      ((List.range c).flatMap fun j => fmt ((m.meaning.data.drop (4 * (i * c + j))).take 4)) ++ str "\n")) (by
    intro i hi
    rw [printRow_ok fmt _ r c i _ hi hb (by show 4 * (r * c) ≤ m.meaning.data.length; omega)]
    simp only [List.range_succ, List.flatMap_append, List.flatMap_singleton, List.append_assoc])
  simp only [List.range_zero, List.flatMap_nil, List.append_nil] at h
  rw [h]
  rfl

/-- The output of `how_to_load` on any two-dimensional array of floats: the elements in the order of the file. -/
theorem load_text (fmt : Bytes → Bytes) (prog : Bytes) {m : NpyArray} (hm : m.Savable) {mem : Nat → Bool} (hmem : ∀ n, mem n = true) {d : Disk}
    {f : String} {minor : UInt8} {k : Nat} (hL : m.meaning.dict.length + k + 1 < 2 ^ 16)
    (h7 : (m.meaning.dict.length + k + 1) % 256 < 128) (extra : Bytes)
    (hc : d.content f = some (m.meaning.file minor k ++ extra)) (hr : d.readable f = true) {r c : Nat}
    (hs : m.shape.take m.ndim = [r, c]) (ht : m.typechar = 102) (he : m.elemSize = 4) (hb : r * c < 2 ^ 31) :
    howToLoad fmt prog d mem [f] = .ok (m.meaning.describe ++ (List.range r).flatMap (fun i =>
      ((List.range c).flatMap fun j => fmt ((m.meaning.data.drop (4 * (i * c + j))).take 4)) ++ str "\n"), 0) :=
  load_text_any fmt prog hm hmem hL h7 extra hc hr hs ht he hb

/-- **C77** (partial) `how_to_load` prints the description and the elements row by row, for every file with a two-dimensional array of
single precision floats in C order (any padding with a good header length, anything behind the data).  Missing: Fortran order, other numbers of
dimensions, where it is false. -/
theorem C77_load_partial (fmt : Bytes → Bytes) (prog : Bytes) {m : NpyArray} (hm : m.Savable) {mem : Nat → Bool} (hmem : ∀ n, mem n = true)
    {d : Disk} {f : String} {minor : UInt8} {k : Nat} (hL : m.meaning.dict.length + k + 1 < 2 ^ 16)
    (h7 : (m.meaning.dict.length + k + 1) % 256 < 128) (extra : Bytes)
    (hc : d.content f = some (m.meaning.file minor k ++ extra)) (hr : d.readable f = true) {r c : Nat}
    (hs : m.meaning.dims = [r, c]) (ht : m.typechar = 102) (he : m.elemSize = 4) (hb : r * c < 2 ^ 31) (ho : m.fortran = false) :
    howToLoad fmt prog d mem [f] = .ok (m.meaning.describe ++ m.meaning.table fmt r c, 0) := by
  rw [load_text fmt prog hm hmem hL h7 extra hc hr hs ht he hb]
  have : ∀ i j, m.meaning.elem r c i j = (m.meaning.data.drop (4 * (i * c + j))).take 4 := by
    intro i j
    simp only [Spec.Array.elem, show m.meaning.fortran = false from ho, show m.meaning.elemSize = 4 from he]
    rfl
  simp only [Spec.Array.table, this]

/-- Other types of numbers: the description and a hint. -/
theorem C77_hint (fmt : Bytes → Bytes) (prog : Bytes) {m : NpyArray} (hm : m.Savable) {mem : Nat → Bool} (hmem : ∀ n, mem n = true)
    {d : Disk} {f : String} {minor : UInt8} {k : Nat} (hL : m.meaning.dict.length + k + 1 < 2 ^ 16)
    (h7 : (m.meaning.dict.length + k + 1) % 256 < 128) (extra : Bytes)
    (hc : d.content f = some (m.meaning.file minor k ++ extra)) (hr : d.readable f = true) (hn : 1 ≤ m.ndim) (hes : m.elemSize < 2 ^ 31)
    (ht : ¬ (m.typechar = 102 ∧ m.elemSize = 4)) :
    howToLoad fmt prog d mem [f] = .ok (m.meaning.describe ++
      str "Try with a npy array of 2 dimensions and 'float32' precision elements.\n", 0) := by
  simp only [howToLoad, load_exact hm hmem hL h7 extra hc hr, bind, Except.bind]
  rw [C77_dump (header_wf hm.toWF _) hn hes, header_meaning hm]
  simp only
  rw [if_neg (show ¬ ((headerArray m).typechar = 102 ∧ (headerArray m).elemSize = 4) from ht)]
  rfl

/-- **C77 is false** for vectors: instead of the hint, one empty line per element is printed (`arr->ndim = 2` is an assignment). -/
theorem C77_vector_false (fmt : Bytes → Bytes) (prog : Bytes) {m : NpyArray} (hm : m.Savable) {mem : Nat → Bool} (hmem : ∀ n, mem n = true)
    {d : Disk} {f : String} {minor : UInt8} {k : Nat} (hL : m.meaning.dict.length + k + 1 < 2 ^ 16)
    (h7 : (m.meaning.dict.length + k + 1) % 256 < 128) (extra : Bytes)
    (hc : d.content f = some (m.meaning.file minor k ++ extra)) (hr : d.readable f = true) {n : Nat}
    (hs : m.meaning.dims = [n]) (ht : m.typechar = 102) (he : m.elemSize = 4) :
    howToLoad fmt prog d mem [f] = .ok (m.meaning.describe ++ List.replicate n 10, 0) := by
  have hs' : m.shape.take m.ndim = [n] := hs
  have hn : m.ndim = 1 := by
    have := congrArg List.length hs'
    rw [List.length_take, hm.shape] at this
    have h2 := hm.ndim
    simp at this; omega
  have hnl : n < 2 ^ 31 := by
    have := hm.dims
    rw [hs'] at this
    exact this n (by simp)
  simp only [howToLoad, load_exact hm hmem hL h7 extra hc hr, bind, Except.bind]
  rw [C77_dump (header_wf hm.toWF _) (by show 1 ≤ m.ndim; omega) (by show m.elemSize < _; rw [he]; norm_num), header_meaning hm]
  simp only
  have hsh : (headerArray m).shape = n :: List.replicate 7 0 := by
    simp only [headerArray, hs']; simp [hn]
  rw [if_pos (show (headerArray m).typechar = 102 ∧ (headerArray m).elemSize = 4 from ⟨ht, he⟩)]
  have q0 : ∀ x : NpyArray, x.shape = (headerArray m).shape → x.shapeAt 0 = .ok n ∧ x.shapeAt 1 = .ok 0 := by
    intro x hx
    constructor
    · exact shapeAt_ok (i := 0) (by rw [hx, hsh]; rfl)
    · exact shapeAt_ok (i := 1) (by rw [hx, hsh]; rfl)
  obtain ⟨q1, q2⟩ := q0 { headerArray m with data := m.meaning.data, ndim := 2 } rfl
  simp only [q1, q2, castInt_eq hnl, show castInt 0 = 0 from rfl, Int.toNat_natCast]
  have h := forN_eq (n := n) (body := printRow fmt { headerArray m with data := m.meaning.data, ndim := 2 } 0)
    (fun k => m.meaning.describe ++ List.replicate k 10) (by
    intro i hi
    have : printRow fmt { headerArray m with data := m.meaning.data, ndim := 2 } 0 i (m.meaning.describe ++ List.replicate i 10) =
      .ok (m.meaning.describe ++ List.replicate i 10 ++ str "\n") := by
      unfold printRow
      rw [show (0 : Int).toNat = 0 from rfl, forN_eq (n := 0) (fun _ => m.meaning.describe ++ List.replicate i 10) (by intro k hk; omega)]
      rfl
    rw [this, List.replicate_succ', List.append_assoc]; rfl)
  simp only [List.replicate_zero, List.append_nil] at h
  rw [h]
  rfl

/-- **C77 is false** for three or more dimensions: instead of the hint, as many elements as the first two dimensions say are printed as
if they were a matrix. -/
theorem C77_dims_false (fmt : Bytes → Bytes) (prog : Bytes) {m : NpyArray} (hm : m.Savable) {mem : Nat → Bool} (hmem : ∀ n, mem n = true)
    {d : Disk} {f : String} {minor : UInt8} {k : Nat} (hL : m.meaning.dict.length + k + 1 < 2 ^ 16)
    (h7 : (m.meaning.dict.length + k + 1) % 256 < 128) (extra : Bytes)
    (hc : d.content f = some (m.meaning.file minor k ++ extra)) (hr : d.readable f = true) {r c s : Nat} {rest : List Nat}
    (hs : m.meaning.dims = r :: c :: s :: rest) (ht : m.typechar = 102) (he : m.elemSize = 4) (hb : r * c < 2 ^ 31) :
    howToLoad fmt prog d mem [f] = .ok (m.meaning.describe ++ (List.range r).flatMap (fun i =>
      ((List.range c).flatMap fun j => fmt ((m.meaning.data.drop (4 * (i * c + j))).take 4)) ++ str "\n"), 0) :=
  load_text_any fmt prog hm hmem hL h7 extra hc hr hs ht he hb

/-- **C77 is false** for a file with a single number: the program reads outside the shape. -/
theorem C77_zero_false (fmt : Bytes → Bytes) (prog : Bytes) {m : NpyArray} (hm : m.Savable) {mem : Nat → Bool} (hmem : ∀ n, mem n = true)
    {d : Disk} {f : String} {minor : UInt8} {k : Nat} (hL : m.meaning.dict.length + k + 1 < 2 ^ 16)
    (h7 : (m.meaning.dict.length + k + 1) % 256 < 128) (extra : Bytes)
    (hc : d.content f = some (m.meaning.file minor k ++ extra)) (hr : d.readable f = true) (hn : m.ndim = 0) :
    howToLoad fmt prog d mem [f] = .error .oob := by
  simp only [howToLoad, load_exact hm hmem hL h7 extra hc hr, bind, Except.bind]
  rw [C77_scalar_false { headerArray m with data := m.meaning.data } hn]

/-- **C77 is false** in Fortran order: the matrix printed is not the matrix in the file (the program ignores the order it has just printed). -/
theorem C77_fortran_false (fmt : Bytes → Bytes) (hfmt : ∀ b, 10 ∉ fmt b) (prog : Bytes) {m : NpyArray} (hm : m.Savable) {mem : Nat → Bool}
    (hmem : ∀ n, mem n = true) {d : Disk} {f : String} {minor : UInt8} {k : Nat} (hL : m.meaning.dict.length + k + 1 < 2 ^ 16)
    (h7 : (m.meaning.dict.length + k + 1) % 256 < 128) (extra : Bytes)
    (hc : d.content f = some (m.meaning.file minor k ++ extra)) (hr : d.readable f = true)
    (hs : m.meaning.dims = [2, 2]) (ht : m.typechar = 102) (he : m.elemSize = 4) (ho : m.fortran = true)
    (hne : fmt (m.meaning.elem 2 2 0 1) ≠ fmt (m.meaning.elem 2 2 1 0)) :
    howToLoad fmt prog d mem [f] ≠ .ok (m.meaning.describe ++ m.meaning.table fmt 2 2, 0) := by
  rw [load_text fmt prog hm hmem hL h7 extra hc hr hs ht he (by norm_num)]
  intro h
  simp only [Except.ok.injEq, Prod.mk.injEq, and_true, List.append_cancel_left_eq] at h
  have hel : ∀ i j, m.meaning.elem 2 2 i j = (m.meaning.data.drop (4 * (j * 2 + i))).take 4 := by
    intro i j
    simp only [Spec.Array.elem, show m.meaning.fortran = true from ho, show m.meaning.elemSize = 4 from he]
    rfl
  rw [hel, hel] at hne
  simp only [Spec.Array.table, hel, List.range_succ, List.range_zero, List.nil_append, List.flatMap_append, List.flatMap_singleton,
    List.append_assoc, List.append_cancel_left_eq] at h
  have key : ∀ (a b x y : Bytes), 10 ∉ a → 10 ∉ b → a ++ (10 :: x) = b ++ (10 :: y) → a = b := by
    intro a
    induction a with
    | nil =>
      intro b x y _ hb h
      cases b with
      | nil => rfl
      | cons c b => simp at h; simp [← h.1] at hb
    | cons c a ih =>
      intro b x y ha hb h
      cases b with
      | nil => simp at h; simp [h.1] at ha
      | cons c' b =>
        simp only [List.cons_append, List.cons.injEq] at h
        rw [h.1, ih b x y (by simp at ha; exact ha.2) (by simp at hb; exact hb.2) h.2]
  have := key _ _ _ _ (hfmt _) (hfmt _) h
  exact hne this.symm

/-! ### how_to_save -/

theorem flatMap_pick (bits : Nat → Bytes) {w : Nat} (hw : ∀ k, (bits k).length = w) {n k : Nat} (h : k < n) :
    (((List.range n).flatMap bits).drop (w * k)).take w = bits k := by
  have hl : ∀ l : List Nat, (l.flatMap bits).length = w * l.length := by
    intro l
    induction l with
    | nil => rfl
    | cons a l ih => rw [List.flatMap_cons, List.length_append, ih, hw, List.length_cons, Nat.mul_succ]; omega
  obtain ⟨r, rfl⟩ : ∃ r, n = k + (r + 1) := ⟨n - k - 1, by omega⟩
  rw [List.range_add, List.flatMap_append, List.drop_left' (by rw [hl, List.length_range]), List.range_succ_eq_map]
  simp only [List.map_cons, List.flatMap_cons, Nat.add_zero]
  exact List.take_left' (hw k)

theorem flatMap_len (bits : Nat → Bytes) {w : Nat} (hw : ∀ k, (bits k).length = w) (n : Nat) :
    ((List.range n).flatMap bits).length = w * n := by
  induction n with
  | zero => rfl
  | succ n ih => rw [List.range_succ, List.flatMap_append, List.length_append, ih, List.flatMap_singleton, hw, Nat.mul_succ]

theorem four_dict (bits : Nat → Bytes) (e : UInt8) (he : e = 60 ∨ e = 0) : (fourByThree bits e).meaning.dict =
    str "{'descr': '<f4', 'fortran_order': False, 'shape': (4,3,), }" := by
  have hg : guessEndianness (fourByThree bits e) = 60 := by rcases he with rfl | rfl <;> rfl
  simp only [Spec.Array.dict, NpyArray.meaning, hg]
  simp only [fourByThree, List.take, List.map, dec_small (show 4 < 10 by decide), dec_small (show 3 < 10 by decide), Bool.false_eq_true, if_false]
  decide

theorem four_savable (bits : Nat → Bytes) (hbits : ∀ k, (bits k).length = 4) (e : UInt8) (he : e = 60 ∨ e = 0) :
    (fourByThree bits e).Savable where
  shape := rfl
  ndim := by simp [fourByThree]
  dims := by simp [fourByThree]
  elem := by simp [fourByThree]
  typechar := by simp [fourByThree]
  pos := by simp [fourByThree]
  size := by simp [fourByThree, NpyArray.meaning, Spec.Array.nbytes]
  data := by
    show _ ≤ ((List.range 12).flatMap bits).length
    rw [flatMap_len bits hbits]
    simp [fourByThree, NpyArray.meaning, Spec.Array.nbytes]
  fits := by rw [four_dict bits e he]; decide

/-- The disk with the same contents in both files. -/
def twoFiles (d : Disk) (b : Bytes) : Disk :=
  { d with content := fun g =>
      if g = "my_4_by_3_array_shortcut.npy" then some b else if g = "my_4_by_3_array.npy" then some b else d.content g }

/-- **C77** The two ways of describing an array in `how_to_save` give the same file, which `how_to_load` prints as the numbers 0 to 11 in
four rows of three. -/
theorem C77_save (fmt : Bytes → Bytes) (prog : Bytes) (bits : Nat → Bytes) (hbits : ∀ k, (bits k).length = 4) {mem : Nat → Bool}
    (hmem : ∀ n, mem n = true) (d : Disk) (hw : ∀ f, d.writable f = true) (hr : ∀ f, d.readable f = true) :
    ∃ d', howToSave bits d = .ok d' ∧ d'.content "my_4_by_3_array.npy" = d'.content "my_4_by_3_array_shortcut.npy" ∧
      (∀ g, g ≠ "my_4_by_3_array.npy" → g ≠ "my_4_by_3_array_shortcut.npy" → d'.content g = d.content g) ∧
      ∀ f ∈ ["my_4_by_3_array.npy", "my_4_by_3_array_shortcut.npy"], howToLoad fmt prog d' mem [f] =
        .ok (str "Dimensions   : 2\nShape        : ( 4, 3 )\nType         : 'f' (4 bytes each element)\nFortran order: False\n" ++
          (List.range 4).flatMap (fun i => ((List.range 3).flatMap fun j => fmt (bits (3 * i + j))) ++ str "\n"), 0) := by
  have s1 := four_savable bits hbits 60 (.inl rfl)
  have s2 := four_savable bits hbits 0 (.inr rfl)
  have em : (fourByThree bits 60).meaning = (fourByThree bits 0).meaning := rfl
  set b := (fourByThree bits 0).meaning.file 0 (117 - (fourByThree bits 0).meaning.dict.length) with hb
  have e1 : npyBytes (fourByThree bits 60) = .ok b := by rw [C44_file s1, em]
  have e2 : npyBytes (fourByThree bits 0) = .ok b := C44_file s2
  obtain ⟨d', hd'⟩ : ∃ d', d' = twoFiles d b := ⟨_, rfl⟩
  refine ⟨d', ?_, ?_, ?_, ?_⟩
  · simp only [howToSave, npySave, hw, if_true, e1, e2, bind, Except.bind, pure, Except.pure, hd', twoFiles]
  · simp [hd', twoFiles]
  · intro g h1 h2; simp [h1, h2, hd', twoFiles]
  · intro f hf
    have hc : d'.content f = some (b ++ []) := by
      rw [List.append_nil, hd', twoFiles]
      simp only [List.mem_cons, List.not_mem_nil, or_false] at hf
      rcases hf with rfl | rfl <;> simp
    have hpad := dict_pad s2
    rw [C77_load_partial (r := 4) (c := 3) fmt prog s2 hmem (by rw [hpad]; norm_num) (by rw [hpad]; norm_num) [] hc (by rw [hd']; exact hr f) rfl rfl rfl
      (by norm_num) rfl]
    have ed : (fourByThree bits 0).meaning.describe =
        str "Dimensions   : 2\nShape        : ( 4, 3 )\nType         : 'f' (4 bytes each element)\nFortran order: False\n" := by
      simp only [Spec.Array.describe, NpyArray.meaning, fourByThree, List.take, List.map, List.length_cons, List.length_nil,
        dec_small (show 4 < 10 by decide), dec_small (show 3 < 10 by decide), dec_small (show 0 + 1 + 1 < 10 by decide)]
      decide
    rw [ed]
    have et : (fourByThree bits 0).meaning.table fmt 4 3 =
        (List.range 4).flatMap (fun i => ((List.range 3).flatMap fun j => fmt (bits (3 * i + j))) ++ str "\n") := by
      rw [Spec.Array.table]
      refine List.flatMap_congr fun i hi => ?_
      congr 1
      refine List.flatMap_congr fun j hj => ?_
      have hi' : i < 4 := by simpa using hi
      have hj' : j < 3 := by simpa using hj
      rw [Spec.Array.elem]
      show fmt ((((((List.range 12).flatMap bits)).take 48).drop (4 * (i * 3 + j))).take 4) = _
      have e48 : ((List.range 12).flatMap bits).take 48 = (List.range 12).flatMap bits :=
        List.take_of_length_le (by rw [flatMap_len bits hbits])
      rw [e48, flatMap_pick bits hbits (by omega)]
      congr 2; omega
    rw [et]

/-! ### Archives -/

/-- **C77** `how_to_load_npz` on an archive written by `npy_array_list_save`: the number of arrays, then the name and the description of each. -/
theorem C77_npz {lib : ZipLib} (hlib : lib.Lawful) {d : Disk} {f : String} (hw : d.writable f = true)
    (hr : d.readable f = true) {mem : Nat → Bool} (hm : ∀ n, mem n = true) {l : List (Bytes × NpyArray)} (hne : l ≠ [])
    (hnd : (l.map Prod.fst).Nodup) (hl : ∀ p ∈ l, GoodName lib p.1 ∧ p.2.Savable)
    (hd : ∀ p ∈ l, 1 ≤ p.2.ndim ∧ p.2.elemSize < 2 ^ 31) (prog : Bytes) :
    ∃ d', listSave lib d f (l.map fun p => (some p.1, p.2)) = .ok (l.length, d') ∧
      howToLoadNpz prog lib d' mem [f] = .ok (str "number of npy_arrays in file: " ++ dec l.length ++ str "\n" ++
        l.flatMap (fun p => str "File: " ++ p.1 ++ str "\n" ++ p.2.meaning.describe), 0) := by
  obtain ⟨d', r, h1, -, h2, h3⟩ := C47_roundtrip hlib hw hr hm hne hnd hl
  refine ⟨d', h1, ?_⟩
  have hdump : ∀ (r l : List (Bytes × NpyArray)), List.Forall₂ (fun q p => q.1 = p.1 ∧ Same q.2 p.2) r l →
      (∀ p ∈ l, p.2.WF ∧ 1 ≤ p.2.ndim ∧ p.2.elemSize < 2 ^ 31) →
      dumpList r = .ok (l.flatMap (fun p => str "File: " ++ p.1 ++ str "\n" ++ p.2.meaning.describe)) := by
    intro r l h
    induction h with
    | nil => intros; rfl
    | @cons q p r l hqp _ ih =>
      intro hd
      obtain ⟨qn, qm⟩ := q
      obtain ⟨e1, e2, e3, e4, e5⟩ := hqp
      simp only at e1 e2 e3 e5
      obtain ⟨d0, d1, d2⟩ := hd p (by simp)
      have hes : qm.elemSize = p.2.elemSize := congrArg Spec.Array.elemSize e2
      have hl : p.2.meaning.dims.length = p.2.ndim := by
        show (p.2.shape.take p.2.ndim).length = p.2.ndim
        rw [List.length_take, d0.shape]; have := d0.ndim; omega
      rw [dumpList, dump_core (m := qm) (by rw [e2, hl, e3]) (by rw [e2]; exact d0.dims) (by omega) (by omega),
        ih (fun x hx => hd x (by simp [hx]))]
      simp [bind, Except.bind, pure, Except.pure, e1, e2]
  have hlen := h3.length_eq
  cases hr' : r with
  | nil => rw [hr'] at hlen; exact absurd (List.length_eq_zero_iff.1 hlen.symm) hne
  | cons q r' =>
    subst hr'
    simp only [howToLoadNpz, h2, bind, Except.bind]
    rw [hdump _ _ h3 (fun p hp => ⟨(hl p hp).2.toWF, hd p hp⟩), ← hlen]
    rfl

/-- The arrays of how_to_save_npz.c:20-33. -/
def npzArray (bits : Nat → Bytes) (t : UInt8) (w : Nat) : NpyArray :=
  ⟨(List.range 12).flatMap bits, [4, 3, 0, 0, 0, 0, 0, 0], 2, 0, t, w, false, false⟩

theorem npz_dict_int (bits : Nat → Bytes) : (npzArray bits 105 4).meaning.dict =
    str "{'descr': '<i4', 'fortran_order': False, 'shape': (4,3,), }" := by
  have hg : guessEndianness (npzArray bits 105 4) = 60 := rfl
  simp only [Spec.Array.dict, NpyArray.meaning, hg]
  simp only [npzArray, List.take, List.map, dec_small (show 4 < 10 by decide), dec_small (show 3 < 10 by decide), Bool.false_eq_true, if_false]
  decide

theorem npz_dict_double (bits : Nat → Bytes) : (npzArray bits 102 8).meaning.dict =
    str "{'descr': '<f8', 'fortran_order': False, 'shape': (4,3,), }" := by
  have hg : guessEndianness (npzArray bits 102 8) = 60 := rfl
  simp only [Spec.Array.dict, NpyArray.meaning, hg]
  simp only [npzArray, List.take, List.map, dec_small (show 8 < 10 by decide), dec_small (show 4 < 10 by decide), dec_small (show 3 < 10 by decide),
    Bool.false_eq_true, if_false]
  decide

theorem npz_savable {bits : Nat → Bytes} {t : UInt8} {w : Nat} (hbits : ∀ k, (bits k).length = w) (ht : t = 105 ∧ w = 4 ∨ t = 102 ∧ w = 8) :
    (npzArray bits t w).Savable where
  shape := rfl
  ndim := by simp [npzArray]
  dims := by simp [npzArray]
  elem := by rcases ht with ⟨rfl, rfl⟩ | ⟨rfl, rfl⟩ <;> simp [npzArray]
  typechar := by rcases ht with ⟨rfl, rfl⟩ | ⟨rfl, rfl⟩ <;> simp [npzArray]
  pos := by simp [npzArray]
  size := by rcases ht with ⟨rfl, rfl⟩ | ⟨rfl, rfl⟩ <;> simp [npzArray, NpyArray.meaning, Spec.Array.nbytes]
  data := by
    show _ ≤ ((List.range 12).flatMap bits).length
    rw [flatMap_len bits hbits]
    simp [npzArray, NpyArray.meaning, Spec.Array.nbytes]
    omega
  fits := by
    rcases ht with ⟨rfl, rfl⟩ | ⟨rfl, rfl⟩
    · rw [npz_dict_int]; decide
    · rw [npz_dict_double]; decide

/-- **C77** The archive of `how_to_save_npz`, printed by `how_to_load_npz`. -/
theorem C77_save_npz {lib : ZipLib} (hlib : lib.Lawful) {d : Disk} (hw : ∀ f, d.writable f = true)
    (hr : ∀ f, d.readable f = true) {mem : Nat → Bool} (hm : ∀ n, mem n = true) (ints doubles : Nat → Bytes)
    (hi : ∀ k, (ints k).length = 4) (hd : ∀ k, (doubles k).length = 8) (prog : Bytes) :
    ∃ d', howToSaveNpz ints doubles lib d = .ok d' ∧
      howToLoadNpz prog lib d' mem ["iarray_and_darray.npz"] = .ok (
        str "number of npy_arrays in file: 2\n" ++
        (str "File: arr_0.npy\n" ++
          str "Dimensions   : 2\nShape        : ( 4, 3 )\nType         : 'i' (4 bytes each element)\nFortran order: False\n") ++
        (str "File: arr_1.npy\n" ++
          str "Dimensions   : 2\nShape        : ( 4, 3 )\nType         : 'f' (8 bytes each element)\nFortran order: False\n"), 0) := by
  obtain ⟨a, ha⟩ : ∃ a, a = npzArray ints 105 4 := ⟨_, rfl⟩
  obtain ⟨b, hb⟩ : ∃ b, b = npzArray doubles 102 8 := ⟨_, rfl⟩
  have sa : a.Savable := ha ▸ npz_savable hi (.inl ⟨rfl, rfl⟩)
  have sb : b.Savable := hb ▸ npz_savable hd (.inr ⟨rfl, rfl⟩)
  have hname : ∀ n : Bytes, n = str "arr_0.npy" ∨ n = str "arr_1.npy" → GoodName lib n := by
    rintro n (rfl | rfl) <;> exact ⟨hlib.ascii _ (by decide) (by decide), by decide, by decide, by decide⟩
  obtain ⟨d', h1, h2⟩ := C77_npz (l := [(str "arr_0.npy", a), (str "arr_1.npy", b)]) hlib (hw "iarray_and_darray.npz") (hr _) hm (by simp)
    (by simp only [List.map_cons, List.map_nil]; decide)
    (by
      intro p hp
      simp only [List.mem_cons, List.not_mem_nil, or_false] at hp
      rcases hp with rfl | rfl
      · exact ⟨hname _ (.inl rfl), sa⟩
      · exact ⟨hname _ (.inr rfl), sb⟩)
    (by
      intro p hp
      simp only [List.mem_cons, List.not_mem_nil, or_false] at hp
      rcases hp with rfl | rfl
      · subst ha; simp [npzArray]
      · subst hb; simp [npzArray]) prog
  refine ⟨d', ?_, ?_⟩
  · have e0 : str "arr_" ++ dec 0 ++ str ".npy" = str "arr_0.npy" := by rw [dec_small (by decide)]; decide
    have e1 : str "arr_" ++ dec (0 + 1) ++ str ".npy" = str "arr_1.npy" := by rw [dec_small (by decide)]; decide
    have : listSave lib d "iarray_and_darray.npz" [(none, a), (none, b)] = .ok (2, d') := by
      rw [← show _ = Except.ok (2, d') from h1]
      simp only [listSave, listSaveCompressed, saveLoop, List.map_cons, List.map_nil, Option.getD_none, Option.getD_some, e0, e1,
        List.isEmpty_cons]
    rw [ha, hb] at this
    unfold howToSaveNpz
    unfold npzArray at this
    rw [this]
    rfl
  · rw [h2]
    have ea : a.meaning.describe =
        str "Dimensions   : 2\nShape        : ( 4, 3 )\nType         : 'i' (4 bytes each element)\nFortran order: False\n" := by
      subst ha
      simp only [Spec.Array.describe, NpyArray.meaning, npzArray, List.take, List.map, List.length_cons, List.length_nil,
        dec_small (show 4 < 10 by decide), dec_small (show 3 < 10 by decide), dec_small (show 0 + 1 + 1 < 10 by decide)]
      decide
    have eb : b.meaning.describe =
        str "Dimensions   : 2\nShape        : ( 4, 3 )\nType         : 'f' (8 bytes each element)\nFortran order: False\n" := by
      subst hb
      simp only [Spec.Array.describe, NpyArray.meaning, npzArray, List.take, List.map, List.length_cons, List.length_nil,
        dec_small (show 4 < 10 by decide), dec_small (show 8 < 10 by decide), dec_small (show 3 < 10 by decide),
        dec_small (show 0 + 1 + 1 < 10 by decide)]
      decide
    simp only [List.length_cons, List.length_nil, List.flatMap_cons, List.flatMap_nil, List.append_nil, ea, eb,
      dec_small (show 0 + 1 + 1 < 10 by decide)]
    have h0 : str "number of npy_arrays in file: " ++ [(48 + (0 + 1 + 1)).toUInt8] ++ str "\n" = str "number of npy_arrays in file: 2\n" := by decide
    have h1 : str "File: " ++ str "arr_0.npy" ++ str "\n" = str "File: arr_0.npy\n" := by decide
    have h2 : str "File: " ++ str "arr_1.npy" ++ str "\n" = str "File: arr_1.npy\n" := by decide
    rw [h0, h1, h2, List.append_assoc (str "number of npy_arrays in file: 2\n")]

/-! ### Examples -/

/-- A 2×3 array of floats. -/
example : npyDump (some exNpy) =
    .ok (str "Dimensions   : 2\nShape        : ( 2, 3 )\nType         : 'f' (4 bytes each element)\nFortran order: False\n") := by
  rw [C77_dump exNpy_savable.toWF (by decide) (by decide)]
  simp only [Spec.Array.describe, NpyArray.meaning, exNpy, List.take, List.map, List.length_cons, List.length_nil,
    dec_small (show 2 < 10 by decide), dec_small (show 4 < 10 by decide), dec_small (show 3 < 10 by decide)]
  refine congrArg Except.ok ?_
  decide

/-- A vector of three floats, for `C77_vector_false`. -/
def exVec : NpyArray := ⟨List.replicate 12 7, [3, 0, 0, 0, 0, 0, 0, 0], 1, 0, 102, 4, false, false⟩

theorem exVec_dict : exVec.meaning.dict = str "{'descr': '<f4', 'fortran_order': False, 'shape': (3,), }" := by
  simp only [Spec.Array.dict, NpyArray.meaning, exVec, guessEndianness, List.take, List.map, dec_small (show 3 < 10 by decide),
    dec_small (show 4 < 10 by decide)]
  decide

theorem exVec_savable : exVec.Savable where
  shape := rfl
  ndim := by simp [exVec]
  dims := by simp [exVec]
  elem := by simp [exVec]
  typechar := by simp [exVec]
  pos := by simp [exVec]
  size := by simp [exVec, NpyArray.meaning, Spec.Array.nbytes]
  data := by simp [exVec, NpyArray.meaning, Spec.Array.nbytes]
  fits := by rw [exVec_dict]; decide

example : howToLoad id (str "how_to_load") ⟨fun _ => some (exVec.meaning.file 0 64 ++ []), fun _ => true, fun _ => true⟩ (fun _ => true) ["v.npy"] =
    .ok (exVec.meaning.describe ++ [10, 10, 10], 0) :=
  C77_vector_false id _ exVec_savable (fun _ => rfl) (by rw [exVec_dict]; decide) (by rw [exVec_dict]; decide) [] rfl rfl rfl rfl rfl

/-- A 2×1×2 array, for `C77_dims_false`. -/
def exCube : NpyArray := ⟨[0, 0, 0, 0, 1, 0, 0, 0, 2, 0, 0, 0, 3, 0, 0, 0], [2, 1, 2, 0, 0, 0, 0, 0], 3, 0, 102, 4, false, false⟩

theorem exCube_dict : exCube.meaning.dict = str "{'descr': '<f4', 'fortran_order': False, 'shape': (2,1,2,), }" := by
  simp only [Spec.Array.dict, NpyArray.meaning, exCube, guessEndianness, List.take, List.map, dec_small (show 1 < 10 by decide),
    dec_small (show 2 < 10 by decide), dec_small (show 4 < 10 by decide)]
  decide

theorem exCube_savable : exCube.Savable where
  shape := rfl
  ndim := by simp [exCube]
  dims := by simp [exCube]
  elem := by simp [exCube]
  typechar := by simp [exCube]
  pos := by simp [exCube]
  size := by simp [exCube, NpyArray.meaning, Spec.Array.nbytes]
  data := by simp [exCube, NpyArray.meaning, Spec.Array.nbytes]
  fits := by rw [exCube_dict]; decide

/-- Two of the four elements are printed. -/
example : howToLoad (List.map (· + 48)) (str "how_to_load")
    ⟨fun _ => some (exCube.meaning.file 0 57 ++ []), fun _ => true, fun _ => true⟩ (fun _ => true) ["c.npy"] =
    .ok (exCube.meaning.describe ++ str "0000\n1000\n", 0) := by
  rw [C77_dims_false _ _ exCube_savable (fun _ => rfl) (by rw [exCube_dict]; decide) (by rw [exCube_dict]; decide) [] rfl rfl
    (show exCube.meaning.dims = [2, 1, 2] from rfl) rfl rfl (by norm_num)]
  refine congrArg (fun x : Bytes => (Except.ok (exCube.meaning.describe ++ x, 0) : M (Bytes × Nat))) ?_
  decide

/-- A 2×2 matrix stored by columns, for `C77_fortran_false`. -/
def exFortran : NpyArray :=
  ⟨[0, 0, 0, 0, 1, 0, 0, 0, 2, 0, 0, 0, 3, 0, 0, 0], [2, 2, 0, 0, 0, 0, 0, 0], 2, 0, 102, 4, true, false⟩

theorem exFortran_dict : exFortran.meaning.dict = str "{'descr': '<f4', 'fortran_order': True, 'shape': (2,2,), }" := by
  simp only [Spec.Array.dict, NpyArray.meaning, exFortran, guessEndianness, List.take, List.map, dec_small (show 2 < 10 by decide),
    dec_small (show 4 < 10 by decide)]
  decide

theorem exFortran_savable : exFortran.Savable where
  shape := rfl
  ndim := by simp [exFortran]
  dims := by simp [exFortran]
  elem := by simp [exFortran]
  typechar := by simp [exFortran]
  pos := by simp [exFortran]
  size := by simp [exFortran, NpyArray.meaning, Spec.Array.nbytes]
  data := by simp [exFortran, NpyArray.meaning, Spec.Array.nbytes]
  fits := by rw [exFortran_dict]; decide

example : howToLoad (List.map (· + 48)) (str "how_to_load")
    ⟨fun _ => some (exFortran.meaning.file 0 60 ++ []), fun _ => true, fun _ => true⟩ (fun _ => true) ["m.npy"] =
    .ok (exFortran.meaning.describe ++ str "00001000\n20003000\n", 0) ∧
    exFortran.meaning.table (List.map (· + 48)) 2 2 = str "00002000\n10003000\n" := by
  refine ⟨?_, by decide⟩
  rw [load_text _ _ exFortran_savable (fun _ => rfl) (by rw [exFortran_dict]; decide) (by rw [exFortran_dict]; decide) [] rfl rfl
    (show exFortran.meaning.dims = [2, 2] from rfl) rfl rfl (by norm_num)]
  refine congrArg (fun x : Bytes => (Except.ok (exFortran.meaning.describe ++ x, 0) : M (Bytes × Nat))) ?_
  decide

end NN
