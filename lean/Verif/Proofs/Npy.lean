import Verif.Model.Npy
import Verif.Proofs.CString
import Mathlib.Algebra.Order.BigOperators.GroupWithZero.List
import Mathlib.Algebra.Order.Ring.Nat
/-
Lemmas about .npy headers and data.
-/
namespace NN

/-! ### The shape -/

theorem castInt_eq {n : Nat} (h : n < 2 ^ 31) : castInt n = n := by
  have h1 : n % 2 ^ 32 = n := Nat.mod_eq_of_lt (lt_trans h (by norm_num))
  rw [castInt, h1, if_pos h]

theorem decInt_nat (n : Nat) : decInt (n : Int) = dec n := by
  rw [decInt, if_neg (by omega)]; rfl

theorem strtol_dec {n : Nat} (h : n < 2 ^ 63) {t : Bytes} (ht : ∀ c ∈ t.head?, isDigit c = false) :
    strtol (dec n ++ t) = n := by
  have h' : (n : Int) ≤ 2 ^ 63 - 1 := by
    have : (n : Int) < 2 ^ 63 := by exact_mod_cast h
    linarith
  rw [strtol, parseInt_dec n ht, min_eq_right h', max_eq_right (le_trans (by norm_num) (Int.natCast_nonneg n))]

theorem shapeLoop_skip {c : UInt8} {cs : Bytes} {dims : List Nat} (h1 : c ≠ 41) (h2 : isDigit c = false) :
    shapeLoop (c :: cs) dims = shapeLoop cs dims := by
  rw [shapeLoop, if_neg h1, h2]
  simp

theorem shapeLoop_number {n : Nat} (h : n < 2 ^ 63) {t : Bytes} (ht : ∀ c ∈ t.head?, isDigit c = false) {dims : List Nat}
    (hd : dims.length < 7) : shapeLoop (dec n ++ t) dims = shapeLoop t (dims ++ [n]) := by
  have hv := strtol_dec h ht
  obtain ⟨c, s, hs, hc⟩ := dec_cons n
  have hdig := dec_digits n
  rw [hs] at hv hdig ⊢
  rw [List.cons_append] at hv ⊢
  have h41 : c ≠ 41 := by rintro rfl; simp [isDigit] at hc
  rw [shapeLoop, if_neg h41, hc, hv]
  have hdrop : (s ++ t).dropWhile isDigit = t := by
    rw [List.dropWhile_append_of_pos (fun c hc => hdig c (List.mem_cons_of_mem _ hc))]
    cases t with
    | nil => rfl
    | cons x t => rw [List.dropWhile_cons, ht x (by simp)]; simp
  simp only [if_true, Int.toNat_natCast, List.length_append, List.length_singleton, hdrop]
  rw [if_pos (by omega)]

theorem shapeLoop_text (ds : List Nat) (h : ∀ d ∈ ds, d < 2 ^ 31) (t : Bytes) (dims : List Nat)
    (hd : dims.length + ds.length < 8) : shapeLoop (shapeText ds ++ 41 :: t) dims = .ok (dims ++ ds) := by
  induction ds generalizing dims with
  | nil =>
    simp only [shapeText, List.map_nil, List.flatten_nil, List.nil_append, List.append_nil]
    rw [shapeLoop, if_pos rfl]
    rfl
  | cons d ds ih =>
    have hd31 := h d (by simp)
    rw [List.length_cons] at hd
    have e : shapeText (d :: ds) ++ 41 :: t = dec d ++ (44 :: (shapeText ds ++ 41 :: t)) := by
      simp only [shapeText, List.map_cons, List.flatten_cons, castInt_eq hd31, decInt_nat, List.append_assoc]
      rfl
    rw [e, shapeLoop_number (lt_trans hd31 (by norm_num)) (by simp; rfl) (by omega),
      shapeLoop_skip (by decide) rfl, ih (fun d hd => h d (List.mem_cons_of_mem _ hd)) _ (by simp; omega)]
    simp

theorem shapeText_chars (ds : List Nat) (h : ∀ d ∈ ds, d < 2 ^ 31) : ∀ c ∈ shapeText ds, isDigit c = true ∨ c = 44 := by
  intro c hc
  simp only [shapeText, List.mem_flatten, List.mem_map] at hc
  obtain ⟨l, ⟨d, hd, rfl⟩, hc⟩ := hc
  rw [castInt_eq (h d hd), decInt_nat, List.mem_append] at hc
  rcases hc with hc | hc
  · exact .inl (dec_digits d c hc)
  · exact .inr (by simpa [str] using hc)

/-! ### The dictionary -/

/-- No `'` followed by `x`. -/
abbrev NoPair (x : UInt8) (l : Bytes) : Prop := l.IsChain fun a b => ¬ (a = 39 ∧ b = x)

theorem noPair_append {x : UInt8} {l₁ l₂ : Bytes} (h₁ : NoPair x l₁) (h₂ : NoPair x l₂) (h : ∀ y ∈ l₂.head?, y ≠ x) :
    NoPair x (l₁ ++ l₂) :=
  List.isChain_append.mpr ⟨h₁, h₂, fun _ _ y hy hc => h y hy hc.2⟩

theorem noPair_of_not_mem {x : UInt8} {l : Bytes} (h : x ∉ l) : NoPair x l := by
  induction l with
  | nil => exact List.isChain_nil
  | cons a l ih =>
    simp only [List.mem_cons, not_or] at h
    refine List.isChain_cons.mpr ⟨fun y hy hc => ?_, ih h.2⟩
    have := List.mem_of_mem_head? hy
    rw [hc.2] at this
    exact h.2 this

/-- The arrays for which the header describes the array: every array built by the library in memory. -/
structure NpyArray.WF (m : NpyArray) : Prop where
  shape : m.shape.length = 8
  ndim : m.ndim ≤ 7
  dims : ∀ d ∈ m.shape.take m.ndim, d < 2 ^ 31
  elem : 0 < m.elemSize ∧ m.elemSize < 2 ^ 63
  typechar : m.typechar ≠ 0

theorem guess_mem (m : NpyArray) : guessEndianness m = 60 ∨ guessEndianness m = 62 ∨ guessEndianness m = 124 := by
  unfold guessEndianness
  split_ifs with h1 h2 h3
  · exact h1
  · right; right; rfl
  · right; right; rfl
  · left; rfl

/-- The array read from the header. -/
def headerArray (m : NpyArray) : NpyArray :=
  ⟨[], m.shape.take m.ndim ++ List.replicate (8 - m.ndim) 0, m.ndim, guessEndianness m, m.typechar, m.elemSize, m.fortran, false⟩

theorem parseHeader_text {m : NpyArray} (he0 : 0 < m.elemSize) (he1 : m.elemSize < 2 ^ 63) (htc : m.typechar ≠ 0)
    (dims : List Nat) (hS0 : (0 : UInt8) ∉ shapeText (m.shape.take m.ndim))
    (hsl : ∀ rest, shapeLoop (shapeText (m.shape.take m.ndim) ++ 41 :: rest) [] = .ok dims) (tail : Bytes)
    (ht : (0 : UInt8) ∉ tail) (z : Bytes) :
    parseHeader (dictText m ++ tail ++ 0 :: z) = .ok ⟨[], dims ++ List.replicate (8 - dims.length) 0, dims.length,
      guessEndianness m, m.typechar, m.elemSize, m.fortran, false⟩ := by
  have hg := guess_mem m
  set e := guessEndianness m with he
  set t := m.typechar with htdef
  set E := dec m.elemSize with hE
  set Fo := (if m.fortran then str "True" else str "False") with hFo
  set S := shapeText (m.shape.take m.ndim) with hS
  have hEdig : ∀ c ∈ E, isDigit c = true := dec_digits _
  -- the text
  have hdict : dictText m = str "{'descr': '" ++ [e, t] ++ E ++ str "', 'fortran_order': " ++ Fo ++ str ", 'shape': (" ++ S ++
      str "), }" := rfl
  have h0 : (0 : UInt8) ∉ dictText m ++ tail := by
    rw [hdict]
    simp only [List.mem_append, not_or]
    refine ⟨⟨⟨⟨⟨⟨⟨⟨by decide, ?_⟩, ?_⟩, by decide⟩, ?_⟩, by decide⟩, ?_⟩, by decide⟩, ht⟩
    · simp only [List.mem_cons, List.not_mem_nil, or_false, not_or]
      refine ⟨?_, fun h => htc h.symm⟩
      rcases hg with h | h | h <;> rw [h] <;> decide
    · exact fun h => absurd (hEdig _ h) (by decide)
    · rw [hFo]; split_ifs <;> decide
    · exact hS0
  have hcs : cstr (dictText m ++ tail ++ 0 :: z) = dictText m ++ tail := cstr_append_zero h0
  -- 'descr'
  have i1 : strstr (str "'descr': '") (dictText m ++ tail) = some 1 := by
    have := strstr_append (c := 39) (n := str "descr': '") (str "{") (t := [e, t] ++ E ++ str "', 'fortran_order': " ++ Fo ++
      str ", 'shape': (" ++ S ++ str "), }" ++ tail) (by decide)
    rw [show (str "{").length = 1 from rfl] at this
    rw [← this, hdict, show str "{'descr': '" = str "{" ++ str "'descr': '" from rfl,
      show str "'descr': '" = 39 :: str "descr': '" from rfl]
    simp only [List.append_assoc]
  have f1 : findHeaderItem (str "'descr': '") (dictText m ++ tail ++ 0 :: z) = some (e :: t :: (E ++ (39 :: (str ", 'fortran_order': " ++
      (Fo ++ (str ", 'shape': (" ++ (S ++ (str "), }" ++ (tail ++ 0 :: z))))))))) := by
    rw [findHeaderItem, hcs, i1, Option.map_some, hdict]
    congr 1
    have : str "{'descr': '" ++ [e, t] ++ E ++ str "', 'fortran_order': " ++ Fo ++ str ", 'shape': (" ++ S ++
        str "), }" ++ tail ++ 0 :: z = str "{'descr': '" ++ (e :: t :: (E ++ (39 :: (str ", 'fortran_order': " ++
      (Fo ++ (str ", 'shape': (" ++ (S ++ (str "), }" ++ (tail ++ 0 :: z))))))))) := by
      rw [show str "', 'fortran_order': " = 39 :: str ", 'fortran_order': " from rfl]
      simp only [List.append_assoc, List.cons_append, List.nil_append]
    rw [this]
    exact List.drop_left' rfl
  -- 'fortran_order'
  have np : ∀ x : UInt8, x = 102 ∨ x = 115 → NoPair x (str "{'descr': '" ++ [e, t] ++ E) := by
    intro x hx
    have hx' : isDigit x = false := by rcases hx with rfl | rfl <;> rfl
    refine noPair_append (noPair_append ?_ ?_ ?_) (noPair_of_not_mem fun h => ?_) ?_
    · rcases hx with rfl | rfl <;> decide
    · refine List.isChain_cons.mpr ⟨fun y _ hc => ?_, List.isChain_singleton _⟩
      rcases hg with h | h | h <;> rw [h] at hc <;> exact absurd hc.1 (by decide)
    · intro y hy
      simp only [List.head?_cons, Option.mem_def, Option.some.injEq] at hy
      rw [← hy]
      rcases hg with h | h | h <;> rcases hx with rfl | rfl <;> rw [h] <;> decide
    · rw [hEdig _ h] at hx'; cases hx'
    · intro y hy
      exact digit_ne (hEdig y (List.mem_of_mem_head? hy)) hx'
  have i2 : strstr (str "'fortran_order': ") (dictText m ++ tail) =
      some (str "{'descr': '" ++ [e, t] ++ E ++ str "', ").length := by
    have := strstr_append₂ (c := 39) (d := 102) (n := str "ortran_order': ") (str "{'descr': '" ++ [e, t] ++ E ++ str "', ")
      (t := Fo ++ str ", 'shape': (" ++ S ++ str "), }" ++ tail) (by
        rw [List.append_assoc]
        exact noPair_append (np 102 (.inl rfl)) (by decide) (by decide))
    rw [← this, hdict, show str "', 'fortran_order': " = str "', " ++ str "'fortran_order': " from rfl,
      show str "'fortran_order': " = 39 :: 102 :: str "ortran_order': " from rfl]
    simp only [List.append_assoc]
  have f2 : findHeaderItem (str "'fortran_order': ") (dictText m ++ tail ++ 0 :: z) = some (Fo ++ (str ", 'shape': (" ++ (S ++
      (str "), }" ++ (tail ++ 0 :: z))))) := by
    rw [findHeaderItem, hcs, i2, Option.map_some, hdict]
    congr 1
    have : str "{'descr': '" ++ [e, t] ++ E ++ str "', 'fortran_order': " ++ Fo ++ str ", 'shape': (" ++ S ++
        str "), }" ++ tail ++ 0 :: z = (str "{'descr': '" ++ [e, t] ++ E ++ str "', " ++ str "'fortran_order': ") ++ (Fo ++
        (str ", 'shape': (" ++ (S ++ (str "), }" ++ (tail ++ 0 :: z))))) := by
      rw [show str "', 'fortran_order': " = str "', " ++ str "'fortran_order': " from rfl]
      simp only [List.append_assoc]
    rw [this]
    exact List.drop_left' (List.length_append ..)
  -- 'shape'
  have i3 : strstr (str "'shape': ") (dictText m ++ tail) =
      some (str "{'descr': '" ++ [e, t] ++ E ++ str "', 'fortran_order': " ++ Fo ++ str ", ").length := by
    have := strstr_append₂ (c := 39) (d := 115) (n := str "hape': ")
      (str "{'descr': '" ++ [e, t] ++ E ++ str "', 'fortran_order': " ++ Fo ++ str ", ")
      (t := str "(" ++ S ++ str "), }" ++ tail) (by
        rw [show str "{'descr': '" ++ [e, t] ++ E ++ str "', 'fortran_order': " ++ Fo ++ str ", " ++ [39] =
          (str "{'descr': '" ++ [e, t] ++ E) ++ (str "', 'fortran_order': " ++ Fo ++ str ", " ++ [39]) by
            simp only [List.append_assoc]]
        refine noPair_append (np 115 (.inr rfl)) ?_ ?_
        · rw [hFo]; split_ifs <;> decide
        · intro y hy
          rw [show str "', 'fortran_order': " = 39 :: str ", 'fortran_order': " from rfl] at hy
          simp only [List.cons_append, List.head?_cons, Option.mem_def, Option.some.injEq] at hy
          rw [← hy]; decide)
    rw [← this, hdict, show str ", 'shape': (" = str ", " ++ str "'shape': " ++ str "(" from rfl,
      show str "'shape': " = 39 :: 115 :: str "hape': " from rfl]
    simp only [List.append_assoc]
  have f3 : findHeaderItem (str "'shape': ") (dictText m ++ tail ++ 0 :: z) = some (40 :: (S ++ (41 :: (str ", }" ++
      (tail ++ 0 :: z))))) := by
    rw [findHeaderItem, hcs, i3, Option.map_some, hdict]
    congr 1
    have : str "{'descr': '" ++ [e, t] ++ E ++ str "', 'fortran_order': " ++ Fo ++ str ", 'shape': (" ++ S ++
        str "), }" ++ tail ++ 0 :: z = (str "{'descr': '" ++ [e, t] ++ E ++ str "', 'fortran_order': " ++ Fo ++ str ", " ++
        str "'shape': ") ++ (40 :: (S ++ (41 :: (str ", }" ++ (tail ++ 0 :: z))))) := by
      rw [show str ", 'shape': (" = str ", " ++ str "'shape': " ++ [40] from rfl, show str "), }" = [41] ++ str ", }" from rfl]
      simp only [List.append_assoc, List.cons_append, List.nil_append]
    rw [this]
    exact List.drop_left' (List.length_append ..)
  -- put together
  have hsh : shapeLoop (40 :: (S ++ (41 :: (str ", }" ++ (tail ++ 0 :: z))))) [] = .ok dims := by
    rw [shapeLoop_skip (by decide) rfl, hS, hsl]
  have hel : strtol (cstr (E ++ (39 :: (str ", 'fortran_order': " ++ (Fo ++ (str ", 'shape': (" ++ (S ++ (str "), }" ++
      (tail ++ 0 :: z))))))))) = m.elemSize := by
    have hE0 : ∀ c ∈ E, (c != 0) = true := fun c hc => by
      simp only [bne_iff_ne]; exact digit_ne (hEdig c hc) rfl
    rw [cstr, List.takeWhile_append_of_pos hE0, List.takeWhile_cons]
    simp only [show ((39 : UInt8) != 0) = true from rfl, if_true]
    exact strtol_dec he1 (by simp; rfl)
  have hfo : (str "True").isPrefixOf (cstr (Fo ++ (str ", 'shape': (" ++ (S ++ (str "), }" ++ (tail ++ 0 :: z)))))) = m.fortran := by
    have hF0 : ∀ c ∈ Fo, (c != 0) = true := by
      rw [hFo]; split_ifs <;> decide
    rw [cstr, List.takeWhile_append_of_pos hF0, hFo]
    cases m.fortran <;> rfl
  have hem : (((m.elemSize : Int)).emod (2 ^ 64)).toNat = m.elemSize := by
    have : ((m.elemSize : Int)).emod (2 ^ 64) = m.elemSize := Int.emod_eq_of_lt (by omega) (by norm_num; omega)
    rw [this, Int.toNat_natCast]
  obtain ⟨c2, hc2⟩ : ∃ c, byteAt (e :: t :: (E ++ (39 :: (str ", 'fortran_order': " ++ (Fo ++ (str ", 'shape': (" ++ (S ++
      (str "), }" ++ (tail ++ 0 :: z))))))))) 2 = .ok c := by
    obtain ⟨c, s, hs, -⟩ := dec_cons m.elemSize
    rw [hE, hs]
    exact ⟨c, rfl⟩
  simp only [parseHeader, f1, f2, f3, assertPtr, bind, Except.bind, pure, Except.pure,
    show byteAt (e :: t :: (E ++ (39 :: (str ", 'fortran_order': " ++ (Fo ++ (str ", 'shape': (" ++ (S ++ (str "), }" ++
      (tail ++ 0 :: z))))))))) 0 = .ok e from rfl,
    show byteAt (e :: t :: (E ++ (39 :: (str ", 'fortran_order': " ++ (Fo ++ (str ", 'shape': (" ++ (S ++ (str "), }" ++
      (tail ++ 0 :: z))))))))) 1 = .ok t from rfl, hc2, List.drop_succ_cons, List.drop_zero, hel, hem, he0, if_true, hsh,
    hfo]
  rw [if_pos (by rcases hg with h | h | h <;> simp [h])]

theorem parseHeader_dict_any {m : NpyArray} (hm : m.WF) (tail : Bytes) (ht : (0 : UInt8) ∉ tail) (z : Bytes) :
    parseHeader (dictText m ++ tail ++ 0 :: z) = .ok (headerArray m) := by
  obtain ⟨hs, hn, hdims, ⟨he0, he1⟩, htc⟩ := hm
  have hlen : (m.shape.take m.ndim).length = m.ndim := by rw [List.length_take, hs]; omega
  rw [parseHeader_text he0 he1 htc (m.shape.take m.ndim) (fun h => by
    rcases shapeText_chars _ hdims _ h with h | h <;> exact absurd h (by decide)) (fun rest => by
      rw [shapeLoop_text _ hdims _ _ (by rw [hlen]; simp; omega), List.nil_append]) tail ht z, hlen]
  rfl

theorem parseHeader_dict {m : NpyArray} (hm : m.WF) (tail : Bytes) (ht : (0 : UInt8) ∉ tail) :
    parseHeader (dictText m ++ tail ++ [0]) = .ok (headerArray m) := parseHeader_dict_any hm tail ht []

/-! ### Sizes -/

theorem countElements_eq (ds rest : List Nat) (hpos : ∀ d ∈ ds, 0 < d) (acc : Nat) (hrest : rest ≠ [])
    (hlt : acc * ds.prod < 2 ^ 64) : countElements (ds ++ rest) ds.length acc = .ok (acc * ds.prod) := by
  induction ds generalizing acc with
  | nil =>
    cases rest with
    | nil => exact absurd rfl hrest
    | cons d ds => simp [countElements]; rfl
  | cons d ds ih =>
    have hd := hpos d (by simp)
    have hp : 0 < ds.prod := List.prod_pos (fun x hx => hpos x (List.mem_cons_of_mem _ hx))
    rw [List.prod_cons, ← Nat.mul_assoc] at hlt
    have h1 : acc * d < 2 ^ 64 := lt_of_le_of_lt (Nat.le_mul_of_pos_right _ hp) hlt
    rw [List.cons_append, countElements, List.length_cons, if_pos ⟨hd, by omega⟩, Nat.mod_eq_of_lt h1, Nat.add_sub_cancel,
      ih (fun x hx => hpos x (List.mem_cons_of_mem _ hx)) _ hlt, List.prod_cons, Nat.mul_assoc]

theorem shapeElements_eq (ds : List Nat) (k : Nat) (hpos : ∀ d ∈ ds, 0 < d) (acc : Nat)
    (hlt : acc * ds.prod < 2 ^ 64) : shapeElements (ds ++ List.replicate k 0) acc = acc * ds.prod := by
  induction ds generalizing acc with
  | nil => cases k <;> simp [shapeElements, List.replicate_succ]
  | cons d ds ih =>
    have hd := hpos d (by simp)
    have hp : 0 < ds.prod := List.prod_pos (fun x hx => hpos x (List.mem_cons_of_mem _ hx))
    rw [List.prod_cons, ← Nat.mul_assoc] at hlt
    have h1 : acc * d < 2 ^ 64 := lt_of_le_of_lt (Nat.le_mul_of_pos_right _ hp) hlt
    rw [List.cons_append, shapeElements, if_pos hd, Nat.mod_eq_of_lt h1, ih (fun x hx => hpos x (List.mem_cons_of_mem _ hx)) _ hlt,
      List.prod_cons, Nat.mul_assoc]

end NN
