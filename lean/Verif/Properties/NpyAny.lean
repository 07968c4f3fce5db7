import Verif.Properties.NpyUnmap
/-
C86: reading arbitrary bytes as an array.
-/
namespace NN
open NpyUnmap (bind_ok)
namespace NpyAny

/-- What a run may end with. -/
def Ends {α : Type} (fs : List Fault) (x : M α) : Prop := ∀ e, x = .error e → e ∈ fs

theorem Ends.bind {α β : Type} {fs : List Fault} {x : M α} {f : α → M β} (hx : Ends fs x) (hf : ∀ a, x = .ok a → Ends fs (f a)) :
    Ends fs (x >>= f) := by
  cases x with
  | error e => intro e' h; cases h; exact hx e rfl
  | ok a => exact hf a rfl

theorem Ends.ok {α : Type} {fs : List Fault} {a : α} : Ends fs (pure a : M α) := by intro e h; cases h

theorem Ends.error {α : Type} {fs : List Fault} {e : Fault} (h : e ∈ fs) : Ends fs (.error e : M α) := by intro e' h'; cases h'; exact h

theorem strstr_some {n : Bytes} : ∀ {s : Bytes} {i : Nat}, strstr n s = some i → ∃ a b, s = a ++ n ++ b ∧ a.length = i
  | [], i, h => by
    rw [strstr] at h
    split at h
    · next e => cases h; exact ⟨[], [], by simp [e], rfl⟩
    · cases h
  | x :: xs, i, h => by
    rw [strstr] at h
    split at h
    · next e => cases h; obtain ⟨b, hb⟩ := e; exact ⟨[], b, by simp [hb], rfl⟩
    · cases h2 : strstr n xs with
      | none => rw [h2] at h; cases h
      | some j =>
        rw [h2] at h
        cases h
        obtain ⟨a, b, hab, ha⟩ := strstr_some h2
        exact ⟨x :: a, b, by simp [hab], by simp [ha]⟩

theorem strstr_none {n : Bytes} : ∀ {s : Bytes}, ¬ n <:+: s → strstr n s = none
  | [], h => by rw [strstr, if_neg (fun e : n = [] => h (by rw [e]; exact List.infix_rfl))]
  | x :: xs, h => by
    rw [strstr_skip (fun e => h e.isInfix), strstr_none (fun e => h (e.trans (List.suffix_cons x xs).isInfix))]
    rfl

/-- The string in the header buffer is the beginning of the header. -/
theorem cstr_prefix (hd : Bytes) : ∃ r, hd = cstr (hd ++ [0]) ++ r := by
  have h : cstr (hd ++ [0]) <+: hd := by
    rw [cstr]
    induction hd with
    | nil => exact ⟨[], rfl⟩
    | cons x xs ih =>
      rw [List.cons_append, List.takeWhile_cons]
      split
      · exact List.cons_prefix_cons.2 ⟨rfl, ih⟩
      · exact List.nil_prefix
  obtain ⟨r, hr⟩ := h
  exact ⟨r, hr.symm⟩

theorem find_some {item hd t : Bytes} (h : findHeaderItem item (hd ++ [0]) = some t) : ∃ a b, hd = a ++ item ++ b ∧ t = b ++ [0] := by
  rw [findHeaderItem, Option.map_eq_some_iff] at h
  obtain ⟨i, h1, h2⟩ := h
  obtain ⟨a, b, hab, ha⟩ := strstr_some h1
  obtain ⟨r, hr⟩ := cstr_prefix hd
  rw [hab] at hr
  refine ⟨a, b ++ r, by rw [hr, List.append_assoc], ?_⟩
  rw [← h2, hr, List.append_assoc (a ++ item), List.append_assoc (a ++ item), List.drop_left' (by simp [ha])]

theorem find_none {item hd : Bytes} (h : ¬ item <:+: hd) : findHeaderItem item (hd ++ [0]) = none := by
  rw [findHeaderItem, strstr_none]
  · rfl
  · obtain ⟨r, hr⟩ := cstr_prefix hd
    exact fun e => h (e.trans ⟨[], r, by rw [List.nil_append, ← hr]⟩)

theorem ends_assertPtr {α : Type} {fs : List Fault} (h : Fault.assertFail ∈ fs) (x : Option α) : Ends fs (assertPtr x) := by
  cases x with
  | none => exact .error h
  | some a => exact .ok

theorem ends_byteAt {fs : List Fault} {s : Bytes} {i : Nat} (h : .oob ∈ fs ∨ i < s.length) : Ends fs (byteAt s i) := by
  rw [byteAt]
  rcases h with h | h
  · cases s[i]? with
    | none => exact .error h
    | some c => exact .ok
  · rw [List.getElem?_eq_getElem h]; exact .ok

theorem ends_shape {fs : List Fault} (ha : .assertFail ∈ fs) (s : Bytes) (dims : List Nat) (h : .oob ∈ fs ∨ 41 ∈ s) :
    Ends fs (shapeLoop s dims) := by
  induction s, dims using shapeLoop.induct with
  | case1 dims =>
    rw [shapeLoop]
    rcases h with h | h
    · exact .error h
    · simp at h
  | case2 dims cs => rw [shapeLoop, if_pos rfl]; exact .ok
  | case3 c cs dims h1 h2 dims' h3 ih =>
    rw [shapeLoop, if_neg h1, if_pos h2, if_pos h3]
    refine ih (h.imp id fun h => ?_)
    have hm : (41 : UInt8) ∈ cs := by
      rcases List.mem_cons.1 h with h | h
      · exact absurd h.symm h1
      · exact h
    rw [← List.takeWhile_append_dropWhile (p := isDigit) (l := cs)] at hm
    rcases List.mem_append.1 hm with h | h
    · exact absurd (List.all_eq_true.1 (List.all_takeWhile (p := isDigit) (l := cs)) 41 h) (by decide)
    · exact h
  | case4 c cs dims h1 h2 dims' h3 => rw [shapeLoop, if_neg h1, if_pos h2, if_neg h3]; exact .error ha
  | case5 c cs dims h1 h2 ih =>
    rw [shapeLoop, if_neg h1, if_neg h2]
    refine ih (h.imp id fun h => ?_)
    rcases List.mem_cons.1 h with h | h
    · exact absurd h.symm h1
    · exact h

theorem ends_parse {fs : List Fault} (ha : .assertFail ∈ fs) (hd : Bytes)
    (h1 : .oob ∈ fs ∨ ∀ a b, hd = a ++ str "'descr': '" ++ b → 2 ≤ b.length)
    (h2 : .oob ∈ fs ∨ ∀ a b, hd = a ++ str "'shape': " ++ b → 41 ∈ b) : Ends fs (parseHeader (hd ++ [0])) := by
  rw [parseHeader]
  refine (ends_assertPtr ha _).bind fun descr e => ?_
  have hl : .oob ∈ fs ∨ 2 < descr.length := by
    refine h1.imp id fun h => ?_
    cases hf : findHeaderItem (str "'descr': '") (hd ++ [0]) with
    | none => rw [hf] at e; cases e
    | some t =>
      rw [hf] at e; cases e
      obtain ⟨a, b, hab, ht⟩ := find_some hf
      have := h a b hab
      rw [ht, List.length_append]
      simp; omega
  refine (ends_byteAt (hl.imp id fun h => by omega)).bind fun c _ => ?_
  refine (ends_byteAt (hl.imp id fun h => by omega)).bind fun t _ => ?_
  refine (ends_byteAt (hl.imp id fun h => by omega)).bind fun t2 _ => ?_
  dsimp only
  split
  · refine (ends_assertPtr ha _).bind fun fo _ => ?_
    refine (ends_assertPtr ha _).bind fun sh e => ?_
    refine (ends_shape ha _ _ (h2.imp id fun h => ?_)).bind fun dims _ => .ok
    cases hf : findHeaderItem (str "'shape': ") (hd ++ [0]) with
    | none => rw [hf] at e; cases e
    | some t =>
      rw [hf] at e; cases e
      obtain ⟨a, b, hab, ht⟩ := find_some hf
      rw [ht]
      exact List.mem_append_left _ (h a b hab)
  · exact .error ha

/-- The header of a file, as `_read_matrix` takes it. -/
def header (s : Bytes) : Bytes := (s.drop 10).take (headerLength (s.getD 8 0) (s.getD 9 0))

theorem ends_read {fs : List Fault} (ha : .assertFail ∈ fs) (mapped : Bool) (mem : Nat → Bool) (s : Bytes)
    (hm : mapped = true → .uninit ∈ fs ∨ 10 ≤ s.length ∧ 10 + headerLength (s.getD 8 0) (s.getD 9 0) ≤ s.length)
    (h1 : .oob ∈ fs ∨ ∀ a b, header s = a ++ str "'descr': '" ++ b → 2 ≤ b.length)
    (h2 : .oob ∈ fs ∨ ∀ a b, header s = a ++ str "'shape': " ++ b → 41 ∈ b) : Ends fs (readMatrix mapped mem s) := by
  have hrb : ∀ (n : Nat) (t : Bytes), (mapped = true → .uninit ∈ fs ∨ n ≤ t.length) → Ends fs (readBytes mapped n t) := by
    intro n t h
    rw [readBytes]
    split
    · exact .ok
    · next hn =>
      split
      · next hmp =>
        rcases h hmp with h | h
        · exact .error h
        · exact absurd h hn
      · exact .ok
  have key : ∀ hd r, header s = hd → Ends fs (if mem 104 then do
          let m ← parseHeader (hd ++ [0])
          if mapped then pure (some { m with data := r, mapped := true })
          else
            let size := shapeElements m.shape 1 * m.elemSize % 2 ^ 64
            if mem size then
              match ← readBytes false size r with
              | none => pure none
              | some (data, _) => pure (some { m with data := data })
            else pure none
        else pure none : M (Option NpyArray)) := by
    intro hd r hhd
    split
    · refine (ends_parse ha hd (hhd ▸ h1) (hhd ▸ h2)).bind fun m _ => ?_
      split
      · exact .ok
      · dsimp only
        split
        · refine Ends.bind ?_ fun x _ => ?_
          · intro e he
            rw [readBytes] at he
            split at he
            · cases he
            · simp only [Bool.false_eq_true, if_false] at he; cases he
          · cases x with
            | none => exact .ok
            | some x => exact .ok
        · exact .ok
    · exact .ok
  rw [readMatrix]
  refine Ends.bind (hrb 10 s fun h => (hm h).imp id And.left) fun x hx => ?_
  cases x with
  | none => exact .ok
  | some x =>
    rw [readBytes] at hx
    split at hx
    · next hl =>
      cases hx
      have e8 : (s.take 10).getD 8 0 = s.getD 8 0 := by
        simp only [List.getD_eq_getElem?_getD, List.getElem?_take]
        rfl
      have e9 : (s.take 10).getD 9 0 = s.getD 9 0 := by
        simp only [List.getD_eq_getElem?_getD, List.getElem?_take]
        rfl
      dsimp only
      split
      · exact .ok
      · split
        · exact .ok
        · rw [e8, e9]
          refine Ends.bind (hrb _ _ fun h => (hm h).imp id fun h => ?_) fun y hy => ?_
          · rw [List.length_drop]; omega
          · cases y with
            | none => exact .ok
            | some y =>
              rw [readBytes] at hy
              split at hy
              · cases hy
                exact key _ _ rfl
              · split at hy <;> cases hy
    · split at hx <;> cases hx

end NpyAny
open NpyAny

/-- **C86** Loading any bytes whatsoever ends with an array, NULL, a failed assertion, or a read outside the header; mapping them can
also use an uninitialised buffer.  Nothing else can go wrong, and the loops end. -/
theorem C86_outcomes (mem : Nat → Bool) (s : Bytes) :
    Ends [.assertFail, .oob] (readMatrix false mem s) ∧ Ends [.assertFail, .oob, .uninit] (readMatrix true mem s) :=
  ⟨ends_read (by simp) false mem s (fun h => by cases h) (.inl (by simp)) (.inl (by simp)),
    ends_read (by simp) true mem s (fun _ => .inl (by simp)) (.inl (by simp)) (.inl (by simp))⟩

/-- **C86** When the header is good enough, nothing is read outside it: two characters after the type key, and a closing parenthesis
after the key of the shape.  Then only an assertion can fail (and mapping is as safe as loading if the file holds the header). -/
theorem C86_safe_partial (mapped : Bool) (mem : Nat → Bool) (s : Bytes)
    (hm : mapped = true → 10 ≤ s.length ∧ 10 + headerLength (s.getD 8 0) (s.getD 9 0) ≤ s.length)
    (h1 : ∀ a b, header s = a ++ str "'descr': '" ++ b → 2 ≤ b.length)
    (h2 : ∀ a b, header s = a ++ str "'shape': " ++ b → 41 ∈ b) : Ends [.assertFail] (readMatrix mapped mem s) :=
  ends_read (by simp) mapped mem s (fun h => .inr (hm h)) (.inr h1) (.inr h2)

theorem NpyAny.read_header (mapped : Bool) (mem : Nat → Bool) (hmem : mem 104 = true) (minor : UInt8) (hd rest : Bytes)
    (hl : hd.length < 128) {e : Fault} (he : parseHeader (hd ++ [0]) = .error e) :
    readMatrix mapped mem ((0x93 :: str "NUMPY") ++ [1, minor] ++ [hd.length.toUInt8, 0] ++ (hd ++ rest)) = .error e := by
  rw [readMatrix, readBytes_append mapped (n := 10) (by rfl)]
  simp only [bind, Except.bind]
  rw [if_neg (by intro h; exact h rfl), if_neg (by intro h; exact h rfl)]
  have h8 : ((0x93 :: str "NUMPY") ++ [1, minor] ++ [hd.length.toUInt8, 0]).getD 8 0 = (hd.length % 256).toUInt8 := by
    rw [Nat.mod_eq_of_lt (by omega)]; rfl
  have h9 : ((0x93 :: str "NUMPY") ++ [1, minor] ++ [hd.length.toUInt8, 0]).getD 9 0 = (hd.length / 256).toUInt8 := by
    rw [Nat.div_eq_of_lt (by omega)]; rfl
  rw [h8, h9, headerLength_eq (by omega) (by omega), readBytes_append mapped rfl]
  simp only [hmem, if_true, he]

/-- **C86** A file of ten bytes or more that does not begin with the six bytes 0x93 NUMPY, or whose version is not 1, is refused,
by either reader; a shorter one is refused by `npy_array_load`. -/
theorem C86_magic (mapped : Bool) (mem : Nat → Bool) (s : Bytes) :
    (10 ≤ s.length → ¬ (0x93 :: str "NUMPY") <+: s ∨ s[6]? ≠ some 1 → readMatrix mapped mem s = .ok none) ∧
    (s.length < 10 → readMatrix false mem s = .ok none) := by
  refine ⟨fun hl h => ?_, fun hl => ?_⟩
  · have hr : readBytes mapped 10 s = .ok (some (s.take 10, s.drop 10)) := by rw [readBytes, if_pos hl]; rfl
    simp only [readMatrix, hr, bind, Except.bind]
    have ht : (s.take 10).take 6 = s.take 6 := by rw [List.take_take]; rfl
    have h6 : (s.take 10)[6]? = s[6]? := List.getElem?_take_of_lt (by norm_num)
    rw [ht, h6]
    rcases h with h | h
    · rw [if_pos]
      · rfl
      · intro e
        exact h ⟨s.drop 6, by rw [← show npyMagic = 0x93 :: str "NUMPY" from rfl, ← e, List.take_append_drop]⟩
    · rw [if_pos h]
      split <;> rfl
  · have hr : readBytes false 10 s = .ok none := by rw [readBytes, if_neg (by omega)]; rfl
    simp only [readMatrix, hr, bind, Except.bind]
    rfl

/-- A text file. -/
example (mem : Nat → Bool) : readMatrix true mem (str "0.5 0.25 0.125") = .ok none :=
  (C86_magic true mem _).1 (by decide) (.inl (by decide))

/-- **C86** A file without one of the keys: the assertion fails (whatever follows the header), so the program that reads it ends. -/
theorem C86_no_key (mapped : Bool) (mem : Nat → Bool) (hmem : mem 104 = true) (minor : UInt8) (hd rest : Bytes) (hl : hd.length < 128)
    (hk : ¬ str "'descr': '" <:+: hd) :
    readMatrix mapped mem ((0x93 :: str "NUMPY") ++ [1, minor] ++ [hd.length.toUInt8, 0] ++ (hd ++ rest)) = .error .assertFail := by
  refine read_header mapped mem hmem minor hd rest hl ?_
  rw [parseHeader, find_none hk]
  rfl

/-- **C86 is false** without the condition on the type: if the header ends with the key, the type is read behind the buffer. -/
theorem C86_descr_false (mapped : Bool) (mem : Nat → Bool) (hmem : mem 104 = true) (minor : UInt8) (pad rest : Bytes)
    (hq : (39 : UInt8) ∉ pad) (h0 : (0 : UInt8) ∉ pad) (hl : pad.length < 100) :
    readMatrix mapped mem ((0x93 :: str "NUMPY") ++ [1, minor] ++ [(pad ++ str "'descr': '").length.toUInt8, 0] ++
      ((pad ++ str "'descr': '") ++ rest)) = .error .oob := by
  refine read_header mapped mem hmem minor _ rest (by
    rw [List.length_append]
    have : (str "'descr': '").length = 10 := by decide
    omega) ?_
  have hc : cstr (pad ++ str "'descr': '" ++ [0]) = pad ++ str "'descr': '" := by
    rw [cstr, List.append_assoc, List.takeWhile_append_of_pos (fun x hx => by
      simp only [bne_iff_ne, ne_eq]
      rintro rfl
      exact h0 hx)]
    congr 1
  have hf : findHeaderItem (str "'descr': '") (pad ++ str "'descr': '" ++ [0]) = some [0] := by
    rw [findHeaderItem, hc]
    have := strstr_append (c := 39) (n := str "descr': '") pad (t := []) hq
    rw [List.append_nil] at this
    rw [show str "'descr': '" = 39 :: str "descr': '" by decide, this]
    rw [Option.map_some, List.drop_left' (by rw [List.length_append])]
  rw [parseHeader, hf]
  rfl

/-- **C86 is false** without the closing parenthesis: the loop over a description that is complete except for it runs over the end of the
header. -/
theorem C86_shape_false (mapped : Bool) (mem : Nat → Bool) (hmem : mem 104 = true) (minor : UInt8) (rest : Bytes) :
    readMatrix mapped mem ((0x93 :: str "NUMPY") ++ [1, minor] ++
      [(str "{'descr': '<f4', 'fortran_order': False, 'shape': (2,3").length.toUInt8, 0] ++
      (str "{'descr': '<f4', 'fortran_order': False, 'shape': (2,3" ++ rest)) = .error .oob := by
  refine read_header mapped mem hmem minor _ rest (by decide) ?_
  have f1 : findHeaderItem (str "'descr': '") (str "{'descr': '<f4', 'fortran_order': False, 'shape': (2,3" ++ [0]) =
      some (str "<f4', 'fortran_order': False, 'shape': (2,3" ++ [0]) := by decide
  have f2 : findHeaderItem (str "'fortran_order': ") (str "{'descr': '<f4', 'fortran_order': False, 'shape': (2,3" ++ [0]) =
      some (str "False, 'shape': (2,3" ++ [0]) := by decide
  have f3 : findHeaderItem (str "'shape': ") (str "{'descr': '<f4', 'fortran_order': False, 'shape': (2,3" ++ [0]) =
      some (str "(2,3" ++ [0]) := by decide
  have hs : shapeLoop (str "(2,3" ++ [0]) [] = .error .oob := by
    rw [show str "(2,3" ++ [0] = [40, 50, 44, 51, 0] by decide]
    rw [shapeLoop, if_neg (by decide), if_neg (by decide), shapeLoop, if_neg (by decide), if_pos (by decide)]
    dsimp only
    rw [if_pos (by decide), show List.dropWhile isDigit ([44, 51, 0] : Bytes) = [44, 51, 0] by decide,
      shapeLoop, if_neg (by decide), if_neg (by decide), shapeLoop, if_neg (by decide), if_pos (by decide)]
    dsimp only
    rw [if_pos (by simp), show List.dropWhile isDigit ([0] : Bytes) = [0] by decide, shapeLoop, if_neg (by decide), if_neg (by decide),
      shapeLoop]
  rw [parseHeader, f1, f2, f3]
  have hz : (0 : Nat) < ((strtol (cstr ((str "<f4', 'fortran_order': False, 'shape': (2,3" ++ [0]).drop 2))).emod (2 ^ 64)).toNat := by
    decide
  have b0 : byteAt (str "<f4', 'fortran_order': False, 'shape': (2,3" ++ [0]) 0 = .ok 60 := by decide
  have b1 : byteAt (str "<f4', 'fortran_order': False, 'shape': (2,3" ++ [0]) 1 = .ok 102 := by decide
  have b2 : byteAt (str "<f4', 'fortran_order': False, 'shape': (2,3" ++ [0]) 2 = .ok 52 := by decide
  simp only [assertPtr, b0, b1, b2, bind, Except.bind, pure, Except.pure, hs, if_pos hz]

/-! ### Examples -/

/-- The header of the last theorem with its parenthesis. -/
def goodHeader : Bytes := str "{'descr': '<f4', 'fortran_order': False, 'shape': (2,3)"

/-- The conditions of `C86_safe_partial` hold for a file with this header and no data. -/
example (mem : Nat → Bool) : Ends [.assertFail]
    (readMatrix true mem ((0x93 :: str "NUMPY") ++ [1, 0] ++ [goodHeader.length.toUInt8, 0] ++ goodHeader)) := by
  have hh : header ((0x93 :: str "NUMPY") ++ [1, 0] ++ [goodHeader.length.toUInt8, 0] ++ goodHeader) = goodHeader := by decide
  refine C86_safe_partial true mem _ (fun _ => by decide) ?_ ?_
  · rw [hh]
    intro a b h
    rcases b with _ | ⟨x, _ | ⟨y, b⟩⟩
    · have : str "'descr': '" <:+ goodHeader := ⟨a, by rw [h]; simp⟩
      exfalso; revert this; decide
    · have : str "'descr': '" <:+ goodHeader.dropLast := ⟨a, by rw [h, List.dropLast_concat]⟩
      exfalso; revert this; decide
    · simp
  · rw [hh]
    intro a b h
    rcases List.eq_nil_or_concat b with rfl | ⟨b', x, rfl⟩
    · have : str "'shape': " <:+ goodHeader := ⟨a, by rw [h]; simp⟩
      exfalso; revert this; decide
    · have hx : goodHeader.getLast? = some x := by rw [h, List.concat_eq_append, ← List.append_assoc, List.getLast?_concat]
      have : goodHeader.getLast? = some 41 := by decide
      rw [this] at hx
      cases hx
      simp

/-- A header without keys. -/
example : readMatrix false (fun _ => true) ((0x93 :: str "NUMPY") ++ [1, 0] ++ [(str "{}").length.toUInt8, 0] ++ (str "{}" ++ [])) =
    .error .assertFail := C86_no_key false _ rfl 0 (str "{}") [] (by decide) (by decide)

/-- A header that ends with the key. -/
example : readMatrix false (fun _ => true) ((0x93 :: str "NUMPY") ++ [1, 0] ++ [(str "{" ++ str "'descr': '").length.toUInt8, 0] ++
    ((str "{" ++ str "'descr': '") ++ [1, 2, 3])) = .error .oob :=
  C86_descr_false false _ rfl 0 (str "{") [1, 2, 3] (by decide) (by decide) (by decide)

end NN
