import Verif.Proofs.SaveLoad
/-
The arrays written by `neuralnet_save`, and what they look like when they are read back.
-/
namespace NN

/-! ### Arrays that can be saved -/

theorem floatArray_dict {data : Bytes} {dims : List Nat} (hl : dims.length ≤ 2) (hd : ∀ d ∈ dims, d < 2 ^ 31) :
    (floatArray data dims).meaning.dict.length < 108 := by
  have hs : ((dims.map fun d => dec d ++ str ",").flatten).length ≤ 22 := by
    have h10 : ∀ d ∈ dims, (dec d ++ str ",").length ≤ 11 := by
      intro d h
      have := dec_length (n := d) (k := 10) (by norm_num) (by have := hd d h; omega)
      rw [List.length_append, show (str ",").length = 1 from rfl]; omega
    match dims, hl, h10 with
    | [], _, _ => simp
    | [a], _, h => simpa using (h a (by simp)).trans (by norm_num)
    | [a, b], _, h =>
      have h1 := h a (by simp)
      have h2 := h b (by simp)
      simp only [List.map_cons, List.map_nil, List.flatten_cons, List.flatten_nil, List.length_append, List.length_nil] at h1 h2 ⊢
      omega
  have e : ((floatArray data dims).shape.take (floatArray data dims).ndim) = dims := by
    simp [floatArray]
  simp only [Spec.Array.dict, NpyArray.meaning, e, List.length_append]
  have h4 : (dec 4).length = 1 := by rw [dec_small (by decide)]; rfl
  rw [show (floatArray data dims).elemSize = 4 from rfl, h4, show (floatArray data dims).fortran = false from rfl]
  simp only [Bool.false_eq_true, if_false, List.length_cons, List.length_nil,
    show (str "{'descr': '").length = 11 from rfl, show (str "', 'fortran_order': ").length = 20 from rfl,
    show (str "False").length = 5 from rfl, show (str ", 'shape': (").length = 12 from rfl, show (str "), }").length = 4 from rfl]
  omega

theorem floatArray_savable {data : Bytes} {dims : List Nat} (hl : dims.length ≤ 2) (hd : ∀ d ∈ dims, 0 < d ∧ d < 2 ^ 31)
    (hp : dims.prod < 2 ^ 31) (hdata : data.length = dims.prod * 4) : (floatArray data dims).Savable := by
  have e : (floatArray data dims).shape.take (floatArray data dims).ndim = dims := by simp [floatArray]
  have hb : (floatArray data dims).meaning.nbytes = dims.prod * 4 := by
    simp only [Spec.Array.nbytes, NpyArray.meaning, e]; rfl
  refine ⟨⟨?_, ?_, ?_, ⟨by simp [floatArray], by simp [floatArray]⟩, by simp [floatArray]⟩, ?_, ?_, ?_,
    floatArray_dict hl fun d h => (hd d h).2⟩
  · simp only [floatArray, List.length_append, List.length_replicate]; omega
  · exact hl.trans (by norm_num)
  · rw [e]; exact fun d h => (hd d h).2
  · rw [e]; exact fun d h => (hd d h).1
  · rw [hb]; omega
  · rw [hb, ← hdata]; exact Nat.le_refl _

/-- The array of names when it does not overflow. -/
def namesArr (names : List Bytes) : NpyArray :=
  ⟨nameData (longestName names) names, [names.length] ++ List.replicate 7 0, 1, 0, 83, longestName names, false, false⟩

theorem longest_foldl (names : List Bytes) (m : Nat) :
    m ≤ names.foldl (fun m s => if m < s.length then s.length else m) m ∧
    (∀ s ∈ names, s.length ≤ names.foldl (fun m s => if m < s.length then s.length else m) m) ∧
    ∀ k, m ≤ k → (∀ s ∈ names, s.length ≤ k) → names.foldl (fun m s => if m < s.length then s.length else m) m ≤ k := by
  induction names generalizing m with
  | nil => simp
  | cons s names ih =>
    rw [List.foldl_cons]
    obtain ⟨h1, h2, h3⟩ := ih (if m < s.length then s.length else m)
    refine ⟨?_, ?_, ?_⟩
    · split_ifs at h1 ⊢ <;> omega
    · intro t ht
      rcases List.mem_cons.1 ht with rfl | ht
      · refine le_trans ?_ h1
        split_ifs <;> omega
      · exact h2 t ht
    · intro k hk hs
      refine h3 k ?_ fun t ht => hs t (List.mem_cons_of_mem _ ht)
      have := hs s (by simp)
      split_ifs <;> omega

theorem longest_ge {names : List Bytes} : ∀ s ∈ names, s.length ≤ longestName names := (longest_foldl names 0).2.1

theorem longest_le {names : List Bytes} {k : Nat} (h : ∀ s ∈ names, s.length ≤ k) : longestName names ≤ k :=
  (longest_foldl names 0).2.2 k (Nat.zero_le _) h

theorem nameData_length {w : Nat} {names : List Bytes} (h : ∀ s ∈ names, s.length ≤ w) :
    (nameData w names).length = names.length * w := by
  induction names with
  | nil => simp [nameData]
  | cons s names ih =>
    have h1 := h s (by simp)
    have := ih fun t ht => h t (List.mem_cons_of_mem _ ht)
    rw [nameData] at this
    rw [nameData, List.flatMap_cons, List.length_append, this, List.length_append, List.length_replicate, List.length_cons,
      Nat.add_mul, one_mul]
    omega

theorem namesArr_savable {names : List Bytes} (hne : names ≠ []) (h1 : ∀ s ∈ names, s ≠ []) {k : Nat} (hk : ∀ s ∈ names, s.length ≤ k)
    (hsmall : k * names.length < 2 ^ 31) : (namesArr names).Savable := by
  have hw1 : 1 ≤ longestName names := by
    obtain ⟨s, hs⟩ := List.exists_mem_of_ne_nil _ hne
    exact le_trans (List.length_pos_of_ne_nil (h1 s hs)) (longest_ge s hs)
  have hlen1 : 1 ≤ names.length := List.length_pos_of_ne_nil hne
  have hwk : longestName names ≤ k := longest_le hk
  have hk31 : k < 2 ^ 31 := lt_of_le_of_lt (Nat.le_mul_of_pos_right _ hlen1) hsmall
  have hn31 : names.length < 2 ^ 31 := lt_of_le_of_lt (Nat.le_mul_of_pos_left _ (by omega)) hsmall
  have e : (namesArr names).shape.take (namesArr names).ndim = [names.length] := by simp [namesArr]
  have hb : (namesArr names).meaning.nbytes = names.length * longestName names := by
    simp only [Spec.Array.nbytes, NpyArray.meaning, e, List.prod_singleton]; rfl
  have hle : names.length * longestName names < 2 ^ 31 := by
    rw [Nat.mul_comm]; exact lt_of_le_of_lt (Nat.mul_le_mul_right _ hwk) hsmall
  refine ⟨⟨by simp [namesArr], by simp [namesArr], ?_, ⟨hw1, ?_⟩, by simp [namesArr]⟩, ?_, ?_, ?_, ?_⟩
  · rw [e]; simpa using hn31
  · have : longestName names < 2 ^ 31 := by omega
    exact lt_of_lt_of_le this (by norm_num)
  · rw [e]; simp only [List.mem_singleton, forall_eq]; omega
  · rw [hb]; exact lt_of_lt_of_le hle (by norm_num)
  · rw [hb, ← nameData_length longest_ge]; exact Nat.le_refl _
  · have d1 := dec_length (n := names.length) (k := 10) (by norm_num) (by omega)
    have d2 := dec_length (n := longestName names) (k := 10) (by norm_num) (by omega)
    simp only [Spec.Array.dict, NpyArray.meaning, e, List.length_append]
    rw [show (namesArr names).elemSize = longestName names from rfl, show (namesArr names).fortran = false from rfl]
    simp only [Bool.false_eq_true, if_false, List.length_cons, List.length_nil, List.map_cons, List.map_nil, List.flatten_cons,
      List.flatten_nil, List.length_append,
      show (str "{'descr': '").length = 11 from rfl, show (str "', 'fortran_order': ").length = 20 from rfl,
      show (str "False").length = 5 from rfl, show (str ", 'shape': (").length = 12 from rfl, show (str "), }").length = 4 from rfl,
      show (str ",").length = 1 from rfl]
    omega

/-! ### Names of members -/

theorem dec_injective {i j : Nat} (h : dec i = dec j) : i = j := by
  rw [← dec_foldl i, h, dec_foldl]

theorem member_good {lib : ZipLib} (hlib : lib.Lawful) {p : Bytes} (hne : p ≠ []) (hp : ∀ c ∈ p, 32 ≤ c ∧ c < 127 ∧ c ≠ 37)
    (hl : p.length ≤ 60) {i : Nat} (hi : i < 2 ^ 31) : GoodName lib (p ++ dec i) := by
  have hd : ∀ c ∈ dec i, 32 ≤ c ∧ c < 127 ∧ c ≠ 37 := by
    intro c hc
    have h := isDigit_iff.1 (dec_digits i c hc)
    refine ⟨UInt8.le_iff_toNat_le.2 ?_, UInt8.lt_iff_toNat_lt.2 ?_, ?_⟩
    · exact le_trans (by decide) h.1
    · exact lt_of_le_of_lt h.2 (by decide)
    · rintro rfl; exact absurd h.1 (by decide)
  have hall : ∀ c ∈ p ++ dec i, 32 ≤ c ∧ c < 127 ∧ c ≠ 37 := by
    intro c hc
    rcases List.mem_append.1 hc with hc | hc
    · exact hp c hc
    · exact hd c hc
  refine ⟨hlib.ascii _ (by simp [hne]) fun c hc => ⟨(hall c hc).1, (hall c hc).2.1⟩, ?_, ?_, ?_⟩
  · have := dec_length (n := i) (k := 10) (by norm_num) (by omega)
    rw [List.length_append]; omega
  · intro h; exact absurd (hall 0 h).1 (by decide)
  · intro h; exact (hall 37 h).2.2 rfl

theorem saveLayers_good {F : Type} {bits : FloatBits F} (hb : bits.Lawful) {lib : ZipLib} (hlib : lib.Lawful) :
    ∀ (ls : List (Layer F)) (i : Nat), i + ls.length < 2 ^ 31 →
    (∀ l ∈ ls, 1 ≤ l.nIn ∧ 1 ≤ l.nOut ∧ l.nIn * l.nOut < 2 ^ 31 ∧ l.weight.data.length = l.nIn * l.nOut ∧ l.bias.data.length = l.nOut) →
    ∀ p ∈ saveLayers bits i ls, GoodName lib p.1 ∧ p.2.Savable := by
  intro ls
  induction ls with
  | nil => intro i _ _ p hp; simp [saveLayers] at hp
  | cons l ls ih =>
    intro i hi hls p hp
    obtain ⟨h1, h2, h3, h4, h5⟩ := hls l (by simp)
    have hin : l.nIn < 2 ^ 31 := lt_of_le_of_lt (Nat.le_mul_of_pos_right _ h2) h3
    have hout : l.nOut < 2 ^ 31 := lt_of_le_of_lt (Nat.le_mul_of_pos_left _ h1) h3
    rw [List.length_cons] at hi
    simp only [saveLayers, List.mem_cons] at hp
    rcases hp with rfl | rfl | hp
    · refine ⟨member_good hlib (by decide) (by decide) (by decide) (by omega), floatArray_savable (by simp) ?_ ?_ ?_⟩
      · simp only [List.mem_cons, List.not_mem_nil, or_false, forall_eq_or_imp, forall_eq]
        exact ⟨⟨h1, hin⟩, h2, hout⟩
      · simpa using h3
      · rw [encode_length hb, h4]; simp
    · refine ⟨member_good hlib (by decide) (by decide) (by decide) (by omega), floatArray_savable (by simp) ?_ ?_ ?_⟩
      · simpa using ⟨h2, hout⟩
      · simpa using hout
      · rw [encode_length hb, h5]; simp
    · exact ih (i + 1) (by omega) (fun l hl => hls l (List.mem_cons_of_mem _ hl)) p hp

theorem saveLayers_names {F : Type} (bits : FloatBits F) : ∀ (ls : List (Layer F)) (i : Nat),
    ((saveLayers bits i ls).map Prod.fst).Nodup ∧
    ∀ s ∈ (saveLayers bits i ls).map Prod.fst, ∃ j, i ≤ j ∧ (s = str "weight_" ++ dec j ∨ s = str "bias_" ++ dec j) := by
  have hwb : ∀ j k, str "weight_" ++ dec j ≠ str "bias_" ++ dec k := by
    intro j k h
    have : (str "weight_" ++ dec j).head? = (str "bias_" ++ dec k).head? := by rw [h]
    exact absurd this (by simp [show str "weight_" = 119 :: str "eight_" from rfl, show str "bias_" = 98 :: str "ias_" from rfl])
  intro ls
  induction ls with
  | nil => intro i; simp [saveLayers]
  | cons l ls ih =>
    intro i
    obtain ⟨h1, h2⟩ := ih (i + 1)
    simp only [saveLayers, List.map_cons, List.nodup_cons, List.mem_cons, not_or]
    refine ⟨⟨⟨hwb i i, ?_⟩, ?_, h1⟩, ?_⟩
    · intro h
      obtain ⟨j, hj, e | e⟩ := h2 _ h
      · have := dec_injective (List.append_cancel_left e); omega
      · exact hwb i j e
    · intro h
      obtain ⟨j, hj, e | e⟩ := h2 _ h
      · exact hwb j i e.symm
      · have := dec_injective (List.append_cancel_left e); omega
    · rintro s (rfl | rfl | hs)
      · exact ⟨i, Nat.le_refl _, .inl rfl⟩
      · exact ⟨i, Nat.le_refl _, .inr rfl⟩
      · obtain ⟨j, hj, e⟩ := h2 s hs
        exact ⟨j, by omega, e⟩

theorem saveNames_nodup {F : Type} (bits : FloatBits F) (ls : List (Layer F)) (a : NpyArray) :
    ((saveLayers bits 0 ls ++ [(str "activations", a)]).map Prod.fst).Nodup := by
  obtain ⟨h1, h2⟩ := saveLayers_names bits ls 0
  rw [List.map_append, List.nodup_append]
  refine ⟨h1, by simp, ?_⟩
  intro s hs t ht
  simp only [List.map_cons, List.map_nil, List.mem_singleton] at ht
  subst ht
  rintro rfl
  obtain ⟨j, -, e | e⟩ := h2 _ hs
  · have : (str "activations").head? = (str "weight_" ++ dec j).head? := by rw [e]
    exact absurd this (by simp [show str "weight_" = 119 :: str "eight_" from rfl,
      show str "activations" = 97 :: str "ctivations" from rfl])
  · have : (str "activations").head? = (str "bias_" ++ dec j).head? := by rw [e]
    exact absurd this (by simp [show str "bias_" = 98 :: str "ias_" from rfl,
      show str "activations" = 97 :: str "ctivations" from rfl])

/-! ### Reading back -/

/-- Arrays with the contents of layers. -/
def Copies {F : Type} (bits : FloatBits F) : List (Layer F) → List NpyArray → Prop
  | [], [] => True
  | l :: ls, w :: b :: wb =>
    (Same w (floatArray (bits.encode l.weight.data) [l.nIn, l.nOut]) ∧ Same b (floatArray (bits.encode l.bias.data) [l.nOut])) ∧
      Copies bits ls wb
  | _, _ => False

theorem copies_of_saved {F : Type} (bits : FloatBits F) (a : Bytes × NpyArray) : ∀ (ls : List (Layer F)) (i : Nat)
    (r : List (Bytes × NpyArray)),
    List.Forall₂ (fun q p => q.1 = p.1 ∧ Same q.2 p.2) r (saveLayers bits i ls ++ [a]) →
    ∃ wb q, r.map Prod.snd = wb ++ [q] ∧ Same q a.2 ∧ Copies bits ls wb := by
  intro ls
  induction ls with
  | nil =>
    intro i r h
    rw [saveLayers, List.nil_append] at h
    cases h with
    | cons h1 h2 =>
      cases h2
      exact ⟨[], _, rfl, h1.2, trivial⟩
  | cons l ls ih =>
    intro i r h
    rw [saveLayers, List.cons_append, List.cons_append] at h
    cases h with
    | cons h1 h2 =>
      cases h2 with
      | cons h2 h3 =>
        obtain ⟨wb, q, e1, e2, e3⟩ := ih _ _ h3
        refine ⟨_ :: _ :: wb, q, ?_, e2, ⟨h1.2, h2.2⟩, e3⟩
        rw [List.map_cons, List.map_cons, e1]; rfl

theorem same_float {r : NpyArray} {data : Bytes} {dims : List Nat} (h : Same r (floatArray data dims))
    (hd : data.length = dims.prod * 4) :
    r.typechar = 102 ∧ r.fortran = false ∧ r.data = data ∧ ∀ i < dims.length, dim r i = dims.getD i 0 := by
  obtain ⟨h1, h2, -, h4⟩ := h
  have e : (floatArray data dims).shape.take (floatArray data dims).ndim = dims := by simp [floatArray]
  have e2 : (floatArray data dims).meaning.data = data := by
    simp only [NpyArray.meaning, e]
    rw [show (floatArray data dims).elemSize = 4 from rfl, ← hd]
    exact List.take_length
  refine ⟨congrArg Spec.Array.typechar h1, congrArg Spec.Array.fortran h1, by rw [h4, e2], ?_⟩
  intro i hi
  have hs : r.shape.take r.ndim = dims := by
    have := congrArg Spec.Array.dims h1
    simpa only [NpyArray.meaning, e] using this
  rw [show (floatArray data dims).ndim = dims.length from rfl] at h2
  rw [dim, List.getD_eq_getElem?_getD, List.getD_eq_getElem?_getD, ← hs, List.getElem?_take_of_lt (by omega)]

theorem shaped_of_copies {F : Type} {bits : FloatBits F} (hb : bits.Lawful) : ∀ (ls : List (Layer F)) (wb : List NpyArray),
    Chained ls → (∀ l ∈ ls, 1 ≤ l.nIn ∧ 1 ≤ l.nOut ∧ l.nIn * l.nOut < 2 ^ 31 ∧ l.weight.data.length = l.nIn * l.nOut ∧
      l.bias.data.length = l.nOut) → Copies bits ls wb → ∀ i, (∀ l ∈ ls.head?, l.nIn = i) → Shaped i wb
  | [], [], _, _, _, _, _ => trivial
  | [], _ :: _, _, _, h, _, _ => h.elim
  | l :: ls, [], _, _, h, _, _ => h.elim
  | l :: ls, [_], _, _, h, _, _ => h.elim
  | l :: ls, w :: b :: wb, hc, hls, ⟨⟨cw, cb⟩, h⟩, i, hi => by
    obtain ⟨h1, h2, h3, h4, h5⟩ := hls l (by simp)
    have hii : l.nIn = i := hi l (by simp)
    have hin : l.nIn < 2 ^ 31 := lt_of_le_of_lt (Nat.le_mul_of_pos_right _ h2) h3
    have hout : l.nOut < 2 ^ 31 := lt_of_le_of_lt (Nat.le_mul_of_pos_left _ h1) h3
    obtain ⟨w1, w2, w3, w4⟩ := same_float cw (by rw [encode_length hb, h4]; simp)
    obtain ⟨b1, b2, b3, b4⟩ := same_float cb (by rw [encode_length hb, h5]; simp)
    have d0 : dim w 0 = l.nIn := w4 0 (by simp)
    have d1 : dim w 1 = l.nOut := w4 1 (by simp)
    have d2 : dim b 0 = l.nOut := b4 0 (by simp)
    have hc' : Chained ls ∧ ∀ l' ∈ ls.head?, l'.nIn = l.nOut := by
      cases ls with
      | nil => exact ⟨trivial, by simp⟩
      | cons l' ls => exact ⟨hc.2, by simpa using hc.1.symm⟩
    refine ⟨⟨by rw [d0, hii], by omega, by omega, by rw [d1]; exact h2, by rw [d1]; exact hout, by rw [d1, ← hii]; exact h3, ?_, w2,
      by rw [d1, d2], ?_, b2⟩, ?_⟩
    · rw [w3, encode_length hb, h4, d1, hii]
    · rw [b3, encode_length hb, h5, d1]
    · exact shaped_of_copies hb ls wb hc'.1 (fun l hl => hls l (List.mem_cons_of_mem _ hl)) h _ (by rw [d1]; exact hc'.2)

theorem copies_length {F : Type} {bits : FloatBits F} : ∀ (ls : List (Layer F)) (wb : List NpyArray), Copies bits ls wb →
    wb.length = 2 * ls.length
  | [], [], _ => rfl
  | [], _ :: _, h => h.elim
  | l :: ls, [], h => h.elim
  | l :: ls, [_], h => h.elim
  | l :: ls, w :: b :: wb, h => by
    have := copies_length ls wb h.2
    simp only [List.length_cons, this]; omega

theorem copies_float {F : Type} {bits : FloatBits F} : ∀ (ls : List (Layer F)) (wb : List NpyArray), Copies bits ls wb →
    ∀ m ∈ wb, m.typechar = 102
  | [], [], _ => by simp
  | [], _ :: _, h => h.elim
  | l :: ls, [], h => h.elim
  | l :: ls, [_], h => h.elim
  | l :: ls, w :: b :: wb, h => by
    intro m hm
    simp only [List.mem_cons] at hm
    rcases hm with rfl | rfl | hm
    · exact congrArg Spec.Array.typechar h.1.1.1
    · exact congrArg Spec.Array.typechar h.1.2.1
    · exact copies_float ls wb h.2 m hm

theorem sortArrays_floats (mem : Nat → Bool) : ∀ (as : List NpyArray), (∀ m ∈ as, m.typechar = 102) → ∀ (ms wb : List NpyArray)
    (acts : Option (List Bytes)), sortArrays mem (as ++ ms) wb acts = sortArrays mem ms (wb ++ as) acts
  | [], _, ms, wb, acts => by rw [List.append_nil]; rfl
  | a :: as, h, ms, wb, acts => by
    rw [List.cons_append, sortArrays, if_pos (h a (by simp)),
      sortArrays_floats mem as (fun m hm => h m (List.mem_cons_of_mem _ hm))]
    simp

theorem names_fields {w : Nat} : ∀ (names : List Bytes), (∀ s ∈ names, s.length ≤ w ∧ 0 ∉ s) →
    (List.range names.length).map (fun i => cstr (((nameData w names).drop (i * w)).take w)) = names
  | [], _ => rfl
  | s :: names, h => by
    obtain ⟨h1, h2⟩ := h s (by simp)
    have hl : (s ++ List.replicate (w - s.length) (0 : UInt8)).length = w := by
      rw [List.length_append, List.length_replicate]; omega
    have e : nameData w (s :: names) = (s ++ List.replicate (w - s.length) 0) ++ nameData w names := rfl
    rw [List.length_cons, List.range_succ_eq_map, List.map_cons, List.map_map]
    congr 1
    · rw [Nat.zero_mul, List.drop_zero, e, List.take_left' hl, cstr]
      apply takeWhile_append_stop
      · intro c hc
        simp only [bne_iff_ne, ne_eq]
        rintro rfl; exact h2 hc
      · intro c hc
        have : c ∈ List.replicate (w - s.length) (0 : UInt8) := List.mem_of_mem_head? hc
        rw [List.eq_of_mem_replicate this]; rfl
    · have ih := names_fields names fun t ht => h t (List.mem_cons_of_mem _ ht)
      refine Eq.trans ?_ ih
      apply List.map_congr_left
      intro i _
      have : (i + 1) * w = w + i * w := by rw [Nat.add_mul, one_mul, Nat.add_comm]
      simp only [Function.comp_apply, Nat.succ_eq_add_one, this]
      rw [e, ← List.drop_drop, List.drop_left' hl]

theorem names_read {mem : Nat → Bool} (hm : ∀ n, mem n = true) {names : List Bytes} (hne : names ≠ [])
    (hs : ∀ s ∈ names, 0 ∉ s) (hlen : names.length < 2 ^ 31) {q : NpyArray} (hq : Same q (namesArr names)) :
    q.typechar = 83 ∧ namesFromNpy mem q = .ok names := by
  obtain ⟨h1, h2, -, h4⟩ := hq
  have e : (namesArr names).shape.take (namesArr names).ndim = [names.length] := by simp [namesArr]
  have ht : q.shape.take q.ndim = [names.length] := by
    have := congrArg Spec.Array.dims h1
    simpa only [NpyArray.meaning, e] using this
  have hd : dim q 0 = names.length := by
    rw [show (namesArr names).ndim = 1 from rfl] at h2
    rw [h2] at ht
    cases hsh : q.shape with
    | nil => rw [hsh] at ht; simp at ht
    | cons x xs => rw [hsh] at ht; simpa [dim, hsh] using ht
  have hel : q.elemSize = longestName names := congrArg Spec.Array.elemSize h1
  have hdata : q.data = nameData (longestName names) names := by
    rw [h4]
    simp only [NpyArray.meaning, e, List.prod_singleton]
    rw [show (namesArr names).elemSize = longestName names from rfl, ← nameData_length longest_ge]
    exact List.take_length
  have hpos : names.length ≠ 0 := by simpa using hne
  refine ⟨congrArg Spec.Array.typechar h1, ?_⟩
  have hl : ¬ q.data.length < names.length * longestName names := by rw [hdata, nameData_length longest_ge]; omega
  have h32 : ¬ 2 ^ 32 ≤ names.length := by omega
  simp only [namesFromNpy, hm, Bool.not_true, Bool.false_eq_true, if_false, hd, hel, if_neg hpos, if_neg h32, if_neg hl]
  rw [hdata, names_fields names fun s h => ⟨longest_ge s h, hs s h⟩]
  rfl

end NN
