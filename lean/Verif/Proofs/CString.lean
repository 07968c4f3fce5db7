import Verif.Model.CString
import Mathlib.Tactic.Linarith
import Mathlib.Tactic.NormNum
import Mathlib.Data.Nat.Log
import Mathlib.Data.List.Chain
/-
Lemmas about C strings.
-/
namespace NN

theorem cstr_eq {s : Bytes} (h : (0 : UInt8) ∉ s) : cstr s = s := by
  have := List.takeWhile_append_of_pos (p := fun c : UInt8 => c != 0) (l₁ := s) (l₂ := []) (by
    intro c hc
    simp only [bne_iff_ne, ne_eq]
    rintro rfl
    exact h hc)
  simpa [cstr] using this

theorem cstr_append_zero {s t : Bytes} (h : (0 : UInt8) ∉ s) : cstr (s ++ 0 :: t) = s := by
  rw [cstr, List.takeWhile_append_of_pos]
  · simp
  · intro c hc
    simp only [bne_iff_ne, ne_eq]
    rintro rfl
    exact h hc

theorem strrchr_none {c : UInt8} {s : Bytes} (h : c ∉ s) : strrchr c s = none := by
  induction s with
  | nil => rfl
  | cons x xs ih =>
    simp only [List.mem_cons, not_or] at h
    simp [strrchr, ih h.2, Ne.symm h.1]

theorem strrchr_append {c : UInt8} (s : Bytes) {t : Bytes} (h : c ∉ t) : strrchr c (s ++ c :: t) = some s.length := by
  induction s with
  | nil => simp [strrchr, strrchr_none h]
  | cons x xs ih => simp [strrchr, ih]

theorem strstr_skip {n : Bytes} {x : UInt8} {xs : Bytes} (h : ¬ n <+: x :: xs) :
    strstr n (x :: xs) = (strstr n xs).map (· + 1) := by
  rw [strstr, if_neg h]

theorem strstr_here {n : Bytes} {s : Bytes} : strstr n (n ++ s) = some 0 := by
  cases h : n ++ s with
  | nil => simp at h; simp [strstr, h.1]
  | cons x xs => rw [strstr, if_pos (by rw [← h]; exact List.prefix_append _ _)]

/-- The first character of the needle does not occur before it. -/
theorem strstr_append {c : UInt8} {n : Bytes} (s : Bytes) {t : Bytes} (h : c ∉ s) :
    strstr (c :: n) (s ++ (c :: n) ++ t) = some s.length := by
  induction s with
  | nil => exact strstr_here
  | cons x xs ih =>
    simp only [List.mem_cons, not_or] at h
    rw [List.cons_append, List.cons_append, strstr_skip (fun hp => h.1 (List.cons_prefix_cons.mp hp).1), ih h.2]
    rfl

/-- The first two characters of the needle do not occur together before it. -/
theorem strstr_append₂ {c d : UInt8} {n : Bytes} (s : Bytes) {t : Bytes}
    (h : (s ++ [c]).IsChain fun a b => ¬ (a = c ∧ b = d)) :
    strstr (c :: d :: n) (s ++ (c :: d :: n) ++ t) = some s.length := by
  induction s with
  | nil => exact strstr_here
  | cons x xs ih =>
    have ih := ih (by rw [List.cons_append] at h; exact h.of_cons)
    rw [List.cons_append, List.cons_append, strstr_skip, ih]
    · rfl
    · intro hp
      obtain ⟨rfl, hq⟩ := List.cons_prefix_cons.mp hp
      rw [List.cons_append, List.isChain_cons] at h
      cases xs with
      | nil => exact h.1 c (by simp) ⟨rfl, (List.cons_prefix_cons.mp hq).1.symm⟩
      | cons y ys => exact h.1 y (by simp) ⟨rfl, (List.cons_prefix_cons.mp hq).1.symm⟩

theorem isDigit_iff {c : UInt8} : isDigit c = true ↔ 48 ≤ c.toNat ∧ c.toNat ≤ 57 := by
  simp [isDigit, UInt8.le_iff_toNat_le]

theorem digit_toNat {n : Nat} (h : n < 10) : ((48 + n).toUInt8).toNat = 48 + n := by
  rw [Nat.toUInt8, UInt8.toNat_ofNat']
  omega

theorem dec_digits (n : Nat) : ∀ c ∈ dec n, isDigit c = true := by
  induction n using Nat.strongRecOn with
  | ind n ih =>
    rw [dec]
    split_ifs with h
    · intro c hc
      simp only [List.mem_singleton] at hc
      rw [hc, isDigit_iff, digit_toNat h]; omega
    · intro c hc
      rw [List.mem_append, List.mem_singleton] at hc
      rcases hc with hc | rfl
      · exact ih _ (by omega) c hc
      · rw [isDigit_iff, digit_toNat (by omega)]; omega

theorem dec_ne_nil (n : Nat) : dec n ≠ [] := by
  rw [dec]; split_ifs <;> simp

theorem dec_foldl (n : Nat) : (dec n).foldl (fun a c => 10 * a + (c.toNat - 48)) 0 = n := by
  induction n using Nat.strongRecOn with
  | ind n ih =>
    rw [dec]
    split_ifs with h
    · simp only [List.foldl_cons, List.foldl_nil, digit_toNat h]; omega
    · rw [List.foldl_append, ih _ (by omega)]
      simp only [List.foldl_cons, List.foldl_nil, digit_toNat (Nat.mod_lt n (by norm_num : 10 > 0))]
      omega

theorem takeWhile_append_stop {α : Type} {p : α → Bool} {s t : List α} (hs : ∀ c ∈ s, p c = true)
    (ht : ∀ c ∈ t.head?, p c = false) : (s ++ t).takeWhile p = s := by
  rw [List.takeWhile_append_of_pos hs]
  cases t with
  | nil => simp
  | cons c t => simp [ht c (by simp)]

theorem digitsVal_dec (n : Nat) {t : Bytes} (ht : ∀ c ∈ t.head?, isDigit c = false) : digitsVal (dec n ++ t) = n := by
  rw [digitsVal, takeWhile_append_stop (dec_digits n) ht, dec_foldl]

theorem dec_length {n k : Nat} (hk : 0 < k) (h : n < 10 ^ k) : (dec n).length ≤ k := by
  induction n using Nat.strongRecOn generalizing k with
  | ind n ih =>
    rw [dec]
    split_ifs with h9
    · simpa [Nat.one_le_iff_ne_zero, Nat.pos_iff_ne_zero] using hk
    · rw [List.length_append, List.length_singleton]
      obtain ⟨k, rfl⟩ : ∃ j, k = j + 1 := ⟨k - 1, by omega⟩
      have : 0 < k := by
        rcases Nat.eq_zero_or_pos k with rfl | hk
        · omega
        · exact hk
      have := ih (n / 10) (by omega) this (by rw [pow_succ] at h; omega)
      omega

theorem dec_length_pos (n : Nat) : 0 < (dec n).length := List.length_pos_of_ne_nil (dec_ne_nil n)

theorem digit_ne {c : UInt8} (hc : isDigit c = true) {d : UInt8} (hd : isDigit d = false) : c ≠ d := by
  rintro rfl
  rw [hc] at hd
  cases hd

theorem dec_cons (n : Nat) : ∃ c s, dec n = c :: s ∧ isDigit c = true := by
  cases h : dec n with
  | nil => exact absurd h (dec_ne_nil n)
  | cons c s => exact ⟨c, s, rfl, dec_digits n c (by rw [h]; simp)⟩

theorem isSpace_digit {c : UInt8} (hc : isDigit c = true) : isSpace c = false := by
  rw [isDigit_iff] at hc
  rw [Bool.eq_false_iff]
  intro h
  simp only [isSpace, Bool.or_eq_true, beq_iff_eq, Bool.and_eq_true, decide_eq_true_eq, UInt8.le_iff_toNat_le] at h
  rcases h with rfl | ⟨h1, h2⟩
  · simp at hc
  · have : (13 : UInt8).toNat = 13 := rfl
    omega

theorem parseInt_dec (n : Nat) {t : Bytes} (ht : ∀ c ∈ t.head?, isDigit c = false) : parseInt (dec n ++ t) = n := by
  have h := digitsVal_dec n ht
  obtain ⟨c, s, hs, hc⟩ := dec_cons n
  rw [hs] at h ⊢
  rw [parseInt, List.cons_append, List.dropWhile_cons, isSpace_digit hc]
  simp only [Bool.false_eq_true, if_false]
  split
  · next h1 => rw [List.cons.injEq] at h1; rw [h1.1] at hc; simp [isDigit] at hc
  · next h1 => rw [List.cons.injEq] at h1; rw [h1.1] at hc; simp [isDigit] at hc
  · rw [← List.cons_append, h]

theorem parseInt_decInt (z : Int) {t : Bytes} (ht : ∀ c ∈ t.head?, isDigit c = false) : parseInt (decInt z ++ t) = z := by
  rw [decInt]
  split_ifs with h
  · rw [List.cons_append, parseInt, List.dropWhile_cons]
    simp only [show isSpace 45 = false from rfl, Bool.false_eq_true, if_false]
    rw [digitsVal_dec _ ht]
    omega
  · rw [parseInt_dec _ ht]
    omega

theorem parseInt_spaces (k : Nat) (s : Bytes) : parseInt (List.replicate k 32 ++ s) = parseInt s := by
  have : (List.replicate k (32 : UInt8) ++ s).dropWhile isSpace = s.dropWhile isSpace := by
    induction k with
    | zero => rfl
    | succ k ih =>
      rw [List.replicate_succ, List.cons_append, List.dropWhile_cons]
      simp only [show isSpace 32 = true from rfl, if_true]
      exact ih
  rw [parseInt, this, parseInt]

theorem atoi_eq {s : Bytes} (h1 : -2 ^ 31 ≤ parseInt s) (h2 : parseInt s < 2 ^ 31) : atoi s = .ok (parseInt s) := by
  rw [atoi, if_pos ⟨h1, h2⟩]; rfl

end NN
