import Verif.Properties.Trainer
/-
C74: exactly which arguments the trainer accepts.
-/
namespace NN.Trainer
open FloatOps NN.Spec
variable {F : Type} [FloatOps F]

/-! ### Specification -/

/-- The argument chooses the option `c` with the value `v`: the letter (except `-m`), the name, or the beginning of the name that is
the beginning of no other name. -/
def Chooses (a : CmdArg) (c : Char) (v : String) : Prop :=
  (a = .short c (some v) ∧ c ≠ 'm' ∧ ∃ name, (c, name) ∈ optionNames) ∨
  ∃ name s, (c, name) ∈ optionNames ∧ a = .long s (some v) ∧
    (s = name ∨ s.toList <+: name.toList ∧ ∀ p ∈ optionNames, s.toList <+: p.2.toList → p.2 = name)

/-! ### Proof -/

theorem filter_singleton {α : Type} {p : α → Bool} {a : α} : ∀ {l : List α}, l.Nodup →
    (l.filter p = [a] ↔ a ∈ l ∧ p a = true ∧ ∀ b ∈ l, p b = true → b = a)
  | [], _ => by simp
  | x :: l, h => by
    rw [List.nodup_cons] at h
    rw [List.filter_cons]
    split_ifs with hx
    · constructor
      · intro e
        simp only [List.cons.injEq, List.filter_eq_nil_iff] at e
        obtain ⟨rfl, e⟩ := e
        refine ⟨by simp, hx, fun b hb hpb => ?_⟩
        rcases List.mem_cons.1 hb with rfl | hb
        · rfl
        · exact absurd hpb (e b hb)
      · rintro ⟨-, -, h3⟩
        obtain rfl := h3 x (by simp) hx
        simp only [List.cons.injEq, true_and, List.filter_eq_nil_iff]
        intro b hb hpb
        exact h.1 (h3 b (by simp [hb]) hpb ▸ hb)
    · rw [filter_singleton h.2]
      constructor
      · rintro ⟨h1, h2, h3⟩
        refine ⟨by simp [h1], h2, fun b hb hpb => ?_⟩
        rcases List.mem_cons.1 hb with rfl | hb
        · exact absurd hpb hx
        · exact h3 b hb hpb
      · rintro ⟨h1, h2, h3⟩
        refine ⟨?_, h2, fun b hb => h3 b (by simp [hb])⟩
        rcases List.mem_cons.1 h1 with rfl | h1
        · exact absurd h2 hx
        · exact h1

theorem longOptions_mem {name : String} {c : Char} : (name, c) ∈ longOptions ↔ (c, name) ∈ optionNames := by
  simp only [longOptions, optionNames, List.mem_cons, Prod.mk.injEq, List.not_mem_nil, or_false, and_comm]

theorem longOptions_inj {a b : String × Char} (ha : a ∈ longOptions) (hb : b ∈ longOptions) (h : a.1 = b.1) : a = b := by
  have : ∀ a ∈ longOptions, ∀ b ∈ longOptions, a.1 = b.1 → a = b := by decide
  exact this a ha b hb h

/-- **C74** Exactly which arguments are accepted, for all words: everything else, also an abbreviation of more than one name, is
refused. -/
theorem C74_getopt (a : CmdArg) (c : Char) (v : String) : getoptLong a = some (c, v) ↔ Chooses a c v := by
  cases a with
  | short d arg =>
    simp only [getoptLong, Chooses, CmdArg.short.injEq, reduceCtorEq, false_and, and_false, exists_false, or_false]
    have hm : d ∈ shortOptions ↔ d ≠ 'm' ∧ ∃ name, (d, name) ∈ optionNames := by
      constructor
      · intro h
        simp only [shortOptions, List.mem_cons, List.not_mem_nil, or_false] at h
        rcases h with h | h | h | h | h | h | h | h | h | h <;> subst h <;> simp [optionNames]
      · rintro ⟨h, name, hn⟩
        simp only [optionNames, List.mem_cons, Prod.mk.injEq, List.not_mem_nil, or_false] at hn
        rcases hn with h' | h' | h' | h' | h' | h' | h' | h' | h' | h' | h' <;> obtain ⟨rfl, rfl⟩ := h' <;> simp_all [shortOptions]
    split_ifs with h
    · rw [hm] at h
      cases arg with
      | none => simp
      | some w =>
        simp only [Option.map_some, Option.some.injEq, Prod.mk.injEq]
        constructor
        · rintro ⟨rfl, rfl⟩; exact ⟨⟨rfl, rfl⟩, h⟩
        · rintro ⟨⟨rfl, rfl⟩, -⟩; exact ⟨rfl, rfl⟩
    · rw [hm] at h
      constructor
      · intro e; cases e
      · rintro ⟨⟨rfl, rfl⟩, h'⟩; exact absurd h' h
  | long s arg =>
    simp only [Chooses, reduceCtorEq, false_and, false_or, CmdArg.long.injEq]
    have hr : (∃ name s', (c, name) ∈ optionNames ∧ (s = s' ∧ arg = some v) ∧
        (s' = name ∨ s'.toList <+: name.toList ∧ ∀ p ∈ optionNames, s'.toList <+: p.2.toList → p.2 = name)) ↔
        arg = some v ∧ ∃ name, (name, c) ∈ longOptions ∧
          (s = name ∨ s.toList <+: name.toList ∧ ∀ p ∈ longOptions, s.toList <+: p.1.toList → p.1 = name) := by
      constructor
      · rintro ⟨name, s', h1, ⟨rfl, h2⟩, h3⟩
        refine ⟨h2, name, longOptions_mem.2 h1, h3.imp id fun h => ⟨h.1, fun p hp => h.2 (p.2, p.1) (longOptions_mem.1 hp)⟩⟩
      · rintro ⟨h2, name, h1, h3⟩
        exact ⟨name, s, longOptions_mem.1 h1, ⟨rfl, h2⟩, h3.imp id fun h => ⟨h.1, fun p hp => h.2 (p.2, p.1) (longOptions_mem.2 hp)⟩⟩
    rw [hr, getoptLong]
    cases hf : longOptions.find? (fun p => p.1 == s) with
    | some p =>
      have h1 : p.1 = s := by simpa using List.find?_some hf
      have h2 := List.mem_of_find?_eq_some hf
      simp only [Option.map_eq_some_iff, Prod.mk.injEq]
      constructor
      · rintro ⟨w, rfl, rfl, rfl⟩
        exact ⟨rfl, p.1, h2, .inl h1.symm⟩
      · rintro ⟨rfl, name, h3, h4⟩
        refine ⟨v, rfl, ?_, rfl⟩
        have hn : p.1 = name := by
          rcases h4 with rfl | ⟨-, h4⟩
          · exact h1
          · exact h4 p h2 (by rw [h1])
        rw [longOptions_inj h2 h3 hn]
    | none =>
      have hno : ∀ p ∈ longOptions, p.1 ≠ s := by simpa using hf
      have hnd : longOptions.Nodup := by decide
      have hone : ∀ p : String × Char, longOptions.filter (fun p => s.toList.isPrefixOf p.1.toList) = [p] ↔
          p ∈ longOptions ∧ s.toList <+: p.1.toList ∧ ∀ q ∈ longOptions, s.toList <+: q.1.toList → q.1 = p.1 := by
        intro p
        rw [filter_singleton hnd]
        simp only [List.isPrefixOf_iff_prefix]
        constructor
        · rintro ⟨h1, h2, h3⟩; exact ⟨h1, h2, fun q hq h => by rw [h3 q hq h]⟩
        · rintro ⟨h1, h2, h3⟩; exact ⟨h1, h2, fun q hq h => longOptions_inj hq h1 (h3 q hq h)⟩
      by_cases hp : ∃ p, longOptions.filter (fun p => s.toList.isPrefixOf p.1.toList) = [p]
      · obtain ⟨p, hp⟩ := hp
        have h1 := (hone p).1 hp
        rw [hp]
        simp only [Option.map_eq_some_iff, Prod.mk.injEq]
        constructor
        · rintro ⟨w, rfl, rfl, rfl⟩
          exact ⟨rfl, p.1, h1.1, .inr h1.2⟩
        · rintro ⟨rfl, name, h3, h4⟩
          refine ⟨v, rfl, ?_, rfl⟩
          rcases h4 with rfl | ⟨h4, h5⟩
          · exact absurd rfl (hno _ h3)
          · rw [longOptions_inj h1.1 h3 (h5 p h1.1 h1.2.1)]
      · constructor
        · intro h
          dsimp only at h
          split at h
          · rename_i p hp'; exact absurd ⟨p, hp'⟩ hp
          · cases h
        · rintro ⟨rfl, name, h3, h4⟩
          rcases h4 with rfl | h4
          · exact absurd rfl (hno _ h3)
          · exact absurd ⟨_, (hone (name, c)).2 ⟨h3, h4⟩⟩ hp

/-- **C74** An argument that chooses no option ends the program with the usage message; what follows is not looked at. -/
theorem C74_usage (lb : Lib F) (sc : Scan F) (sys : Sys F) (recs : List ActRecord) (h : Heap) (st : Statics F) (d : Disk)
    (pre post : List CmdArg) (a : CmdArg) (ha : ∀ c v, ¬ Chooses a c v) (o : Opts F)
    (hpre : parseArgs sc pre Opts.initial = .ok (some o)) : program lb sc sys recs h st d (pre ++ a :: post) = .ok none := by
  have hm : getoptLong a = none := by
    rw [Option.eq_none_iff_forall_ne_some]
    rintro ⟨c, v⟩ e
    exact ha c v ((C74_getopt a c v).1 e)
  simp only [program, parseArgs_append, hpre, bind, Except.bind, parseArgs, hm]
  rfl

/-- `--l` fits `loss`, `learning-rate` and `log`; `--le` only one of them. -/
example (v : String) : (∀ c w, ¬ Chooses (.long "l" (some v)) c w) ∧ Chooses (.long "le" (some v)) 'a' v := by
  constructor
  · intro c w h
    rw [← C74_getopt] at h
    have : getoptLong (.long "l" (some v)) = none := rfl
    rw [this] at h
    cases h
  · rw [← C74_getopt]; rfl

end NN.Trainer
