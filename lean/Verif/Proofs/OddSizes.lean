import Verif.Model.OddSizes
import Verif.Properties.Lifecycle
/-
Lemmas about tests/test_oddsizes.c: names behind the last layer are not read, arrays from `simd_malloc`.
-/
set_option linter.unusedSimpArgs false

namespace NN

theorem setActivations_extra (dl : DynLinker) (fs rest : List (Option String)) : ∀ (ls : List CLayer) (i : ℕ) (recs : List ActRecord)
    (r : List CLayer × List ActRecord),
    setActivations dl (some fs) i ls recs = .ok r → setActivations dl (some (fs ++ rest)) i ls recs = .ok r
  | [], _, _, _, h => h
  | l :: ls, i, recs, r, h => by
    rw [setActivations] at h ⊢
    obtain ⟨name, h1, h⟩ := bind_ok h
    have hn : readName (some (fs ++ rest)) i = .ok name := by
      simp only [readName] at h1 ⊢
      cases hi : fs[i]? with
      | none => simp [hi] at h1
      | some f => rw [List.getElem?_append_left (List.getElem?_eq_some_iff.1 hi).1, hi]; simpa [hi] using h1
    obtain ⟨⟨a, r1⟩, h2, h⟩ := bind_ok h
    cases a with
    | some a =>
      simp only at h
      obtain ⟨⟨a2, r2⟩, h3, h⟩ := bind_ok h
      obtain ⟨⟨l3, r3⟩, h4, h⟩ := bind_ok h
      have h5 := setActivations_extra dl fs rest ls (i + 1) r2 _ h4
      simp only [hn, h2, h3, h5, bind, Except.bind]
      exact h
    | none =>
      simp only at h
      obtain ⟨⟨a2, r2⟩, h3, h⟩ := bind_ok h
      obtain ⟨⟨l3, r3⟩, h4, h⟩ := bind_ok h
      have h5 := setActivations_extra dl fs rest ls (i + 1) r2 _ h4
      simp only [hn, h2, h3, h5, bind, Except.bind]
      exact h

/-- Names behind those of the layers are not read. -/
theorem createNN_extra {ok : ℕ → Bool} {dl : DynLinker} {n : ℤ} {sizes : List ℤ} {fs rest : List (Option String)} {recs recs' : List ActRecord}
    {h h' : Heap} {net : CNet} (he : createNN ok dl n sizes (some fs) recs h = .ok (some net, recs', h')) :
    createNN ok dl n sizes (some (fs ++ rest)) recs h = .ok (some net, recs', h') := by
  unfold createNN at he ⊢
  split_ifs at he ⊢ with h1
  · simp [pure, Except.pure] at he
  · cases e1 : checkSizes sizes 0 n.toNat with
    | error e => simp [e1, bind, Except.bind] at he
    | ok good =>
      simp only [e1, bind, Except.bind] at he ⊢
      split_ifs at he ⊢ with h2
      · simp [pure, Except.pure] at he
      · split at he
        · simp [pure, Except.pure] at he
        · split at he
          · split at he <;> simp [pure, Except.pure] at he
          · split at he
            · simp at he
            · split at he
              · simp at he
              · rename_i v hv
                obtain ⟨b, ls2, h4⟩ := v
                simp only at he ⊢
                cases b with
                | false =>
                  simp only [Bool.false_eq_true, if_false] at he
                  split at he
                  · simp at he
                  · split at he <;> simp [pure, Except.pure] at he
                | true =>
                  simp only [if_true] at he ⊢
                  split at he
                  · simp at he
                  · rename_i r hr
                    rw [setActivations_extra dl fs rest _ _ _ _ hr]
                    exact he

namespace OddSizes

theorem countNames_eq (rest : List (Option String)) : ∀ fs : List (Option String), none ∉ fs → countNames (fs ++ none :: rest) = .ok fs.length
  | [], _ => rfl
  | none :: _, h => by simp at h
  | some s :: fs, h => by
    simp only [List.mem_cons, reduceCtorEq, false_or] at h
    simp [countNames, countNames_eq rest fs h, bind, Except.bind, pure, Except.pure]

theorem array_eq {F : Type} {sys : Sys F} (hok : ∀ i, sys.ok i = true) (n : ℕ) (h : Heap) :
    array sys n h = (some (h.count, ⟨sys.addr h.count, (List.range n).map (sys.junk h.count)⟩), ⟨h.count + 1, h.count :: h.live⟩) := by
  simp [array, malloc_ok (hok _), blockView]

end OddSizes
end NN
