import Verif.Properties.Initialize
/-
C54: initializer lists with NULL entries and lists that are too short.
-/
namespace NN
open FloatOps
variable {F : Type} [FloatOps F]

/-- **C54** Exactly which lists of names are accepted.  The first layer whose name is NULL is a NULL dereference in `strcmp`; a list
with fewer names than layers is read beyond its end. -/
theorem C54_names_false {g : Rand} {fuel : Nat} {recs : List ActRecord} (hr : RecsNamed recs) {nn : Net F} (hn : nn.Sized)
    (hsum : ∀ l ∈ nn.layers, l.nIn + l.nOut < 2 ^ 31) (ha : Accepting F g fuel) (s : RandState F) (names : List String)
    (hk : names.length < nn.layers.length) :
    initializeNN g fuel recs (some (names.map some)) (some nn) s = .error .oob ∧
    ∀ more, initializeNN g fuel recs (some (names.map some ++ none :: more)) (some nn) s = .error .nullDeref := by
  have key : ∀ (e : Fault) (fs : List (Option String)) (pre : List (Layer F)) (l : Layer F) (post : List (Layer F)) (i : Nat)
      (s : RandState F), (∀ l ∈ pre, l.Sized ∧ l.nIn * l.nOut < 2 ^ 31) → (∀ l ∈ pre, l.nIn + l.nOut < 2 ^ 31) →
      (∀ j < i + pre.length, ∃ w, fs[j]? = some (some w)) → readInitializer (some fs) (i + pre.length) = .error e →
      initLayers g fuel recs (some fs) i (pre ++ l :: post) s = .error e := by
    intro e fs pre
    induction pre with
    | nil =>
      intro l post i s _ _ _ h
      rw [List.length_nil, Nat.add_zero] at h
      simp [initLayers, h, bind, Except.bind]
    | cons a pre ih =>
      intro l post i s h1 h2 h3 h4
      obtain ⟨w, hw⟩ := h3 i (by simp)
      obtain ⟨p1, p2⟩ := h1 a (by simp)
      have hd : ∃ p, layerDraws g fuel a.nIn a.nOut (schemeOf w a.act) s = .ok p := by
        cases schemeOf w a.act with
        | xavier =>
          simp only [layerDraws, if_pos (h2 a (by simp))]
          exact draws_ok (fun s => ⟨_, rfl⟩) _ _ _
        | kaiming => exact draws_ok (randomNormal_ok ha) _ _ _
        | normal => exact draws_ok (randomNormal_ok ha) _ _ _
      obtain ⟨p, hp⟩ := hd
      rw [List.cons_append, initLayers]
      simp only [readInitializer, hw, bind, Except.bind, pure, Except.pure, initLayer_eq hr p1 s p2, hp]
      rw [ih l post (i + 1) p.2 (fun x hx => h1 x (by simp [hx])) (fun x hx => h2 x (by simp [hx]))
        (fun j hj => h3 j (by simp only [List.length_cons]; omega))
        (by rw [← h4, List.length_cons]; congr 1; omega)]
  obtain ⟨l, post, hl⟩ : ∃ l post, nn.layers = nn.layers.take names.length ++ l :: post := by
    refine ⟨nn.layers[names.length], nn.layers.drop (names.length + 1), ?_⟩
    rw [← List.drop_eq_getElem_cons hk, List.take_append_drop]
  have hlen : (nn.layers.take names.length).length = names.length := by rw [List.length_take]; omega
  have hmem : ∀ x ∈ nn.layers.take names.length, x ∈ nn.layers := fun x hx => List.mem_of_mem_take hx
  have run : ∀ (e : Fault) (fs : List (Option String)), (∀ j < names.length, ∃ w, fs[j]? = some (some w)) →
      readInitializer (some fs) names.length = .error e → initializeNN g fuel recs (some fs) (some nn) s = .error e := by
    intro e fs h1 h2
    have := key e fs (nn.layers.take names.length) l post 0 s (fun x hx => hn x (hmem x hx)) (fun x hx => hsum x (hmem x hx))
      (by rw [hlen, Nat.zero_add]; exact h1) (by rw [hlen, Nat.zero_add]; exact h2)
    rw [← hl] at this
    simp [initializeNN, this, bind, Except.bind]
  refine ⟨run _ _ (fun j hj => ⟨names[j], by simp [hj]⟩) (by simp [readInitializer]), fun more => run _ _ (fun j hj => ⟨names[j], ?_⟩) ?_⟩
  · rw [List.getElem?_append_left (by simpa using hj)]; simp [hj]
  · simp [readInitializer]

/-- Two layers, the second initializer is NULL. -/
example : initializeNN ⟨fun _ => 5, 7⟩ 1 [] (some [some "xavier", none])
    (some ⟨[⟨2, 3, ⟨0, [9, 9, 9, 9, 9, 9]⟩, ⟨64, [8, 8, 8]⟩, .tanh, none⟩, ⟨3, 1, ⟨0, [9, 9, 9]⟩, ⟨64, [8]⟩, .tanh, none⟩], none⟩ : Option (Net ℝ))
    ⟨0, 0, 0, false⟩ = .error .nullDeref := by
  refine (C54_names_false (names := ["xavier"]) (by intro r hr; cases hr) ?_ ?_ exAccepting _ (by simp)).2 []
  · intro l hl
    simp only [List.mem_cons, List.not_mem_nil, or_false] at hl
    rcases hl with rfl | rfl <;> exact ⟨⟨rfl, rfl⟩, by norm_num⟩
  · intro l hl
    simp only [List.mem_cons, List.not_mem_nil, or_false] at hl
    rcases hl with rfl | rfl <;> norm_num

end NN
