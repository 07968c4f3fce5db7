import Verif.Model.Schedule
import Verif.Proofs.Gradient
/-
Reductions in exact arithmetic do not depend on the schedule.
-/
set_option linter.unusedSimpArgs false
set_option linter.unusedSectionVars false

namespace NN
open FloatOps Spec

/-- Invariants of a reduction. -/
theorem reduce_inv {α : Type} (I : α → Prop) (P : ℕ → Prop) (init : α) (body : ℕ → α → M α)
    (comb : α → α → α) (h0 : I init) (hb : ∀ i s, P i → I s → ∃ s', body i s = .ok s' ∧ I s')
    (hc : ∀ a b, I a → I b → I (comb a b)) :
    ∀ sched : Sched, (∀ i ∈ sched.iters, P i) → ∃ r, sched.reduce init body comb = .ok r ∧ I r
  | .thread is, hs => by
    simp only [Sched.reduce]
    have : ∀ (is : List ℕ) (s : α), (∀ i ∈ is, P i) → I s →
        ∃ r, is.foldlM (fun s i => body i s) s = .ok r ∧ I r := by
      intro is
      induction is with
      | nil => intro s _ h; exact ⟨s, rfl, h⟩
      | cons i is ih =>
        intro s hs h
        obtain ⟨s', h1, h2⟩ := hb i s (hs i (by simp)) h
        obtain ⟨r, h3, h4⟩ := ih s' (fun j hj => hs j (by simp [hj])) h2
        refine ⟨r, ?_, h4⟩
        rw [List.foldlM_cons, h1]
        exact h3
    exact this is init hs h0
  | .combine a b, hs => by
    obtain ⟨x, hx, hix⟩ := reduce_inv I P init body comb h0 hb hc a
      (fun i hi => hs i (by simp [Sched.iters, hi]))
    obtain ⟨y, hy, hiy⟩ := reduce_inv I P init body comb h0 hb hc b
      (fun i hi => hs i (by simp [Sched.iters, hi]))
    exact ⟨comb x y, by simp [Sched.reduce, hx, hy, bind, Except.bind, pure, Except.pure], hc x y hix hiy⟩

/-- Entry `j` of the sum of the vectors `v i`, `i` in `is`. -/
noncomputable def vsum (k : ℕ) (v : ℕ → List ℝ) (is : List ℕ) : List ℝ :=
  (List.range k).map fun j => (is.map fun i => at_ (v i) j).sum

theorem vsum_length (k : ℕ) (v : ℕ → List ℝ) (is : List ℕ) : (vsum k v is).length = k := by simp [vsum]

theorem vsum_append (k : ℕ) (v : ℕ → List ℝ) (a b : List ℕ) :
    vsum k v (a ++ b) = List.zipWith add (vsum k v a) (vsum k v b) := by
  apply List.ext_getElem
  · simp [vsum]
  · intro i h1 h2; simp [vsum]

theorem vsum_snoc (k : ℕ) (v : ℕ → List ℝ) (a : List ℕ) (i : ℕ) (h : (v i).length = k) :
    vsum k v (a ++ [i]) = List.zipWith add (vsum k v a) (v i) := by
  rw [vsum_append]
  congr 1
  apply List.ext_getElem
  · simp [vsum, h]
  · intro j h1 h2; simp [vsum, at_eq h2]

theorem vsum_perm (k : ℕ) (v : ℕ → List ℝ) {a b : List ℕ} (h : a.Perm b) : vsum k v a = vsum k v b := by
  simp only [vsum]
  refine List.map_congr_left fun j _ => ?_
  exact (h.map _).sum_eq

theorem vsum_range (k n : ℕ) (v : ℕ → List ℝ) :
    vsum k v (List.range n) = (List.range k).map fun j => ∑ i ∈ Finset.range n, at_ (v i) j := by
  simp only [vsum]
  refine List.map_congr_left fun j _ => ?_
  rw [sum_map_range]

/-- **Schedule independence**: a reduction whose iterations add the vectors `v i` gives their sum. -/
theorem reduce_real (k : ℕ) (v : ℕ → List ℝ) (P : ℕ → Prop) (body : ℕ → List ℝ → M (List ℝ))
    (hv : ∀ i, P i → (v i).length = k)
    (hb : ∀ i s, P i → s.length = k → body i s = .ok (List.zipWith add s (v i))) :
    ∀ sched : Sched, (∀ i ∈ sched.iters, P i) →
      sched.reduce (List.replicate k 0) body (List.zipWith add) = .ok (vsum k v sched.iters)
  | .thread is, hs => by
    simp only [Sched.reduce, Sched.iters]
    have : ∀ (is a : List ℕ), (∀ i ∈ is, P i) →
        is.foldlM (fun s i => body i s) (vsum k v a) = .ok (vsum k v (a ++ is)) := by
      intro is
      induction is with
      | nil => intro a _; simp [pure, Except.pure]
      | cons i is ih =>
        intro a hs
        have hi := hs i (by simp)
        rw [List.foldlM_cons, hb i _ hi (vsum_length k v a), ← vsum_snoc k v a i (hv i hi)]
        have := ih (a ++ [i]) (fun j hj => hs j (by simp [hj]))
        simpa [bind, Except.bind] using this
    have h0 : (List.replicate k (0:ℝ)) = vsum k v [] := by
      apply List.ext_getElem
      · simp [vsum]
      · intro j h1 h2; simp [vsum]
    rw [h0, this is [] hs]
    simp
  | .combine a b, hs => by
    have h1 := reduce_real k v P body hv hb a (fun i hi => hs i (by simp [Sched.iters, hi]))
    have h2 := reduce_real k v P body hv hb b (fun i hi => hs i (by simp [Sched.iters, hi]))
    simp only [Sched.reduce, h1, h2, bind, Except.bind, pure, Except.pure, Sched.iters, vsum_append]

end NN
