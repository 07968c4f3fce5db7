import Verif.Model.Optimizer
import Mathlib.Data.List.Perm.Basic
import Mathlib.Data.List.Nodup
import Batteries.Data.List.Perm
import Batteries.Data.List.Lemmas
/-
Fisher-Yates: safety, permutation, and the correspondence between draws and permutations.
-/
namespace NN

/-- One exchange of the shuffle. -/
theorem fisherYatesLoop_succ (r : Nat → Nat) (i k : Nat) (arr : List Nat) (h : i + 1 < arr.length) :
    fisherYatesLoop r (i + 1) k arr =
      fisherYatesLoop r i (k + 1) (arr.swap (r k % (i + 2)) (i + 1)) := by
  have hj : r k % (i + 2) < i + 2 := Nat.mod_lt _ (by omega)
  have hj' : r k % (i + 2) < arr.length := by omega
  simp only [fisherYatesLoop]
  rw [List.getElem?_eq_getElem hj', List.getElem?_eq_getElem h]
  simp only
  rw [List.swap_eq_of_lt hj' h]

/-- The shuffle stays in the array, permutes it, makes `i` draws, and leaves everything from
position `i+1` on. -/
theorem fisherYatesLoop_perm (r : Nat → Nat) (i k : Nat) (arr : List Nat) (h : i < arr.length) :
    ∃ t, fisherYatesLoop r i k arr = .ok (t, k + i) ∧ t.Perm arr ∧
      t.drop (i + 1) = arr.drop (i + 1) := by
  induction i generalizing k arr with
  | zero => exact ⟨arr, rfl, .refl _, rfl⟩
  | succ i ih =>
    rw [fisherYatesLoop_succ r i k arr h]
    have hl : (arr.swap (r k % (i + 2)) (i + 1)).length = arr.length :=
      (List.swap_perm _ _ _).length_eq
    obtain ⟨t, h1, h2, h3⟩ := ih (k + 1) (arr.swap (r k % (i + 2)) (i + 1)) (by omega)
    refine ⟨t, by rw [h1]; congr 2; omega, h2.trans (List.swap_perm _ _ _), ?_⟩
    have e : t.drop (i + 1 + 1) = (t.drop (i + 1)).drop 1 := by rw [List.drop_drop]
    rw [e, h3, List.drop_drop]
    have hj : r k % (i + 2) < i + 2 := Nat.mod_lt _ (by omega)
    rw [List.swap_eq_of_lt (by omega) h, List.drop_set_of_lt (by omega), List.drop_set_of_lt (by omega)]

theorem fisherYatesLoop_congr (r r' : Nat → Nat) (i k k' : Nat) (arr : List Nat) (h : i < arr.length)
    (hr : ∀ m < i, r (k + m) % (i - m + 1) = r' (k' + m) % (i - m + 1)) (t : List Nat)
    (ht : fisherYatesLoop r i k arr = .ok (t, k + i)) :
    fisherYatesLoop r' i k' arr = .ok (t, k' + i) := by
  induction i generalizing k k' arr with
  | zero =>
    simp only [fisherYatesLoop, pure, Except.pure, Except.ok.injEq, Prod.mk.injEq] at ht ⊢
    exact ⟨ht.1, rfl⟩
  | succ i ih =>
    have hl : (arr.swap (r k % (i + 2)) (i + 1)).length = arr.length :=
      (List.swap_perm _ _ _).length_eq
    rw [fisherYatesLoop_succ r i k arr h] at ht
    rw [fisherYatesLoop_succ r' i k' arr h]
    have h0 : r k % (i + 2) = r' k' % (i + 2) := by simpa using hr 0 (by omega)
    rw [← h0]
    have := ih (k + 1) (k' + 1) (arr.swap (r k % (i + 2)) (i + 1)) (by omega) (fun m hm => by
      have := hr (m + 1) (by omega)
      rw [show k + 1 + m = k + (m + 1) by omega, show k' + 1 + m = k' + (m + 1) by omega,
        show i - m + 1 = i + 1 - (m + 1) + 1 by omega]
      exact this) (by rw [ht]; congr 2; omega)
    rw [this]; congr 2; omega

/-- The stream that makes the draws `d` (in this order). -/
def drawStream (d : List Nat) : Nat → Nat := fun k => d.getD k 0

/-- Every permutation that agrees with `arr` behind position `i` comes from exactly one sequence of
draws. -/
theorem fisherYatesLoop_unique (i : Nat) (arr t : List Nat) (hn : arr.Nodup) (h : i < arr.length)
    (hp : t.Perm arr) (hd : t.drop (i + 1) = arr.drop (i + 1)) :
    ∃! d : List Nat, (d.length = i ∧ ∀ m < i, d.getD m 0 < i - m + 1) ∧
      fisherYatesLoop (drawStream d) i 0 arr = .ok (t, i) := by
  have hlen := hp.length_eq
  induction i generalizing arr with
  | zero =>
    have e : t = arr := by
      rcases arr with _ | ⟨a, arr⟩
      · simp at h
      · rcases t with _ | ⟨b, t⟩
        · simp at hlen
        · simp at hd
          subst hd
          have := (List.perm_append_right_iff (l₁ := [b]) (l₂ := [a]) t).mp (by simpa using hp)
          simp at this
          rw [this]
    subst e
    refine ⟨[], ⟨⟨rfl, by simp⟩, rfl⟩, ?_⟩
    intro d hd'
    exact List.length_eq_zero_iff.mp hd'.1.1
  | succ i ih =>
    have hi : i + 1 < t.length := by omega
    have hmem : t[i + 1] ∈ arr := hp.mem_iff.mp (List.getElem_mem hi)
    obtain ⟨j, hj, hje⟩ := List.mem_iff_getElem.mp hmem
    have ht : t.Nodup := hp.nodup_iff.mpr hn
    have hjle : j < i + 2 := by
      by_contra hc
      have h1 : arr[j] = t[j]'(by omega) := by
        have := congrArg (fun l => l[j - (i + 2)]?) hd
        simp only [List.getElem?_drop] at this
        rw [show i + 1 + 1 + (j - (i + 2)) = j by omega] at this
        rw [List.getElem?_eq_getElem (by omega), List.getElem?_eq_getElem hj] at this
        exact (Option.some.inj this).symm
      rw [h1] at hje
      have := (ht.getElem_inj_iff).mp hje
      omega
    have hl : (arr.swap j (i + 1)).length = arr.length := (List.swap_perm _ _ _).length_eq
    have hdrop : t.drop (i + 1) = (arr.swap j (i + 1)).drop (i + 1) := by
      rw [List.swap_eq_of_lt hj h]
      apply List.ext_getElem?
      intro m
      rcases m with _ | m
      · simp [hi, h, hje]
      · have := congrArg (fun l => l[m]?) hd
        simp only [List.getElem?_drop] at this ⊢
        rw [show i + 1 + (m + 1) = i + 1 + 1 + m by omega, this, List.getElem?_set_ne (by omega),
          List.getElem?_set_ne (by omega)]
    obtain ⟨d, ⟨⟨hd1, hd2⟩, hd3⟩, huniq⟩ := ih (arr.swap j (i + 1))
      ((List.swap_perm _ _ _).nodup_iff.mpr hn) (by omega) (hp.trans (List.swap_perm _ _ _).symm)
      hdrop (by omega)
    have step : ∀ (x : Nat) (d' : List Nat), x < i + 2 →
        fisherYatesLoop (drawStream (x :: d')) (i + 1) 0 arr =
          fisherYatesLoop (drawStream (x :: d')) i 1 (arr.swap x (i + 1)) := by
      intro x d' hx
      rw [fisherYatesLoop_succ _ _ _ _ h]
      have : drawStream (x :: d') 0 % (i + 2) = x := by simp [drawStream, Nat.mod_eq_of_lt hx]
      rw [this]
    refine ⟨j :: d, ⟨⟨by simp [hd1], ?_⟩, ?_⟩, ?_⟩
    · intro m hm
      rcases m with _ | m
      · simpa using hjle
      · have := hd2 m (by omega)
        simp only [List.getD_cons_succ]; omega
    · rw [step j d hjle]
      have := fisherYatesLoop_congr (drawStream d) (drawStream (j :: d)) i 0 1 (arr.swap j (i + 1))
        (by omega) (fun m _ => by
          rw [Nat.add_comm 1 m]; simp [drawStream]) t (by rw [hd3]; simp)
      rw [this]; congr 2; omega
    · rintro e ⟨⟨he1, he2⟩, he3⟩
      rcases e with _ | ⟨x, e⟩
      · simp at he1
      · have hx : x < i + 2 := by simpa using he2 0 (by omega)
        rw [step x e hx] at he3
        have hlx : (arr.swap x (i + 1)).length = arr.length := (List.swap_perm _ _ _).length_eq
        have hxj : x = j := by
          obtain ⟨t', h1, -, h3⟩ := fisherYatesLoop_perm (drawStream (x :: e)) i 1 (arr.swap x (i + 1))
            (by omega)
          rw [h1] at he3
          simp only [Except.ok.injEq, Prod.mk.injEq] at he3
          obtain ⟨rfl, -⟩ := he3
          rw [hdrop] at h3
          have h4 := congrArg (fun l => l[0]?) h3
          simp only [List.getElem?_drop, Nat.add_zero] at h4
          rw [List.swap_eq_of_lt hj h, List.swap_eq_of_lt (by omega) h] at h4
          simp [h] at h4
          exact ((hn.getElem_inj_iff).mp h4).symm
        subst hxj
        congr 1
        apply huniq
        refine ⟨⟨by simpa using he1, ?_⟩, ?_⟩
        · intro m hm
          have := he2 (m + 1) (by omega)
          simp only [List.getD_cons_succ] at this; omega
        · have := fisherYatesLoop_congr (drawStream (x :: e)) (drawStream e) i 1 0 (arr.swap x (i + 1))
            (by omega) (fun m _ => by rw [Nat.add_comm 1 m]; simp [drawStream]) t
            (by rw [he3]; congr 2; omega)
          simpa using this

end NN
