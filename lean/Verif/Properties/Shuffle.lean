import Verif.Proofs.Shuffle
import Verif.Proofs.OptEpoch
import Mathlib.Data.Int.CardIntervalMod
/-
C25 (which samples an epoch uses), C26 (the shuffle), C27 (several optimizers in a process).
-/
set_option linter.unusedSimpArgs false

namespace NN
open FloatOps Spec

/-! ### C26 -/

/-- The loop starts at `n - 1`. -/
theorem fisherYates_some (r : ℕ → ℕ) (k n : ℕ) (arr : List ℕ) (h1 : 1 ≤ n) :
    fisherYates r k (some arr) n =
      (do let (arr, k) ← fisherYatesLoop r (n - 1) k arr; pure (some arr, k) : M (Option (List ℕ) × ℕ)) := by
  simp only [fisherYates, if_neg (show ¬ n = 0 by omega)]
  split
  · rename_i h; simp [h, fisherYatesLoop, bind, Except.bind, pure, Except.pure]
  · rfl

theorem fisherYates_none (r : ℕ → ℕ) (k n : ℕ) (h1 : 2 ≤ n) :
    fisherYates r k none n = .error .nullDeref := by
  simp only [fisherYates, if_neg (show ¬ n = 0 by omega), if_neg (show ¬ n - 1 = 0 by omega)]

/-- **C26** Whatever `rand()` delivers, the shuffle makes a permutation, using `n - 1` random numbers. -/
theorem C26_permutation (r : ℕ → ℕ) (k : ℕ) (arr : List ℕ) (h1 : 1 ≤ arr.length) (h2 : arr.length < 2 ^ 32) :
    ∃ t, fisherYates r k (some arr) arr.length = .ok (some t, k + (arr.length - 1)) ∧ t.Perm arr := by
  rw [fisherYates_some r k _ arr h1]
  obtain ⟨t, ht, hp, -⟩ := fisherYatesLoop_perm r (arr.length - 1) k arr (by omega)
  exact ⟨t, by simp [ht, bind, Except.bind, pure, Except.pure], hp⟩

/-- **C26** Every permutation `t` of `n` different numbers is the result for exactly one sequence of
draws `d`, where the `m`-th draw ranges over the `n - m` positions `0, …, n - 1 - m`.  So there are as many
draws as permutations, and independent uniform draws give a uniform permutation. -/
theorem C26_unique_draws (arr t : List ℕ) (hn : arr.Nodup) (h1 : 1 ≤ arr.length) (h2 : arr.length < 2 ^ 32)
    (hp : t.Perm arr) :
    ∃! d : List ℕ, (d.length = arr.length - 1 ∧ ∀ m < arr.length - 1, d.getD m 0 < arr.length - m) ∧
      fisherYates (fun k => d.getD k 0) 0 (some arr) arr.length = .ok (some t, arr.length - 1) := by
  obtain ⟨d, ⟨⟨hl, hd⟩, hrun⟩, huniq⟩ := fisherYatesLoop_unique (arr.length - 1) arr t hn (by omega) hp
    (by rw [List.drop_of_length_le (by have := hp.length_eq; omega), List.drop_of_length_le (by omega)])
  have hiff : ∀ d : List ℕ, fisherYates (fun k => d.getD k 0) 0 (some arr) arr.length =
      .ok (some t, arr.length - 1) ↔
      fisherYatesLoop (drawStream d) (arr.length - 1) 0 arr = .ok (t, arr.length - 1) := by
    intro d
    rw [fisherYates_some _ _ _ arr h1]
    obtain ⟨u, hu, -, -⟩ := fisherYatesLoop_perm (drawStream d) (arr.length - 1) 0 arr (by omega)
    have e : fisherYatesLoop (fun k => d.getD k 0) (arr.length - 1) 0 arr = .ok (u, 0 + (arr.length - 1)) := hu
    rw [hu, e]
    simp [bind, Except.bind, pure, Except.pure]
  refine ⟨d, ⟨⟨hl, fun m hm => ?_⟩, (hiff d).mpr hrun⟩, ?_⟩
  · have := hd m hm; omega
  · rintro d' ⟨⟨hl', hd'⟩, hrun'⟩
    exact huniq d' ⟨⟨hl', fun m hm => by have := hd' m hm; omega⟩, (hiff d').mp hrun'⟩

/-- The code takes the draws as `rand() % m`.  Among the `N = RAND_MAX + 1` values of `rand()`, those giving
`v` are one more for `v < N % m` than for the other `v`. -/
theorem modulo_count (N m v : ℕ) (hm : 1 ≤ m) (hv : v < m) :
    N.count (fun x => x % m = v) = N / m + if v < N % m then 1 else 0 := by
  have h := Nat.count_modEq_card N (r := m) hm v
  rw [Nat.mod_eq_of_lt hv] at h
  rw [← h]
  congr 1
  funext x
  simp [Nat.ModEq, Nat.mod_eq_of_lt hv]

theorem card_fin_filter (N : ℕ) (p : ℕ → Prop) [DecidablePred p] :
    (Finset.univ.filter fun x : Fin N => p x).card = N.count p := by
  rw [Nat.count_eq_card_filter_range, ← Finset.card_map Fin.valEmbedding]
  congr 1
  ext x
  simp only [Finset.mem_map, Finset.mem_filter, Finset.mem_univ, true_and, Finset.mem_range, Fin.valEmbedding_apply]
  constructor
  · rintro ⟨y, hy, rfl⟩; exact ⟨y.2, hy⟩
  · rintro ⟨h1, h2⟩; exact ⟨⟨x, h1⟩, h2, rfl⟩

/-- `k` values of `rand()`. -/
def randStream {N k : ℕ} (ρ : Fin k → Fin N) : ℕ → ℕ := fun i => if h : i < k then ρ ⟨i, h⟩ else 0

/-- The sequences of values of `rand()`, among all `N^(n-1)`, for which the shuffle of `arr` gives `t`. -/
def shuffleOutcomes (N : ℕ) (arr t : List ℕ) : Finset (Fin (arr.length - 1) → Fin N) :=
  open Classical in
  Finset.univ.filter fun ρ => fisherYates (randStream ρ) 0 (some arr) arr.length = .ok (some t, arr.length - 1)

theorem shuffleOutcomes_card (N : ℕ) (arr t d : List ℕ) (hn : arr.Nodup) (h1 : 1 ≤ arr.length) (h2 : arr.length < 2 ^ 32)
    (hl : d.length = arr.length - 1) (hd : ∀ m < arr.length - 1, d.getD m 0 < arr.length - m)
    (hrun : fisherYates (fun k => d.getD k 0) 0 (some arr) arr.length = .ok (some t, arr.length - 1)) (hp : t.Perm arr) :
    (shuffleOutcomes N arr t).card =
      ∏ m : Fin (arr.length - 1), (N / (arr.length - m) + if d.getD m 0 < N % (arr.length - m) then 1 else 0) := by
  obtain ⟨d', -, huniq⟩ := C26_unique_draws arr t hn h1 h2 hp
  have hcongr : ∀ r r' : ℕ → ℕ, (∀ m < arr.length - 1, r m % (arr.length - m) = r' m % (arr.length - m)) →
      fisherYates r 0 (some arr) arr.length = .ok (some t, arr.length - 1) →
      fisherYates r' 0 (some arr) arr.length = .ok (some t, arr.length - 1) := by
    intro r r' hr h
    rw [fisherYates_some _ _ _ _ h1] at h ⊢
    obtain ⟨u, hu, -, -⟩ := fisherYatesLoop_perm r (arr.length - 1) 0 arr (by omega)
    have := fisherYatesLoop_congr r r' (arr.length - 1) 0 0 arr (by omega) (fun m hm => by
      have := hr m hm
      simp only [zero_add]
      rwa [show arr.length - 1 - m + 1 = arr.length - m by omega]) u hu
    rw [hu] at h
    rw [this]
    exact h
  have key : shuffleOutcomes N arr t = Fintype.piFinset fun m : Fin (arr.length - 1) =>
      Finset.univ.filter fun x : Fin N => (x : ℕ) % (arr.length - m) = d.getD m 0 := by
    ext ρ
    simp only [shuffleOutcomes, Finset.mem_filter, Finset.mem_univ, true_and, Fintype.mem_piFinset]
    constructor
    · intro h m
      have e := huniq ((List.range (arr.length - 1)).map fun m => randStream ρ m % (arr.length - m)) ⟨⟨by simp, fun m hm => by
        simp only [List.getD, List.getElem?_map, List.getElem?_range hm, Option.map_some, Option.getD_some]
        exact Nat.mod_lt _ (by omega)⟩, hcongr _ _ (fun m hm => by
          simp [List.getD, List.getElem?_range hm]) h⟩
      rw [← huniq d ⟨⟨hl, hd⟩, hrun⟩] at e
      rw [← e]
      simp [List.getD, List.getElem?_range m.2, randStream]
    · intro h
      refine hcongr _ _ (fun m hm => ?_) hrun
      have := h ⟨m, hm⟩
      simp only at this
      rw [randStream, dif_pos hm, this, Nat.mod_eq_of_lt (hd m hm)]
  rw [key, Fintype.card_piFinset]
  refine Finset.prod_congr rfl fun m _ => ?_
  rw [card_fin_filter N (fun x => x % (arr.length - m) = d.getD m 0), modulo_count _ _ _ (by omega) (hd m m.2)]

/-- **C26** How many of the `N^(n-1)` sequences of values of `rand()` (`N = RAND_MAX + 1`) give the permutation `t`: a product
with a factor `⌊N/k⌋` or `⌊N/k⌋ + 1` for every `k = n, …, 2`.  So two probabilities differ at most by the factor
`∏ (1 + 1/⌊N/k⌋)`. -/
theorem C26_counts (N : ℕ) (arr t : List ℕ) (hn : arr.Nodup) (h1 : 1 ≤ arr.length) (h2 : arr.length < 2 ^ 32) (hp : t.Perm arr) :
    ∏ m : Fin (arr.length - 1), (N / (arr.length - m)) ≤ (shuffleOutcomes N arr t).card ∧
    (shuffleOutcomes N arr t).card ≤ ∏ m : Fin (arr.length - 1), (N / (arr.length - m) + 1) := by
  obtain ⟨d, ⟨⟨hl, hd⟩, hrun⟩, -⟩ := C26_unique_draws arr t hn h1 h2 hp
  rw [shuffleOutcomes_card N arr t d hn h1 h2 hl hd hrun hp]
  constructor
  · exact Finset.prod_le_prod' fun m _ => by omega
  · exact Finset.prod_le_prod' fun m _ => by split <;> omega

/-- **C26** If all numbers up to `n` divide `RAND_MAX + 1`, the shuffle is uniform. -/
theorem C26_uniform (N : ℕ) (arr t : List ℕ) (hn : arr.Nodup) (h1 : 1 ≤ arr.length) (h2 : arr.length < 2 ^ 32) (hp : t.Perm arr)
    (hN : ∀ k, 2 ≤ k → k ≤ arr.length → k ∣ N) :
    (shuffleOutcomes N arr t).card = ∏ m : Fin (arr.length - 1), (N / (arr.length - m)) := by
  obtain ⟨d, ⟨⟨hl, hd⟩, hrun⟩, -⟩ := C26_unique_draws arr t hn h1 h2 hp
  rw [shuffleOutcomes_card N arr t d hn h1 h2 hl hd hrun hp]
  refine Finset.prod_congr rfl fun m _ => ?_
  rw [Nat.mod_eq_zero_of_dvd (hN _ (by omega) (by omega))]
  simp

/-- **C26** Otherwise it is not: if the number `n ≤ RAND_MAX + 1` of samples does not divide `RAND_MAX + 1`, some
permutation comes up more often than another, e.g. with `RAND_MAX = 2^31 - 1` already for three samples. -/
theorem C26_biased (N : ℕ) (arr : List ℕ) (hn : arr.Nodup) (h1 : 2 ≤ arr.length) (h2 : arr.length < 2 ^ 32)
    (hN : arr.length ≤ N) (hdvd : ¬ arr.length ∣ N) :
    ∃ t t' : List ℕ, t.Perm arr ∧ t'.Perm arr ∧ (shuffleOutcomes N arr t).card < (shuffleOutcomes N arr t').card := by
  have hmod : 0 < N % arr.length := Nat.pos_of_ne_zero fun h => hdvd (Nat.dvd_of_mod_eq_zero h)
  have hlt : N % arr.length < arr.length := Nat.mod_lt _ (by omega)
  have run : ∀ v < arr.length, ∃ t : List ℕ, t.Perm arr ∧ (shuffleOutcomes N arr t).card =
      ∏ m : Fin (arr.length - 1), (N / (arr.length - m) +
        if (v :: List.replicate (arr.length - 2) 0).getD m 0 < N % (arr.length - m) then 1 else 0) := by
    intro v hv
    obtain ⟨t, ht, hp⟩ := C26_permutation (fun k => (v :: List.replicate (arr.length - 2) 0).getD k 0) 0 arr (by omega) h2
    refine ⟨t, hp, shuffleOutcomes_card N arr t _ hn (by omega) h2 (by simp; omega) ?_ (by simpa using ht) hp⟩
    intro m hm
    rcases m with _ | m
    · simpa using hv
    · simp only [List.getD, List.getElem?_cons_succ, List.getElem?_replicate]
      split <;> simp <;> omega
  obtain ⟨t', hp', hc'⟩ := run 0 (by omega)
  obtain ⟨t, hp, hc⟩ := run (arr.length - 1) (by omega)
  refine ⟨t, t', hp, hp', ?_⟩
  rw [hc, hc']
  obtain ⟨k, hk⟩ : ∃ k, arr.length - 1 = k + 1 := ⟨arr.length - 2, by omega⟩
  have e : ∀ f : ℕ → ℕ, ∏ m : Fin (arr.length - 1), f m = f 0 * ∏ m : Fin k, f (m + 1) := by
    intro f
    rw [Finset.prod_fin_eq_prod_range, Finset.prod_fin_eq_prod_range, hk, Finset.prod_range_succ']
    simp only [Nat.zero_lt_succ, dif_pos]
    rw [mul_comm]
    congr 1
    refine Finset.prod_congr rfl fun m hm => ?_
    rw [Finset.mem_range] at hm
    rw [dif_pos (by omega), dif_pos hm]
  rw [e fun m => N / (arr.length - m) +
      if ((arr.length - 1) :: List.replicate (arr.length - 2) 0).getD m 0 < N % (arr.length - m) then 1 else 0,
    e fun m => N / (arr.length - m) + if (0 :: List.replicate (arr.length - 2) 0).getD m 0 < N % (arr.length - m) then 1 else 0]
  simp only [List.getD_cons_zero, List.getD_cons_succ, Nat.sub_zero, if_pos hmod, if_neg (show ¬ arr.length - 1 < N % arr.length by omega)]
  apply Nat.mul_lt_mul_of_pos_right (by omega)
  apply Finset.prod_pos
  intro m _
  have : 1 ≤ N / (arr.length - (m + 1)) := (Nat.one_le_div_iff (by omega)).2 (by omega)
  omega

/-- Example: three samples, draws 1 and 0. -/
example : fisherYates (fun k => [1, 0].getD k 0) 0 (some [0, 1, 2]) 3 = .ok (some [2, 0, 1], 2) := by
  simp [fisherYates, fisherYatesLoop, bind, Except.bind, pure, Except.pure]

/-- With `RAND_MAX = 2^31 - 1` the shuffle of three samples is not uniform. -/
example : ∃ t t' : List ℕ, t.Perm [0, 1, 2] ∧ t'.Perm [0, 1, 2] ∧
    (shuffleOutcomes (2 ^ 31) [0, 1, 2] t).card < (shuffleOutcomes (2 ^ 31) [0, 1, 2] t').card :=
  C26_biased _ _ (by decide) (by decide) (by norm_num) (by norm_num) (by norm_num)

/-- That of two samples is: each order for half of the values. -/
example : (shuffleOutcomes (2 ^ 31) [0, 1] [1, 0]).card = 2 ^ 30 := by
  rw [C26_uniform _ _ _ (by decide) (by decide) (by norm_num) (.swap _ _ _) (fun k h1 h2 => by
    have : k = 2 := by simp at h2; omega
    subst this; norm_num)]
  simp

/-! ### C25: the order of the samples -/

/-- What holds between epochs in a process with one optimizer: no epoch yet, or the pivot is a permutation
of as many samples as the last epoch had. -/
def PivotInv (nSample : ℕ) (pivot : Option (List ℕ)) : Prop :=
  (nSample = 0 ∧ pivot = none) ∨ ∃ p, pivot = some p ∧ p.Perm (List.range nSample)

/-- **C25** At the start of an epoch with `n` samples the pivot becomes a permutation of `0, …, n-1`, with
and without shuffling, for all random numbers, whatever the number of samples was before. -/
theorem C25_order (r : ℕ → ℕ) (n nSample k : ℕ) (shuffle : Bool) (pivot : Option (List ℕ)) (h1 : 1 ≤ n)
    (h2 : n < 2 ^ 32) (h : PivotInv nSample pivot) :
    ∃ p k', setupPivot r true n nSample k shuffle pivot = .ok (n, some p, k') ∧ p.Perm (List.range n) := by
  have key : ∃ q, preparePivot nSample pivot n true = (n, some q) ∧ q.Perm (List.range n) := by
    unfold preparePivot
    by_cases hn : n = nSample
    · subst hn
      rcases h with ⟨h0, -⟩ | ⟨p, rfl, hp⟩
      · omega
      · exact ⟨p, by simp, hp⟩
    · exact ⟨List.range n, by simp [hn], .refl _⟩
  obtain ⟨q, hq, hp⟩ := key
  have hl : q.length = n := by simpa using hp.length_eq
  cases shuffle
  · exact ⟨q, k, by simp [setupPivot, hq, bind, Except.bind, pure, Except.pure], hp⟩
  · obtain ⟨t, ht, htp⟩ := C26_permutation r k q (by omega) (by omega)
    rw [hl] at ht
    exact ⟨t, k + (n - 1), by simp [setupPivot, hq, ht, bind, Except.bind, pure, Except.pure], htp.trans hp⟩

/-- **C25** Without shuffling the samples are used in their order. -/
theorem C25_no_shuffle (r : ℕ → ℕ) (n k : ℕ) (h1 : 1 ≤ n) :
    setupPivot r true n 0 k false none = .ok (n, some (List.range n), k) := by
  simp [setupPivot, preparePivot, show n ≠ 0 by omega, bind, Except.bind, pure, Except.pure]

/-- The batches of an epoch, put together, are the samples in the order of the pivot: every sample
is used exactly once. -/
theorem batches_partition (bs n : ℕ) (hbs : 1 ≤ bs) (order : List ℕ) (h : order.Perm (List.range n)) :
    (batches bs order).flatten = order ∧ ∀ p, (batches bs order).flatten.count p = if p < n then 1 else 0 := by
  have hf := batches_flatten bs hbs order
  refine ⟨hf, fun p => ?_⟩
  rw [hf, h.count_eq]
  by_cases hp : p < n
  · simp [hp, List.count_eq_one_of_mem List.nodup_range (List.mem_range.mpr hp)]
  · simp [hp, List.count_eq_zero_of_not_mem (fun hm => hp (List.mem_range.mp hm))]

/-- The calls of `optimizer_run_epoch` of the only optimizer, as far as the pivot is concerned. -/
def setupAll (r : ℕ → ℕ) (shuffle : Bool) :
    List ℕ → ℕ × Option (List ℕ) × ℕ → M (ℕ × Option (List ℕ) × ℕ)
  | [], s => pure s
  | n :: ns, (nSample, pivot, k) => do
    let s ← setupPivot r true n nSample k shuffle pivot
    setupAll r shuffle ns s

/-- **C25** Every history of epochs, with any sample counts: no fault, and each epoch gets a permutation of
its samples. -/
theorem C25_history (r : ℕ → ℕ) (shuffle : Bool) (ns : List ℕ) (n : ℕ)
    (h : ∀ m ∈ ns ++ [n], 1 ≤ m ∧ m < 2 ^ 32) :
    ∃ p k, setupAll r shuffle (ns ++ [n]) (0, none, 0) = .ok (n, some p, k) ∧ p.Perm (List.range n) := by
  have gen : ∀ (ns : List ℕ) (nS k : ℕ) (pv : Option (List ℕ)), PivotInv nS pv →
      (∀ m ∈ ns ++ [n], 1 ≤ m ∧ m < 2 ^ 32) →
      ∃ p k', setupAll r shuffle (ns ++ [n]) (nS, pv, k) = .ok (n, some p, k') ∧ p.Perm (List.range n) := by
    intro ns
    induction ns with
    | nil =>
      intro nS k pv hpv h
      obtain ⟨p, k', h1, h2⟩ := C25_order r n nS k shuffle pv (h n (by simp)).1 (h n (by simp)).2 hpv
      exact ⟨p, k', by simp [setupAll, h1, bind, Except.bind, pure, Except.pure], h2⟩
    | cons m ns ih =>
      intro nS k pv hpv h
      obtain ⟨p, k', h1, h2⟩ := C25_order r m nS k shuffle pv (h m (by simp)).1 (h m (by simp)).2 hpv
      obtain ⟨q, k'', h3, h4⟩ := ih m k' (some p) (.inr ⟨p, rfl, h2⟩) (fun x hx => h x (by
        simp only [List.cons_append, List.mem_cons]; exact .inr hx))
      exact ⟨q, k'', by simp [setupAll, h1, bind, Except.bind]; exact h3, h4⟩
  exact gen ns 0 0 none (.inl ⟨rfl, rfl⟩) h

/-- Example: epochs with 3, then 2, then 2 samples, random numbers 5, 7, 1, 0. -/
example : setupAll (fun k => [5, 7, 1, 0].getD k 0) true [3, 2, 2] (0, none, 0) =
    .ok (2, some [1, 0], 4) := by
  simp [setupAll, setupPivot, preparePivot, fisherYates, fisherYatesLoop, List.range_succ, bind, Except.bind, pure,
    Except.pure]

/-- Example: 5 samples in batches of 2. -/
example : batches 2 [3, 1, 4, 0, 2] = [[3, 1], [4, 0], [2]] := by decide

/-! ### C27: several optimizers share `_n_sample` -/

section
variable {F S : Type} [FloatOps F]

/-- **C27 is false**: if another optimizer has run an epoch with the same number of samples, the pivot of a
fresh optimizer stays NULL and the first epoch dereferences it — for every kind of optimizer, every network and
data. -/
theorem C27_false_same_count (kind : OptKind F S) (env : CustomEnv F) (c : Cfg)
    (mem memV : ℕ → ThreadMem F) (sched schedV : Sched) (r : ℕ → ℕ) (k : ℕ) (allocOk : Bool)
    (n : ℕ) (X Y : View F) (nValid : ℕ) (valid : Option (View F × View F)) (results : View F)
    (st : Statics F) (s : S) (h1 : 2 ≤ n)
    (hused : st.nSample = n) (hfresh : (kind.opt s).pivot = none) (hshuffle : (kind.opt s).shuffle = true) :
    runEpoch kind env c mem memV sched schedV r k allocOk n X Y nValid valid results st s =
      .error .nullDeref := by
  simp [runEpoch, setupPivot, preparePivot, hused, hfresh, hshuffle, fisherYates_none r k n h1, bind, Except.bind]

/-- **C27 is false**: if the other optimizer ran with a larger number of samples `n`, an epoch with `n` samples of
an optimizer whose pivot has fewer entries accesses the pivot out of bounds. -/
theorem C27_false_larger_count (kind : OptKind F S) (env : CustomEnv F) (c : Cfg)
    (mem memV : ℕ → ThreadMem F) (sched schedV : Sched) (r : ℕ → ℕ) (k : ℕ) (allocOk : Bool)
    (n : ℕ) (X Y : View F) (nValid : ℕ) (valid : Option (View F × View F)) (results : View F)
    (st : Statics F) (s : S) (p : List ℕ) (h1 : 2 ≤ n) (h2 : n < 2 ^ 32)
    (hused : st.nSample = n) (hp : (kind.opt s).pivot = some p) (hlen : p.length < n)
    (hshuffle : (kind.opt s).shuffle = true) :
    runEpoch kind env c mem memV sched schedV r k allocOk n X Y nValid valid results st s =
      .error .oob := by
  have hfy : fisherYates r k (some p) n = .error .oob := by
    rw [fisherYates_some r k n p (by omega)]
    obtain ⟨m, rfl⟩ : ∃ m, n = m + 2 := ⟨n - 2, by omega⟩
    have : p[m + 1]? = none := by simp; omega
    have hl : fisherYatesLoop r (m + 1) k p = .error .oob := by
      unfold fisherYatesLoop
      simp only [this]
      split <;> simp_all
    rw [show m + 2 - 1 = m + 1 by omega, hl]
    rfl
  simp [runEpoch, setupPivot, preparePivot, hused, hp, hshuffle, hfy, bind, Except.bind]

/-- The history behind the first theorem: after an epoch of optimizer A with 4 samples the static is 4, and the
pivot of a new optimizer B is not allocated. -/
example (r : ℕ → ℕ) : (∃ p k, setupPivot r true 4 0 0 true none = .ok (4, some p, k)) ∧
    ∀ k, setupPivot r true 4 4 k true none = .error .nullDeref := by
  refine ⟨?_, fun k => by
    simp [setupPivot, preparePivot, fisherYates_none r k 4, bind, Except.bind]⟩
  obtain ⟨p, k, h, -⟩ := C25_order r 4 0 0 true none (by norm_num) (by norm_num) (.inl ⟨rfl, rfl⟩)
  exact ⟨p, k, h⟩

/-- The history behind the second one: A with 5 samples, B with 10 samples, A with 10 samples. -/
example (r : ℕ → ℕ) : ∃ pA kA pB kB, setupPivot r true 5 0 0 true none = .ok (5, some pA, kA) ∧
    setupPivot r true 10 5 kA true none = .ok (10, some pB, kB) ∧
    setupPivot r true 10 10 kB true (some pA) = .error .oob := by
  obtain ⟨pA, kA, h1, hA⟩ := C25_order r 5 0 0 true none (by norm_num) (by norm_num) (.inl ⟨rfl, rfl⟩)
  have hq : ∀ kA, ∃ pB kB, setupPivot r true 10 5 kA true none = .ok (10, some pB, kB) := by
    intro kA
    obtain ⟨t, ht, -⟩ := C26_permutation r kA (List.range 10) (by simp) (by simp)
    exact ⟨t, kA + 9, by
      simp only [List.length_range] at ht
      simp [setupPivot, preparePivot, ht, bind, Except.bind, pure, Except.pure]⟩
  obtain ⟨pB, kB, h2⟩ := hq kA
  refine ⟨pA, kA, pB, kB, h1, h2, ?_⟩
  have hl : pA.length = 5 := by simpa using hA.length_eq
  have : pA[9]? = none := by simp [hl]
  simp only [setupPivot, preparePivot, ne_eq, not_true_eq_false, if_false, if_true]
  rw [fisherYates_some r kB 10 pA (by omega)]
  have hl : fisherYatesLoop r 9 kB pA = .error .oob := by
    unfold fisherYatesLoop
    simp only [this]
    split <;> simp_all
  simp [hl, bind, Except.bind]

end

/-- **C27** What remains true: if the epoch before (of whichever optimizer) had a different number of samples, the
pivot is built anew, whatever this optimizer did before; the epoch then uses a permutation of its samples.
(Missing: the case of equal numbers, which is false.) -/
theorem C27_partial (r : ℕ → ℕ) (n nSample k : ℕ) (shuffle : Bool) (pivot : Option (List ℕ)) (h1 : 1 ≤ n)
    (h2 : n < 2 ^ 32) (hne : nSample ≠ n) :
    (∃ p k', setupPivot r true n nSample k shuffle pivot = .ok (n, some p, k') ∧ p.Perm (List.range n)) ∧
    setupPivot r true n nSample k shuffle pivot = setupPivot r true n 0 k shuffle none := by
  have e : setupPivot r true n nSample k shuffle pivot = setupPivot r true n 0 k shuffle none := by
    simp [setupPivot, preparePivot, Ne.symm hne, show n ≠ 0 by omega]
  rw [e]
  exact ⟨C25_order r n 0 k shuffle none h1 h2 (.inl ⟨rfl, rfl⟩), rfl⟩

example : ∃ p k', setupPivot (fun _ => 7) true 4 6 0 true (some [1, 0]) = .ok (4, some p, k') ∧
    p.Perm (List.range 4) := (C27_partial _ 4 6 0 true (some [1, 0]) (by norm_num) (by norm_num) (by norm_num)).1

end NN
