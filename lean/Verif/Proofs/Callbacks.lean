import Verif.Model.Callbacks
import Verif.Spec.Callbacks
import Mathlib.Tactic.NormNum
/-
Early stopping and checkpoints: the best score is tracked, counters.
-/
set_option linter.unusedSectionVars false

namespace NN
open FloatOps Spec
variable {F : Type} [FloatOps F]

/-- The largest float. -/
noncomputable def fltMaxE : EReal := ((340282346638528859811704183484516925440 : ℝ) : EReal)

/-- The comparisons of floats are those of their values (`none`: NaN), as IEEE-754 says. -/
structure Compares (val : F → Option EReal) : Prop where
  lt_iff : ∀ a b, lt a b = true ↔ ∃ x y, val a = some x ∧ val b = some y ∧ x < y
  eq_iff : ∀ a b, eq a b = true ↔ ∃ x y, val a = some x ∧ val b = some y ∧ x = y
  max : val fltMax = some fltMaxE

/-! ### Lists of scores -/

theorem improves_snoc (greater : Bool) (sc : List (Option EReal)) (s : Option EReal) :
    improves greater (sc ++ [s]) sc.length ↔ s ≠ none ∧ ∀ t ∈ sc, t ≠ none → better greater s t := by
  simp [improves]

theorem improves_append (greater : Bool) (sc l : List (Option EReal)) (i : ℕ) (hi : i < sc.length) :
    improves greater (sc ++ l) i ↔ improves greater sc i := by
  simp only [improves, List.getElem?_append_left hi, List.take_append_of_le_length hi.le]

/-- What the tracking of the best score provides. -/
structure Tracks (greater : Bool) (v : F → Option EReal) (Inv : List (Option EReal) → F → Prop)
    (Ok : List (Option EReal) → F → Prop) : Prop where
  imp : ∀ sc b s, Inv sc b → Ok sc s →
    (isImprovement greater b s = true ↔ improves greater (sc ++ [v s]) sc.length)
  next : ∀ sc b s, Inv sc b → Ok sc s → Inv (sc ++ [v s]) (if isImprovement greater b s then s else b)

/-- Less is better. -/
def InvLess (val : F → Option EReal) (sc : List (Option EReal)) (b : F) : Prop :=
  ∃ x, val b = some x ∧ x ≤ fltMaxE ∧ (∀ y, some y ∈ sc → x ≤ y) ∧ (x = fltMaxE ∨ some x ∈ sc)

theorem below_eq_some {m : EReal} {s : Option EReal} {x : EReal} : below m s = some x ↔ s = some x ∧ x < m := by
  classical
  cases s with
  | none => simp [below]
  | some y =>
    simp only [below, Option.bind_some, Option.some.injEq]
    split
    · constructor
      · intro h; rw [Option.some.injEq] at h; subst h; exact ⟨rfl, by assumption⟩
      · rintro ⟨rfl, -⟩; rfl
    · constructor
      · intro h; simp at h
      · rintro ⟨rfl, h⟩; contradiction

theorem tracks_less (val : F → Option EReal) (hc : Compares val) :
    Tracks false (fun s => below fltMaxE (val s)) (InvLess val) (fun _ _ => True) := by
  have key : ∀ sc b s, InvLess val sc b → (isImprovement false b s = true ↔
      improves false (sc ++ [below fltMaxE (val s)]) sc.length) := by
    intro sc b s ⟨x, hx, hM, hle, hin⟩
    rw [improves_snoc]
    simp only [isImprovement, Bool.false_eq_true, if_false, hc.lt_iff]
    constructor
    · rintro ⟨a, y, ha, hy, hlt⟩
      rw [hx, Option.some.injEq] at hy
      subst hy
      have hs : below fltMaxE (val s) = some a := below_eq_some.mpr ⟨ha, hlt.trans_le hM⟩
      refine ⟨by rw [hs]; simp, fun t ht hne => ?_⟩
      obtain ⟨z, rfl⟩ := Option.ne_none_iff_exists'.mp hne
      exact ⟨a, z, hs, rfl, by simpa using hlt.trans_le (hle z ht)⟩
    · rintro ⟨hne, hall⟩
      obtain ⟨a, hs⟩ := Option.ne_none_iff_exists'.mp hne
      obtain ⟨ha, haM⟩ := below_eq_some.mp hs
      refine ⟨a, x, ha, hx, ?_⟩
      rcases hin with h | h
      · rw [h]; exact haM
      · obtain ⟨p, q, hp, hq, hlt⟩ := hall _ h (by simp)
        rw [hs, Option.some.injEq] at hp
        rw [Option.some.injEq] at hq
        subst hp; subst hq
        simpa using hlt
  refine ⟨fun sc b s h _ => key sc b s h, fun sc b s h _ => ?_⟩
  have hk := key sc b s h
  obtain ⟨x, hx, hM, hle, hin⟩ := h
  by_cases hi : isImprovement false b s = true
  · rw [if_pos hi]
    obtain ⟨hne, hall⟩ := (improves_snoc _ _ _).mp (hk.mp hi)
    obtain ⟨a, hs⟩ := Option.ne_none_iff_exists'.mp hne
    obtain ⟨ha, haM⟩ := below_eq_some.mp hs
    refine ⟨a, ha, haM.le, ?_, .inr (by rw [hs]; simp)⟩
    intro y hy
    rw [List.mem_append, List.mem_singleton] at hy
    rcases hy with hy | hy
    · obtain ⟨p, q, hp, hq, hlt⟩ := hall _ hy (by simp)
      rw [hs, Option.some.injEq] at hp
      rw [Option.some.injEq] at hq
      subst hp; subst hq
      exact (by simpa using hlt : a < y).le
    · rw [hs, Option.some.injEq] at hy; rw [hy]
  · rw [if_neg hi]
    refine ⟨x, hx, hM, ?_, hin.imp_right (by simp +contextual)⟩
    intro y hy
    rw [List.mem_append, List.mem_singleton] at hy
    rcases hy with hy | hy
    · exact hle y hy
    · by_contra hlt
      apply hi
      simp only [isImprovement, Bool.false_eq_true, if_false, hc.lt_iff]
      exact ⟨y, x, (below_eq_some.mp hy.symm).1, hx, not_le.mp hlt⟩

/-- Greater is better. -/
def InvGreater (val : F → Option EReal) (sc : List (Option EReal)) (b : F) : Prop :=
  (sc = [] ∧ b = fltMax) ∨
  ∃ x, val b = some x ∧ x ≠ fltMaxE ∧ some x ∈ sc ∧ ∀ y, some y ∈ sc → y ≤ x

/-- No score is exactly `FLT_MAX`; the first one is a number. -/
def OkGreater (val : F → Option EReal) (sc : List (Option EReal)) (s : F) : Prop :=
  val s ≠ some fltMaxE ∧ (sc = [] → val s ≠ none)

theorem tracks_greater (val : F → Option EReal) (hc : Compares val) :
    Tracks true val (InvGreater val) (OkGreater val) := by
  have key : ∀ sc b s, InvGreater val sc b → OkGreater val sc s → (isImprovement true b s = true ↔
      improves true (sc ++ [val s]) sc.length) := by
    rintro sc b s (⟨rfl, rfl⟩ | ⟨x, hx, hM, hin, hle⟩) ⟨ho1, ho2⟩
    · have h1 : isImprovement true (fltMax : F) s = true := by
        simp only [isImprovement, if_true, Bool.or_eq_true]
        exact .inr ((hc.eq_iff _ _).mpr ⟨_, _, hc.max, hc.max, rfl⟩)
      rw [improves_snoc]
      simp [h1, ho2]
    · rw [improves_snoc]
      have h2 : ¬ (eq b fltMax = true) := by
        rw [hc.eq_iff]
        rintro ⟨p, q, hp, hq, h⟩
        rw [hx, Option.some.injEq] at hp
        rw [hc.max, Option.some.injEq] at hq
        exact hM (by rw [hp, hq, h])
      simp only [isImprovement, if_true, Bool.or_eq_true, h2, Bool.false_eq_true, or_false, hc.lt_iff]
      constructor
      · rintro ⟨y, a, hy, ha, hlt⟩
        rw [hx, Option.some.injEq] at hy
        subst hy
        refine ⟨by rw [ha]; simp, fun t ht hne => ?_⟩
        obtain ⟨z, rfl⟩ := Option.ne_none_iff_exists'.mp hne
        exact ⟨a, z, ha, rfl, by simpa using (hle z ht).trans_lt hlt⟩
      · rintro ⟨hne, hall⟩
        obtain ⟨a, hs⟩ := Option.ne_none_iff_exists'.mp hne
        obtain ⟨p, q, hp, hq, hlt⟩ := hall _ hin (by simp)
        rw [hs, Option.some.injEq] at hp
        rw [Option.some.injEq] at hq
        subst hp; subst hq
        exact ⟨x, a, hx, hs, by simpa using hlt⟩
  refine ⟨key, fun sc b s h ho => ?_⟩
  have hk := key sc b s h ho
  by_cases hi : isImprovement true b s = true
  · rw [if_pos hi]
    obtain ⟨hne, hall⟩ := (improves_snoc _ _ _).mp (hk.mp hi)
    obtain ⟨a, hs⟩ := Option.ne_none_iff_exists'.mp hne
    refine .inr ⟨a, hs, fun h => ho.1 (by rw [hs, h]), by rw [hs]; simp, ?_⟩
    intro y hy
    rw [List.mem_append, List.mem_singleton] at hy
    rcases hy with hy | hy
    · obtain ⟨p, q, hp, hq, hlt⟩ := hall _ hy (by simp)
      rw [hs, Option.some.injEq] at hp
      rw [Option.some.injEq] at hq
      subst hp; subst hq
      exact (by simpa using hlt : y < a).le
    · rw [hs, Option.some.injEq] at hy; rw [hy]
  · rw [if_neg hi]
    rcases h with ⟨rfl, rfl⟩ | ⟨x, hx, hM, hin, hle⟩
    · exact absurd (by simp [isImprovement, (hc.eq_iff (fltMax : F) fltMax).mpr ⟨_, _, hc.max, hc.max, rfl⟩]) hi
    · refine .inr ⟨x, hx, hM, by simp [hin], ?_⟩
      intro y hy
      rw [List.mem_append, List.mem_singleton] at hy
      rcases hy with hy | hy
      · exact hle y hy
      · by_contra hlt
        apply hi
        simp only [isImprovement, if_true, Bool.or_eq_true, hc.lt_iff]
        exact .inl ⟨x, y, hx, hy.symm, not_le.mp hlt⟩

/-! ### The counter -/

/-- `since` counts the epochs after the last improvement, `flag` says whether they ever exceeded the patience. -/
structure Counts (patience : ℤ) (imp : ℕ → Prop) (n since : ℕ) (flag : Bool) : Prop where
  le : since ≤ n
  none : ∀ j, n - since ≤ j → j < n → ¬ imp j
  last : since = n ∨ imp (n - since - 1)
  flag_iff : flag = true ↔ ∃ i, i + max (patience + 1).toNat 1 ≤ n ∧
    ∀ j < max (patience + 1).toNat 1, ¬ imp (i + j)

theorem Counts.zero (patience : ℤ) (imp : ℕ → Prop) : Counts patience imp 0 0 false := by
  refine ⟨le_rfl, by simp, .inl rfl, ?_⟩
  simp only [Bool.false_eq_true, false_iff, not_exists]
  intro i h
  omega

theorem Counts.congr {patience : ℤ} {imp imp' : ℕ → Prop} {n since : ℕ} {flag : Bool}
    (h : Counts patience imp n since flag) (he : ∀ j < n, (imp j ↔ imp' j)) : Counts patience imp' n since flag := by
  refine ⟨h.le, fun j h1 h2 => by rw [← he j h2]; exact h.none j h1 h2, ?_, ?_⟩
  · rcases h.last with e | e
    · exact .inl e
    · by_cases hz : since = n
      · exact .inl hz
      · have := h.le
        right; rw [← he _ (by omega)]; exact e
  · rw [h.flag_iff]
    refine exists_congr fun i => and_congr_right fun hi => forall_congr' fun j => ?_
    constructor <;> intro hh hj <;> have := hh hj
    · rw [← he _ (by omega)]; exact this
    · rw [he _ (by omega)]; exact this

theorem Counts.succ_imp {patience : ℤ} {imp : ℕ → Prop} {n since : ℕ} {flag : Bool}
    (h : Counts patience imp n since flag) (hi : imp n) : Counts patience imp (n + 1) 0 flag := by
  refine ⟨by omega, by omega, .inr (by simpa using hi), ?_⟩
  rw [h.flag_iff]
  constructor
  · rintro ⟨i, h1, h2⟩; exact ⟨i, by omega, h2⟩
  · rintro ⟨i, h1, h2⟩
    refine ⟨i, ?_, h2⟩
    by_contra hc
    have : i + (max (patience + 1).toNat 1 - 1) = n := by omega
    exact h2 (max (patience + 1).toNat 1 - 1) (by omega) (by rw [this]; exact hi)

theorem Counts.succ_no {patience : ℤ} {imp : ℕ → Prop} {n since : ℕ} {flag : Bool}
    (h : Counts patience imp n since flag) (hi : ¬ imp n) :
    Counts patience imp (n + 1) (since + 1) (flag || decide (patience < (since + 1 : ℕ))) := by
  have hle := h.le
  have hnone : ∀ j, n - since ≤ j → j < n + 1 → ¬ imp j := by
    intro j h1 h2
    by_cases hj : j = n
    · subst hj; exact hi
    · exact h.none j h1 (by omega)
  refine ⟨by omega, fun j h1 h2 => hnone j (by omega) h2, ?_, ?_⟩
  · rcases h.last with e | e
    · left; omega
    · right
      rw [show n + 1 - (since + 1) - 1 = n - since - 1 by omega]; exact e
  · rw [Bool.or_eq_true, h.flag_iff, decide_eq_true_eq]
    constructor
    · rintro (⟨i, h1, h2⟩ | hp)
      · exact ⟨i, by omega, h2⟩
      · refine ⟨n + 1 - max (patience + 1).toNat 1, ?_, ?_⟩
        · have : max (patience + 1).toNat 1 ≤ since + 1 := by omega
          omega
        · intro j hj
          apply hnone
          · omega
          · omega
    · rintro ⟨i, h1, h2⟩
      by_cases hin : i + max (patience + 1).toNat 1 ≤ n
      · exact .inl ⟨i, hin, h2⟩
      · right
        rcases h.last with e | e
        · omega
        · by_contra hc
          have hs : since + 1 < max (patience + 1).toNat 1 ∨ since + 1 ≤ patience := by omega
          have : since + 1 ≤ max (patience + 1).toNat 1 - 1 := by omega
          have hj := h2 (n - since - 1 - i) (by omega)
          by_cases hz : since = n
          · omega
          · apply hj
            rw [show i + (n - since - 1 - i) = n - since - 1 by omega]
            exact e

/-! ### Early stopping -/

theorem earlystoppingRuns_eq (greater : Bool) (v : F → Option EReal) (Inv : List (Option EReal) → F → Prop)
    (Ok : List (Option EReal) → F → Prop) (ht : Tracks greater v Inv Ok) (cb : EarlyStopping) (hg : cb.greater = greater)
    (ks : List (CallbackArgs F)) (scores : List F)
    (hs : List.Forall₂ (fun k s => monitoredScore cb.monitorIdx k = .ok s) ks scores) (pre : List F)
    (hok : ∀ i s, scores[i]? = some s → Ok ((pre ++ scores.take i).map v) s) (hlen : pre.length + ks.length < 2 ^ 31)
    (b : F) (since : ℕ) (flag : Bool) (hb : Inv (pre.map v) b)
    (hc : Counts cb.patience (improves greater (pre.map v)) pre.length since flag) :
    ∃ b' since' flag', earlystoppingRuns ks (⟨b, since⟩, { cb with flag := flag }) =
        .ok (⟨b', since'⟩, { cb with flag := flag' }) ∧
      Inv ((pre ++ scores).map v) b' ∧
      Counts cb.patience (improves greater ((pre ++ scores).map v)) (pre ++ scores).length since' flag' := by
  induction hs generalizing pre b since flag with
  | nil => exact ⟨b, since, flag, rfl, by simpa using hb, by simpa using hc⟩
  | @cons k s ks scores hk hs ih =>
    have ho : Ok (pre.map v) s := by simpa using hok 0 s rfl
    have himp := ht.imp _ _ _ hb ho
    have hnext := ht.next _ _ _ hb ho
    have hlen' : since + 1 < 2 ^ 31 := by have := hc.le; simp at hlen; omega
    have hc' : Counts cb.patience (improves greater ((pre ++ [s]).map v)) pre.length since flag := by
      refine hc.congr fun j hj => ?_
      rw [List.map_append]
      exact (improves_append _ _ _ _ (by simpa using hj)).symm
    have hmap : ((pre ++ [s]).map v) = pre.map v ++ [v s] := by simp
    have hl : (pre.map v).length = pre.length := by simp
    rw [← hmap, hl] at himp
    rw [← hmap] at hnext
    have hok' : ∀ i s', scores[i]? = some s' → Ok (((pre ++ [s]) ++ scores.take i).map v) s' := by
      intro i s' h
      have := hok (i + 1) s' (by simpa using h)
      simpa [List.append_assoc] using this
    have happ : pre ++ s :: scores = (pre ++ [s]) ++ scores := by simp
    rw [happ]
    by_cases hi : isImprovement greater b s = true
    · rw [if_pos hi] at hnext
      obtain ⟨b', since', flag', e1, e2⟩ := ih (pre ++ [s]) hok' (by simp at hlen ⊢; omega) s 0 flag hnext
        (by simpa using hc'.succ_imp (himp.mp hi))
      refine ⟨b', since', flag', ?_, e2⟩
      rw [← e1]
      simp only [earlystoppingRuns, List.foldlM_cons, earlystoppingRun, hk, hg, hi, bind, Except.bind, pure,
        Except.pure, if_true]
    · rw [if_neg hi] at hnext
      obtain ⟨b', since', flag', e1, e2⟩ := ih (pre ++ [s]) hok' (by simp at hlen ⊢; omega) b (since + 1)
        (flag || decide (cb.patience < (since + 1 : ℕ))) hnext
        (by simpa using hc'.succ_no (fun h => hi (himp.mpr h)))
      refine ⟨b', since', flag', ?_, e2⟩
      rw [← e1]
      simp only [earlystoppingRuns, List.foldlM_cons, earlystoppingRun, hk, hg, hi, bind, Except.bind, pure,
        Except.pure, if_false, hlen', if_true, Bool.false_eq_true]
      congr 2
      split_ifs with hp
      · simp only [decide_eq_true hp, Bool.or_true]
      · simp only [decide_eq_false hp, Bool.or_false]

/-! ### Checkpoints -/

/-- The last improving epoch is the first one with the best score. -/
theorem firstBest_of_last (greater : Bool) (sc : List (Option EReal)) (i : ℕ) (hi : improves greater sc i)
    (hlast : ∀ j, i < j → ¬ improves greater sc j) : firstBest greater sc i := by
  obtain ⟨s, hs, hne, hall⟩ := hi
  obtain ⟨x, rfl⟩ := Option.ne_none_iff_exists'.mp hne
  refine ⟨some x, hs, hne, hall, ?_⟩
  have hil : i < sc.length := by
    by_contra h
    rw [List.getElem?_eq_none (by omega)] at hs
    simp at hs
  have key : ∀ (j : ℕ) t, sc[j]? = some t → ¬ better greater t (some x) := by
    intro j
    induction j using Nat.strong_induction_on with
    | _ j ih =>
      intro t ht hb
      obtain ⟨y, x', rfl, hx', hlt⟩ := hb
      rw [Option.some.injEq] at hx'
      subst hx'
      rcases lt_trichotomy j i with hj | rfl | hj
      · obtain ⟨p, q, hp, hq, h2⟩ := hall (some y) (List.mem_take_iff_getElem.mpr
          ⟨j, by simp; omega, by rw [List.getElem?_eq_getElem (by omega)] at ht; simpa using ht⟩) (by simp)
        rw [Option.some.injEq] at hp hq
        subst hp; subst hq
        cases greater <;> simp at hlt h2 <;> exact absurd hlt h2.asymm
      · rw [hs] at ht
        simp at ht
        subst ht
        cases greater <;> simp at hlt
      · refine hlast j hj ⟨some y, ht, by simp, fun t ht' hne' => ?_⟩
        obtain ⟨z, rfl⟩ := Option.ne_none_iff_exists'.mp hne'
        obtain ⟨k, hk, hkz⟩ := List.mem_take_iff_getElem.mp ht'
        have hz : sc[k]? = some (some z) := by
          rw [List.getElem?_eq_getElem (by simp at hk; omega), hkz]
        have := ih k (by simp at hk; omega) (some z) hz
        refine ⟨y, z, rfl, rfl, ?_⟩
        by_contra hc
        apply this
        refine ⟨z, x, rfl, rfl, ?_⟩
        cases greater
        · simp at hlt hc ⊢; exact hc.trans_lt hlt
        · simp at hlt hc ⊢; exact hlt.trans_le hc
  intro t ht
  obtain ⟨j, hj, rfl⟩ := List.getElem_of_mem ht
  exact key j _ (List.getElem?_eq_getElem hj)

/-- If no epoch improves, no score is a number. -/
theorem no_numbers (greater : Bool) (sc : List (Option EReal)) (h : ∀ j, ¬ improves greater sc j) :
    ∀ t ∈ sc, t = none := by
  have key : ∀ (j : ℕ) t, sc[j]? = some t → t = none := by
    intro j
    induction j using Nat.strong_induction_on with
    | _ j ih =>
      intro t ht
      by_contra hne
      refine h j ⟨t, ht, hne, fun u hu hne' => ?_⟩
      obtain ⟨k, hk, hkz⟩ := List.mem_take_iff_getElem.mp hu
      have hz : sc[k]? = some u := by rw [List.getElem?_eq_getElem (by simp at hk; omega), hkz]
      exact absurd (ih k (by simp at hk; omega) u hz) hne'
  intro t ht
  obtain ⟨j, hj, rfl⟩ := List.getElem_of_mem ht
  exact key j _ (List.getElem?_eq_getElem hj)

theorem checkpointRuns_eq {W α : Type} (save : Net F → String → W → M W) (read : W → String → Option α)
    (abs : Net F → α) (greater : Bool) (v : F → Option EReal) (Inv : List (Option EReal) → F → Prop)
    (Ok : List (Option EReal) → F → Prop) (ht : Tracks greater v Inv Ok) (cb : Checkpoint) (hg : cb.greater = greater)
    (ks : List (Net F × CallbackArgs F)) (scores : List F)
    (hs : List.Forall₂ (fun k s => monitoredScore cb.monitorIdx k.2 = .ok s) ks scores)
    (hsave : ∀ k ∈ ks, ∀ w, ∃ w', save k.1 cb.file w = .ok w' ∧ read w' cb.file = some (abs k.1))
    (pre : List (Net F)) (pres : List F) (hp : pre.length = pres.length)
    (hok : ∀ i s, scores[i]? = some s → Ok ((pres ++ scores.take i).map v) s)
    (b : F) (hb : Inv (pres.map v) b) (w0 w : W)
    (hw : (∃ i nn, pre[i]? = some nn ∧ improves greater (pres.map v) i ∧
        (∀ j, i < j → ¬ improves greater (pres.map v) j) ∧ read w cb.file = some (abs nn)) ∨
      ((∀ j, ¬ improves greater (pres.map v) j) ∧ w = w0)) :
    ∃ b' w', checkpointRuns save cb ks (b, w) = .ok (b', w') ∧
      ((∃ i nn, (pre ++ ks.map (·.1))[i]? = some nn ∧ improves greater ((pres ++ scores).map v) i ∧
        (∀ j, i < j → ¬ improves greater ((pres ++ scores).map v) j) ∧ read w' cb.file = some (abs nn)) ∨
      ((∀ j, ¬ improves greater ((pres ++ scores).map v) j) ∧ w' = w0)) := by
  induction hs generalizing pre pres b w with
  | nil => exact ⟨b, w, rfl, by simpa using hw⟩
  | @cons k s ks scores hk hs ih =>
    have ho : Ok (pres.map v) s := by simpa using hok 0 s rfl
    have himp := ht.imp _ _ _ hb ho
    have hnext := ht.next _ _ _ hb ho
    have hmap : ((pres ++ [s]).map v) = pres.map v ++ [v s] := by simp
    have hl : (pres.map v).length = pres.length := by simp
    rw [← hmap, hl] at himp
    rw [← hmap] at hnext
    have hok' : ∀ i s', scores[i]? = some s' → Ok (((pres ++ [s]) ++ scores.take i).map v) s' := by
      intro i s' h
      have := hok (i + 1) s' (by simpa using h)
      simpa [List.append_assoc] using this
    have hbig : ∀ j, pres.length < j → ¬ improves greater ((pres ++ [s]).map v) j := by
      rintro j hj ⟨t, ht, -⟩
      rw [List.getElem?_eq_none (by simp; omega)] at ht
      simp at ht
    have hsmall : ∀ j, j < pres.length → (improves greater ((pres ++ [s]).map v) j ↔ improves greater (pres.map v) j) := by
      intro j hj
      rw [hmap]
      exact improves_append _ _ _ _ (by simpa using hj)
    have hnone : ∀ j, pres.length ≤ j → ¬ improves greater (pres.map v) j := by
      rintro j hj ⟨t, ht, -⟩
      rw [List.getElem?_eq_none (by simpa using hj)] at ht
      simp at ht
    have happ : pres ++ s :: scores = (pres ++ [s]) ++ scores := by simp
    have happ' : pre ++ (k :: ks).map (·.1) = (pre ++ [k.1]) ++ ks.map (·.1) := by simp
    rw [happ, happ']
    by_cases hi : isImprovement greater b s = true
    · rw [if_pos hi] at hnext
      obtain ⟨w1, h1, h2⟩ := hsave k (by simp) w
      obtain ⟨b', w', e1, e2⟩ := ih (fun k' hk' => hsave k' (by simp [hk'])) (pre ++ [k.1]) (pres ++ [s]) (by simp [hp])
        hok' s hnext w1 (.inl ⟨pres.length, k.1, by simp [← hp], himp.mp hi, hbig, h2⟩)
      refine ⟨b', w', ?_, e2⟩
      rw [← e1]
      simp only [checkpointRuns, List.foldlM_cons, checkpointRun, hk, hg, hi, bind, Except.bind, pure, Except.pure,
        if_true, h1]
    · rw [if_neg hi] at hnext
      have hni : ¬ improves greater ((pres ++ [s]).map v) pres.length := fun h => hi (himp.mpr h)
      obtain ⟨b', w', e1, e2⟩ := ih (fun k' hk' => hsave k' (by simp [hk'])) (pre ++ [k.1]) (pres ++ [s]) (by simp [hp])
        hok' b hnext w (by
          rcases hw with ⟨i, nn, q1, q2, q3, q4⟩ | ⟨q1, q2⟩
          · have hil : i < pres.length := by
              by_contra h
              exact hnone i (by omega) q2
            refine .inl ⟨i, nn, ?_, (hsmall i hil).mpr q2, fun j hj => ?_, q4⟩
            · rw [List.getElem?_append_left (by omega)]; exact q1
            · rcases lt_trichotomy j pres.length with h | h | h
              · rw [hsmall j h]; exact q3 j hj
              · rw [h]; exact hni
              · exact hbig j h
          · refine .inr ⟨fun j => ?_, q2⟩
            rcases lt_trichotomy j pres.length with h | h | h
            · rw [hsmall j h]; exact q1 j
            · rw [h]; exact hni
            · exact hbig j h)
      refine ⟨b', w', ?_, e2⟩
      rw [← e1]
      simp only [checkpointRuns, List.foldlM_cons, checkpointRun, hk, hg, hi, bind, Except.bind, pure, Except.pure,
        if_false, Bool.false_eq_true]

end NN
