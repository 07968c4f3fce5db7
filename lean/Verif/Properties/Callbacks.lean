import Verif.Proofs.Callbacks
import Verif.Model.NanOps
/-
C39-C41: early stopping and model checkpoints.

`val` gives the value of a float as extended real, `none` for NaN; `Compares val` says that the comparisons are those of
IEEE-754.  Arithmetic is not involved.  `monitoredScore` is the score a callback reads from `epoch_results`.
-/
set_option linter.unusedSimpArgs false

namespace NN
open FloatOps Spec
variable {F : Type} [FloatOps F]

/-- IEEE comparisons exist: reals with NaN. -/
noncomputable def nanVal : NanReal → Option EReal
  | none => none
  | some x => some (Real.toEReal x)

theorem nan_compares : Compares nanVal := by
  refine ⟨fun a b => ?_, fun a b => ?_, by simp [nanVal, fltMax, fltMaxE, lit]⟩
  all_goals cases a <;> cases b <;> simp [nanVal, lt, eq, eq_comm]

omit [FloatOps F] in
/-- The score: with `monitor_idx < 0` the first validation metric if there is a validation set, otherwise the first
training metric; else the given index. -/
theorem C39_score (ms : List Metric) (rest : List (Option Metric)) (results : View F) (valid : Bool) (idx : ℤ) (i : ℕ)
    (hi : i = if idx < 0 then (if valid then ms.length else 0) else idx.toNat) (s : F)
    (hs : results.data[i]? = some s) :
    monitoredScore idx ⟨ms.map some ++ none :: rest, results, valid⟩ = .ok s := by
  have : metricList (ms.map some ++ none :: rest) = .ok ms := by
    induction ms with
    | nil => rfl
    | cons m ms ih =>
      have : ∀ (l : List (Option Metric)), metricList (some m :: l) = (do let ms ← metricList l; pure (m :: ms)) :=
        fun _ => rfl
      simp [this, bind, Except.bind, pure, Except.pure]
      have h2 : ∀ ms : List Metric, metricList (ms.map some ++ none :: rest) = .ok ms := by
        intro ms
        induction ms with
        | nil => rfl
        | cons m ms ih =>
          show (do let ms ← metricList (ms.map some ++ none :: rest); pure (m :: ms)) = _
          rw [ih]; rfl
      rw [h2]
  simp only [monitoredScore, this, bind, Except.bind, View.load, ← hi, hs]

/-- **C39** Less is better (the default).  The first early stopping callback of a process says stop exactly if there has
been a run of more than `patience` epochs (at least one) none of which improved.  Scores that are NaN, `+∞` or `FLT_MAX`
never count as improvement. -/
theorem C39_less (val : F → Option EReal) (hc : Compares val) (patience idx : ℤ) (ks : List (CallbackArgs F))
    (scores : List F) (hs : List.Forall₂ (fun k s => monitoredScore idx k = .ok s) ks scores)
    (hlen : ks.length < 2 ^ 31) :
    ∃ st cb, earlystoppingRuns ks (EsStatics.initial, newEarlyStopping patience idx false) = .ok (st, cb) ∧
      (earlystoppingDoStop (some cb) = true ↔
        stops patience false (scores.map fun s => below fltMaxE (val s))) := by
  obtain ⟨b, since, flag, h1, -, h2⟩ := earlystoppingRuns_eq false _ (InvLess val) _ (tracks_less val hc)
    (newEarlyStopping patience idx false) rfl ks scores hs [] (fun _ _ _ => trivial) (by simpa using hlen) fltMax 0 false
    ⟨fltMaxE, hc.max, le_rfl, by simp, .inl rfl⟩ (Counts.zero _ _)
  refine ⟨_, _, h1, ?_⟩
  simp only [earlystoppingDoStop, stops]
  rw [h2.flag_iff]
  simp only [List.nil_append, List.length_map]
  rfl

/-- **C39** Greater is better.  The same, if the first score is a number and no score is exactly `FLT_MAX`.  (Missing: NaN
as first score, where the claim is false.) -/
theorem C39_greater_partial (val : F → Option EReal) (hc : Compares val) (patience idx : ℤ) (ks : List (CallbackArgs F))
    (scores : List F) (hs : List.Forall₂ (fun k s => monitoredScore idx k = .ok s) ks scores)
    (hlen : ks.length < 2 ^ 31) (hmax : ∀ s ∈ scores, val s ≠ some fltMaxE)
    (hfirst : ∀ s, scores.head? = some s → val s ≠ none) :
    ∃ st cb, earlystoppingRuns ks (EsStatics.initial, newEarlyStopping patience idx true) = .ok (st, cb) ∧
      (earlystoppingDoStop (some cb) = true ↔ stops patience true (scores.map val)) := by
  obtain ⟨b, since, flag, h1, -, h2⟩ := earlystoppingRuns_eq true _ (InvGreater val) _ (tracks_greater val hc)
    (newEarlyStopping patience idx true) rfl ks scores hs [] (fun i s h => ⟨hmax s (List.mem_of_getElem? h), fun he => by
      have : i = 0 ∨ scores = [] := by simpa using he
      rcases this with rfl | rfl
      · exact hfirst s (by rw [List.head?_eq_getElem?]; exact h)
      · simp at h⟩) (by simpa using hlen) fltMax 0 false
    (.inl ⟨rfl, rfl⟩) (Counts.zero _ _)
  refine ⟨_, _, h1, ?_⟩
  simp only [earlystoppingDoStop, stops]
  rw [h2.flag_iff]
  simp only [List.nil_append, List.length_map]
  rfl

/-- **C39 is false** for greater-is-better when the first score is NaN: it is taken as the best, and no later score, however
good, counts as improvement.  With patience `p`, the callback says stop after `p + 1` further epochs, whatever their
scores. -/
theorem C39_greater_false (val : F → Option EReal) (hc : Compares val) (patience : ℕ) (nan : F) (hnan : val nan = none)
    (idx : ℤ) (k : CallbackArgs F) (hk : monitoredScore idx k = .ok nan) (ks : List (CallbackArgs F)) (scores : List F)
    (hs : List.Forall₂ (fun k s => monitoredScore idx k = .ok s) ks scores) (hlen : ks.length = patience + 1)
    (hp : patience + 1 < 2 ^ 31) :
    ∃ st cb, earlystoppingRuns (k :: ks) (EsStatics.initial, newEarlyStopping patience idx true) = .ok (st, cb) ∧
      earlystoppingDoStop (some cb) = true := by
  have h0 : ∀ s, isImprovement true nan s = false := by
    intro s
    rw [Bool.eq_false_iff]
    simp only [isImprovement, if_true, Bool.or_eq_true, ne_eq, not_or, hc.lt_iff, hc.eq_iff, hnan]
    simp
  have h1 : isImprovement true (fltMax : F) nan = true := by
    simp [isImprovement, (hc.eq_iff (fltMax : F) fltMax).mpr ⟨_, _, hc.max, hc.max, rfl⟩]
  have h2 : earlystoppingRuns (k :: ks) (EsStatics.initial, newEarlyStopping patience idx true) =
      earlystoppingRuns ks (⟨nan, 0⟩, newEarlyStopping patience idx true) := by
    simp only [earlystoppingRuns, List.foldlM_cons, earlystoppingRun, newEarlyStopping, hk, EsStatics.initial, h1, bind,
      Except.bind, pure, Except.pure, if_true]
  have key : ∀ (ks : List (CallbackArgs F)) (scores : List F),
      List.Forall₂ (fun k s => monitoredScore idx k = .ok s) ks scores → ∀ n flag, n + ks.length < 2 ^ 31 →
      ∃ flag', earlystoppingRuns ks (⟨nan, n⟩, ⟨patience, idx, true, flag⟩) =
        .ok (⟨nan, n + ks.length⟩, ⟨patience, idx, true, flag'⟩) ∧
        (flag = true → flag' = true) ∧ (0 < ks.length → patience < n + ks.length → flag' = true) := by
    intro ks scores hs
    induction hs with
    | nil => intro n flag _; exact ⟨flag, rfl, id, by simp⟩
    | @cons k s ks scores hk hs ih =>
      intro n flag hn
      rw [List.length_cons] at hn
      obtain ⟨flag', e1, e2, e3⟩ := ih (n + 1) (if (patience : ℤ) < (n + 1 : ℕ) then true else flag) (by omega)
      have e : n + 1 + ks.length = n + (k :: ks).length := by rw [List.length_cons]; omega
      rw [e] at e1 e3
      refine ⟨flag', ?_, ?_, ?_⟩
      · rw [← e1]
        have hlt : n + 1 < 2 ^ 31 := by omega
        simp only [earlystoppingRuns, List.foldlM_cons, earlystoppingRun, hk, h0, bind, Except.bind, pure, Except.pure,
          Bool.false_eq_true, if_false, hlt, if_true]
        congr 2
        split_ifs <;> rfl
      · intro hf
        apply e2
        split_ifs
        · rfl
        · exact hf
      · intro _ hp
        by_cases hz : 0 < ks.length
        · exact e3 hz hp
        · apply e2
          have hz' : ks.length = 0 := by omega
          rw [List.length_cons, hz'] at hp
          rw [if_pos (by exact_mod_cast hp)]
  obtain ⟨flag', e1, -, e3⟩ := key ks scores hs 0 false (by omega)
  exact ⟨_, _, h2.trans e1, e3 (by omega) (by omega)⟩

/-- **C39** Without a callback (NULL) training never stops early; a callback that has seen nothing does not stop it either. -/
theorem C39_none (patience idx : ℤ) (greater : Bool) :
    earlystoppingDoStop none = false ∧ earlystoppingDoStop (some (newEarlyStopping patience idx greater)) = false := ⟨rfl, rfl⟩

/-- **C39** Once `do_stop` is true it stays true (any float operations). -/
theorem C39_sticky (ks : List (CallbackArgs F)) (st st' : EsStatics F) (cb cb' : EarlyStopping)
    (h : earlystoppingRuns ks (st, cb) = .ok (st', cb')) (hf : earlystoppingDoStop (some cb) = true) :
    earlystoppingDoStop (some cb') = true := by
  induction ks generalizing st cb with
  | nil =>
    simp only [earlystoppingRuns, List.foldlM_nil, pure, Except.pure, Except.ok.injEq, Prod.mk.injEq] at h
    rw [← h.2]; exact hf
  | cons k ks ih =>
    simp only [earlystoppingRuns, List.foldlM_cons, bind, Except.bind] at h
    cases hr : earlystoppingRun k (st, cb) with
    | error e => simp [hr] at h
    | ok p =>
      obtain ⟨st1, cb1⟩ := p
      simp only [hr] at h
      refine ih st1 cb1 h ?_
      unfold earlystoppingRun at hr
      cases hm : monitoredScore cb.monitorIdx k with
      | error e => simp [hm, bind, Except.bind] at hr
      | ok s =>
        simp only [hm, bind, Except.bind] at hr
        split_ifs at hr
        · simp only [pure, Except.pure, Except.ok.injEq, Prod.mk.injEq] at hr
          rw [← hr.2]; exact hf
        · simp only [pure, Except.pure, Except.ok.injEq, Prod.mk.injEq] at hr
          rw [← hr.2]
          rfl
        · simp only [pure, Except.pure, Except.ok.injEq, Prod.mk.injEq] at hr
          rw [← hr.2]; exact hf

/-- **C40 is false**: the best score is kept for all callbacks together.  A callback has seen the score `a`; a new one
(patience 0) then sees the worse score `b` as its first: it says stop, although as first callback of a process it does
not. -/
theorem C40_false (val : F → Option EReal) (hc : Compares val) (idx : ℤ) (ka kb : CallbackArgs F) (a b : F)
    (x y : EReal) (ha : val a = some x) (hb : val b = some y) (hxy : x < y) (hy : y < fltMaxE)
    (hka : monitoredScore idx ka = .ok a) (hkb : monitoredScore idx kb = .ok b) (patience : ℤ) :
    ∃ st1 cb1 st2 cb2 st3 cb3,
      earlystoppingRuns [ka] (EsStatics.initial, newEarlyStopping patience idx false) = .ok (st1, cb1) ∧
      earlystoppingRuns [kb] (st1, newEarlyStopping 0 idx false) = .ok (st2, cb2) ∧
      earlystoppingDoStop (some cb2) = true ∧
      earlystoppingRuns [kb] (EsStatics.initial, newEarlyStopping 0 idx false) = .ok (st3, cb3) ∧
      earlystoppingDoStop (some cb3) = false := by
  have h1 : isImprovement false fltMax a = true := by
    simp only [isImprovement, Bool.false_eq_true, if_false, hc.lt_iff]
    exact ⟨x, _, ha, hc.max, hxy.trans hy⟩
  have h2 : isImprovement false fltMax b = true := by
    simp only [isImprovement, Bool.false_eq_true, if_false, hc.lt_iff]
    exact ⟨y, _, hb, hc.max, hy⟩
  have h3 : isImprovement false a b = false := by
    rw [Bool.eq_false_iff]
    simp only [isImprovement, Bool.false_eq_true, if_false, hc.lt_iff, ne_eq, ha, hb]
    rintro ⟨p, q, hp, hq, h⟩
    simp only [Option.some.injEq] at hp hq
    subst hp; subst hq
    exact absurd h hxy.asymm
  refine ⟨⟨a, 0⟩, ⟨patience, idx, false, false⟩, ⟨a, 1⟩, ⟨0, idx, false, true⟩, ⟨b, 0⟩, ⟨0, idx, false, false⟩, ?_, ?_, rfl,
    ?_, rfl⟩
  · simp [earlystoppingRuns, earlystoppingRun, newEarlyStopping, EsStatics.initial, hka, h1, bind, Except.bind, pure,
      Except.pure]
  · simp [earlystoppingRuns, earlystoppingRun, newEarlyStopping, hkb, h3, bind, Except.bind, pure, Except.pure]
  · simp [earlystoppingRuns, earlystoppingRun, newEarlyStopping, EsStatics.initial, hkb, h2, bind, Except.bind, pure,
      Except.pure]

/-- **C40** A callback that runs after others (which left the static state `st`, whatever it is) behaves as if it were the
first of the process, if its first score beats the best score of the others: from then on the state is the same.
(Missing: a first score that is not better, where the claim is false.) -/
theorem C40_partial (val : F → Option EReal) (hc : Compares val) (patience idx : ℤ) (greater : Bool) (st : EsStatics F)
    (k : CallbackArgs F) (ks : List (CallbackArgs F)) (s : F) (hk : monitoredScore idx k = .ok s)
    (hs : isImprovement greater st.best s = true) (hmax : greater = false → ∃ x, val s = some x ∧ x < fltMaxE) :
    earlystoppingRuns (k :: ks) (st, newEarlyStopping patience idx greater) =
      earlystoppingRuns (k :: ks) (EsStatics.initial, newEarlyStopping patience idx greater) := by
  have h1 : isImprovement greater (fltMax : F) s = true := by
    cases greater with
    | true => simp [isImprovement, (hc.eq_iff (fltMax : F) fltMax).mpr ⟨_, _, hc.max, hc.max, rfl⟩]
    | false =>
      obtain ⟨x, hx, hl⟩ := hmax rfl
      simp only [isImprovement, Bool.false_eq_true, if_false, hc.lt_iff]
      exact ⟨x, _, hx, hc.max, hl⟩
  simp only [earlystoppingRuns, List.foldlM_cons, earlystoppingRun, newEarlyStopping, hk, EsStatics.initial, h1, hs, bind,
    Except.bind, pure, Except.pure, if_true]

/-- **C41** Less is better (default), the first checkpoint callback of a process.  `read w f` is what a reader gets from the
file `f`; `neuralnet_save` succeeds and makes the network readable (C49).  After any history the file holds the network of
the first epoch with the best score; if there was no usable score, the file system is unchanged.  (Missing: several
callbacks, where the claim is false.) -/
theorem C41_less_partial {W α : Type} (save : Net F → String → W → M W) (read : W → String → Option α)
    (abs : Net F → α) (val : F → Option EReal) (hc : Compares val) (filename : Option String) (idx : ℤ)
    (ks : List (Net F × CallbackArgs F)) (scores : List F)
    (hs : List.Forall₂ (fun k s => monitoredScore idx k.2 = .ok s) ks scores)
    (hsave : ∀ k ∈ ks, ∀ w, ∃ w', save k.1 (filename.getD "checkpoint.npz") w = .ok w' ∧
      read w' (filename.getD "checkpoint.npz") = some (abs k.1)) (w0 : W) :
    ∃ b w, checkpointRuns save ⟨filename, idx, false⟩ ks (fltMax, w0) = .ok (b, w) ∧
      ((∃ i k, ks[i]? = some k ∧ firstBest false (scores.map fun s => below fltMaxE (val s)) i ∧
        read w (filename.getD "checkpoint.npz") = some (abs k.1)) ∨
      ((∀ s ∈ scores, below fltMaxE (val s) = none) ∧ w = w0)) := by
  obtain ⟨b, w, h1, h2⟩ := checkpointRuns_eq save read abs false _ (InvLess val) _ (tracks_less val hc)
    ⟨filename, idx, false⟩ rfl ks scores hs hsave [] [] rfl (fun _ _ _ => trivial) fltMax
    ⟨fltMaxE, hc.max, le_rfl, by simp, .inl rfl⟩ w0 w0 (.inr ⟨fun j => by simp [improves], rfl⟩)
  refine ⟨b, w, h1, ?_⟩
  simp only [List.nil_append] at h2
  rcases h2 with ⟨i, nn, q1, q2, q3, q4⟩ | ⟨q1, q2⟩
  · obtain ⟨k, hk, rfl⟩ : ∃ k, ks[i]? = some k ∧ k.1 = nn := by simpa using q1
    exact .inl ⟨i, k, hk, firstBest_of_last _ _ _ q2 q3, q4⟩
  · refine .inr ⟨fun s hs => ?_, q2⟩
    exact no_numbers _ _ q1 _ (List.mem_map_of_mem hs)

/-- **C41** Greater is better: the same if the first score is a number and no score is exactly `FLT_MAX`.  (Missing:
several callbacks, NaN as first score.) -/
theorem C41_greater_partial {W α : Type} (save : Net F → String → W → M W) (read : W → String → Option α)
    (abs : Net F → α) (val : F → Option EReal) (hc : Compares val) (filename : Option String) (idx : ℤ)
    (ks : List (Net F × CallbackArgs F)) (scores : List F)
    (hs : List.Forall₂ (fun k s => monitoredScore idx k.2 = .ok s) ks scores)
    (hmax : ∀ s ∈ scores, val s ≠ some fltMaxE) (hfirst : ∀ s, scores.head? = some s → val s ≠ none)
    (hsave : ∀ k ∈ ks, ∀ w, ∃ w', save k.1 (filename.getD "checkpoint.npz") w = .ok w' ∧
      read w' (filename.getD "checkpoint.npz") = some (abs k.1)) (w0 : W) :
    ∃ b w, checkpointRuns save ⟨filename, idx, true⟩ ks (fltMax, w0) = .ok (b, w) ∧
      ((∃ i k, ks[i]? = some k ∧ firstBest true (scores.map val) i ∧
        read w (filename.getD "checkpoint.npz") = some (abs k.1)) ∨
      (ks = [] ∧ w = w0)) := by
  obtain ⟨b, w, h1, h2⟩ := checkpointRuns_eq save read abs true _ (InvGreater val) _ (tracks_greater val hc)
    ⟨filename, idx, true⟩ rfl ks scores hs hsave [] [] rfl (fun i s h => ⟨hmax s (List.mem_of_getElem? h), fun he => by
      have : i = 0 ∨ scores = [] := by simpa using he
      rcases this with rfl | rfl
      · exact hfirst s (by rw [List.head?_eq_getElem?]; exact h)
      · simp at h⟩) fltMax (.inl ⟨rfl, rfl⟩) w0 w0 (.inr ⟨fun j => by simp [improves], rfl⟩)
  refine ⟨b, w, h1, ?_⟩
  simp only [List.nil_append] at h2
  rcases h2 with ⟨i, nn, q1, q2, q3, q4⟩ | ⟨q1, q2⟩
  · obtain ⟨k, hk, rfl⟩ : ∃ k, ks[i]? = some k ∧ k.1 = nn := by simpa using q1
    exact .inl ⟨i, k, hk, firstBest_of_last _ _ _ q2 q3, q4⟩
  · refine .inr ⟨?_, q2⟩
    cases hs with
    | nil => rfl
    | @cons k s ks scores hk hs =>
      have := no_numbers _ _ q1 (val s) (by simp)
      exact absurd this (hfirst s rfl)

/-- **C41 is false** for several callbacks: the best score is kept for all of them together.  A checkpoint callback for one
file has seen the score `a`.  A second one, for another file and another network, then sees the worse score `b` as its
first: it saves nothing. -/
theorem C41_false {W : Type} (save : Net F → String → W → M W) (val : F → Option EReal) (hc : Compares val)
    (f1 f2 : Option String) (idx : ℤ) (nn1 nn2 : Net F) (ka kb : CallbackArgs F) (a b : F)
    (x y : EReal) (ha : val a = some x) (hb : val b = some y) (hxy : x < y) (hy : y < fltMaxE)
    (hka : monitoredScore idx ka = .ok a) (hkb : monitoredScore idx kb = .ok b) (w0 w1 : W)
    (hsave : save nn1 (f1.getD "checkpoint.npz") w0 = .ok w1) :
    ∃ best, checkpointRuns save ⟨f1, idx, false⟩ [(nn1, ka)] (fltMax, w0) = .ok (best, w1) ∧
      checkpointRuns save ⟨f2, idx, false⟩ [(nn2, kb)] (best, w1) = .ok (best, w1) := by
  have h1 : isImprovement false fltMax a = true := by
    simp only [isImprovement, Bool.false_eq_true, if_false, hc.lt_iff]
    exact ⟨x, _, ha, hc.max, hxy.trans hy⟩
  have h3 : isImprovement false a b = false := by
    rw [Bool.eq_false_iff]
    simp only [isImprovement, Bool.false_eq_true, if_false, hc.lt_iff, ne_eq, ha, hb]
    rintro ⟨p, q, hp, hq, h⟩
    simp only [Option.some.injEq] at hp hq
    subst hp; subst hq
    exact absurd h hxy.asymm
  refine ⟨a, ?_, ?_⟩
  · simp [checkpointRuns, checkpointRun, Checkpoint.file, hka, h1, bind, Except.bind, pure, Except.pure, hsave]
  · simp [checkpointRuns, checkpointRun, hkb, h3, bind, Except.bind, pure, Except.pure]

/-! ### Examples -/

/-- Calls with one metric and these scores, no validation set. -/
noncomputable def exArgs (s : NanReal) : CallbackArgs NanReal := ⟨[some .mse, none], ⟨64, [s]⟩, false⟩

theorem exArgs_scores (l : List NanReal) :
    List.Forall₂ (fun k s => monitoredScore (-1) k = .ok s) (l.map exArgs) l := by
  induction l with
  | nil => exact .nil
  | cons s l ih => exact .cons (C39_score [.mse] [] ⟨64, [s]⟩ false (-1) 0 (by simp) s rfl) ih

/-- Scores 3, NaN, 2, 5, 2 with patience 1: two epochs in a row without improvement at the end. -/
example : ∃ st cb, earlystoppingRuns ([some 3, none, some 2, some 5, some 2].map exArgs)
    (EsStatics.initial, newEarlyStopping 1 (-1) false) = .ok (st, cb) ∧ earlystoppingDoStop (some cb) = true := by
  obtain ⟨st, cb, h1, h2⟩ := C39_less nanVal nan_compares 1 (-1) _ _ (exArgs_scores [some 3, none, some 2, some 5, some 2])
    (by simp)
  refine ⟨st, cb, h1, h2.mpr ⟨3, by simp, ?_⟩⟩
  have hM : ∀ x : ℝ, x < 340282346638528859811704183484516925440 → below fltMaxE (some (x : EReal)) = some (x : EReal) :=
    fun x hx => below_eq_some.mpr ⟨rfl, by rw [fltMaxE]; exact_mod_cast hx⟩
  have hN : below fltMaxE none = none := rfl
  intro j hj
  have hl : ([some 3, none, some 2, some 5, some 2] : List NanReal).map (fun s => below fltMaxE (nanVal s)) =
      [some ((3 : ℝ) : EReal), none, some ((2 : ℝ) : EReal), some ((5 : ℝ) : EReal), some ((2 : ℝ) : EReal)] := by
    simp only [List.map_cons, List.map_nil, nanVal]
    rw [hM 3 (by norm_num), hM 2 (by norm_num), hM 5 (by norm_num), hN]
  rw [hl]
  rintro ⟨s, hs, -, hall⟩
  have h2 : better false s (some ((2 : ℝ) : EReal)) := hall _ (by
    have : j = 0 ∨ j = 1 := by simp at hj; omega
    rcases this with rfl | rfl <;> simp) (by simp)
  obtain ⟨p, q, hp, hq, hlt⟩ := h2
  simp only [Option.some.injEq] at hq
  subst hq
  have : j = 0 ∨ j = 1 := by simp at hj; omega
  rcases this with rfl | rfl
  · simp at hs
    rw [← hs, Option.some.injEq] at hp
    subst hp
    exact absurd (EReal.coe_lt_coe_iff.mp hlt) (by norm_num)
  · simp at hs
    rw [← hs, Option.some.injEq] at hp
    subst hp
    simp at hlt

/-- The hypotheses of `C40_false` and `C41_false` are met by the scores 1 and 2. -/
example : ∃ st1 cb1 st2 cb2 st3 cb3,
    earlystoppingRuns [exArgs (some 1)] (EsStatics.initial, newEarlyStopping 10 (-1) false) = .ok (st1, cb1) ∧
    earlystoppingRuns [exArgs (some 2)] (st1, newEarlyStopping 0 (-1) false) = .ok (st2, cb2) ∧
    earlystoppingDoStop (some cb2) = true ∧
    earlystoppingRuns [exArgs (some 2)] (EsStatics.initial, newEarlyStopping 0 (-1) false) = .ok (st3, cb3) ∧
    earlystoppingDoStop (some cb3) = false :=
  C40_false nanVal nan_compares (-1) _ _ (some 1) (some 2) _ _ rfl rfl (EReal.coe_lt_coe_iff.mpr (by norm_num))
    (EReal.coe_lt_coe_iff.mpr (by norm_num))
    (C39_score [.mse] [] ⟨64, [some 1]⟩ false (-1) 0 (by simp) _ rfl)
    (C39_score [.mse] [] ⟨64, [some 2]⟩ false (-1) 0 (by simp) _ rfl) 10

/-- A checkpoint history with an idealised file system. -/
example (nn1 nn2 nn3 : Net NanReal) : ∃ b w,
    checkpointRuns (W := String → Option (Net NanReal)) (fun nn f w => .ok fun g => if g = f then some nn else w g)
      ⟨none, -1, true⟩ [(nn1, exArgs (some 1)), (nn2, exArgs (some 2)), (nn3, exArgs none)] (fltMax, fun _ => none) =
        .ok (b, w) ∧ ∃ nn ∈ [nn1, nn2, nn3], w "checkpoint.npz" = some nn := by
  obtain ⟨b, w, h1, h2⟩ := C41_greater_partial (W := String → Option (Net NanReal)) (α := Net NanReal)
    (fun nn f w => .ok fun g => if g = f then some nn else w g) (fun w f => w f) id nanVal nan_compares none (-1)
    [(nn1, exArgs (some 1)), (nn2, exArgs (some 2)), (nn3, exArgs none)] [some 1, some 2, none]
    (.cons (C39_score [.mse] [] ⟨64, [some 1]⟩ false (-1) 0 (by simp) _ rfl)
      (.cons (C39_score [.mse] [] ⟨64, [some 2]⟩ false (-1) 0 (by simp) _ rfl)
      (.cons (C39_score [.mse] [] ⟨64, [none]⟩ false (-1) 0 (by simp) _ rfl) .nil)))
    (by
      intro s hs
      simp only [List.mem_cons, List.not_mem_nil, or_false] at hs
      rcases hs with rfl | rfl | rfl
      · simp only [nanVal, fltMaxE, ne_eq, Option.some.injEq, EReal.coe_eq_coe_iff]; norm_num
      · simp only [nanVal, fltMaxE, ne_eq, Option.some.injEq, EReal.coe_eq_coe_iff]; norm_num
      · simp [nanVal])
    (by simp [nanVal]) (fun k _ w => ⟨_, rfl, by simp⟩) (fun _ => none)
  refine ⟨b, w, h1, ?_⟩
  rcases h2 with ⟨i, k, hk, -, h⟩ | ⟨h, -⟩
  · have := List.mem_of_getElem? hk
    refine ⟨k.1, ?_, h⟩
    simp only [List.mem_cons, List.not_mem_nil, or_false] at this ⊢
    rcases this with rfl | rfl | rfl <;> simp
  · simp at h

end NN
