import Verif.Model.Logger
import Verif.Spec.Logger
import Verif.Proofs.CString
/-
Lemmas about the logger.
-/
namespace NN
open Spec
set_option linter.unusedSectionVars false
variable {F : Type} [FloatOps F]

theorem decInt_chars (z : Int) : ∀ c ∈ decInt z, isDigit c = true ∨ c = 45 := by
  intro c hc
  rw [decInt] at hc
  split_ifs at hc
  · rcases List.mem_cons.mp hc with rfl | hc
    · exact .inr rfl
    · exact .inl (dec_digits _ c hc)
  · exact .inl (dec_digits _ c hc)

theorem padLeft_chars {w : Nat} {p : UInt8} {s : Bytes} : ∀ c ∈ padLeft w p s, c = p ∨ c ∈ s := by
  intro c hc
  rw [padLeft, List.mem_append, List.mem_replicate] at hc
  rcases hc with ⟨-, rfl⟩ | h
  · exact .inl rfl
  · exact .inr h

/-- The epoch number is neither NUL nor newline. -/
theorem number_chars (z : Int) : ∀ c ∈ padLeft 3 32 (decInt z), c ≠ 0 ∧ c ≠ 10 := by
  intro c hc
  rcases padLeft_chars c hc with rfl | hc
  · decide
  · rcases decInt_chars z c hc with h | rfl
    · exact ⟨digit_ne h rfl, digit_ne h rfl⟩
    · decide

/-- What the reader uses of a line. -/
theorem epochLine_shape {e : Int} {line : Bytes} (h : EpochLine e line) :
    ∃ body : Bytes, line = body ++ [10] ∧ (0 : UInt8) ∉ line ∧ (10 : UInt8) ∉ body ∧
      ∃ j, strstr (str "Epoch") line = some j ∧ parseInt (line.drop (j + 5)) = e := by
  obtain ⟨clock, metrics, h8, hc, hm, rfl⟩ := h
  have hclock : ∀ c ∈ clock, c ≠ 0 ∧ c ≠ 10 ∧ c ≠ 69 := by
    intro c h
    rcases hc c h with h | rfl
    · exact ⟨digit_ne h rfl, digit_ne h rfl, digit_ne h rfl⟩
    · decide
  have hbody : ∀ c ∈ str "[" ++ clock ++ str "] Epoch " ++ padLeft 3 32 (decInt e) ++ str " " ++ metrics,
      c ≠ 0 ∧ c ≠ 10 := by
    intro c h
    simp only [List.mem_append] at h
    rcases h with ((((h | h) | h) | h) | h) | h
    · revert c; decide
    · exact ⟨(hclock c h).1, (hclock c h).2.1⟩
    · revert c; decide
    · exact number_chars e c h
    · revert c; decide
    · exact hm c h
  refine ⟨_, rfl, ?_, fun h => (hbody _ h).2 rfl, 11, ?_, ?_⟩
  · rw [List.mem_append, not_or]
    exact ⟨fun h => (hbody _ h).1 rfl, by decide⟩
  · have := strstr_append (c := 69) (n := str "poch") (str "[" ++ clock ++ str "] ")
      (t := str " " ++ padLeft 3 32 (decInt e) ++ str " " ++ metrics ++ str "\n") (by
        intro h
        simp only [List.mem_append] at h
        rcases h with (h | h) | h
        · revert h; decide
        · exact (hclock _ h).2.2 rfl
        · revert h; decide)
    have h11 : (str "[" ++ clock ++ str "] ").length = 11 := by
      simp only [List.length_append, h8]; rfl
    rw [h11] at this
    rw [← this]
    have e1 : (69 :: str "poch") = str "Epoch" := rfl
    have e2 : str "] Epoch " = str "] " ++ str "Epoch" ++ str " " := rfl
    rw [e1, e2]
    simp only [List.append_assoc]
  · have e2 : str "] Epoch " = str "] Epoch" ++ str " " := rfl
    have h16 : (str "[" ++ clock ++ str "] Epoch").length = 11 + 5 := by
      simp only [List.length_append, h8]; rfl
    have : str "[" ++ clock ++ str "] Epoch " ++ padLeft 3 32 (decInt e) ++ str " " ++ metrics ++ str "\n" =
        (str "[" ++ clock ++ str "] Epoch") ++ (List.replicate 1 32 ++ (List.replicate (3 - (decInt e).length) 32 ++
          (decInt e ++ (32 :: (metrics ++ str "\n"))))) := by
      rw [e2, padLeft]
      simp only [List.append_assoc]
      rfl
    rw [this, List.drop_left' h16, parseInt_spaces, parseInt_spaces, parseInt_decInt]
    intro c hc
    simp only [List.head?_cons, Option.mem_def, Option.some.injEq] at hc
    subst hc
    rfl

/-- The window of 255 bytes contains the last line and the newline before it. -/
theorem lastEpoch_eq {e : Int} {line : Bytes} (h : EpochLine e line) (hlen : line.length < maxBuffer) (he1 : -2 ^ 31 ≤ e)
    (he2 : e + 1 < 2 ^ 31) (pre : Bytes) (hpre : (0 : UInt8) ∉ pre) : lastEpoch (pre ++ [10] ++ line) = .ok (e + 1) := by
  obtain ⟨body, rfl, h0, h10, j, hj, hv⟩ := epochLine_shape h
  have hbody : (0 : UInt8) ∉ body := fun h => h0 (List.mem_append_left _ h)
  set file := pre ++ [10] ++ (body ++ [10]) with hfile
  have hdrop : file.drop (file.length - maxBuffer) = pre.drop (file.length - maxBuffer) ++ ([10] ++ (body ++ [10])) := by
    rw [hfile, List.append_assoc, List.drop_append_of_le_length]
    simp only [List.length_append, List.length_singleton] at hlen ⊢
    omega
  set p := pre.drop (file.length - maxBuffer) with hp
  have hp0 : (0 : UInt8) ∉ p := fun h => hpre (List.mem_of_mem_drop h)
  unfold lastEpoch
  rw [hdrop]
  have hlast : (p ++ ([10] ++ (body ++ [10]))).getLast? = some 10 := by
    rw [← List.append_assoc, ← List.append_assoc, List.getLast?_concat]
  have hdl : (p ++ ([10] ++ (body ++ [10]))).dropLast = p ++ 10 :: body := by
    rw [← List.append_assoc, ← List.append_assoc, List.dropLast_concat]; simp
  have hback : p ++ 10 :: body ++ [10] = p ++ [10] ++ (body ++ [10]) := by simp
  have hd2 : (p ++ [10] ++ (body ++ [10])).drop (p.length + 1) = body ++ [10] :=
    List.drop_left' (by simp)
  simp only [hlast, if_true, true_or, hdl]
  rw [cstr_eq (s := p ++ 10 :: body) (by simp [hp0, hbody]), strrchr_append p h10]
  simp only [hback, hd2]
  rw [cstr_eq h0, hj]
  simp only [atoi_eq (hv ▸ he1) (hv ▸ (by omega) : parseInt ((body ++ [10]).drop (j + 5)) < 2 ^ 31), hv, bind, Except.bind,
    he2, if_true]
  rfl

theorem lastEpoch_single {e : Int} {line : Bytes} (h : EpochLine e line) (hlen : line.length < maxBuffer) :
    lastEpoch line = .ok 0 := by
  obtain ⟨body, rfl, h0, h10, -⟩ := epochLine_shape h
  have hbody : (0 : UInt8) ∉ body := fun h => h0 (List.mem_append_left _ h)
  have : (body ++ [10]).drop ((body ++ [10]).length - maxBuffer) = body ++ [10] := by
    rw [Nat.sub_eq_zero_of_le hlen.le]; rfl
  unfold lastEpoch
  rw [this]
  simp only [List.getLast?_append, List.getLast?_singleton, Option.some_or, if_true, List.dropLast_concat, cstr_eq hbody,
    strrchr_none h10]
  rfl

theorem two_digits {n : Nat} (h : n < 100) : (padLeft 2 48 (dec n)).length = 2 ∧
    ∀ c ∈ padLeft 2 48 (dec n), isDigit c = true := by
  have h1 := dec_length (n := n) (k := 2) (by norm_num) (by omega)
  have h2 := dec_length_pos n
  refine ⟨by simp [padLeft]; omega, ?_⟩
  intro c hc
  rcases padLeft_chars c hc with rfl | h
  · rfl
  · exact dec_digits _ c h

/-- The fields of `struct tm` are in range. -/
def Time.OK (t : Time) : Prop := t.hour < 24 ∧ t.min < 60 ∧ t.sec ≤ 60

theorem metricName_chars (m : Metric) : ∀ c ∈ str (getMetricName (some m)), c ≠ 0 ∧ c ≠ 10 := by
  cases m <;> decide

theorem logEntry_chars (fmt : F → Bytes) (hf : ∀ x, ∀ c ∈ fmt x, c ≠ 0 ∧ c ≠ 10) (v : Bool) (m : Metric) (x : F) :
    ∀ c ∈ logEntry fmt v m x, c ≠ 0 ∧ c ≠ 10 := by
  intro c hc
  simp only [logEntry, List.mem_append] at hc
  rcases hc with (((h | h) | h) | h) | h
  · cases v
    · simp at h
    · revert c; decide
  · exact metricName_chars m c h
  · revert c; decide
  · exact hf x c h
  · revert c; decide

theorem entries_chars (fmt : F → Bytes) (hf : ∀ x, ∀ c ∈ fmt x, c ≠ 0 ∧ c ≠ 10) (v : Bool) (ms : List Metric) (xs : List F) :
    ∀ c ∈ (List.zipWith (logEntry fmt v) ms xs).flatten, c ≠ 0 ∧ c ≠ 10 := by
  intro c hc
  obtain ⟨l, hl, hc⟩ := List.mem_flatten.mp hc
  rw [List.mem_iff_getElem?] at hl
  obtain ⟨i, hi⟩ := hl
  rw [List.getElem?_zipWith] at hi
  cases h1 : ms[i]? with
  | none => simp [h1] at hi
  | some m =>
    cases h2 : xs[i]? with
    | none => simp [h1, h2] at hi
    | some x =>
      simp only [h1, h2, Option.some.injEq] at hi
      subst hi
      exact logEntry_chars fmt hf v m x c hc

theorem logText_line (fmt : F → Bytes) (hf : ∀ x, ∀ c ∈ fmt x, c ≠ 0 ∧ c ≠ 10) (t : Time) (ht : t.OK) (e : Int)
    (ms : List Metric) (train valid : List F) : EpochLine e (logText fmt t e ms train valid) := by
  obtain ⟨a1, a2⟩ := two_digits (n := t.hour) (by have := ht.1; omega)
  obtain ⟨b1, b2⟩ := two_digits (n := t.min) (by have := ht.2.1; omega)
  obtain ⟨c1, c2⟩ := two_digits (n := t.sec) (by have := ht.2.2; omega)
  refine ⟨padLeft 2 48 (dec t.hour) ++ str ":" ++ padLeft 2 48 (dec t.min) ++ str ":" ++ padLeft 2 48 (dec t.sec),
    (List.zipWith (logEntry fmt false) ms train).flatten ++ (List.zipWith (logEntry fmt true) ms valid).flatten, ?_, ?_, ?_, ?_⟩
  · simp only [List.length_append, a1, b1, c1]; rfl
  · intro c hc
    simp only [List.mem_append] at hc
    rcases hc with (((h | h) | h) | h) | h
    · exact .inl (a2 c h)
    · right; revert c; decide
    · exact .inl (b2 c h)
    · right; revert c; decide
    · exact .inl (c2 c h)
  · intro c hc
    rw [List.mem_append] at hc
    rcases hc with h | h
    · exact entries_chars fmt hf _ _ _ c h
    · exact entries_chars fmt hf _ _ _ c h
  · have : str "] Epoch " = str "] " ++ str "Epoch" ++ str " " := rfl
    rw [logText, this]
    simp only [List.append_assoc]

theorem logLine_line (fmt : F → Bytes) (hf : ∀ x, ∀ c ∈ fmt x, c ≠ 0 ∧ c ≠ 10) (t : Time) (ht : t.OK) (e : Int)
    (k : CallbackArgs F) {line : Bytes} (h : logLine fmt t e k = .ok line) : EpochLine e line ∧ line.length < maxBuffer := by
  rw [logLine] at h
  cases h1 : metricList k.metrics with
  | error _ => simp [h1, bind, Except.bind] at h
  | ok ms =>
    cases h2 : k.results.loadu ms.length 0 with
    | error _ => simp [h1, h2, bind, Except.bind] at h
    | ok train =>
      have key : ∀ valid, (if maxBuffer + 1 < (logText fmt t e ms train valid).length + 1 then (.error .oob : M Bytes)
          else if (logText fmt t e ms train valid).length < maxBuffer then pure (logText fmt t e ms train valid)
          else .error .assertFail) = .ok line → EpochLine e line ∧ line.length < maxBuffer := by
        intro valid h
        split_ifs at h with h4 h5
        simp only [pure, Except.pure, Except.ok.injEq] at h
        subst h
        exact ⟨logText_line fmt hf t ht e ms train valid, h5⟩
      simp only [h1, h2, bind, Except.bind] at h
      cases hv : k.valid with
      | false =>
        simp only [hv, Bool.false_eq_true, if_false, pure, Except.pure] at h
        exact key [] h
      | true =>
        simp only [hv, if_true] at h
        cases h3 : k.results.loadu ms.length ms.length with
        | error _ => simp [h3] at h
        | ok valid =>
          simp only [h3] at h
          exact key valid h

/-- Everything a session needs: clock in range, and the line fits for every epoch number below `N`. -/
def CallOK (fmt : F → Bytes) (N : Nat) (k : Time × CallbackArgs F) : Prop :=
  k.1.OK ∧ ∀ e : Nat, e < N → ∃ line, logLine fmt k.1 e k.2 = .ok line

theorem loggerRuns_eq (fmt : F → Bytes) (hf : ∀ x, ∀ c ∈ fmt x, c ≠ 0 ∧ c ≠ 10) (f : String) (ns : Bool) (N : Nat)
    (hN : N < 2 ^ 31) (ks : List (Time × CallbackArgs F)) (hk : ∀ k ∈ ks, CallOK fmt N k) (d : Disk)
    (hw : d.writable f = true) (e : Nat) (he : e + ks.length ≤ N) :
    ∃ lines : List Bytes, lines.length = ks.length ∧
      (∀ (i : Nat) line, lines[i]? = some line → EpochLine (e + i : Nat) line ∧ line.length < maxBuffer) ∧
      ∃ d', loggerRuns fmt ks (⟨e, some f, ns⟩, d) = .ok (⟨(e + ks.length : Nat), some f, ns⟩, d') ∧
        d'.readable = d.readable ∧ d'.writable = d.writable ∧
        (d'.content f = if ks = [] then d.content f else some ((d.content f).getD [] ++ lines.flatten)) ∧
        ∀ g, g ≠ f → d'.content g = d.content g := by
  induction ks generalizing d e with
  | nil => exact ⟨[], rfl, by simp, d, rfl, rfl, rfl, by simp, fun _ _ => rfl⟩
  | cons k ks ih =>
    rw [List.length_cons] at he
    obtain ⟨ht, hl⟩ := hk k (by simp)
    obtain ⟨line, hline⟩ := hl e (by omega)
    obtain ⟨h1, h2⟩ := logLine_line fmt hf k.1 ht e k.2 hline
    obtain ⟨lines, q1, q2, d', q3, q4, q5, q6, q7⟩ := ih (fun k hk' => hk k (List.mem_cons_of_mem _ hk'))
      { d with content := fun g => if g = f then some ((d.content f).getD [] ++ line) else d.content g } hw (e + 1) (by omega)
    refine ⟨line :: lines, by simp [q1], ?_, d', ?_, q4, q5, ?_, ?_⟩
    · intro i l hi
      cases i with
      | zero => simp at hi; subst hi; exact ⟨h1, h2⟩
      | succ i =>
        have := q2 i l (by simpa using hi)
        rwa [show e + 1 + i = e + (i + 1) by omega] at this
    · have e1 : e + 1 + ks.length = e + (k :: ks).length := by rw [List.length_cons]; omega
      rw [e1] at q3
      rw [← q3, loggerRuns, List.foldlM_cons]
      have hlt : (e : Int) + 1 < 2 ^ 31 := by omega
      simp only [loggerRun, hline, bind, Except.bind, hlt, if_true, hw, pure, Except.pure]
      rfl
    · rw [q6, if_neg (by simp : k :: ks ≠ [])]
      simp only [if_true, Option.getD_some, List.flatten_cons]
      split_ifs with h
      · subst h
        simp only [List.length_nil, List.length_eq_zero_iff] at q1
        simp [q1]
      · simp
    · intro g hg
      rw [q7 g hg]
      simp [hg]

end NN
