import Verif.Proofs.Logger
import Verif.Model.NanOps
/-
C42, C59: the logger.

`fmt` is `%5.5e`; the hypothesis on it is that a number is printed without NUL and newline.
-/
set_option linter.unusedSectionVars false
set_option linter.unusedSimpArgs false

namespace NN
open Spec
variable {F : Type} [FloatOps F]

/-- **C42** The log file ends with a line of epoch `e`, preceded by at least one other line (anything without NUL): the
new logger continues with `e + 1`.  Any file length: only the last 255 bytes are read.  (Missing: a file of one line, where
the claim is false.) -/
theorem C42_resume_partial {e : Int} {line : Bytes} (h : EpochLine e line) (hlen : line.length < 255)
    (he1 : -2 ^ 31 ≤ e) (he2 : e + 1 < 2 ^ 31) (pre : Bytes) (hpre : (0 : UInt8) ∉ pre) (d : Disk) (f : String) (ns : Bool)
    (hd : d.content f = some (pre ++ str "\n" ++ line)) (hr : d.readable f = true) :
    newLogger d 0 (some f) ns = .ok ⟨e + 1, some f, ns⟩ := by
  have hd' : d.content f = some (pre ++ [10] ++ line) := hd
  simp only [newLogger, findLastEpoch, if_true, hd', hr, lastEpoch_eq h hlen he1 he2 pre hpre, bind, Except.bind]
  rfl

/-- **C42 is false** for a log of one line: whatever epoch it is, the new logger starts at 0 again. -/
theorem C42_false {e : Int} {line : Bytes} (h : EpochLine e line) (hlen : line.length < 255) (d : Disk) (f : String)
    (ns : Bool) (hd : d.content f = some line) (hr : d.readable f = true) :
    newLogger d 0 (some f) ns = .ok ⟨0, some f, ns⟩ := by
  simp only [newLogger, findLastEpoch, if_true, hd, hr, lastEpoch_single h hlen, bind, Except.bind]
  rfl

/-- **C42 is false** for an existing empty file: `buf[-1]` is accessed. -/
theorem C42_empty_false (d : Disk) (f : String) (ns : Bool) (hd : d.content f = some []) (hr : d.readable f = true) :
    newLogger d 0 (some f) ns = .error .oob := by
  have : lastEpoch [] = .error .oob := by
    unfold lastEpoch
    rw [List.drop_nil]
    rfl
  simp only [newLogger, findLastEpoch, if_true, hd, hr, bind, Except.bind, this]

/-- **C42 is false** if the last line is not a log line: without "Epoch" in it, NULL is dereferenced. -/
theorem C42_foreign_false (pre body : Bytes) (hpre : (0 : UInt8) ∉ pre) (hb0 : (0 : UInt8) ∉ body)
    (hb10 : (10 : UInt8) ∉ body) (hb : (69 : UInt8) ∉ body) (hlen : body.length < 254) (d : Disk) (f : String) (ns : Bool)
    (hd : d.content f = some (pre ++ str "\n" ++ (body ++ str "\n"))) (hr : d.readable f = true) :
    newLogger d 0 (some f) ns = .error .nullDeref := by
  have key : lastEpoch (pre ++ [10] ++ (body ++ [10])) = .error .nullDeref := by
    set file := pre ++ [10] ++ (body ++ [10]) with hfile
    have hdrop : file.drop (file.length - maxBuffer) = pre.drop (file.length - maxBuffer) ++ ([10] ++ (body ++ [10])) := by
      rw [hfile, List.append_assoc, List.drop_append_of_le_length]
      simp only [List.length_append, List.length_singleton]
      have : maxBuffer = 255 := rfl
      omega
    set p := pre.drop (file.length - maxBuffer) with hp
    have hp0 : (0 : UInt8) ∉ p := fun h => hpre (List.mem_of_mem_drop h)
    have hlast : (p ++ ([10] ++ (body ++ [10]))).getLast? = some 10 := by
      rw [← List.append_assoc, ← List.append_assoc, List.getLast?_concat]
    have hdl : (p ++ ([10] ++ (body ++ [10]))).dropLast = p ++ 10 :: body := by
      rw [← List.append_assoc, ← List.append_assoc, List.dropLast_concat]; simp
    have hback : p ++ 10 :: body ++ [10] = p ++ [10] ++ (body ++ [10]) := by simp
    have hd2 : (p ++ [10] ++ (body ++ [10])).drop (p.length + 1) = body ++ [10] := List.drop_left' (by simp)
    have hnone : ∀ s : Bytes, (69 : UInt8) ∉ s → strstr (69 :: str "poch") s = none := by
      intro s hs
      induction s with
      | nil => rfl
      | cons x xs ih =>
        simp only [List.mem_cons, not_or] at hs
        rw [strstr_skip (fun hp => hs.1 (List.cons_prefix_cons.mp hp).1), ih hs.2]
        rfl
    unfold lastEpoch
    rw [hdrop]
    simp only [hlast, if_true, true_or, hdl]
    rw [cstr_eq (s := p ++ 10 :: body) (by simp [hp0, hb0]), strrchr_append p hb10]
    simp only [hback, hd2]
    rw [cstr_eq (by simp [hb0]), show str "Epoch" = 69 :: str "poch" from rfl, hnone _ (by simp [hb])]
  have hd' : d.content f = some (pre ++ [10] ++ (body ++ [10])) := hd
  simp only [newLogger, findLastEpoch, if_true, hd', hr, key, bind, Except.bind]

/-- With a start value other than 0 in the settings the file is not consulted. -/
theorem C42_explicit (d : Disk) (n : Int) (hn : n ≠ 0) (f : Option String) (ns : Bool) :
    newLogger d n f ns = .ok ⟨n, f, ns⟩ := by
  simp only [newLogger, findLastEpoch, hn, if_false, bind, Except.bind, pure, Except.pure]

theorem sessions_step (fmt : F → Bytes) (hf : ∀ x, ∀ c ∈ fmt x, c ≠ 0 ∧ c ≠ 10) (f : String) (ns : Bool) (N : Nat)
    (hN : N < 2 ^ 31) (ks : List (Time × CallbackArgs F)) (hk : ∀ k ∈ ks, CallOK fmt N k) (d : Disk)
    (hw : d.writable f = true) (hr : d.readable f = true) (lines : List Bytes) (h2 : 2 ≤ lines.length)
    (hl : ∀ (i : Nat) line, lines[i]? = some line → EpochLine i line ∧ line.length < 255)
    (hd : d.content f = some lines.flatten) (hlen : lines.length + ks.length ≤ N) :
    ∃ lines' : List Bytes, lines'.length = lines.length + ks.length ∧
      (∀ (i : Nat) line, lines'[i]? = some line → EpochLine i line ∧ line.length < 255) ∧
      ∃ d', loggerSession fmt f ns d ks = .ok d' ∧ d'.writable f = true ∧ d'.readable f = true ∧
        d'.content f = some lines'.flatten := by
  obtain ⟨n, hn⟩ : ∃ n, lines.length = n + 2 := ⟨lines.length - 2, by omega⟩
  have hn1 : n < lines.length := by omega
  have hn2 : n + 1 < lines.length := by omega
  have e1 := hl n _ (List.getElem?_eq_getElem hn1)
  have e2 := hl (n + 1) _ (List.getElem?_eq_getElem hn2)
  obtain ⟨body, hb, h0, -, -⟩ := epochLine_shape e1.1
  have hsplit : lines.flatten = ((lines.take n).flatten ++ body) ++ str "\n" ++ lines[n + 1] := by
    have : lines = lines.take n ++ [lines[n]] ++ [lines[n + 1]] := by
      rw [List.take_append_getElem, List.take_append_getElem, List.take_of_length_le (by omega)]
    conv_lhs => rw [this]
    simp only [List.flatten_append, List.flatten_cons, List.flatten_nil, List.append_nil, hb, List.append_assoc]
    rfl
  have hpre : (0 : UInt8) ∉ (lines.take n).flatten ++ body := by
    rw [List.mem_append, not_or]
    refine ⟨fun h => ?_, fun h => h0 (hb ▸ List.mem_append_left _ h)⟩
    obtain ⟨l, hl', hc⟩ := List.mem_flatten.mp h
    obtain ⟨i, hi⟩ := List.mem_iff_getElem?.mp (List.mem_of_mem_take hl')
    exact (epochLine_shape (hl i l hi).1).choose_spec.2.1 hc
  have hnew := C42_resume_partial e2.1 e2.2 (by omega) (by omega) _ hpre d f ns (hd.trans (by rw [hsplit])) hr
  obtain ⟨ls, q1, q2, d', q3, q4, q5, q6, q7⟩ := loggerRuns_eq fmt hf f ns N hN ks hk d hw (n + 2) (by omega)
  refine ⟨lines ++ ls, by simp [q1], ?_, d', ?_, by rw [q5]; exact hw, by rw [q4]; exact hr, ?_⟩
  · intro i line hi
    rw [List.getElem?_append] at hi
    split_ifs at hi with h
    · exact hl i line hi
    · have := q2 _ line hi
      rwa [show n + 2 + (i - lines.length) = i by omega] at this
  · have : ((n + 1 : Nat) : Int) + 1 = (n + 2 : Nat) := by push_cast; ring
    rw [this] at hnew
    simp only [loggerSession, hnew, q3, bind, Except.bind, pure, Except.pure]
  · rw [q6, hd]
    split_ifs with h
    · subst h
      simp only [List.length_nil, List.length_eq_zero_iff] at q1
      simp [q1]
    · simp

/-- **C42** Over any number of sessions with the same log file, the first of which logs at least two epochs, the file is the
log of the epochs 0, 1, 2, … in order.  (Missing: a first session of one epoch.) -/
theorem C42_sessions_partial (fmt : F → Bytes) (hf : ∀ x, ∀ c ∈ fmt x, c ≠ 0 ∧ c ≠ 10) (f : String) (ns : Bool) (N : Nat)
    (hN : N < 2 ^ 31) (first : List (Time × CallbackArgs F)) (sessions : List (List (Time × CallbackArgs F)))
    (hfirst : 2 ≤ first.length) (hlen : first.length + (sessions.map List.length).sum ≤ N)
    (hk1 : ∀ k ∈ first, CallOK fmt N k) (hk : ∀ ks ∈ sessions, ∀ k ∈ ks, CallOK fmt N k) (d : Disk)
    (hw : d.writable f = true) (hr : d.readable f = true) (hd : d.content f = none) :
    ∃ d' file, (first :: sessions).foldlM (loggerSession fmt f ns) d = .ok d' ∧ d'.content f = some file ∧
      LogOf (first.length + (sessions.map List.length).sum) file := by
  have key : ∀ (sessions : List (List (Time × CallbackArgs F))) (d : Disk) (lines : List Bytes),
      (∀ ks ∈ sessions, ∀ k ∈ ks, CallOK fmt N k) → d.writable f = true → d.readable f = true → 2 ≤ lines.length →
      (∀ (i : Nat) line, lines[i]? = some line → EpochLine i line ∧ line.length < 255) →
      d.content f = some lines.flatten → lines.length + (sessions.map List.length).sum ≤ N →
      ∃ d' file, sessions.foldlM (loggerSession fmt f ns) d = .ok d' ∧ d'.content f = some file ∧
        LogOf (lines.length + (sessions.map List.length).sum) file := by
    intro sessions
    induction sessions with
    | nil =>
      intro d lines _ _ _ _ hl hd _
      exact ⟨d, _, rfl, hd, lines, by simp, rfl, fun i line h => (hl i line h).1⟩
    | cons ks sessions ih =>
      intro d lines hk hw hr h2 hl hd hlen
      simp only [List.map_cons, List.sum_cons] at hlen ⊢
      obtain ⟨lines', q1, q2, d', q3, q4, q5, q6⟩ := sessions_step fmt hf f ns N hN ks (hk ks (by simp)) d hw hr lines h2 hl
        hd (by omega)
      obtain ⟨d'', file, r1, r2, r3⟩ := ih d' lines' (fun ks h => hk ks (List.mem_cons_of_mem _ h)) q4 q5 (by omega) q2 q6
        (by omega)
      refine ⟨d'', file, ?_, r2, ?_⟩
      · rw [List.foldlM_cons, q3]; exact r1
      · rwa [q1, Nat.add_assoc] at r3
  obtain ⟨lines, q1, q2, d', q3, q4, q5, q6, q7⟩ := loggerRuns_eq fmt hf f ns N hN first hk1 d hw 0 (by omega)
  obtain ⟨d'', file, r1, r2, r3⟩ := key sessions d' lines hk (by rw [q5]; exact hw) (by rw [q4]; exact hr) (by omega)
    (fun i line h => by have := q2 i line h; rw [Nat.zero_add] at this; exact this)
    (by rw [q6, hd, if_neg (by rintro rfl; simp at hfirst)]; rfl) (by omega)
  refine ⟨d'', file, ?_, r2, by rwa [q1] at r3⟩
  have hnew : newLogger d 0 (some f) ns = .ok ⟨(0 : Nat), some f, ns⟩ := by
    simp only [newLogger, findLastEpoch, if_true, hd, bind, Except.bind, pure, Except.pure]
    rfl
  rw [List.foldlM_cons]
  have : loggerSession fmt f ns d first = .ok d' := by
    simp only [loggerSession, hnew, q3, bind, Except.bind, pure, Except.pure]
  rw [this]
  exact r1

/-- **C42 is false** when the first session logs one epoch: the second session logs epoch 0 again. -/
theorem C42_sessions_false (fmt : F → Bytes) (hf : ∀ x, ∀ c ∈ fmt x, c ≠ 0 ∧ c ≠ 10) (f : String) (ns : Bool)
    (k1 k2 : Time × CallbackArgs F) (h1 : CallOK fmt 1 k1) (h2 : CallOK fmt 1 k2) (d : Disk) (hw : d.writable f = true)
    (hr : d.readable f = true) (hd : d.content f = none) :
    ∃ d' line1 line2, [[k1], [k2]].foldlM (loggerSession fmt f ns) d = .ok d' ∧ d'.content f = some (line1 ++ line2) ∧
      EpochLine 0 line1 ∧ EpochLine 0 line2 := by
  obtain ⟨lines, q1, q2, d1, q3, q4, q5, q6, q7⟩ := loggerRuns_eq fmt hf f ns 1 (by norm_num) [k1] (by simpa using h1) d hw 0
    (by simp)
  obtain ⟨lines', r1, r2, d2, r3, r4, r5, r6, r7⟩ := loggerRuns_eq fmt hf f ns 1 (by norm_num) [k2] (by simpa using h2) d1
    (by rw [q5]; exact hw) 0 (by simp)
  match lines, q1 with
  | [l1], _ =>
    match lines', r1 with
    | [l2], _ =>
      have e1 := q2 0 l1 rfl
      have e2 := r2 0 l2 rfl
      have c1 : d1.content f = some l1 := by rw [q6, hd]; simp
      refine ⟨d2, l1, l2, ?_, by rw [r6, c1]; simp, by simpa using e1.1, by simpa using e2.1⟩
      have hnew : newLogger d 0 (some f) ns = .ok ⟨(0 : Nat), some f, ns⟩ := by
        simp only [newLogger, findLastEpoch, if_true, hd, bind, Except.bind, pure, Except.pure]
        rfl
      have hnew2 : newLogger d1 0 (some f) ns = .ok ⟨(0 : Nat), some f, ns⟩ :=
        C42_false e1.1 e1.2 d1 f ns c1 (by rw [q4]; exact hr)
      simp only [List.foldlM_cons, List.foldlM_nil, loggerSession, hnew, hnew2, q3, r3, bind, Except.bind, pure, Except.pure]

/-! ### C59: the line buffer -/

theorem metricName_length (m : Metric) : 15 ≤ (str (getMetricName (some m))).length ∧
    (str (getMetricName (some m))).length ≤ 30 := by
  cases m <;> decide

theorem logEntry_length (fmt : F → Bytes) (v : Bool) (m : Metric) (x : F) :
    (logEntry fmt v m x).length = (if v then 4 else 0) + (str (getMetricName (some m))).length + 2 + (fmt x).length + 1 := by
  cases v <;> simp only [logEntry, List.length_append, Bool.false_eq_true, if_false, if_true, List.length_nil,
    show (str "val_").length = 4 from rfl, show (str ": ").length = 2 from rfl, show (str " ").length = 1 from rfl]

theorem entries_length_le (fmt : F → Bytes) (b : Nat) (hf : ∀ x, (fmt x).length ≤ b) (v : Bool) (ms : List Metric)
    (xs : List F) : (List.zipWith (logEntry fmt v) ms xs).flatten.length ≤ ms.length * ((if v then 37 else 33) + b) := by
  induction ms generalizing xs with
  | nil => simp
  | cons m ms ih =>
    cases xs with
    | nil => simp
    | cons x xs =>
      simp only [List.zipWith_cons_cons, List.flatten_cons, List.length_append, List.length_cons, Nat.add_mul, one_mul]
      have := ih xs
      have h1 := (metricName_length m).2
      have h2 := hf x
      have h3 := logEntry_length fmt v m x
      cases v <;> simp only [Bool.false_eq_true, if_false, if_true] at * <;> nlinarith

theorem entries_length_ge (fmt : F → Bytes) (b : Nat) (hf : ∀ x, b ≤ (fmt x).length) (v : Bool) (ms : List Metric)
    (xs : List F) (hx : xs.length = ms.length) :
    ms.length * ((if v then 22 else 18) + b) ≤ (List.zipWith (logEntry fmt v) ms xs).flatten.length := by
  induction ms generalizing xs with
  | nil => simp
  | cons m ms ih =>
    cases xs with
    | nil => simp at hx
    | cons x xs =>
      simp only [List.zipWith_cons_cons, List.flatten_cons, List.length_append, List.length_cons, Nat.add_mul, one_mul]
      have := ih xs (by simpa using hx)
      have h1 := (metricName_length m).1
      have h2 := hf x
      have h3 := logEntry_length fmt v m x
      cases v <;> simp only [Bool.false_eq_true, if_false, if_true] at * <;> nlinarith

theorem metricList_map (ms : List Metric) (rest : List (Option Metric)) :
    metricList (ms.map some ++ none :: rest) = .ok ms := by
  induction ms with
  | nil => rfl
  | cons m ms ih =>
    show (do let ms ← metricList (ms.map some ++ none :: rest); pure (m :: ms)) = _
    rw [ih]; rfl

/-- Length of the line without the metrics: 21 characters, or more if the epoch has more than 3 digits. -/
theorem logText_length (fmt : F → Bytes) (t : Time) (ht : t.OK) (e : Int) (ms : List Metric) (train valid : List F) :
    (logText fmt t e ms train valid).length = 19 + max 3 (decInt e).length +
      (List.zipWith (logEntry fmt false) ms train).flatten.length +
      (List.zipWith (logEntry fmt true) ms valid).flatten.length := by
  obtain ⟨a1, -⟩ := two_digits (n := t.hour) (by have := ht.1; omega)
  obtain ⟨b1, -⟩ := two_digits (n := t.min) (by have := ht.2.1; omega)
  obtain ⟨c1, -⟩ := two_digits (n := t.sec) (by have := ht.2.2; omega)
  have hp : (padLeft 3 32 (decInt e)).length = max 3 (decInt e).length := by simp [padLeft]; omega
  simp only [logText, List.length_append, a1, b1, c1, hp, show (str "[").length = 1 from rfl, show (str ":").length = 1 from rfl,
    show (str "] ").length = 2 from rfl, show (str "Epoch").length = 5 from rfl, show (str " ").length = 1 from rfl,
    show (str "\n").length = 1 from rfl]
  omega

/-- **C59** Up to four values in the line (two metrics with validation set, or four without), each printed with at most 12
characters (`-1.23456e+00`): the buffer is large enough, for every epoch number.  (Missing: more values, where the claim is
false.) -/
theorem C59_partial (fmt : F → Bytes) (hf : ∀ x, (fmt x).length ≤ 12) (t : Time) (ht : t.OK) (e : Int) (he1 : -2 ^ 31 ≤ e)
    (he2 : e < 2 ^ 31) (ms : List Metric) (rest : List (Option Metric)) (results : View F) (valid : Bool)
    (hm : (if valid then 2 else 1) * ms.length ≤ 4) (hr : (if valid then 2 else 1) * ms.length ≤ results.data.length) :
    ∃ line, logLine fmt t e ⟨ms.map some ++ none :: rest, results, valid⟩ = .ok line := by
  have hdec : (decInt e).length ≤ 11 := by
    rw [decInt]
    split_ifs
    · have := dec_length (n := e.natAbs) (k := 10) (by norm_num) (by norm_num; omega)
      rw [List.length_cons]; omega
    · have := dec_length (n := e.natAbs) (k := 10) (by norm_num) (by norm_num; omega)
      omega
  have key : ∀ train v : List F, (valid = false → v = []) → (logText fmt t e ms train v).length < maxBuffer := by
    intro train v hv
    have h1 := entries_length_le fmt 12 hf false ms train
    have h2 := entries_length_le fmt 12 hf true ms v
    rw [logText_length fmt t ht, show maxBuffer = 255 from rfl]
    cases valid with
    | false =>
      rw [hv rfl] at h2 ⊢
      simp at h1 h2 hm ⊢
      omega
    | true =>
      simp at h1 h2 hm ⊢
      omega
  have h0 : results.loadu ms.length 0 = .ok (slice results.data 0 ms.length) := by
    rw [View.loadu, if_pos]
    cases valid <;> simp at hr ⊢ <;> omega
  cases valid with
  | false =>
    have := key (slice results.data 0 ms.length) [] (fun _ => rfl)
    refine ⟨logText fmt t e ms (slice results.data 0 ms.length) [], ?_⟩
    simp only [logLine, metricList_map, h0, bind, Except.bind, Bool.false_eq_true, if_false, pure, Except.pure,
      if_pos this, if_neg (by omega : ¬ maxBuffer + 1 < (logText fmt t e ms (slice results.data 0 ms.length) []).length + 1)]
  | true =>
    have h1 : results.loadu ms.length ms.length = .ok (slice results.data ms.length ms.length) := by
      rw [View.loadu, if_pos]
      simp at hr; omega
    have := key (slice results.data 0 ms.length) (slice results.data ms.length ms.length) (fun h => by cases h)
    refine ⟨logText fmt t e ms (slice results.data 0 ms.length) (slice results.data ms.length ms.length), ?_⟩
    simp only [logLine, metricList_map, h0, h1, bind, Except.bind, if_true, pure, Except.pure,
      if_pos this, if_neg (by omega : ¬ maxBuffer + 1 < (logText fmt t e ms (slice results.data 0 ms.length)
        (slice results.data ms.length ms.length)).length + 1)]

/-- **C59 is false**: with four metrics and a validation set, numbers printed with at least 11 characters (`1.23456e+00`)
overflow the buffer on the stack, before the assertion is reached. -/
theorem C59_false (fmt : F → Bytes) (hf : ∀ x, 11 ≤ (fmt x).length) (t : Time) (ht : t.OK) (e : Int)
    (ms : List Metric) (rest : List (Option Metric)) (results : View F) (hm : ms.length = 4)
    (hr : 8 ≤ results.data.length) :
    logLine fmt t e ⟨ms.map some ++ none :: rest, results, true⟩ = .error .oob := by
  have h0 : results.loadu ms.length 0 = .ok (slice results.data 0 ms.length) := by
    rw [View.loadu, if_pos (by omega)]
  have h1 : results.loadu ms.length ms.length = .ok (slice results.data ms.length ms.length) := by
    rw [View.loadu, if_pos (by omega)]
  have l0 := entries_length_ge fmt 11 hf false ms (slice results.data 0 ms.length) (by simp [slice]; omega)
  have l1 := entries_length_ge fmt 11 hf true ms (slice results.data ms.length ms.length) (by simp [slice]; omega)
  simp only [hm, Bool.false_eq_true, if_false, if_true] at l0 l1
  have hl := logText_length fmt t ht e ms (slice results.data 0 ms.length) (slice results.data ms.length ms.length)
  have : maxBuffer + 1 < (logText fmt t e ms (slice results.data 0 ms.length)
      (slice results.data ms.length ms.length)).length + 1 := by
    rw [show maxBuffer = 255 from rfl, hl]
    simp only [hm]
    omega
  simp only [logLine, metricList_map, h0, h1, bind, Except.bind, if_true, if_pos this]

theorem entries_length (fmt : F → Bytes) (v : Bool) (ms : List Metric) (xs : List F) :
    (List.zipWith (logEntry fmt v) ms xs).flatten.length =
      ((ms.zip xs).map fun p => (str (getMetricName (some p.1))).length + (fmt p.2).length + if v then 7 else 3).sum := by
  induction ms generalizing xs with
  | nil => simp
  | cons m ms ih =>
    cases xs with
    | nil => simp
    | cons x xs =>
      simp only [List.zipWith_cons_cons, List.flatten_cons, List.length_append, List.zip_cons_cons, List.map_cons, List.sum_cons,
        ih xs, logEntry_length fmt v m x]
      cases v <;> simp only [Bool.false_eq_true, if_false, if_true] <;> omega

/-- **C59** Exactly when the buffer is too small.  The line has `19 + max 3 (digits of the epoch)` characters, and for every
value the name of the metric, the printed number and 3 more (7 with `val_`).  Up to 254 it is written; with 255 the assertion
stops the program; from 256 on the terminating NUL is written behind the buffer. -/
theorem C59_exact (fmt : F → Bytes) (t : Time) (ht : t.OK) (e : Int) (ms : List Metric) (rest : List (Option Metric))
    (addr : Nat) (train val more : List F) (h1 : train.length = ms.length) (h2 : val.length = ms.length) (valid : Bool) (L : Nat)
    (hL : L = 19 + max 3 (decInt e).length +
      ((ms.zip train).map fun p => (str (getMetricName (some p.1))).length + (fmt p.2).length + 3).sum +
      if valid then ((ms.zip val).map fun p => (str (getMetricName (some p.1))).length + (fmt p.2).length + 7).sum else 0) :
    (L ≤ 254 → ∃ line, logLine fmt t e ⟨ms.map some ++ none :: rest, ⟨addr, train ++ val ++ more⟩, valid⟩ = .ok line ∧
      line.length = L) ∧
    (L = 255 → logLine fmt t e ⟨ms.map some ++ none :: rest, ⟨addr, train ++ val ++ more⟩, valid⟩ = .error .assertFail) ∧
    (256 ≤ L → logLine fmt t e ⟨ms.map some ++ none :: rest, ⟨addr, train ++ val ++ more⟩, valid⟩ = .error .oob) := by
  have l0 : (⟨addr, train ++ val ++ more⟩ : View F).loadu ms.length 0 = .ok train := by
    rw [View.loadu, if_pos (by simp; omega)]
    simp [slice, ← h1]
  have l1 : (⟨addr, train ++ val ++ more⟩ : View F).loadu ms.length ms.length = .ok val := by
    rw [View.loadu, if_pos (by simp; omega)]
    rw [slice]
    congr 1
    rw [List.append_assoc, ← h1, List.drop_left, h1, ← h2, List.take_left]
  have hl : (logText fmt t e ms train (if valid then val else [])).length = L := by
    rw [logText_length fmt t ht, entries_length, entries_length, hL]
    cases valid <;> simp
  have hk : logLine fmt t e ⟨ms.map some ++ none :: rest, ⟨addr, train ++ val ++ more⟩, valid⟩ =
      if 255 + 1 < L + 1 then .error .oob
      else if L < 255 then .ok (logText fmt t e ms train (if valid then val else [])) else .error .assertFail := by
    rw [← hl]
    cases valid <;> simp only [logLine, metricList_map, l0, l1, bind, Except.bind, pure, Except.pure, maxBuffer,
      Bool.false_eq_true, if_false, if_true] <;> congr
  rw [hk]
  refine ⟨fun h => ?_, fun h => ?_, fun h => ?_⟩
  · rw [if_neg (by omega), if_pos (by omega)]
    exact ⟨_, rfl, hl⟩
  · rw [if_neg (by omega), if_neg (by omega)]
  · rw [if_pos (by omega)]

/-! ### Examples -/

/-- Five values with the longest name at epoch 0: numbers of 12 characters fit (247 characters), numbers of 14 do not. -/
example (fmt fmt' : F → Bytes) (hf : ∀ x, (fmt x).length = 12) (hf' : ∀ x, (fmt' x).length = 14) (a b c d f : F) :
    (∃ line, logLine fmt ⟨12, 0, 0⟩ 0 ⟨([.mape, .mape, .mape, .mape, .mape].map some ++ none :: []),
      ⟨64, [a, b, c, d, f] ++ [a, b, c, d, f] ++ []⟩, false⟩ = .ok line ∧ line.length = 247) ∧
    logLine fmt' ⟨12, 0, 0⟩ 0 ⟨([.mape, .mape, .mape, .mape, .mape].map some ++ none :: []),
      ⟨64, [a, b, c, d, f] ++ [a, b, c, d, f] ++ []⟩, false⟩ = .error .oob := by
  have hn : (str (getMetricName (some .mape))).length = 30 := by decide
  have hd : (decInt 0).length ≤ 3 := by
    rw [decInt, if_neg (by decide)]
    exact dec_length (n := 0) (k := 3) (by norm_num) (by norm_num)
  constructor
  · refine (C59_exact fmt ⟨12, 0, 0⟩ (by simp [Time.OK]) 0 [.mape, .mape, .mape, .mape, .mape] [] 64 _ _ _ rfl rfl false 247 ?_).1
      (by norm_num)
    rw [max_eq_left hd]
    simp [hf, hn]
  · refine (C59_exact fmt' ⟨12, 0, 0⟩ (by simp [Time.OK]) 0 [.mape, .mape, .mape, .mape, .mape] [] 64 _ _ _ rfl rfl false 257 ?_).2.2
      (by norm_num)
    rw [max_eq_left hd]
    simp [hf', hn]

/-- A printer that meets the hypotheses. -/
def exFmt (_ : NanReal) : Bytes := str "1.00000e+00"

theorem exFmt_ok : ∀ x, ∀ c ∈ exFmt x, c ≠ 0 ∧ c ≠ 10 := fun _ => by simp only [exFmt]; decide

def exLogCall : Time × CallbackArgs NanReal := (⟨12, 34, 56⟩, ⟨[some .mse, none], ⟨64, [none, none]⟩, true⟩)

theorem exLogCall_ok (N : Nat) (hN : N < 2 ^ 31) : CallOK exFmt N exLogCall := by
  refine ⟨by simp [Time.OK, exLogCall], fun e he => ?_⟩
  exact C59_partial exFmt (fun _ => by simp only [exFmt]; decide) _ (by simp [Time.OK, exLogCall]) e (by omega) (by omega) [.mse] [] ⟨64, [none, none]⟩ true
    (by simp) (by simp)

/-- Three sessions of 2, 0 and 1 epochs. -/
example : ∃ d' file, [[exLogCall, exLogCall], [], [exLogCall]].foldlM (loggerSession exFmt "log" true)
    ⟨fun _ => none, fun _ => true, fun _ => true⟩ = .ok d' ∧ d'.content "log" = some file ∧ LogOf 3 file :=
  C42_sessions_partial exFmt exFmt_ok "log" true 3 (by norm_num) [exLogCall, exLogCall] [[], [exLogCall]] (by simp) (by simp)
    (fun k hk => by
      have : k = exLogCall := by simpa only [List.mem_cons, List.not_mem_nil, or_false, or_self] using hk
      rw [this]; exact exLogCall_ok 3 (by norm_num))
    (fun ks hks k hk => by
      simp only [List.mem_cons, List.not_mem_nil, or_false] at hks
      rcases hks with rfl | rfl
      · simp at hk
      · rw [List.mem_singleton.mp hk]; exact exLogCall_ok 3 (by norm_num)) _ rfl rfl rfl

/-- Two sessions of one epoch: epoch 0 twice. -/
example : ∃ d' line1 line2, [[exLogCall], [exLogCall]].foldlM (loggerSession exFmt "log" true)
    ⟨fun _ => none, fun _ => true, fun _ => true⟩ = .ok d' ∧ d'.content "log" = some (line1 ++ line2) ∧
      EpochLine 0 line1 ∧ EpochLine 0 line2 :=
  C42_sessions_false exFmt exFmt_ok "log" true exLogCall exLogCall (exLogCall_ok 1 (by norm_num))
    (exLogCall_ok 1 (by norm_num)) _ rfl rfl rfl

/-- Four metrics with validation set. -/
example : logLine exFmt ⟨12, 34, 56⟩ 0 ⟨[some .mse, some .mae, some .mape, some .binaryAccuracy, none],
    ⟨64, List.replicate 8 none⟩, true⟩ = .error .oob :=
  C59_false exFmt (fun _ => by simp only [exFmt]; decide) _ (by simp [Time.OK]) 0 [.mse, .mae, .mape, .binaryAccuracy] [] ⟨64, List.replicate 8 none⟩
    rfl (by simp)

end NN
