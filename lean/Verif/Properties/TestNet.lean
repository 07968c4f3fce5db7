import Verif.Proofs.TestNetRun
import Verif.Properties.InitFloat
/-
C83: tests/test.h and tests/test_neuralnet.c.
-/
set_option linter.unusedSimpArgs false

namespace NN.TestNet
open FloatOps NN.Spec
variable {F : Type}

/-! ### The functions of tests/test.h in exact arithmetic -/

theorem foldl_add_real (l : List ℝ) : ∀ s : ℝ, l.foldl FloatOps.add s = s + l.sum := by
  induction l with
  | nil => simp
  | cons x l ih => intro s; rw [List.foldl_cons, ih, RealOps.add_def, List.sum_cons]; ring

theorem meanOf_real (xs : List ℝ) : meanOf xs = xs.sum / xs.length := by
  simp [meanOf, foldl_add_real]

theorem sum_sq_sub (m : ℝ) : ∀ xs : List ℝ, (xs.map fun x => (x - m) ^ 2).sum = (xs.map fun x => x * x).sum - 2 * m * xs.sum + xs.length * m ^ 2
  | [] => by simp
  | x :: xs => by
    rw [List.map_cons, List.sum_cons, sum_sq_sub m xs, List.map_cons, List.sum_cons, List.sum_cons, List.length_cons]
    push_cast; ring

theorem stddevOf_real (xs : List ℝ) (h : xs ≠ []) :
    stddevOf xs = √((xs.map fun x => (x - xs.sum / xs.length) ^ 2).sum / xs.length) := by
  have hl : (xs.length : ℝ) ≠ 0 := by
    have := List.length_pos_iff.2 h
    positivity
  have e : (xs.map fun x : ℝ => FloatOps.mul x x) = xs.map fun x => x * x := rfl
  simp only [stddevOf, e, foldl_add_real, meanOf_real, RealOps.sub_def, RealOps.div_def, RealOps.mul_def, RealOps.ofNat_def, RealOps.zero_def,
    zero_add, RealOps.sqrt_def]
  congr 1
  rw [sum_sq_sub]
  field_simp
  ring

section
variable [FloatOps F]

omit [FloatOps F] in
theorem pick_mem (p : F → F → Bool) (l : List F) : ∀ m : F, l.foldl (fun m x => if p m x then x else m) m ∈ m :: l := by
  induction l with
  | nil => intro m; simp
  | cons x l ih =>
    intro m
    rw [List.foldl_cons]
    have := ih (if p m x then x else m)
    rcases List.mem_cons.1 this with h | h
    · rw [h]; split_ifs <;> simp
    · exact List.mem_cons_of_mem _ (List.mem_cons_of_mem _ h)

theorem maxOf_mem (x : F) (xs : List F) : maxOf x xs ∈ x :: xs := by
  have := pick_mem (fun m x => lt m x) (x :: xs) x
  simpa [maxOf] using this

theorem minOf_mem (x : F) (xs : List F) : minOf x xs ∈ x :: xs := by
  have := pick_mem (fun m x => lt x m) (x :: xs) x
  simpa [minOf] using this

end

theorem max_fold (l : List ℝ) : ∀ m : ℝ, m ≤ l.foldl (fun m x => if FloatOps.lt m x then x else m) m ∧
    ∀ x ∈ l, x ≤ l.foldl (fun m x => if FloatOps.lt m x then x else m) m := by
  induction l with
  | nil => intro m; simp
  | cons y l ih =>
    intro m
    rw [List.foldl_cons]
    obtain ⟨h1, h2⟩ := ih (if FloatOps.lt m y then y else m)
    have hm : m ≤ (if FloatOps.lt m y then y else m) ∧ y ≤ (if FloatOps.lt m y then y else m) := by
      split_ifs with h
      · exact ⟨((RealOps.lt_iff _ _).1 h).le, le_rfl⟩
      · rw [RealOps.lt_iff, not_lt] at h; exact ⟨le_rfl, h⟩
    refine ⟨hm.1.trans h1, ?_⟩
    intro x hx
    rcases List.mem_cons.1 hx with rfl | hx
    · exact hm.2.trans h1
    · exact h2 x hx

theorem min_fold (l : List ℝ) : ∀ m : ℝ, l.foldl (fun m x => if FloatOps.lt x m then x else m) m ≤ m ∧
    ∀ x ∈ l, l.foldl (fun m x => if FloatOps.lt x m then x else m) m ≤ x := by
  induction l with
  | nil => intro m; simp
  | cons y l ih =>
    intro m
    rw [List.foldl_cons]
    obtain ⟨h1, h2⟩ := ih (if FloatOps.lt y m then y else m)
    have hm : (if FloatOps.lt y m then y else m) ≤ m ∧ (if FloatOps.lt y m then y else m) ≤ y := by
      split_ifs with h
      · exact ⟨((RealOps.lt_iff _ _).1 h).le, le_rfl⟩
      · rw [RealOps.lt_iff, not_lt] at h; exact ⟨le_rfl, h⟩
    refine ⟨h1.trans hm.1, ?_⟩
    intro x hx
    rcases List.mem_cons.1 hx with rfl | hx
    · exact h1.trans hm.2
    · exact h2 x hx

/-- **C83** In exact arithmetic the four functions of tests/test.h are what their names say, for the first `n` values of any array: the mean, the
standard deviation (from two values on), the largest and the smallest value. -/
theorem C83_statistics (a : ℕ) (xs rest : List ℝ) (n : ℕ) (hn : xs.length = n) :
    calcMean n ⟨a, xs ++ rest⟩ = .ok (xs.sum / n) ∧
    (2 ≤ n → n < 2 ^ 32 → calcStddev n ⟨a, xs ++ rest⟩ = .ok √((xs.map fun x => (x - xs.sum / n) ^ 2).sum / n)) ∧
    (1 ≤ n → ∃ M m, calcMax n ⟨a, xs ++ rest⟩ = .ok M ∧ M ∈ xs ∧ (∀ x ∈ xs, x ≤ M) ∧
      calcMin n ⟨a, xs ++ rest⟩ = .ok m ∧ m ∈ xs ∧ ∀ x ∈ xs, m ≤ x) := by
  refine ⟨?_, ?_, ?_⟩
  · rw [calcMean_eq a xs rest hn, meanOf_real, hn]
  · intro h2 hs
    rw [calcStddev_eq a xs rest hn h2 hs, stddevOf_real xs (by rintro rfl; simp at hn; omega), hn]
  · intro h1
    cases xs with
    | nil => simp at hn; omega
    | cons x xs =>
      have hn' : xs.length + 1 = n := hn
      exact ⟨maxOf x xs, minOf x xs, calcMax_eq a x xs rest hn', maxOf_mem x xs, (max_fold (x :: xs) x).2, calcMin_eq a x xs rest hn',
        minOf_mem x xs, (min_fold (x :: xs) x).2⟩

/-- `C83_statistics`: the values 1 and 3, followed by something else. -/
example : calcMean 2 (⟨0, [1, 3] ++ [100]⟩ : View ℝ) = .ok 2 ∧ calcStddev 2 (⟨0, [1, 3] ++ [100]⟩ : View ℝ) = .ok 1 := by
  obtain ⟨h1, h2, -⟩ := C83_statistics 0 [1, 3] [100] 2 rfl
  refine ⟨h1.trans (by norm_num), (h2 (by norm_num) (by norm_num)).trans ?_⟩
  norm_num

/-- **C83** (negation) Not for every `n`: of no values at all the maximum and the minimum read the array all the same, one value has the standard
deviation 0, and with 2^32 values or more `test_calculate_stddev` does not come to an end, in any arithmetic. -/
theorem C83_statistics_false [FloatOps F] (a : ℕ) (v : View F) :
    calcMax 0 (⟨a, []⟩ : View F) = .error .oob ∧ calcMin 0 (⟨a, []⟩ : View F) = .error .oob ∧ calcStddev 1 v = .ok zero ∧
    ∀ n, 2 ^ 32 ≤ n → 2 ^ 32 ≤ v.data.length → calcStddev n v = .error .diverge := by
  refine ⟨rfl, rfl, rfl, ?_⟩
  intro n hn hv
  rw [calcStddev, if_neg (by omega), Nat.min_eq_right hn, stddevLoop_eq _ _ _ _ _ (by omega)]
  simp only [bind, Except.bind]
  rw [if_pos hn]

/-- `C83_statistics_false`: 2^32 zeros. -/
example : calcStddev (2 ^ 32) (⟨0, List.replicate (2 ^ 32) 0⟩ : View ℝ) = .error .diverge :=
  (C83_statistics_false 0 ⟨0, List.replicate (2 ^ 32) 0⟩).2.2.2 _ le_rfl (by rw [List.length_replicate])

/-- **C83** What the checks decide in exact arithmetic: each prints (OK) if and only if it is not counted, and prints (OK) exactly if the two numbers
are no more than `eps` apart, or the two integers equal, or the condition true. -/
theorem C83_checks (t : Tally) (a b eps : ℝ) (i j : ℤ) (p : Bool) :
    (∃ s, (t.checkFloat a b eps).log = t.log ++ [(s, !s)] ∧ (s = true ↔ |a - b| ≤ eps)) ∧
    (∃ s, (t.checkInt i j).log = t.log ++ [(s, !s)] ∧ (s = true ↔ i = j)) ∧
    (t.checkCond p).log = t.log ++ [(p, !p)] ∧
    (t.checkFloat a b eps).tests = t.tests + 1 ∧ (t.checkInt i j).tests = t.tests + 1 ∧ (t.checkCond p).tests = t.tests + 1 := by
  refine ⟨⟨decide (|a - b| ≤ eps), ?_, by simp⟩, ⟨decide (i = j), ?_, by simp⟩, rfl, rfl, rfl, rfl⟩
  · have h1 : FloatOps.le (FloatOps.abs (FloatOps.sub a b)) eps = decide (|a - b| ≤ eps) := by
      rw [Bool.eq_iff_iff, RealOps.le_iff]; simp
    have h2 : FloatOps.lt eps (FloatOps.abs (FloatOps.sub a b)) = !decide (|a - b| ≤ eps) := by
      rw [Bool.eq_iff_iff, RealOps.lt_iff]; simp
    simp only [Tally.checkFloat, Tally.check, h1, h2]
  · simp only [Tally.checkInt, Tally.check, List.append_cancel_left_eq, List.cons.injEq, Prod.mk.injEq, and_true]
    constructor
    · rw [Bool.eq_iff_iff]; simp
    · rw [Bool.eq_iff_iff]; simp

theorem counted_real (a b eps : ℝ) : FloatOps.lt eps (FloatOps.abs (FloatOps.sub a b)) = false ↔ |a - b| ≤ eps := by
  rw [Bool.eq_false_iff, ne_eq, RealOps.lt_iff, not_lt]
  simp

theorem le_real (a b : ℝ) : (!FloatOps.le a b) = false ↔ a ≤ b := by
  rw [Bool.not_eq_false', RealOps.le_iff]

theorem no_failures {t : Tally} (ht : t.Sound) : t.fails = 0 ↔ ∀ e ∈ t.log, e.2 = false := by
  rw [ht.fails, failures, List.length_eq_zero_iff, List.filter_eq_nil_iff]
  simp

/-- **C83** What the checks of the initial weights say in exact arithmetic, for a layer of any size that is followed by other parameters.  Those of
kaiming pass exactly if the mean of the weights is 0 and their standard deviation √(2/n), up to 1/10000.  Those of xavier pass exactly if the mean is
0, the standard deviation 2b/√12 with b = √(6/(n+m)), up to 1/10000, all weights are between -b and b, and there is one within 1/10000 of each
end. -/
theorem C83_init_checks (nInp nOut a : ℕ) (bias ws rest : List ℝ) (hb : bias.length = nOut) (hw : ws.length = nInp * nOut)
    (h2 : 2 ≤ nInp * nOut) (hs : nInp * nOut < 2 ^ 32) (μ sd B : ℝ) (hμ : μ = ws.sum / (nInp * nOut : ℕ))
    (hsd : sd = √((ws.map fun w => (w - μ) ^ 2).sum / (nInp * nOut : ℕ))) (hB : B = √(6 / ((nInp : ℝ) + nOut))) :
    (∃ t, kaimingChecks nInp nOut ⟨a, bias ++ (ws ++ rest)⟩ ⟨0, 0, []⟩ = .ok t ∧ t.tests = 2 ∧
      (t.fails = 0 ↔ |μ| ≤ 1 / 10000 ∧ |sd - √(2 / nInp)| ≤ 1 / 10000)) ∧
    ∃ t, xavierChecks nInp nOut ⟨a, bias ++ (ws ++ rest)⟩ ⟨0, 0, []⟩ = .ok t ∧ t.tests = 6 ∧
      (t.fails = 0 ↔ |μ| ≤ 1 / 10000 ∧ |sd - 2 * B / √12| ≤ 1 / 10000 ∧ (∀ w ∈ ws, |w| ≤ B) ∧
        (∃ w ∈ ws, |w - (-B)| ≤ 1 / 10000) ∧ ∃ w ∈ ws, |w - B| ≤ 1 / 10000) := by
  have h0 : (⟨0, 0, []⟩ : Tally).Sound := ⟨rfl, rfl⟩
  have hne : ws ≠ [] := by rintro rfl; rw [← hw] at h2; simp at h2
  have hmean : meanOf ws = μ := by rw [meanOf_real, hw, hμ]
  have hdev : stddevOf ws = sd := by rw [stddevOf_real ws hne, hw, ← hμ, hsd]
  have hb' : (bound nInp nOut : ℝ) = B := by simp [bound, hB]
  constructor
  · obtain ⟨t, e, s, l⟩ := kaimingChecks_eq nInp nOut a bias ws rest hb hw h2 hs _ h0
    refine ⟨t, e, by rw [s.tests, l]; rfl, ?_⟩
    rw [no_failures s, l]
    simp only [List.nil_append, kaimingLog, List.forall_mem_cons, List.not_mem_nil, false_imp_iff, implies_true, and_true, counted_real, hmean, hdev]
    simp
  · obtain ⟨x, xs, rfl⟩ : ∃ x xs, ws = x :: xs := by
      cases ws with
      | nil => exact absurd rfl hne
      | cons x xs => exact ⟨x, xs, rfl⟩
    obtain ⟨t, e, s, l⟩ := xavierChecks_eq nInp nOut a bias x xs rest hb hw h2 hs _ h0
    refine ⟨t, e, by rw [s.tests, l]; rfl, ?_⟩
    have key : (∀ e ∈ xavierLog nInp nOut x xs, e.2 = false) ↔ |μ - 0| ≤ 1 / 10000 ∧ |sd - (B - -B) / √12| ≤ 1 / 10000 ∧ -B ≤ minOf x xs ∧
        maxOf x xs ≤ B ∧ |minOf x xs - -B| ≤ 1 / 10000 ∧ |maxOf x xs - B| ≤ 1 / 10000 := by
      simp only [xavierLog, List.forall_mem_cons, List.not_mem_nil, false_imp_iff, implies_true, and_true, counted_real, le_real, hmean, hdev, hb']
      simp only [RealOps.neg_def, neg_neg, RealOps.sub_def, RealOps.div_def, RealOps.sqrt_def, RealOps.ofNat_def, RealOps.zero_def, RealOps.lit_def]
      norm_num
    have m1 := minOf_mem x xs
    have m2 : ∀ w ∈ x :: xs, minOf x xs ≤ w := (min_fold (x :: xs) x).2
    have M1 := maxOf_mem x xs
    have M2 : ∀ w ∈ x :: xs, w ≤ maxOf x xs := (max_fold (x :: xs) x).2
    rw [no_failures s, l, List.nil_append, key, show B - -B = 2 * B from by ring, sub_zero]
    refine and_congr Iff.rfl (and_congr Iff.rfl ⟨?_, ?_⟩)
    · rintro ⟨k1, k2, k3, k4⟩
      exact ⟨fun w hw => abs_le.2 ⟨k1.trans (m2 w hw), (M2 w hw).trans k2⟩, ⟨_, m1, k3⟩, ⟨_, M1, k4⟩⟩
    · rintro ⟨k1, ⟨v, v1, v2⟩, ⟨w, w1, w2⟩⟩
      have b1 := (abs_le.1 (k1 _ m1)).1
      have b2 := (abs_le.1 (k1 _ M1)).2
      have c1 := m2 v v1
      have c2 := M2 w w1
      have d1 := (abs_le.1 v2).2
      have d2 := (abs_le.1 w2).1
      exact ⟨b1, b2, abs_le.2 ⟨by linarith, by linarith⟩, abs_le.2 ⟨by linarith, by linarith⟩⟩

/-- `C83_init_checks`: two inputs, three units and the weights -b, b, 0, 0, 0, 0 pass the checks of xavier. -/
example (b : ℝ) (hb : b = √(6 / 5)) :
    ∃ t, xavierChecks 2 3 (⟨0, [7, 7, 7] ++ ([-b, b, 0, 0, 0, 0] ++ [100])⟩ : View ℝ) ⟨0, 0, []⟩ = .ok t ∧ t.fails = 0 := by
  have hB : 0 ≤ b := hb ▸ Real.sqrt_nonneg _
  have hB2 : b ^ 2 = 6 / 5 := by rw [hb, Real.sq_sqrt (by norm_num)]
  obtain ⟨-, t, e, -, h⟩ := C83_init_checks 2 3 0 [7, 7, 7] [-b, b, 0, 0, 0, 0] [100] rfl rfl (by norm_num) (by norm_num) 0
    √(2 / 5) b (by simp) (by
      congr 1
      simp
      linarith) (by rw [hb]; norm_num)
  refine ⟨t, e, h.2 ⟨by norm_num, ?_, ?_, ⟨-b, by simp, by norm_num⟩, ⟨b, by simp, by norm_num⟩⟩⟩
  · have : √(2 / 5) = 2 * b / √12 := by
      rw [← Real.sqrt_sq (by positivity : 0 ≤ 2 * b / √12), div_pow, mul_pow, hB2, Real.sq_sqrt (by norm_num)]
      norm_num
    rw [this, sub_self, abs_zero]
    norm_num
  · intro w hw
    simp only [List.mem_cons, List.not_mem_nil, or_false] at hw
    rcases hw with rfl | rfl | rfl | rfl | rfl | rfl <;> simp [abs_of_nonneg hB, hB]

/-- **C83** (negation) `CHECK_STR_EQUALS_MSG` counts the wrong way round: equal strings print (OK) and are counted as a failure, different
strings print FAIL and are not. -/
theorem C83_strings_false (t : Tally) (a b : String) :
    (a = b → (t.checkStr a b).log = t.log ++ [(true, true)] ∧ (t.checkStr a b).fails = t.fails + 1) ∧
    (a ≠ b → (t.checkStr a b).log = t.log ++ [(false, false)] ∧ (t.checkStr a b).fails = t.fails) := by
  constructor
  · intro h; simp [Tally.checkStr, Tally.check, h]
  · intro h
    have : (a == b) = false := by simpa using h
    simp [Tally.checkStr, Tally.check, this]

/-- Two equal strings are counted as a failure. -/
example : ((⟨0, 0, []⟩ : Tally).checkStr "tanh" "tanh").fails = 1 := ((C83_strings_false ⟨0, 0, []⟩ "tanh" "tanh").1 rfl).2

/-! ### The program in any arithmetic -/

section
variable [FloatOps F]

/-- **C83** The program runs to its end, in any arithmetic and in every build, whenever memory, files and random numbers are there: 29 checks, and the
counters agree with what was printed.  The three networks are made and have the right numbers of layers and parameters (also the one whose lists are
too long and whose first name is NULL), the file is written and can be read (checks 0-7 and 16-18 print (OK) and are not counted); both
predictions are the same ten numbers; no other file is touched. -/
theorem C83_runs (env : CustomEnv F) {c : Cfg} {sys : Sys F} (g : Good c sys) (recs : List ActRecord) (hrecs : RecsNamed recs) (h : Heap)
    (hh : h.WF) (rs : RandState F) (d : Disk) (hdw : d.writable "tmp_store_12.npz" = true) (hdr : d.readable "tmp_store_12.npz" = true) :
    ∃ o y, main env c sys recs h rs d = .ok o ∧ o.tally.tests = 29 ∧ o.tally.log.length = 29 ∧
      o.tally.fails = (o.tally.log.filter Prod.snd).length ∧
      (∀ i, i < 8 ∨ (16 ≤ i ∧ i < 19) → o.tally.log[i]? = some (true, false)) ∧
      o.results = some (⟨sys.result, y⟩, ⟨sys.resultNew, y⟩) ∧ y.length = 10 ∧
      (∀ f, f ≠ "tmp_store_12.npz" → o.disk.content f = d.content f) := by
  obtain ⟨o, ks, x, xs, y, e, s, -, l, r, yl, df⟩ := main_eq env g recs hrecs h hh rs d hdw hdr
  have hlen : o.tally.log.length = 29 := by
    rw [l]; simp [kaimingLog, xavierLog, sameLog, yl]
  refine ⟨o, y, e, by rw [s.tests, hlen], hlen, s.fails, ?_, r, yl, df⟩
  intro i hi
  rw [l]
  rcases hi with hi | ⟨h1, h2⟩
  · interval_cases i <;> rfl
  · interval_cases i <;> rfl

/-- **C83** Without memory for the copy of the parameters the program stops early, with one check more than before, and gives back all memory of
the network. -/
theorem C83_no_memory (env : CustomEnv F) {c : Cfg} {sys : Sys F} (hrand : Accepting F sys.rnd sys.fuel) {net : CNet} {h0 h : Heap}
    (fr : Fresh c sys [1000, 1000, 10] [some "tanh", some "sigmoid"] net h0 h) (hno : sys.ok h.count = false) (t : Tally)
    (recs : List ActRecord) (hrecs : RecsNamed recs) (rs : RandState F) (d : Disk) :
    ∃ o, initChecks env c sys net t recs h rs d = .ok o ∧ o.tally.tests = t.tests + 1 ∧ o.tally.fails = t.fails ∧ o.results = none ∧
      o.heap.live.Perm h0.live ∧ o.disk = d := by
  obtain ⟨o, e, ho, hr, hl, hd⟩ := initChecks_nomem env hrand fr hno t recs hrecs rs d
  exact ⟨o, e, by rw [ho]; rfl, by rw [ho]; rfl, hr, hl, hd⟩

/-- Every Xavier weight is a random number times the bound. -/
theorem Drawn.xavier {c : Cfg} {sys : Sys F} {recs : List ActRecord} (hrecs : RecsNamed recs) {rs : RandState F} {ks : List F} {x : F} {xs : List F}
    (h : Drawn c sys recs rs ks x xs) :
    (x :: xs).length = 1000 * 1000 ∧ ∀ w ∈ x :: xs, ∃ k, w = mul (uniformOf sys.rnd.randMax (sys.rnd.r k)) (bound 1000 1000) := by
  obtain ⟨nn0, nn1, nn2, k1, k2, l1, l2, m1, m2, rs1, rs2, -, b1, b2, -, e, -, hm⟩ := h.ex
  obtain ⟨-, -, h3⟩ := C54_values hrecs b1.sized e
  obtain ⟨l', ini, ws, s1, s2, e1, e2, e3, e4, e5⟩ := h3 0 l1 (by rw [b1.layers]; rfl)
  rw [b2.layers] at e1
  simp only [List.getElem?_cons_zero, Option.some.injEq] at e1
  subst e1
  have hi : ini = "xavier" := by
    simp only [readInitializer, List.getElem?_cons_zero, pure, Except.pure, Except.ok.injEq] at e2
    exact e2.symm
  have hws : ws = x :: xs := by rw [← hm, e5]
  refine ⟨by rw [← hws, e4, b1.in1, b1.out1], ?_⟩
  rw [hi, show schemeOf "xavier" l1.act = .xavier from by simp [schemeOf]] at e3
  simp only [layerDraws] at e3
  split_ifs at e3
  obtain ⟨-, k⟩ := B32.draws_all (fun _ => True) (fun y : F => ∃ k, y = uniformOf sys.rnd.randMax (sys.rnd.r k)) (by
    intro s y s' _ h
    simp only [randomUniform, pure, Except.pure, Except.ok.injEq, Prod.mk.injEq] at h
    exact ⟨trivial, s.k, h.1.symm⟩) trivial e3
  intro w hw
  rw [← hws] at hw
  obtain ⟨y, ⟨k, rfl⟩, rfl⟩ := k w hw
  exact ⟨k, by rw [b1.in1, b1.out1]; rfl⟩

end

/-! ### Single precision -/

section
open B32 hiding add sub mul div neg abs lt le

theorem is_of_finite {a : B32} (h : a.isFinite = true) : Is a a.value := ⟨h, rfl⟩

theorem sub_self_nan {v : B32} (h : v.isFinite = false) : (B32.sub v v).isNan = true := by
  have hlt := v.bits.isLt
  have hn := neg_toNat v
  have he : (B32.neg v).expField = v.expField := by unfold expField; rw [hn]; split_ifs <;> omega
  have hm : (B32.neg v).mantField = v.mantField := by unfold mantField; rw [hn]; split_ifs <;> omega
  have hs : (B32.neg v).sign = !v.sign := by
    unfold sign
    rw [hn, Bool.eq_iff_iff]
    split_ifs <;> simp <;> omega
  have hexp : v.expField = 255 := by simpa [isFinite] using h
  by_cases hz : v.mantField = 0
  · have h1 : v.isNan = false := by simp [isNan, hz]
    have h2 : (B32.neg v).isNan = false := by simp [isNan, hm, hz]
    have h3 : v.isInf = true := by simp [isInf, hexp, hz]
    have h4 : (B32.neg v).isInf = true := by simp [isInf, he, hm, hexp, hz]
    simp only [B32.sub, B32.add, h1, h2, h3, h4, hs, Bool.or_self, Bool.false_eq_true, if_false, if_true]
    have : (v.sign != !v.sign) = true := by cases v.sign <;> rfl
    simp [this, isNan_qnan]
  · have h1 : v.isNan = true := by simp [isNan, hexp, hz]
    exact sub_nan_left _ h1

/-- A number compared with itself: printed as (OK) exactly if it is finite, never counted. -/
theorem same_log (v eps : B32) {e : ℝ} (he : Is eps e) (h0 : 0 ≤ e) :
    B32.le (B32.abs (B32.sub v v)) eps = v.isFinite ∧ B32.lt eps (B32.abs (B32.sub v v)) = false := by
  cases h : v.isFinite with
  | true =>
    have hv := is_of_finite h
    have h1 := abs_is (sub_is hv hv (by rw [sub_self, abs_zero]; unfold maxF32; positivity))
    rw [sub_self, rnd_zero, abs_zero] at h1
    refine ⟨(le_iff h1 he).2 h0, ?_⟩
    rw [Bool.eq_false_iff]
    intro h2
    have := (lt_iff he h1).1 h2
    linarith
  | false =>
    have h1 := GradCheck.abs_nan (sub_self_nan h)
    exact ⟨by simp [B32.le, h1], lt_nan_right _ h1⟩

theorem tenmillionth (L : Libm) : ∃ e, Is (@FloatOps.lit B32 (ops L) 1 10000000) e ∧ 0 ≤ e := by
  have hM : (1 : ℝ) ≤ maxF32 := by unfold maxF32; norm_num
  refine ⟨rnd (((1 : ℤ) : ℝ) / ((10000000 : ℕ) : ℝ)), is_ofReal (by rw [abs_of_pos (by positivity)]; norm_num; linarith), ?_⟩
  exact le_rnd (by positivity) rnd_zero

theorem scale_bound (L : Libm) : ∃ σ, Is (@bound B32 (ops L) 1000 1000) σ ∧ 0 < σ ∧ |σ - √(6 / 2000)| ≤ 2 / 10 ^ 7 * √(6 / 2000) := by
  obtain ⟨σ, s1, s2, s3⟩ := scale_float (c := 6) (m := 2000) (by norm_num) (by norm_num) (by norm_num) (by norm_num)
  refine ⟨σ, s1, s2, ?_⟩
  push_cast at s3
  exact s3

/-- The product of a number of absolute value at most 1 and the bound is within the bound, after rounding too. -/
theorem xavier_range {u s : B32} {U σ : ℝ} (hu : Is u U) (hU : |U| ≤ 1) (hs : Is s σ) (h0 : 0 < σ) :
    B32.le (B32.neg s) (B32.mul u s) = true ∧ B32.le (B32.mul u s) (B32.neg (B32.neg s)) = true := by
  have hle : |U * σ| ≤ σ := by rw [abs_mul, abs_of_pos h0]; exact mul_le_of_le_one_left h0.le hU
  have hm := mul_is hu hs (hle.trans (by have := value_abs_le hs.1; rw [hs.2, abs_of_pos h0] at this; exact this))
  obtain ⟨h1, h2⟩ := abs_le.1 hle
  have hσ := rnd_is hs
  have hnn := is_neg (is_neg hs)
  rw [neg_neg] at hnn
  exact ⟨(le_iff (is_neg hs) hm).2 (le_rnd h1 (by rw [rnd_neg, hσ])), (le_iff hm hnn).2 (rnd_le h2 hσ)⟩

/-- **C83** In single precision, with any `rand()`: the smallest and the largest weight are never outside the bounds (checks 12 and 13 print (OK)), and
none of the ten comparisons after loading is counted; comparison `i` prints (OK) exactly if the prediction is a finite number.  So only the checks
8, 9, 10, 11, 14 and 15, the ones about statistics, can be counted as failures. -/
theorem C83_float (L : Libm) (env : CustomEnv B32) {c : Cfg} {sys : Sys B32} (g : @Good B32 (ops L) c sys) (hg : sys.rnd.WF)
    (h32 : sys.rnd.randMax < 2 ^ 32) (recs : List ActRecord) (hrecs : RecsNamed recs) (h : Heap) (hh : h.WF) (rs : RandState B32) (d : Disk)
    (hdw : d.writable "tmp_store_12.npz" = true) (hdr : d.readable "tmp_store_12.npz" = true) :
    ∃ o y, @main B32 (ops L) env c sys recs h rs d = .ok o ∧ o.results = some (⟨sys.result, y⟩, ⟨sys.resultNew, y⟩) ∧ o.tally.tests = 29 ∧
      o.tally.fails ≤ 6 ∧ o.tally.log[12]? = some (true, false) ∧ o.tally.log[13]? = some (true, false) ∧
      (∀ (i : ℕ) (v : B32), y[i]? = some v → o.tally.log[19 + i]? = some (v.isFinite, false)) ∧
      ∀ (i : ℕ) (s : Bool), o.tally.log[i]? = some (s, true) → i ∈ [8, 9, 10, 11, 14, 15] := by
  let _ := ops L
  obtain ⟨o, ks, x, xs, y, e, s, dr, l, r, yl, -⟩ := main_eq env g recs hrecs h hh rs d hdw hdr
  obtain ⟨hlen, hw⟩ := dr.xavier hrecs
  obtain ⟨σ, s1, s2, -⟩ := scale_bound L
  have hrange : ∀ w ∈ x :: xs, FloatOps.le (FloatOps.neg (bound 1000 1000)) w = true ∧
      FloatOps.le w (FloatOps.neg (FloatOps.neg (bound 1000 1000))) = true := by
    intro w hw'
    obtain ⟨k, rfl⟩ := hw w hw'
    obtain ⟨U, u1, u2, -⟩ := C54_float_uniform L hg.1 h32 (hg.2 k)
    exact xavier_range u1 u2 s1 s2
  have hmin := (hrange _ (minOf_mem x xs)).1
  have hmax := (hrange _ (maxOf_mem x xs)).2
  obtain ⟨eps, e1, e2⟩ := tenmillionth L
  have hsame : sameLog y = y.map fun v => (v.isFinite, false) := by
    unfold sameLog
    refine List.map_congr_left fun v _ => ?_
    obtain ⟨q1, q2⟩ := same_log v _ e1 e2
    exact Prod.ext q1 q2
  have hlog : o.tally.log.length = 29 := by
    rw [l]; simp [kaimingLog, xavierLog, sameLog, yl]
  have hfail : ∀ (i : ℕ) (s : Bool), o.tally.log[i]? = some (s, true) → i ∈ [8, 9, 10, 11, 14, 15] := by
    intro i s hi
    have hlt : i < 29 := by rw [← hlog]; exact (List.getElem?_eq_some_iff.1 hi).1
    rw [l, hsame] at hi
    by_cases h19 : 19 ≤ i
    · rw [List.getElem?_append_right (by simp [kaimingLog, xavierLog]; omega), List.getElem?_map] at hi
      cases hy : y[i - (List.replicate 8 (true, false) ++ kaimingLog 1000 ks ++ xavierLog 1000 1000 x xs ++
        List.replicate 3 (true, false)).length]? with
      | none => rw [hy] at hi; simp at hi
      | some v => rw [hy] at hi; simp at hi
    · rw [List.getElem?_append_left (by simp [kaimingLog, xavierLog]; omega)] at hi
      have h19' : i < 19 := by omega
      interval_cases i <;> first | (simp; done) | (simp [kaimingLog, xavierLog, hmin, hmax] at hi)
  refine ⟨o, y, e, r, by rw [s.tests, hlog], ?_, ?_, ?_, ?_, hfail⟩
  · rw [s.fails, failures, l, hsame]
    simp only [List.filter_append, List.length_append]
    have k1 : ((y.map fun v : B32 => (v.isFinite, false)).filter Prod.snd).length = 0 := by
      rw [List.length_eq_zero_iff, List.filter_eq_nil_iff]
      intro p hp
      obtain ⟨v, -, rfl⟩ := List.mem_map.1 hp
      simp
    have k2 : ((kaimingLog 1000 ks).filter Prod.snd).length ≤ 2 := (List.length_filter_le _ _).trans (by simp [kaimingLog])
    have k3 : ((xavierLog 1000 1000 x xs).filter Prod.snd).length ≤ 4 := by
      simp only [xavierLog, hmin, hmax, Bool.not_true]
      simp only [List.filter_cons, Bool.false_eq_true, if_false, List.filter_nil]
      split_ifs <;> simp
    have k4 : ∀ n, ((List.replicate n ((true, false) : Bool × Bool)).filter Prod.snd).length = 0 := by
      intro n; rw [List.length_eq_zero_iff, List.filter_eq_nil_iff]
      intro p hp
      rw [(List.mem_replicate.1 hp).2]; simp
    rw [k1, k4, k4]
    omega
  · rw [l]; simp [kaimingLog, xavierLog, hmin]
  · rw [l]; simp [kaimingLog, xavierLog, hmax]
  · intro i v hi
    rw [l, hsame, List.getElem?_append_right (by simp [kaimingLog, xavierLog])]
    have : 19 + i - (List.replicate 8 (true, false) ++ kaimingLog 1000 ks ++ xavierLog 1000 1000 x xs ++
        List.replicate 3 (true, false)).length = i := by simp [kaimingLog, xavierLog]
    rw [this, List.getElem?_map, hi]
    rfl

/-- **C83** (negation) `CHECK_FLOAT_EQUALS_MSG` prints FAIL for NaN but does not count it. -/
theorem C83_nan_false (L : Libm) (t : Tally) (a b eps : B32) (h : a.isNan = true ∨ b.isNan = true) : let _ := ops L
    (t.checkFloat a b eps).log = t.log ++ [(false, false)] ∧ (t.checkFloat a b eps).fails = t.fails := by
  let _ := ops L
  have h1 : (B32.abs (B32.sub a b)).isNan = true := GradCheck.abs_nan (by
    rcases h with h | h
    · exact sub_nan_left _ h
    · exact sub_nan_right _ h)
  have h2 : FloatOps.le (FloatOps.abs (FloatOps.sub a b)) eps = false := by
    show B32.le (B32.abs (B32.sub a b)) eps = false
    simp [B32.le, h1]
  have h3 : FloatOps.lt eps (FloatOps.abs (FloatOps.sub a b)) = false := lt_nan_right _ h1
  simp only [Tally.checkFloat, Tally.check, h2, h3, Bool.false_eq_true, if_false]
  exact ⟨trivial, trivial⟩

/-- Weights between 1/50 and 3/50, at most a million of them: the running sum stays above the number of terms over 100. -/
theorem sum_grows (L : Libm) : let _ := ops L
    ∀ (ws : List B32) (n : ℕ) (s : B32) (S : ℝ), n + ws.length ≤ 1000000 → Is s S → (n : ℝ) / 100 ≤ S → S ≤ n →
      (∀ w ∈ ws, ∃ W, Is w W ∧ 1 / 50 ≤ W ∧ W ≤ 3 / 50) →
      ∃ S', Is (ws.foldl (fun s w => add s w) s) S' ∧ ((n + ws.length : ℕ) : ℝ) / 100 ≤ S' ∧ S' ≤ (n + ws.length : ℕ) := by
  let _ := ops L
  intro _ ws
  induction ws with
  | nil => intro n s S _ hs h1 h2 _; exact ⟨S, hs, by simpa using h1, by simpa using h2⟩
  | cons w ws ih =>
    intro n s S hn hs h1 h2 hw
    obtain ⟨W, w1, w2, w3⟩ := hw w (by simp)
    simp only [List.length_cons] at hn
    have hn' : (n : ℝ) + 1 ≤ 1000000 := by exact_mod_cast (by omega : n + 1 ≤ 1000000)
    have h0 : (0 : ℝ) ≤ n := Nat.cast_nonneg n
    have hadd := add_is hs w1 (small_le_max (by rw [abs_of_nonneg (by linarith)]; norm_num; linarith))
    obtain ⟨S', s1, s2, s3⟩ := ih (n + 1) _ _ (by omega) hadd (by
      have hr := rnd_abs' ((n : ℝ) / 100 + 1 / 50)
      rw [abs_of_nonneg (by positivity : (0 : ℝ) ≤ (n : ℝ) / 100 + 1 / 50)] at hr
      have hm : rnd ((n : ℝ) / 100 + 1 / 50) ≤ rnd (S + W) := rnd_mono (by linarith)
      have := (abs_le.1 hr).1
      push_cast
      norm_num at this
      linarith) (by
      refine rnd_le (by push_cast; linarith) ?_
      exact rnd_exact (k := ((n + 1 : ℕ) : ℤ)) (j := 0) (by push_cast; ring) (by
        rw [abs_of_nonneg (by positivity)]; exact_mod_cast (by omega : n + 1 < 2 ^ 24)) (by norm_num)) (fun v hv => hw v (by simp [hv]))
    refine ⟨S', s1, ?_, ?_⟩
    · rw [List.length_cons, show n + (ws.length + 1) = n + 1 + ws.length from by omega]; exact s2
    · rw [List.length_cons, show n + (ws.length + 1) = n + 1 + ws.length from by omega]; exact s3

/-- **C83** (negation) Whether the test passes depends on the values of `rand()`: if all of them lie in the upper 30 per cent of the range, then the
library does what it should (theorem `C83_float`), and the check of the mean of the Xavier weights (check 10) is nevertheless counted as a failure. -/
theorem C83_upper_false (L : Libm) (env : CustomEnv B32) {c : Cfg} {sys : Sys B32} (g : @Good B32 (ops L) c sys) (hg : sys.rnd.WF)
    (h32 : sys.rnd.randMax < 2 ^ 32) (hup : ∀ k, 7 * sys.rnd.randMax ≤ 10 * sys.rnd.r k) (recs : List ActRecord) (hrecs : RecsNamed recs) (h : Heap)
    (hh : h.WF) (rs : RandState B32) (d : Disk) (hdw : d.writable "tmp_store_12.npz" = true) (hdr : d.readable "tmp_store_12.npz" = true) :
    ∃ o, @main B32 (ops L) env c sys recs h rs d = .ok o ∧ o.tally.log[10]? = some (false, true) ∧ 1 ≤ o.tally.fails := by
  let _ := ops L
  obtain ⟨o, ks, x, xs, y, e, s, dr, l, r, yl, -⟩ := main_eq env g recs hrecs h hh rs d hdw hdr
  obtain ⟨hlen, hw⟩ := dr.xavier hrecs
  obtain ⟨σ, s1, s2, s3⟩ := scale_bound L
  have q1 : (547 : ℝ) / 10000 ≤ √(6 / 2000) := Real.le_sqrt_of_sq_le (by norm_num)
  have q2 : √((6 : ℝ) / 2000) ≤ 548 / 10000 := Real.sqrt_le_iff.2 ⟨by norm_num, by norm_num⟩
  have hW : ∀ w ∈ x :: xs, ∃ W, Is w W ∧ 1 / 50 ≤ W ∧ W ≤ 3 / 50 := by
    intro w hw'
    obtain ⟨k, rfl⟩ := hw w hw'
    obtain ⟨U, u1, u2, u3, -⟩ := C54_float_uniform L hg.1 h32 (hg.2 k)
    have hpos : (0 : ℝ) < sys.rnd.randMax := by exact_mod_cast hg.1
    have hk : (7 : ℝ) * sys.rnd.randMax ≤ 10 * sys.rnd.r k := by exact_mod_cast hup k
    have hq : (7 : ℝ) / 5 ≤ 2 * sys.rnd.r k / sys.rnd.randMax := by rw [le_div_iff₀ hpos]; linarith
    have hU1 := (abs_le.1 u3).1
    have hU2 := (abs_le.1 u2).2
    have hσ := abs_le.1 s3
    have hUl : (399 : ℝ) / 1000 ≤ U := by linarith
    have hσl : (546 : ℝ) / 10000 ≤ σ := by linarith [hσ.1]
    have hσu : σ ≤ 549 / 10000 := by linarith [hσ.2]
    have p1 : (21 : ℝ) / 1000 ≤ U * σ := by nlinarith
    have p2 : U * σ ≤ 549 / 10000 := by nlinarith
    have hr := rnd_abs' (U * σ)
    rw [abs_of_nonneg (by linarith : 0 ≤ U * σ)] at hr
    obtain ⟨r1, r2⟩ := abs_le.1 hr
    norm_num at r1 r2
    exact ⟨_, mul_is u1 s1 (small_le_max (by rw [abs_of_nonneg (by linarith)]; norm_num; linarith)), by linarith, by linarith⟩
  obtain ⟨S, t1, t2, t3⟩ := sum_grows L (x :: xs) 0 zero 0 (by rw [hlen]) (is_zeroS false) (by simp) (by simp) hW
  rw [hlen] at t2 t3
  norm_num at t2 t3
  have hN : Is (FloatOps.ofNat (1000 * 1000) : B32) 1000000 := by
    have := ofNat_is (n := 1000000) (by norm_num)
    rw [rnd_exact (k := 1000000) (j := 0) (by push_cast; ring) (by norm_num) (by norm_num)] at this
    exact_mod_cast this
  have hm := div_is t1 hN (by norm_num) (small_le_max (by rw [abs_of_nonneg (by positivity), div_le_iff₀ (by norm_num)]; norm_num; linarith))
  have hmean : Is (meanOf (x :: xs)) (rnd (S / 1000000)) := by
    unfold meanOf
    rw [hlen]
    exact hm
  have hlow : (9 : ℝ) / 1000 ≤ rnd (S / 1000000) := by
    have hr := rnd_abs' (1 / 100)
    have hmono : rnd (1 / 100) ≤ rnd (S / 1000000) := rnd_mono (by rw [le_div_iff₀ (by norm_num)]; linarith)
    have := (abs_le.1 hr).1
    norm_num at this
    linarith
  have hup1 : rnd (S / 1000000) ≤ 1 := rnd_le (by rw [div_le_one (by norm_num)]; linarith) rnd_one
  have hsub := abs_is (sub_is hmean (is_zeroS false) (small_le_max (by rw [sub_zero, abs_of_nonneg (by linarith)]; norm_num; linarith)))
  rw [sub_zero, rnd_is hmean, abs_of_nonneg (by linarith)] at hsub
  have heps : Is (FloatOps.lit 1 10000 : B32) (rnd (((1 : ℤ) : ℝ) / ((10000 : ℕ) : ℝ))) :=
    is_ofReal (small_le_max (by rw [abs_of_pos (by positivity)]; norm_num))
  have hepsl : rnd (((1 : ℤ) : ℝ) / ((10000 : ℕ) : ℝ)) ≤ 2 / 10000 := by
    have hr := (abs_le.1 (rnd_abs' (((1 : ℤ) : ℝ) / ((10000 : ℕ) : ℝ)))).2
    rw [abs_of_pos (by positivity)] at hr
    norm_num at hr ⊢
    linarith
  have c1 : FloatOps.le (FloatOps.abs (FloatOps.sub (meanOf (x :: xs)) zero)) (FloatOps.lit 1 10000) = false := by
    rw [Bool.eq_false_iff]
    intro hc
    have := (le_iff hsub heps).1 hc
    linarith
  have c2 : FloatOps.lt (FloatOps.lit 1 10000) (FloatOps.abs (FloatOps.sub (meanOf (x :: xs)) zero)) = true :=
    (lt_iff heps hsub).2 (by linarith)
  have hlog : o.tally.log[10]? = some (false, true) := by
    rw [l]
    simp [kaimingLog, xavierLog, c1, c2]
  refine ⟨o, e, hlog, ?_⟩
  rw [s.fails, failures]
  exact List.length_pos_of_mem (List.mem_filter.2 ⟨List.mem_of_getElem? hlog, rfl⟩)

/-! ### Concrete cases -/

/-- A system with memory for everything. -/
def exSys (dl : DynLinker) (g : Rand) (lib : ZipLib) : Sys B32 where
  ok _ := true
  addr _ := 0
  junk _ _ := qnan
  dl := dl
  rnd := g
  fuel := 1
  lib := lib
  bits := b32Bits
  mem _ := true
  result := 4096
  resultNew := 8192
  stack _ := qnan
  work := 12288
  workJunk _ := qnan
  workNew := 16384
  workNewJunk _ := qnan

theorem exSys_good (L : Libm) (dl : DynLinker) (c : Cfg) {g : Rand} {lib : ZipLib} (hg : @Accepting B32 (ops L) g 1) (hl : lib.Lawful) :
    @Good B32 (ops L) c (exSys dl g lib) :=
  let _ := ops L
  ⟨fun _ => rfl, fun _ => rfl, fun _ => Nat.zero_mod _, hg, hl, b32Bits_lawful, align64 c 4096 rfl, align64 c 8192 rfl, align64 c 12288 rfl,
    align64 c 16384 rfl⟩

/-- `rand()` returning about three quarters of the range all the time. -/
def exUpper : Rand := ⟨fun _ => 1610612736, 2147483647⟩

theorem exUpper_wf : exUpper.WF := ⟨by decide, fun _ => by simp [exUpper]⟩

theorem exUpper_accepting (L : Libm) : @Accepting B32 (ops L) exUpper 1 :=
  (C54_float_terminates L exUpper_wf (by decide) (fun k => ⟨0, by norm_num, by norm_num [exUpper]⟩)).1

/-- `C83_runs` and `C83_float`: a system that meets the hypotheses, in every build. -/
example (L : Libm) (env : CustomEnv B32) (dl : DynLinker) (c : Cfg) : ∃ lib o y,
    @main B32 (ops L) env c (exSys dl exRand31 lib) [] ⟨0, []⟩ ⟨0, qnan, qnan, false⟩ ⟨fun _ => none, fun _ => true, fun _ => true⟩ = .ok o ∧
    o.results = some (⟨4096, y⟩, ⟨8192, y⟩) ∧ o.tally.tests = 29 ∧ o.tally.fails ≤ 6 := by
  let _ := ops L
  obtain ⟨lib, hlib⟩ := exists_lawful
  obtain ⟨o, y, h1, h2, h3, h4, -⟩ := C83_float L env (exSys_good L dl c (exRand31_accepting L) hlib) exRand31_wf (by norm_num [exSys, exRand31]) [] (by intro r hr; cases hr)
    ⟨0, []⟩ ⟨by simp, by simp⟩ ⟨0, qnan, qnan, false⟩ ⟨fun _ => none, fun _ => true, fun _ => true⟩ rfl rfl
  exact ⟨lib, o, y, h1, h2, h3, h4⟩

/-- `C83_upper_false`: with a `rand()` that always returns the same number the program reports a failure. -/
example (L : Libm) (env : CustomEnv B32) (dl : DynLinker) (c : Cfg) : ∃ lib o,
    @main B32 (ops L) env c (exSys dl exUpper lib) [] ⟨0, []⟩ ⟨0, qnan, qnan, false⟩ ⟨fun _ => none, fun _ => true, fun _ => true⟩ = .ok o ∧
    o.tally.log[10]? = some (false, true) := by
  let _ := ops L
  obtain ⟨lib, hlib⟩ := exists_lawful
  obtain ⟨o, h1, h2, -⟩ := C83_upper_false L env (exSys_good L dl c (exUpper_accepting L) hlib) exUpper_wf (by norm_num [exSys, exUpper])
    (fun _ => by norm_num [exSys, exUpper]) []
    (by intro r hr; cases hr) ⟨0, []⟩ ⟨by simp, by simp⟩ ⟨0, qnan, qnan, false⟩ ⟨fun _ => none, fun _ => true, fun _ => true⟩ rfl rfl
  exact ⟨lib, o, h1, h2⟩

/-- `C83_no_memory`: a network was made, and then the memory is used up. -/
example (L : Libm) (env : CustomEnv B32) (dl : DynLinker) (c : Cfg) (d : Disk) : let _ := ops L
    ∃ sys net h o, initChecks env c sys net ⟨6, 0, []⟩ [] h ⟨0, qnan, qnan, false⟩ d = .ok o ∧ o.tally.tests = 7 ∧ o.heap.live = [] := by
  let _ := ops L
  obtain ⟨lib, hlib⟩ := exists_lawful
  have g := exSys_good L dl c (exUpper_accepting L) hlib
  obtain ⟨net, h', -, fr⟩ := created g.alloc g.addr g.rand 1000 1000 10 (some "tanh") (some "sigmoid") (by norm_num) (by norm_num) (by norm_num)
    (by norm_num) (by intro s hs; simp at hs; rcases hs with rfl | rfl <;> simp [builtins]) [] (by intro r hr; cases hr) ⟨0, []⟩
    ⟨by simp, by simp⟩ ⟨0, qnan, qnan, false⟩
  obtain ⟨o, h1, h2, -, -, h3, -⟩ := C83_no_memory env (sys := { exSys dl exUpper lib with ok := fun i => decide (i < h'.count) })
    (exUpper_accepting L) (net := net) (h0 := ⟨0, []⟩) (h := h') ⟨fr.sized, fr.wf, fr.sizes, fr.funcs, fr.heap, fr.live, fr.blocks⟩ (by simp) ⟨6, 0, []⟩ [] (by intro r hr; cases hr)
    ⟨0, qnan, qnan, false⟩ d
  exact ⟨_, _, _, o, h1, h2, List.perm_nil.1 h3⟩

/-- `C83_nan_false`: NaN against 1. -/
example (L : Libm) : let _ := ops L
    ((⟨0, 0, []⟩ : Tally).checkFloat qnan one zero).fails = 0 :=
  (C83_nan_false L ⟨0, 0, []⟩ qnan _ _ (.inl isNan_qnan)).2

end

end NN.TestNet
