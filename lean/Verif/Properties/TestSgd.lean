import Verif.Proofs.TestSgd
import Verif.Spec.TestSgd
import Verif.Properties.Trainer
/-
C78: examples/test_sgd.c.
-/
set_option linter.unusedSimpArgs false

namespace NN.TestSgd
open FloatOps NN.Spec NN.Trainer
variable {F : Type}

/-! ### The options -/

/-- **C78** The values of `--nesterov` that count as true: exactly those that start with `true`, `True`, `Yes` or `1`. -/
theorem C78_bool (s : Bytes) : stringToBool s = true ↔ ∃ w ∈ trueWords, str w <+: s := by
  have h1 := strncmpEq_iff (str "true") s
  have h2 := strncmpEq_iff (str "True") s
  have h3 := strncmpEq_iff (str "Yes") s
  have h4 := strncmpEq_iff (str "1") s
  rw [show (str "true").length = 4 by decide] at h1
  rw [show (str "True").length = 4 by decide] at h2
  rw [show (str "Yes").length = 3 by decide] at h3
  rw [show (str "1").length = 1 by decide] at h4
  simp only [trueWords, List.mem_cons, List.not_mem_nil, or_false, exists_eq_or_imp, exists_eq_left, ← h1, ← h2, ← h3, ← h4, stringToBool]
  split_ifs <;> simp_all

/-- "yes" and "TRUE" are false, "10" and "truely" are true. -/
example : stringToBool (str "yes") = false ∧ stringToBool (str "TRUE") = false ∧ stringToBool (str "10") = true ∧
    stringToBool (str "truely") = true := by decide

theorem getopt_iff (a : CmdArg) (c : Char) (v : String) :
    getopt a = some (c, v) ↔ ∃ name, (name, c) ∈ longOptions ∧ Gives name a v := by
  cases a with
  | short d arg => simp [getopt, Gives]
  | long name arg =>
    simp only [Gives, CmdArg.long.injEq]
    by_cases h0 : name = ""
    · subst h0
      have : getopt (.long "" arg) = none := by cases arg <;> rfl
      rw [this]
      constructor
      · intro h; simp at h
      · rintro ⟨n, -, s, hs, -, rfl, -⟩; exact absurd rfl hs
    have hr : (∃ n, (n, c) ∈ longOptions ∧ ∃ s, s ≠ "" ∧ s.toList <+: n.toList ∧ name = s ∧ arg = some v) ↔
        arg = some v ∧ ∃ n, (n, c) ∈ longOptions ∧ name.toList <+: n.toList := by
      constructor
      · rintro ⟨n, h1, s, -, h2, rfl, h3⟩; exact ⟨h3, n, h1, h2⟩
      · rintro ⟨h3, n, h1, h2⟩; exact ⟨n, h1, name, h0, h2, rfl, h3⟩
    rw [hr]
    obtain ⟨x, t, ht⟩ : ∃ x t, name.toList = x :: t := List.exists_cons_of_ne_nil (by simpa using h0)
    obtain ⟨A, e1⟩ : ∃ A, "learning_rate".toList = 'l' :: A := ⟨_, rfl⟩
    obtain ⟨B, e2⟩ : ∃ B, "momentum".toList = 'm' :: B := ⟨_, rfl⟩
    obtain ⟨C, e3⟩ : ∃ C, "nesterov".toList = 'n' :: C := ⟨_, rfl⟩
    have hg : getopt (.long name arg) = (if x = 'l' ∧ t <+: A then some 'l' else
        if x = 'm' ∧ t <+: B then some 'm' else if x = 'n' ∧ t <+: C then some 'n' else
        none).bind (fun c => arg.map fun a => (c, a)) := by
      simp only [getopt]
      cases hf : longOptions.find? (fun p => p.1 == name) with
      | some p =>
        have h1 := List.find?_some hf
        have h2 := List.mem_of_find?_eq_some hf
        simp only [beq_iff_eq] at h1
        simp only [longOptions, List.mem_cons, List.not_mem_nil, or_false] at h2
        rcases h2 with rfl | rfl | rfl <;> simp only [] at h1 <;> rw [← h1] at ht <;> simp only [e1, e2, e3, List.cons.injEq] at ht <;>
          obtain ⟨rfl, rfl⟩ := ht <;> simp
      | none =>
        simp only [longOptions, List.filter_cons, List.filter_nil, ht, e1, e2, e3, List.isPrefixOf_cons_cons, Bool.and_eq_true, beq_iff_eq,
          List.isPrefixOf_iff_prefix]
        by_cases hl : x = 'l'
        · subst hl; by_cases h : t <+: A <;> simp [h]
        by_cases hm : x = 'm'
        · subst hm; by_cases h : t <+: B <;> simp [h]
        by_cases hn : x = 'n'
        · subst hn; by_cases h : t <+: C <;> simp [h]
        simp [hl, hm, hn]
    rw [hg]
    clear hg
    simp only [longOptions, List.mem_cons, Prod.mk.injEq, List.not_mem_nil, or_false, ht]
    have hex : (∃ n, (n = "learning_rate" ∧ c = 'l' ∨ n = "momentum" ∧ c = 'm' ∨ n = "nesterov" ∧ c = 'n') ∧ x :: t <+: n.toList) ↔
        (c = 'l' ∧ x = 'l' ∧ t <+: A) ∨ (c = 'm' ∧ x = 'm' ∧ t <+: B) ∨
        (c = 'n' ∧ x = 'n' ∧ t <+: C) := by
      constructor
      · rintro ⟨n, ⟨rfl, rfl⟩ | ⟨rfl, rfl⟩ | ⟨rfl, rfl⟩, h⟩
        · rw [e1, List.cons_prefix_cons] at h; exact .inl ⟨rfl, h⟩
        · rw [e2, List.cons_prefix_cons] at h; exact .inr (.inl ⟨rfl, h⟩)
        · rw [e3, List.cons_prefix_cons] at h; exact .inr (.inr ⟨rfl, h⟩)
      · rintro (⟨rfl, h⟩ | ⟨rfl, h⟩ | ⟨rfl, h⟩)
        · exact ⟨_, .inl ⟨rfl, rfl⟩, by rw [e1, List.cons_prefix_cons]; exact h⟩
        · exact ⟨_, .inr (.inl ⟨rfl, rfl⟩), by rw [e2, List.cons_prefix_cons]; exact h⟩
        · exact ⟨_, .inr (.inr ⟨rfl, rfl⟩), by rw [e3, List.cons_prefix_cons]; exact h⟩
    rw [hex]
    cases arg with
    | none => simp
    | some w =>
      split_ifs with h1 h2 h3
      · obtain ⟨rfl, h1⟩ := h1
        simp [h1]; constructor <;> rintro ⟨rfl, rfl⟩ <;> exact ⟨rfl, rfl⟩
      · obtain ⟨rfl, h2⟩ := h2
        simp [h2]; constructor <;> rintro ⟨rfl, rfl⟩ <;> exact ⟨rfl, rfl⟩
      · obtain ⟨rfl, h3⟩ := h3
        simp [h3]; constructor <;> rintro ⟨rfl, rfl⟩ <;> exact ⟨rfl, rfl⟩
      · simp; tauto

/-- A variable that only one option sets. -/
theorem parse_last {α : Type} (strtof : Bytes → F) (field : Opts F → α) (value : String → α) (name : String) (c : Char)
    (hname : ∀ n, (n, c) ∈ longOptions ↔ n = name) (hset : ∀ o v, field (setOpt strtof o (some (c, v))) = value v)
    (hkeep : ∀ o r, (∀ v, r ≠ some (c, v)) → field (setOpt strtof o r) = field o) {args : List CmdArg} {v : Option String}
    (h : LastGiven name args v) (o : Opts F) : field (parse strtof o args) = (v.map value).getD (field o) := by
  have hgive : ∀ a w, getopt a = some (c, w) ↔ Gives name a w := by
    intro a w
    rw [getopt_iff]
    constructor
    · rintro ⟨n, h1, h2⟩; rwa [(hname n).1 h1] at h2
    · intro h2; exact ⟨name, (hname name).2 rfl, h2⟩
  have keep : ∀ (args : List CmdArg) (o : Opts F), (∀ a ∈ args, ∀ w, ¬ Gives name a w) → field (parse strtof o args) = field o := by
    intro args
    induction args with
    | nil => intro o _; rfl
    | cons a as ih =>
      intro o ha
      rw [parse, List.foldl_cons]
      exact (ih _ fun b hb => ha b (by simp [hb])).trans (hkeep o _ fun w hw => ha a (by simp) w ((hgive a w).1 hw))
  cases h with
  | absent h => exact keep _ _ h
  | given h h' =>
    rw [parse, List.foldl_append, List.foldl_cons]
    refine (keep _ _ h').trans ?_
    rw [(hgive _ _).2 h]
    exact hset _ _

/-- Every command line has a value for every option. -/
theorem lastGiven_exists (name : String) (args : List CmdArg) : ∃ v, LastGiven name args v := by
  classical
  induction args with
  | nil => exact ⟨none, .absent (by simp)⟩
  | cons a as ih =>
    obtain ⟨v, hv⟩ := ih
    cases hv with
    | absent h =>
      by_cases ha : ∃ w, Gives name a w
      · obtain ⟨w, hw⟩ := ha
        exact ⟨some w, .given (pre := []) hw h⟩
      · refine ⟨none, .absent ?_⟩
        intro b hb w hw
        rcases List.mem_cons.1 hb with rfl | hb
        · exact ha ⟨w, hw⟩
        · exact h b hb w hw
    | given h h' => exact ⟨_, .given (pre := a :: _) h h'⟩

section
variable [FloatOps F]

/-- **C78** What the command line means: of every option the last value counts, whatever the order and the other arguments (unknown
options and options without a value are ignored); the defaults are 0.01, 0 and false. -/
theorem C78_options (strtof : Bytes → F) (args : List CmdArg) {lr mom nes : Option String} (h1 : LastGiven "learning_rate" args lr)
    (h2 : LastGiven "momentum" args mom) (h3 : LastGiven "nesterov" args nes) :
    (parse strtof Opts.initial args).learningRate = (lr.map fun v => strtof (str v)).getD (lit 1 100) ∧
    (parse strtof Opts.initial args).momentum = (mom.map fun v => strtof (str v)).getD zero ∧
    ((parse strtof Opts.initial args).nesterov = true ↔ ∃ v, nes = some v ∧ ∃ w ∈ trueWords, str w <+: str v) := by
  have hkeep : ∀ {α : Type} (c : Char) (field : Opts F → α), (∀ (o : Opts F) d v, d ≠ c → field (setOpt strtof o (some (d, v))) = field o) →
      ∀ (o : Opts F) r, (∀ v, r ≠ some (c, v)) → field (setOpt strtof o r) = field o := by
    intro α c field hf o r hr
    cases r with
    | none => rfl
    | some p =>
      obtain ⟨d, v⟩ := p
      exact hf o d v fun h => hr v (by rw [h])
  have hcase : ∀ (o : Opts F) d v, d ≠ 'l' → d ≠ 'm' → d ≠ 'n' → setOpt strtof o (some (d, v)) = o := by
    intro o d v h1 h2 h3
    simp [setOpt, h1, h2, h3]
  refine ⟨?_, ?_, ?_⟩
  · refine parse_last strtof Opts.learningRate (fun v => strtof (str v)) _ 'l' (by simp [longOptions]) (fun _ _ => rfl) ?_ h1 _
    refine hkeep 'l' _ fun o d v hd => ?_
    by_cases hm : d = 'm'
    · subst hm; rfl
    by_cases hn : d = 'n'
    · subst hn; rfl
    rw [hcase o d v hd hm hn]
  · refine parse_last strtof Opts.momentum (fun v => strtof (str v)) _ 'm' (by simp [longOptions]) (fun _ _ => rfl) ?_ h2 _
    refine hkeep 'm' _ fun o d v hd => ?_
    by_cases hm : d = 'l'
    · subst hm; rfl
    by_cases hn : d = 'n'
    · subst hn; rfl
    rw [hcase o d v hm hd hn]
  · rw [parse_last strtof Opts.nesterov (fun v => stringToBool (str v)) _ 'n' (by simp [longOptions]) (fun _ _ => rfl) ?_ h3 _]
    · cases nes with
      | none => simp [Opts.initial]
      | some v => simp [C78_bool]
    · refine hkeep 'n' _ fun o d v hd => ?_
      by_cases hm : d = 'l'
      · subst hm; rfl
      by_cases hn : d = 'm'
      · subst hn; rfl
      rw [hcase o d v hm hn hd]

/-- `--learn 0.1 --bogus x --momentum 0.9 -l 3 --learning_rate 0.2 --nest Yes` -/
example (strtof : Bytes → F) : parse strtof Opts.initial [.long "learn" (some "0.1"), .long "bogus" (some "x"), .long "momentum" (some "0.9"),
    .short 'l' (some "3"), .long "learning_rate" (some "0.2"), .long "nest" (some "Yes")] =
    ⟨strtof (str "0.2"), strtof (str "0.9"), true⟩ := by
  obtain ⟨h1, h2, h3⟩ := C78_options strtof [.long "learn" (some "0.1"), .long "bogus" (some "x"), .long "momentum" (some "0.9"),
    .short 'l' (some "3"), .long "learning_rate" (some "0.2"), .long "nest" (some "Yes")] (lr := some "0.2") (mom := some "0.9")
    (nes := some "Yes") (.given (pre := [_, _, _, _]) ⟨"learning_rate", by decide, by decide, rfl⟩ (by
      intro b hb w; simp only [List.mem_singleton] at hb; subst hb
      rintro ⟨s, -, h, he⟩; simp only [CmdArg.long.injEq] at he; rw [← he.1] at h; revert h; decide))
    (.given (pre := [_, _]) ⟨"momentum", by decide, by decide, rfl⟩ (by
      intro b hb w; simp only [List.mem_cons, List.not_mem_nil, or_false] at hb
      rcases hb with rfl | rfl | rfl <;> rintro ⟨s, -, h, he⟩ <;> simp only [CmdArg.long.injEq, reduceCtorEq] at he <;>
        rw [← he.1] at h <;> revert h <;> decide))
    (.given (pre := [_, _, _, _, _]) (post := []) ⟨"nest", by decide, by decide, rfl⟩ (by simp))
  have h4 := h3.2 ⟨"Yes", rfl, "Yes", by decide, List.prefix_rfl⟩
  generalize parse strtof Opts.initial _ = o at *
  obtain ⟨a, b, c⟩ := o
  simp_all

/-! ### The training -/

/-- **C78 is false** for two of the options: momentum and Nesterov do not reach the optimizer.  Two command lines with the same learning
rate give the same network, the same files and the same metrics (or the same fault); only the text differs. -/
theorem C78_momentum_false (lb : Lib F) (fm : Format F) (sys : Sys F) (rnd : Rand) (fuel : ℕ) (recs : List ActRecord) (h : Heap)
    (rs : RandState F) (st : Statics F) (d : Disk) (o o' : Opts F) (hlr : o.learningRate = o'.learningRate) :
    (main lb fm sys rnd fuel recs h rs st d o).map (fun r => (r.nn, r.d, r.results)) =
      (main lb fm sys rnd fuel recs h rs st d o').map (fun r => (r.nn, r.d, r.results)) := by
  have h1 : ∀ o : Opts F, (checkNesterov o).1.learningRate = o.learningRate := by
    intro o; unfold checkNesterov; split_ifs <;> rfl
  simp only [main, bind, Except.bind, h1, hlr]
  cases loadData lb.zip d sys.mem with
  | error e => rfl
  | ok v =>
  obtain ⟨tX, tY, vX, vY⟩ := v
  simp only []
  cases createNN sys.ok sys.dl 3 [castInt (dim tX 1), 61, 28, 1] (some [some "relu", some "relu", some "sigmoid"]) recs h with
  | error e => rfl
  | ok v =>
  obtain ⟨_ | net, recs1, h1⟩ := v
  · rfl
  simp only []
  cases initializeNN rnd fuel recs1 (some [some "kaiming", some "kaiming", some "kaiming"]) (some (net.toNet sys.addr sys.junk)) rs with
  | error e => rfl
  | ok v =>
  obtain ⟨_ | nn, rs1⟩ := v
  · rfl
  simp only []
  cases newAny st (setLoss recs1 nn "binary_crossentropy") true 16 (some [getMetricFunc (getLossName
    (setLoss recs1 nn "binary_crossentropy").loss), getMetricFunc "categorical_accuracy", none]) sys.vec1 sys.vec2
    (.sgd o'.learningRate zero zero false) with
  | error e => rfl
  | ok v =>
  obtain ⟨st1, s1⟩ := v
  simp only []
  cases metricList (metricsArray st1 s1.opt.metrics) with
  | error e => rfl
  | ok ms =>
  simp only []
  generalize loop lb.env lb.c rnd.r _ (st1, s1, rs1.k) = res
  cases res with
  | error e => rfl
  | ok v =>
  obtain ⟨rows, st2, s2, q2⟩ := v
  simp only []
  cases saveNN lb.zip lb.bits recs1 d (some s2.opt.nn) (some "after-10-epochs.npz") <;> rfl

/-- **C78 is false** without the file, or with fewer than four arrays in it: the program follows a NULL pointer. -/
theorem C78_file_false (lb : Lib F) (fm : Format F) (sys : Sys F) (rnd : Rand) (fuel : ℕ) (recs : List ActRecord) (h : Heap)
    (rs : RandState F) (st : Statics F) (d : Disk) (o : Opts F) (l : List (Bytes × NpyArray))
    (hl : listLoad lb.zip d sys.mem "mushroom_train.npz" = .ok l) (h4 : l.length < 4) :
    main lb fm sys rnd fuel recs h rs st d o = .error .nullDeref := by
  have : loadData lb.zip d sys.mem = .error .nullDeref := by
    simp only [loadData, hl, bind, Except.bind]
    match l, h4 with
    | [], _ => rfl
    | [_], _ => rfl
    | [_, _], _ => rfl
    | [_, _, _], _ => rfl
    | _ :: _ :: _ :: _ :: _, h => simp at h; omega
  simp only [main, this, bind, Except.bind]

/-- **C78** An array in Fortran order ends the program with a failed assertion. -/
theorem C78_order (lb : Lib F) (fm : Format F) (sys : Sys F) (rnd : Rand) (fuel : ℕ) (recs : List ActRecord) (h : Heap)
    (rs : RandState F) (st : Statics F) (d : Disk) (o : Opts F) (p1 p2 p3 p4 : Bytes × NpyArray) (rest : List (Bytes × NpyArray))
    (hl : listLoad lb.zip d sys.mem "mushroom_train.npz" = .ok (p1 :: p2 :: p3 :: p4 :: rest))
    (hf : ∃ p ∈ [p1, p2, p3, p4], p.2.fortran = true) :
    main lb fm sys rnd fuel recs h rs st d o = .error .assertFail := by
  have : loadData lb.zip d sys.mem = .error .assertFail := by
    simp only [loadData, hl, bind, Except.bind]
    rw [if_pos]
    simp only [List.mem_cons, List.not_mem_nil, or_false, exists_eq_or_imp, exists_eq_left] at hf
    rcases hf with hf | hf | hf | hf <;> simp [hf]
  simp only [main, this, bind, Except.bind]

/-- What the program needs: four arrays with `n` and `nV` samples of `k` inputs and one output, enough memory. -/
structure Good (lb : Lib F) (sys : Sys F) (rnd : Rand) (fuel : ℕ) (d : Disk) (k n nV : ℕ) (tX tY vX vY : NpyArray) : Prop where
  zip : lb.zip.Lawful
  bits : lb.bits.Lawful
  file : ∃ n1 n2 n3 n4 rest, listLoad lb.zip d sys.mem "mushroom_train.npz" = .ok ((n1, tX) :: (n2, tY) :: (n3, vX) :: (n4, vY) :: rest)
  order : tX.fortran = false ∧ tY.fortran = false ∧ vX.fortran = false ∧ vY.fortran = false
  rows : dim tX 0 = n ∧ dim vX 0 = nV
  cols : dim tX 1 = k
  full : 4 * (n * k) ≤ tX.data.length ∧ 4 * n ≤ tY.data.length ∧ 4 * (nV * k) ≤ vX.data.length ∧ 4 * nV ≤ vY.data.length
  pos : 1 ≤ n ∧ 1 ≤ k
  few : n < 2 ^ 31 ∧ nV < 2 ^ 31 ∧ n * k ≤ 2 ^ 32 ∧ k * 61 < 2 ^ 31
  alloc : ∀ i, sys.ok i = true
  addr : ∀ i, sys.addr i % lb.c.alignSize = 0
  vec1 : ∃ a, sys.vec1 = some a ∧ a % lb.c.alignSize = 0
  vec2 : ∃ a, sys.vec2 = some a ∧ a % lb.c.alignSize = 0
  rand : Accepting F rnd fuel
  mem : ∀ i j, ((sys.epoch i).mem j).OK lb.c (paramCount [k, 61, 28, 1]) (batchLen n 16 j)
  fuel : ∀ i, (n + 15) / 16 ≤ (sys.epoch i).fuel
  evalMem : ∀ i j, ((sys.epoch i).evalMem j).workAddr % lb.c.alignSize = 0 ∧ ((sys.epoch i).evalMem j).predAddr % lb.c.alignSize = 0
  evalMemV : ∀ i j, ((sys.epoch i).evalMemV j).workAddr % lb.c.alignSize = 0 ∧
    ((sys.epoch i).evalMemV j).predAddr % lb.c.alignSize = 0
  sched : ∀ i, (sys.epoch i).sched.Covers n ∧ (sys.epoch i).schedV.Covers nV
  disk : d.writable "after-10-epochs.npz" = true ∧ d.readable "after-10-epochs.npz" = true

theorem Good.load {lb : Lib F} {sys : Sys F} {rnd : Rand} {fuel : ℕ} {d : Disk} {k n nV : ℕ} {tX tY vX vY : NpyArray}
    (g : Good lb sys rnd fuel d k n nV tX tY vX vY) : loadData lb.zip d sys.mem = .ok (tX, tY, vX, vY) := by
  obtain ⟨n1, n2, n3, n4, rest, h⟩ := g.file
  simp [loadData, h, g.order, bind, Except.bind, pure, Except.pure]

theorem Good.fine {lb : Lib F} {sys : Sys F} {rnd : Rand} {fuel : ℕ} {d : Disk} {k n nV : ℕ} {tX tY vX vY : NpyArray}
    (g : Good lb sys rnd fuel d k n nV tX tY vX vY) (lr : F) :
    (job sys rnd fuel lr k (dataOf lb sys n nV tX tY vX vY)).Fine lb.c .bce metrics k 1 where
  layers := by simp [job]
  few := by simp [job]
  pos := by have := g.pos; simp [job]; omega
  first := rfl
  last := rfl
  small := by have := g.few; simp [job]; omega
  names := rfl
  builtin := by
    intro s hs
    simp only [job, List.mem_cons, Option.some.injEq, List.not_mem_nil, or_false] at hs
    rcases hs with rfl | rfl | rfl <;> simp [builtins]
  inits := by
    intro l hl
    simp only [job, Option.some.injEq] at hl
    subst hl
    simp [job]
  lossName := by simp only [job]; decide
  batch := by simp [job]
  metrics := ⟨[], rfl⟩
  mem := g.alloc
  addr := g.addr
  vec1 := g.vec1
  vec2 := g.vec2
  rand := g.rand
  calls := by
    intro e he
    obtain ⟨i, -, rfl⟩ := List.mem_map.1 he
    have h1 := g.few
    refine ⟨g.pos.1, h1.1, floats_length _ _ _ g.full.1, floats_length _ _ _ (by simpa [call] using g.full.2.1), h1.2.2.1, by
      simp only [call]; omega, g.mem i, by simpa [call, job] using g.fuel i, g.evalMem i, g.evalMemV i, (g.sched i).1, by simp [call], ?_⟩
    intro x y hxy
    simp only [call, Option.some.injEq, Prod.mk.injEq] at hxy
    obtain ⟨rfl, rfl⟩ := hxy
    exact ⟨(g.sched i).2, floats_length _ _ _ g.full.2.2.1, floats_length _ _ _ (by simpa [call] using g.full.2.2.2)⟩
  file := by simp only [job]; decide

theorem Good.main_run {lb : Lib F} {sys : Sys F} {rnd : Rand} {fuel : ℕ} {d : Disk} {k n nV : ℕ} {tX tY vX vY : NpyArray}
    (g : Good lb sys rnd fuel d k n nV tX tY vX vY) (fm : Format F) (recs : List ActRecord) (h : Heap) (rs : RandState F)
    (st : Statics F) (o : Opts F) :
    (main lb fm sys rnd fuel recs h rs st d o).map (fun r => (r.nn, r.d)) =
      (job sys rnd fuel o.learningRate k (dataOf lb sys n nV tX tY vX vY)).run lb.env lb.c lb.zip lb.bits recs h rs st d := by
  have h1 := g.few
  rw [main_job lb fm sys rnd fuel recs h rs st d o g.load (by rw [g.cols]; omega), g.cols, g.rows.1, g.rows.2,
    Nat.mod_eq_of_lt (by omega), Nat.mod_eq_of_lt (by omega)]

/-- **C78 is false** in AVX builds, as a comment in the program says ("This will fail"): with any options and any data that fit, the
first epoch makes a misaligned vector access. -/
theorem C78_avx_false {lb : Lib F} {sys : Sys F} {rnd : Rand} {fuel : ℕ} {d : Disk} {k n nV : ℕ} {tX tY vX vY : NpyArray}
    (g : Good lb sys rnd fuel d k n nV tX tY vX vY) (havx : lb.c.avx = true) (fm : Format F) (recs : List ActRecord)
    (hrecs : RecsNamed recs) (h : Heap) (hh : h.WF) (rs : RandState F) (st : Statics F) (hst : st.nSample = 0) (o : Opts F) :
    main lb fm sys rnd fuel recs h rs st d o = .error .misaligned := by
  have h1 := (C63_exact _ lb.env lb.c .bce metrics k 1 (g.fine o.learningRate) (by simp [job]) g.bits g.zip recs hrecs h hh rs st hst d
    g.disk.1 g.disk.2).2 (by
      simp [job, describeLayers, fastDerivatives, fastDerivative, VectorWidths, havx])
  rw [← g.main_run fm] at h1
  cases hm : main lb fm sys rnd fuel recs h rs st d o with
  | error e => rw [hm] at h1; simpa [Except.map] using h1
  | ok v => rw [hm] at h1; simp [Except.map] at h1

/-- The text of a row: the number of the epoch in four characters, a space, and the values in fields of 21 characters. -/
def RowText (fm : Format F) (i : ℕ) (res : List F) (line : Bytes) : Prop :=
  ∃ digits fields, InField 4 (dec i) digits ∧ List.Forall₂ (fun x f => InField 21 (fm.sci x) f) res fields ∧
    line = digits ++ [32] ++ fields.flatten ++ [10]

theorem inField_padLeft (w : ℕ) (s : Bytes) : InField w s (padLeft w 32 s) :=
  ⟨w - s.length, rfl, by simp [padLeft]; omega⟩

omit [FloatOps F] in
theorem row_text (fm : Format F) (i : ℕ) (res : List F) (hr : res.length = 4) : RowText fm i res (row fm metrics i res) := by
  have hw : columnWidth metrics = 21 := by decide
  refine ⟨padLeft 4 32 (dec i), res.map fun x => padLeft 21 32 (fm.sci x), inField_padLeft _ _, ?_, ?_⟩
  · rw [List.forall₂_map_right_iff]
    exact List.forall₂_same.2 fun x _ => inField_padLeft _ _
  · rw [row, hw, List.take_of_length_le (by simp [hr])]
    rfl

theorem loop_trains {env : CustomEnv F} {c : Cfg} {r : ℕ → ℕ} : ∀ {ks : List (EpochCall F)} {x y : Statics F × AnyOpt F × ℕ}
    {rows : List (List F)}, loop env c r ks x = .ok (rows, y) →
    ∃ ns : List (Net F × View F), Trains env c r ks x ns y ∧ rows = ns.map fun p => p.2.data
  | [], x, y, rows, h => by
    simp only [loop, pure, Except.pure, Except.ok.injEq, Prod.mk.injEq] at h
    obtain ⟨rfl, rfl⟩ := h
    exact ⟨[], .nil _, rfl⟩
  | k :: ks, (st, s, q), y, rows, h => by
    unfold loop at h
    obtain ⟨⟨st1, s1, q1, res⟩, h1, h⟩ := bind_ok h
    obtain ⟨⟨rows1, y1⟩, h2, h⟩ := bind_ok h
    simp only [pure, Except.pure, Except.ok.injEq, Prod.mk.injEq] at h
    obtain ⟨rfl, rfl⟩ := h
    obtain ⟨ns, h3, rfl⟩ := loop_trains h2
    exact ⟨_ :: ns, .cons h1 h3, rfl⟩

/-- A run without AVX. -/
theorem run_core {lb : Lib F} {sys : Sys F} {rnd : Rand} {fuel : ℕ} {d : Disk} {k n nV : ℕ} {tX tY vX vY : NpyArray}
    (g : Good lb sys rnd fuel d k n nV tX tY vX vY) (havx : lb.c.avx = false) (fm : Format F) (recs : List ActRecord)
    (hrecs : RecsNamed recs) (h : Heap) (hh : h.WF) (rs : RandState F) (st : Statics F) (hst : st.nSample = 0) (o : Opts F) :
    ∃ out : Outcome F, main lb fm sys rnd fuel recs h rs st d o = .ok out ∧
      (job sys rnd fuel o.learningRate k (dataOf lb sys n nV tX tY vX vY)).run lb.env lb.c lb.zip lb.bits recs h rs st d =
        .ok (out.nn, out.d) ∧
      (∃ (st1 st2 : Statics F) (s0 s2 : AnyOpt F) (q q' : ℕ) (ns : List (Net F × View F)),
        s0.settings = .sgd o.learningRate zero zero false ∧ s0.opt.batchsize = 16 ∧ s0.opt.shuffle = true ∧
        Trains lb.env lb.c rnd.r ((List.range 10).map (call sys (dataOf lb sys n nV tX tY vX vY) 2)) (st1, s0, q) ns (st2, s2, q') ∧
        s2.opt.nn = out.nn ∧ out.results = ns.map fun x => x.2.data) ∧
      out.results.length = 10 ∧
      (∀ (i : ℕ) res, out.results[i]? = some res → Row (sys.epoch i).sched (sys.epoch i).schedV n nV
        ((List.range 4).map (sys.stack i)) res) ∧
      out.text = (checkNesterov o).2 ++ report fm (checkNesterov o).1 ++ heading metrics ++
        (out.results.zipIdx.map fun p => row fm metrics p.2 p.1).flatten := by
  have h1 := g.few
  have hlr : (checkNesterov o).1.learningRate = o.learningRate := by unfold checkNesterov; split_ifs <;> rfl
  have hj := g.fine o.learningRate
  have hw : VectorWidths lb.c true 0 (describeLayers [k, 61, 28, 1] .bce [some "relu", some "relu", some "sigmoid"]) := by
    simp [describeLayers, fastDerivatives, fastDerivative, VectorWidths, havx]
  obtain ⟨nn, kk, w2, hl2, hz2, -, hderiv2, hin2, hout2, -, hdesc, net, hp, nn1, rs1, e1, e2, e3, e4⟩ := Job.steps _ lb.c .bce metrics k 1 hj
    recs hrecs h hh rs
  have halign : ∀ ga, ga % lb.c.alignSize = 0 → BackAligned lb.c ga 0 nn.layers := fun ga hga =>
    (backAligned_iff hga nn.layers 0 w2.layer).2 (by
      rw [show describeLayers [k, 61, 28, 1] .bce [some "relu", some "relu", some "sigmoid"] = nn.described from hdesc.symm] at hw
      exact hw)
  obtain ⟨v1, hv1, hv1'⟩ := g.vec1
  obtain ⟨v2, hv2, hv2'⟩ := g.vec2
  have hcall : ∀ i, (call sys (dataOf lb sys n nV tX tY vX vY) 2 i).OK lb.c .bce nn 16 metrics := by
    intro i
    refine EpochCall.Fits.ok' ?_ w2 hl2 hderiv2 halign
    rw [hin2, hout2, hz2.nParams]
    refine ⟨g.pos.1, h1.1, floats_length _ _ _ g.full.1, floats_length _ _ _ (by simpa [call] using g.full.2.1), h1.2.2.1, by
      simp only [call]; omega, g.mem i, by simpa [call] using g.fuel i, g.evalMem i, g.evalMemV i, (g.sched i).1, by simp [call], ?_⟩
    intro x y hxy
    simp only [call, Option.some.injEq, Prod.mk.injEq] at hxy
    obtain ⟨rfl, rfl⟩ := hxy
    exact ⟨(g.sched i).2, floats_length _ _ _ g.full.2.2.1, floats_length _ _ _ (by simpa [call] using g.full.2.2.2)⟩
  obtain ⟨st1, s1, rest, hnew, hR, -, hP, hM⟩ := newAny_ok lb.c .bce nn w2 hl2 st hst true 16 (by norm_num)
    (some [some .bce, some .categoricalAccuracy, none]) metrics ⟨[], rfl⟩ v1 v2 hv1' hv2' (.sgd o.learningRate zero zero false)
  have hset := C63_new _ _ _ _ _ _ _ _ _ _ hnew
  obtain ⟨rows, ⟨st2, s2, q2⟩, g1, g2, g3⟩ := loop_ok (by norm_num) rest hcall hout2 rnd.r 10 0 st1 s1 rs1.k hR hP hM
  rw [← List.range_eq_range'] at g1
  obtain ⟨ns, t1, t2⟩ := loop_trains g1
  obtain ⟨nn', d', k1, -⟩ := C63_program _ lb.env lb.c .bce metrics k 1 ⟨hj, hw⟩ g.bits g.zip recs hrecs h hh rs st hst d g.disk.1 g.disk.2
  -- the file
  have k2 := g.main_run fm recs h rs st o
  rw [k1] at k2
  cases hm : main lb fm sys rnd fuel recs h rs st d o with
  | error e => rw [hm] at k2; simp [Except.map] at k2
  | ok out =>
  rw [hm] at k2
  simp only [Except.map, Except.ok.injEq, Prod.mk.injEq] at k2
  obtain ⟨k2, k3⟩ := k2
  have hk : dim tX 1 < 2 ^ 31 := by rw [g.cols]; omega
  have ec : createNN sys.ok sys.dl 3 [castInt (dim tX 1), 61, 28, 1] (some [some "relu", some "relu", some "sigmoid"]) recs h =
      .ok (some net, recs, hp) := by
    rw [castInt_eq hk, g.cols]; exact e1
  have hmet := newAny_metrics hnew
  have e3' : nn = setLoss recs nn1 "binary_crossentropy" := e3
  have e2' : initializeNN rnd fuel recs (some [some "kaiming", some "kaiming", some "kaiming"])
      (some (net.toNet sys.addr sys.junk)) rs = .ok (some nn1, rs1) := e2
  simp only [main, g.load, bind, Except.bind, ec, e2', ← e3', hl2, show getMetricFunc (getLossName (some Loss.bce)) = some Metric.bce by decide,
    show getMetricFunc "categorical_accuracy" = some Metric.categoricalAccuracy by decide, hv1, hv2, hlr, hnew, hmet,
    show metricList [some Metric.bce, some .categoricalAccuracy, none] = .ok metrics from metricList_eq metrics [], g.rows,
    Nat.mod_eq_of_lt (show n < 2 ^ 32 by omega), Nat.mod_eq_of_lt (show nV < 2 ^ 32 by omega), List.length_cons, List.length_nil, Nat.zero_add,
    Nat.reduceAdd, g1] at hm
  obtain ⟨d2, hs1, hs2⟩ := bind_ok hm
  simp only [pure, Except.pure, Except.ok.injEq] at hs2
  subst hs2
  simp only at k2 k3 ⊢
  refine ⟨_, rfl, by rw [k1, k2, k3], ⟨st1, st2, s1, s2, rs1.k, q2, ns, hset.1, by exact_mod_cast hset.2.2.2.1, hset.2.2.1, t1, rfl, t2⟩, g2, ?_, rfl⟩
  intro i res hr
  simpa using g3 i res hr

/-- **C78** Without AVX the program works: for all options and all data within the limits it trains the network k-61-28-1 for ten
epochs with the learning rate of the options; it writes the network to after-10-epochs.npz, where a later program finds it, and changes
no other file; it prints the settings, a heading and a row with the four metrics for every epoch.  (Missing: AVX builds, see
`C78_avx_false`; momentum, see `C78_momentum_false`; the meaning of the accuracy, see `C78_accuracy_false`.) -/
theorem C78_run_partial {lb : Lib F} {sys : Sys F} {rnd : Rand} {fuel : ℕ} {d : Disk} {k n nV : ℕ} {tX tY vX vY : NpyArray}
    (g : Good lb sys rnd fuel d k n nV tX tY vX vY) (havx : lb.c.avx = false) (fm : Format F) (recs : List ActRecord)
    (hrecs : RecsNamed recs) (h : Heap) (hh : h.WF) (rs : RandState F) (st : Statics F) (hst : st.nSample = 0) (o : Opts F) :
    ∃ (out : Outcome F) (lines : List Bytes), main lb fm sys rnd fuel recs h rs st d o = .ok out ∧
      out.nn.layers.map (fun l => (l.nIn, l.nOut, l.act)) = [(k, 61, .relu), (61, 28, .relu), (28, 1, .sigmoid)] ∧
      out.nn.loss = some .bce ∧
      (∃ (st1 st2 : Statics F) (s0 s2 : AnyOpt F) (q q' : ℕ) (ns : List (Net F × View F)),
        s0.settings = .sgd o.learningRate zero zero false ∧ s0.opt.batchsize = 16 ∧ s0.opt.shuffle = true ∧
        Trains lb.env lb.c rnd.r ((List.range 10).map (call sys (dataOf lb sys n nV tX tY vX vY) 2)) (st1, s0, q) ns (st2, s2, q') ∧
        s2.opt.nn = out.nn ∧ out.results = ns.map fun x => x.2.data) ∧
      (∀ f, f ≠ "after-10-epochs.npz" → out.d.content f = d.content f) ∧
      (∀ (mem ok : ℕ → Bool) (dl : DynLinker) (addr : ℕ → ℕ) (junk : ℕ → ℕ → F) (recs2 : List ActRecord) (h2 : Heap),
        (∀ n, mem n = true) → (∀ n, ok n = true) → h2.WF → (∀ i, addr i % lb.c.alignSize = 0) →
        ∃ nn2 recs' h', loadNN lb.zip lb.bits out.d mem ok dl addr junk "after-10-epochs.npz" recs2 h2 = .ok (some nn2, recs', h') ∧
          ∀ (wa wa' : ℕ) (jk jk' : ℕ → F) (input out' : View F), wa % lb.c.alignSize = 0 → wa' % lb.c.alignSize = 0 →
            k ≤ input.data.length → 1 ≤ out'.data.length → AlignedFor lb.c 1 out'.addr →
            ∃ y : List F, y.length = out'.data.length ∧ predict lb.env lb.c wa jk out.nn input out' = .ok ⟨out'.addr, y⟩ ∧
              predict lb.env lb.c wa' jk' nn2 input out' = .ok ⟨out'.addr, y⟩) ∧
      out.results.length = 10 ∧ (∀ res ∈ out.results, res.length = 4) ∧
      out.text = (if le o.momentum zero && o.nesterov then
          str "Nesterov w/o momentum does not make sense. setting nesterov to false.\n" else []) ++
        (str "Learning rate: " ++ fm.fixed o.learningRate ++ str "\nMomentum: " ++ fm.fixed o.momentum ++ str "\nNesterov: " ++
          str (if o.nesterov && !le o.momentum zero then "True\n" else "False\n")) ++
        str "Epoch  binary_crossentropy categorical_accuracy  binary_crossentropy categorical_accuracy\n" ++ lines.flatten ∧
      lines.length = 10 ∧ ∀ (i : ℕ) res line, out.results[i]? = some res → lines[i]? = some line → RowText fm i res line := by
  obtain ⟨out, h1, h2, h3, h4, h5, h6⟩ := run_core g havx fm recs hrecs h hh rs st hst o
  have hw : VectorWidths lb.c true 0 (describeLayers [k, 61, 28, 1] .bce [some "relu", some "relu", some "sigmoid"]) := by
    simp [describeLayers, fastDerivatives, fastDerivative, VectorWidths, havx]
  obtain ⟨nn', d', k1, k2, k3, k4, k5, k6⟩ := C63_program _ lb.env lb.c .bce metrics k 1 ⟨g.fine o.learningRate, hw⟩ g.bits g.zip recs hrecs
    h hh rs st hst d g.disk.1 g.disk.2
  rw [h2] at k1
  simp only [Except.ok.injEq, Prod.mk.injEq] at k1
  obtain ⟨rfl, rfl⟩ := k1
  have hres : ∀ res ∈ out.results, res.length = 4 := by
    intro res hr
    obtain ⟨i, hi⟩ := List.mem_iff_getElem?.1 hr
    obtain ⟨x, hx⟩ := h5 i res hi
    split_ifs at hx
    · obtain ⟨y, rfl⟩ := hx; rfl
    · rw [hx]; simp
  refine ⟨out, out.results.zipIdx.map fun p => row fm metrics p.2 p.1, h1, ?_, k4, h3, k5, k6, h4, hres, ?_, by simp [h4], ?_⟩
  · simp only [job, List.zip_cons_cons, List.tail_cons, List.zip_nil_right] at k2 k3
    have chosen : ∀ {dl : DynLinker} {name : String} {a b : Act}, Chosen dl (some name) a → (∃ x, (name, b, x) ∈ builtins) →
        (∀ p ∈ builtins, p.1 = name → p.2.1 = b) → a = b := by
      rintro dl name a b (⟨p, p1, p2, rfl⟩ | ⟨p1, -⟩) ⟨x, hx⟩ hb
      · exact hb p p1 p2.symm
      · exact absurd rfl (p1 _ hx)
    match hL : out.nn.layers, k3, k2 with
    | [a, b, c], .cons ha (.cons hb (.cons hc .nil)), k2 =>
      simp only [List.map_cons, List.map_nil, List.cons.injEq, Prod.mk.injEq] at k2
      have ra := chosen (b := .relu) ha ⟨.relu, by simp [builtins]⟩ (by simp [builtins])
      have rb := chosen (b := .relu) hb ⟨.relu, by simp [builtins]⟩ (by simp [builtins])
      have rc := chosen (b := .sigmoid) hc ⟨.sigmoid, by simp [builtins]⟩ (by simp [builtins])
      simp [k2, ra, rb, rc]
  · rw [h6]
    congr 1
    have hh : heading metrics =
        str "Epoch  binary_crossentropy categorical_accuracy  binary_crossentropy categorical_accuracy\n" := by decide
    rw [hh]
    congr 1
    have e0 : str "True\n" = str "True" ++ str "\n" := by decide
    have e1 : str "False\n" = str "False" ++ str "\n" := by decide
    have e2 : str "\nMomentum: " = str "\n" ++ str "Momentum: " := by decide
    have e3 : str "\nNesterov: " = str "\n" ++ str "Nesterov: " := by decide
    unfold checkNesterov
    cases hle : le o.momentum zero <;> cases hn : o.nesterov <;>
      simp [report, hle, hn, e0, e1, e2, e3, List.append_assoc]
  · intro i res line hi hl
    rw [List.getElem?_map, List.getElem?_zipIdx, hi] at hl
    simp only [Option.map_some, Option.some.injEq, Nat.zero_add] at hl
    rw [← hl]
    exact row_text fm i res (hres res (List.mem_of_getElem? hi))

end

/-- **C78 is false** for the accuracy: the network has one output, so the metric compares the only class with itself.  In IEEE
arithmetic, with any mathematical library, the program reports the accuracy 1 after every epoch on both sets, whatever the labels are
and whatever the network has learned (up to 2^24 samples). -/
theorem C78_accuracy_false (L : B32.Libm) {lb : Lib B32} {sys : Sys B32} {rnd : Rand} {fuel : ℕ} {d : Disk} {k n nV : ℕ}
    {tX tY vX vY : NpyArray} (g : @Good B32 (B32.ops L) lb sys rnd fuel d k n nV tX tY vX vY) (hn : n ≤ 2 ^ 24) (hnV : nV ≤ 2 ^ 24)
    (havx : lb.c.avx = false) (fm : Format B32) (recs : List ActRecord) (hrecs : RecsNamed recs) (h : Heap) (hh : h.WF) (rs : RandState B32)
    (st : Statics B32) (hst : st.nSample = 0) (o : Opts B32) :
    ∃ out : Outcome B32, @main B32 (B32.ops L) lb fm sys rnd fuel recs h rs st d o = .ok out ∧ out.results.length = 10 ∧
      ∀ res ∈ out.results, (∃ a, res[1]? = some a ∧ B32.Is a 1) ∧ (1 ≤ nV → ∃ a, res[3]? = some a ∧ B32.Is a 1) := by
  let _ := B32.ops L
  obtain ⟨out, h1, -, -, h4, h5, -⟩ := run_core g havx fm recs hrecs h hh rs st hst o
  refine ⟨out, h1, h4, fun res hr => ?_⟩
  obtain ⟨i, hi⟩ := List.mem_iff_getElem?.1 hr
  obtain ⟨x, hx⟩ := h5 i res hi
  have a1 := allRight_float L (g.sched i).1 g.pos.1 hn
  by_cases hp : 0 < nV
  · rw [if_pos hp] at hx
    obtain ⟨y, rfl⟩ := hx
    exact ⟨⟨_, rfl, a1⟩, fun _ => ⟨_, rfl, allRight_float L (g.sched i).2 hp hnV⟩⟩
  · rw [if_neg hp] at hx
    subst hx
    exact ⟨⟨_, rfl, a1⟩, fun hp' => absurd hp' hp⟩

/-! ### Example: three samples for training, one for testing -/

theorem exArray_same {m : NpyArray} {a b : ℕ} (h : Same m (exArray a b)) : m.fortran = false ∧ dim m 0 = a ∧ dim m 1 = b ∧
    m.data.length = a * b * 4 := by
  have e1 : m.fortran = false := congrArg Spec.Array.fortran h.1
  have e2 : m.shape.take m.ndim = [a, b] := congrArg Spec.Array.dims h.1
  have e3 : m.ndim = 2 := h.2.1
  have e4 : m.data = (exArray a b).meaning.data := h.2.2.2
  rw [e3] at e2
  refine ⟨e1, ?_, ?_, ?_⟩
  · rw [dim, List.getD_eq_getElem?_getD, ← List.getElem?_take_of_lt (show 0 < 2 by decide), e2]; rfl
  · rw [dim, List.getD_eq_getElem?_getD, ← List.getElem?_take_of_lt (show 1 < 2 by decide), e2]; rfl
  · rw [e4]
    simp [NpyArray.meaning, exArray, floatArray]

/-- The file. -/
theorem exFile {zip : ZipLib} (hz : zip.Lawful) : ∃ (s : Bytes) (r : List (Bytes × NpyArray)),
    (∀ (d : Disk) (f : String), d.content f = some s → d.readable f = true → listLoad zip d (fun _ => true) f = .ok r) ∧
    List.Forall₂ (fun q (p : Bytes × NpyArray) => q.1 = p.1 ∧ Same q.2 p.2) r [(str "a", exArray 3 2), (str "b", exArray 3 1),
      (str "c", exArray 1 2), (str "d", exArray 1 1)] := by
  refine list_file hz (by simp) (by simp only [List.map_cons, List.map_nil]; decide) ?_ (fun _ => rfl)
  simp only [List.mem_cons, List.not_mem_nil, or_false, forall_eq_or_imp, forall_eq]
  exact ⟨⟨⟨hz.ascii _ (by decide) (by decide), by decide, by decide, by decide⟩,
      exArray_savable (by decide) (by decide) (by decide) (by decide)⟩,
    ⟨⟨hz.ascii _ (by decide) (by decide), by decide, by decide, by decide⟩,
      exArray_savable (by decide) (by decide) (by decide) (by decide)⟩,
    ⟨⟨hz.ascii _ (by decide) (by decide), by decide, by decide, by decide⟩,
      exArray_savable (by decide) (by decide) (by decide) (by decide)⟩,
    ⟨hz.ascii _ (by decide) (by decide), by decide, by decide, by decide⟩,
      exArray_savable (by decide) (by decide) (by decide) (by decide)⟩

/-- The system. -/
def exSystem [FloatOps F] (c : Cfg) (jk : ℕ → F) (dl : DynLinker) : Sys F :=
  { exSys c jk dl with
    epoch := fun _ => { exEpoch c jk with
      mem := fun i => ⟨.combine (.thread ((List.range (batchLen 3 16 i)).reverse)) (.thread []), fun _ => ⟨4096, jk, 8192, jk, 12⟩, 16384,
        jk, if c.avx then 16 else 0, 32768, jk⟩
      fuel := 1 } }

theorem exGood (L : B32.Libm) (env : CustomEnv B32) (c : Cfg) (jk : ℕ → B32) (dl : DynLinker) :
    ∃ (zip : ZipLib) (d : Disk) (tX tY vX vY : NpyArray),
      @Good B32 (B32.ops L) ⟨env, c, zip, b32Bits⟩ (@exSystem B32 (B32.ops L) c jk dl) B32.exRand31 1 d 2 3 1 tX tY vX vY := by
  let _ := B32.ops L
  obtain ⟨zip, hz⟩ := exists_lawful
  obtain ⟨s, r, k1, k2⟩ := exFile hz
  match r, k1, k2 with
  | [(n1, tX), (n2, tY), (n3, vX), (n4, vY)], k1, .cons h1 (.cons h2 (.cons h3 (.cons h4 .nil))) =>
  have s1 := exArray_same h1.2
  have s2 := exArray_same h2.2
  have s3 := exArray_same h3.2
  have s4 := exArray_same h4.2
  have hfit := exEpoch_fits c jk 13
  refine ⟨zip, ⟨fun _ => some s, fun _ => true, fun _ => true⟩, tX, tY, vX, vY, ?_⟩
  exact
    { zip := hz
      bits := b32Bits_lawful
      file := ⟨n1, n2, n3, n4, [], k1 _ _ rfl rfl⟩
      order := ⟨s1.1, s2.1, s3.1, s4.1⟩
      rows := ⟨s1.2.1, s3.2.1⟩
      cols := s1.2.2.1
      full := by rw [s1.2.2.2, s2.2.2.2, s3.2.2.2, s4.2.2.2]; decide
      pos := by decide
      few := by decide
      alloc := fun _ => rfl
      addr := fun i => align64 c _ (by simp [exSystem, exSys])
      vec1 := ⟨640, rfl, align64 c _ rfl⟩
      vec2 := ⟨1280, rfl, align64 c _ rfl⟩
      rand := B32.exRand31_accepting L
      mem := by
        intro _ i
        refine ⟨?_, fun _ => align64 c 4096 rfl, fun _ => align64 c 8192 rfl, align64 c 16384 rfl, align64 c 32768 rfl, ?_⟩
        · simp only [Sched.Covers, exSystem, Sched.iters, List.append_nil]
          exact List.reverse_perm _
        · simp only [exSystem, nParamPadding]
          split <;> omega
      fuel := fun _ => by simp [exSystem]
      evalMem := fun _ => hfit.evalMem
      evalMemV := fun _ => hfit.evalMemV
      sched := fun _ => ⟨List.Perm.refl _, List.Perm.refl _⟩
      disk := ⟨rfl, rfl⟩ }

/-- `--learning_rate 0.5 --momentum 0.9 --nesterov true`: the program faults with AVX; without, it reports the accuracy 1 ten times. -/
example (L : B32.Libm) (env : CustomEnv B32) (c : Cfg) (jk : ℕ → B32) (dl : DynLinker) (fm : Format B32) (strtof : Bytes → B32) :
    let _ := B32.ops L
    ∃ (zip : ZipLib) (d : Disk),
      (c.avx = true → program ⟨env, c, zip, b32Bits⟩ fm strtof (exSystem c jk dl) B32.exRand31 1 [] ⟨0, []⟩
        ⟨0, B32.qnan, B32.qnan, false⟩ Statics.initial d [.long "learning_rate" (some "0.5"), .long "momentum" (some "0.9"),
          .long "nesterov" (some "true")] = .error .misaligned) ∧
      (c.avx = false → ∃ out, program ⟨env, c, zip, b32Bits⟩ fm strtof (exSystem c jk dl) B32.exRand31 1 [] ⟨0, []⟩
        ⟨0, B32.qnan, B32.qnan, false⟩ Statics.initial d [.long "learning_rate" (some "0.5"), .long "momentum" (some "0.9"),
          .long "nesterov" (some "true")] = .ok out ∧ out.results.length = 10 ∧ ∀ res ∈ out.results, ∃ a, res[3]? = some a ∧ B32.Is a 1) := by
  intro _
  obtain ⟨zip, d, tX, tY, vX, vY, g⟩ := exGood L env c jk dl
  refine ⟨zip, d, fun h => ?_, fun h => ?_⟩
  · exact C78_avx_false g h fm [] (by simp [RecsNamed]) ⟨0, []⟩ ⟨by simp, by simp⟩ ⟨0, B32.qnan, B32.qnan, false⟩ Statics.initial rfl _
  · obtain ⟨out, h1, h2, h3⟩ := C78_accuracy_false L g (by norm_num) (by norm_num) h fm [] (by simp [RecsNamed]) ⟨0, []⟩ ⟨by simp, by simp⟩ ⟨0, B32.qnan, B32.qnan, false⟩ Statics.initial rfl
      (parse strtof Opts.initial [.long "learning_rate" (some "0.5"), .long "momentum" (some "0.9"), .long "nesterov" (some "true")])
    exact ⟨out, h1, h2, fun res hr => (h3 res hr).2 (le_refl _)⟩

/-- The same in exact words for the network: the layers 2-61-28-1. -/
example (L : B32.Libm) (env : CustomEnv B32) (c : Cfg) (havx : c.avx = false) (jk : ℕ → B32) (dl : DynLinker) (fm : Format B32) (o : Opts B32) :
    let _ := B32.ops L
    ∃ (zip : ZipLib) (d : Disk) (out : Outcome B32),
      main ⟨env, c, zip, b32Bits⟩ fm (exSystem c jk dl) B32.exRand31 1 [] ⟨0, []⟩ ⟨0, B32.qnan, B32.qnan, false⟩ Statics.initial d o = .ok out ∧
      out.nn.layers.map (fun l => (l.nIn, l.nOut, l.act)) = [(2, 61, .relu), (61, 28, .relu), (28, 1, .sigmoid)] := by
  intro _
  obtain ⟨zip, d, tX, tY, vX, vY, g⟩ := exGood L env c jk dl
  obtain ⟨out, lines, h1, h2, -⟩ := C78_run_partial g havx fm [] (by simp [RecsNamed]) ⟨0, []⟩ ⟨by simp, by simp⟩ ⟨0, B32.qnan, B32.qnan, false⟩ Statics.initial rfl o
  exact ⟨zip, d, out, h1, h2⟩

/-- The last array is transposed. -/
example [FloatOps F] (lb : Lib F) (fm : Format F) (sys : Sys F) (rnd : Rand) (rs : RandState F) (d : Disk) (o : Opts F) (x y z : NpyArray)
    (h : listLoad lb.zip d sys.mem "mushroom_train.npz" =
      .ok [(str "x", x), (str "y", y), (str "z", z), (str "w", { exArray 2 1 with fortran := true })]) :
    main lb fm sys rnd 1 [] ⟨0, []⟩ rs Statics.initial d o = .error .assertFail :=
  C78_order lb fm sys rnd 1 [] ⟨0, []⟩ rs Statics.initial d o _ _ _ _ _ h ⟨_, List.mem_of_getElem? (i := 3) rfl, rfl⟩

/-- An archive with the training set only. -/
example [FloatOps F] (lb : Lib F) (fm : Format F) (sys : Sys F) (rnd : Rand) (rs : RandState F) (d : Disk) (o : Opts F) (x y : NpyArray)
    (h : listLoad lb.zip d sys.mem "mushroom_train.npz" = .ok [(str "x", x), (str "y", y)]) :
    main lb fm sys rnd 1 [] ⟨0, []⟩ rs Statics.initial d o = .error .nullDeref :=
  C78_file_false lb fm sys rnd 1 [] ⟨0, []⟩ rs Statics.initial d o _ h (by simp)

end NN.TestSgd
