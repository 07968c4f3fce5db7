import Verif.Proofs.Trainer
import Verif.Proofs.CompareB32
/-
C74: examples/general-trainer.c.
-/
set_option linter.unusedSimpArgs false

namespace NN.Trainer
open FloatOps NN.Spec _root_.Spec
variable {F : Type} [FloatOps F]

/-! ### The command line -/

omit [FloatOps F] in
theorem parseArgs_append (sc : Scan F) (post : List CmdArg) : ∀ (pre : List CmdArg) (o : Opts F),
    parseArgs sc (pre ++ post) o = (do
      match ← parseArgs sc pre o with
      | none => pure none
      | some o => parseArgs sc post o)
  | [], o => rfl
  | a :: as, o => by
    simp only [List.cons_append, parseArgs]
    cases getoptLong a with
    | none => rfl
    | some p =>
      simp only [bind, Except.bind]
      cases setOpt sc o p.1 p.2 with
      | error _ => rfl
      | ok o => exact parseArgs_append sc post as o

/-- **C74 is false** for `-m`: the metric can only be chosen by the long option.  `-m` ends the program with the usage message. -/
theorem C74_m_false (lb : Lib F) (sc : Scan F) (sys : Sys F) (recs : List ActRecord) (h : Heap) (st : Statics F) (d : Disk)
    (pre post : List CmdArg) (arg : Option String) (o : Opts F) (hpre : parseArgs sc pre Opts.initial = .ok (some o)) :
    program lb sc sys recs h st d (pre ++ .short 'm' arg :: post) = .ok none := by
  have hm : getoptLong (.short 'm' arg) = none := by
    simp [getoptLong, shortOptions]
  simp only [program, parseArgs_append, hpre, bind, Except.bind, parseArgs, hm]
  rfl

/-- **C74 is false** for `-s`: the file name is stored through a NULL pointer. -/
theorem C74_s_false (lb : Lib F) (sc : Scan F) (sys : Sys F) (recs : List ActRecord) (h : Heap) (st : Statics F) (d : Disk)
    (pre post : List CmdArg) (a : CmdArg) (arg : String) (ha : getoptLong a = some ('s', arg)) (b : UInt8) (hb : b ∈ str arg)
    (hsp : isSpace b = false) (o : Opts F) (hpre : parseArgs sc pre Opts.initial = .ok (some o)) :
    program lb sc sys recs h st d (pre ++ a :: post) = .error .nullDeref := by
  have hn : ¬ ((str arg).all isSpace = true) := by
    intro hall
    rw [List.all_eq_true] at hall
    rw [hall b hb] at hsp
    cases hsp
  simp only [program, parseArgs_append, hpre, bind, Except.bind, parseArgs, ha, setOpt, hn, if_false, Bool.false_eq_true]

/-- The two spellings of the option. -/
example (arg : String) : getoptLong (.short 's' (some arg)) = some ('s', arg) ∧
    getoptLong (.long "model-checkpoint" (some arg)) = some ('s', arg) := by
  constructor <;> rfl

/-- Options that only differ in the settings of early stopping. -/
def SameButEs (o o' : Opts F) : Prop :=
  { o' with patience := o.patience, earlyStoppingIdx := o.earlyStoppingIdx, greaterIsBetter := o.greaterIsBetter } = o

omit [FloatOps F] in
theorem setOpt_same (sc : Scan F) {o o' : Opts F} (h : SameButEs o o') (c : Char) (arg : String) :
    (∃ e, setOpt sc o c arg = .error e ∧ setOpt sc o' c arg = .error e) ∨
      ∃ p p', setOpt sc o c arg = .ok p ∧ setOpt sc o' c arg = .ok p' ∧ SameButEs p p' := by
  obtain ⟨t, v, n, lg, op, lr, ls, m, b, p, ei, g⟩ := o
  obtain ⟨t', v', n', lg', op', lr', ls', m', b', p', ei', g'⟩ := o'
  simp only [SameButEs, Opts.mk.injEq] at h
  obtain ⟨rfl, rfl, rfl, rfl, rfl, rfl, rfl, rfl, rfl, -⟩ := h
  unfold setOpt
  split
  all_goals first
    | exact .inr ⟨_, _, rfl, rfl, by simp [SameButEs]⟩
    | skip
  · cases atoi (str arg) with
    | error e => exact .inl ⟨e, rfl, rfl⟩
    | ok n => exact .inr ⟨_, _, rfl, rfl, by simp [SameButEs]⟩
  · by_cases hb : (str arg).all isSpace = true
    · rw [if_pos hb, if_pos hb]
      exact .inr ⟨_, _, rfl, rfl, by simp [SameButEs]⟩
    · rw [if_neg hb, if_neg hb]
      exact .inl ⟨_, rfl, rfl⟩

omit [FloatOps F] in
theorem parseArgs_same (sc : Scan F) : ∀ (as : List CmdArg) {o o' : Opts F}, SameButEs o o' →
    (∃ e, parseArgs sc as o = .error e ∧ parseArgs sc as o' = .error e) ∨
      (parseArgs sc as o = .ok none ∧ parseArgs sc as o' = .ok none) ∨
      ∃ p p', parseArgs sc as o = .ok (some p) ∧ parseArgs sc as o' = .ok (some p') ∧ SameButEs p p'
  | [], o, o', h => .inr (.inr ⟨o, o', rfl, rfl, h⟩)
  | a :: as, o, o', h => by
    simp only [parseArgs]
    cases getoptLong a with
    | none => exact .inr (.inl ⟨rfl, rfl⟩)
    | some q =>
      simp only [bind, Except.bind]
      rcases setOpt_same sc h q.1 q.2 with ⟨e, h1, h2⟩ | ⟨p, p', h1, h2, h3⟩
      · rw [h1, h2]; exact .inl ⟨e, rfl, rfl⟩
      · rw [h1, h2]; exact parseArgs_same sc as h3

theorem main_same (lb : Lib F) (sys : Sys F) (recs : List ActRecord) (h : Heap) (st : Statics F) (d : Disk) {o o' : Opts F}
    (hs : SameButEs o o') : main lb sys recs h st d o = main lb sys recs h st d o' := by
  rw [← hs]
  rfl

/-- **C74 is false** for `-e`: whatever its argument is, the option has no effect. -/
theorem C74_e_false (lb : Lib F) (sc : Scan F) (sys : Sys F) (recs : List ActRecord) (h : Heap) (st : Statics F) (d : Disk)
    (pre post : List CmdArg) (a : CmdArg) (arg : String) (ha : getoptLong a = some ('e', arg)) :
    program lb sc sys recs h st d (pre ++ a :: post) = program lb sc sys recs h st d (pre ++ post) := by
  simp only [program, parseArgs_append, bind, Except.bind]
  cases parseArgs sc pre Opts.initial with
  | error _ => rfl
  | ok r =>
    cases r with
    | none => rfl
    | some o =>
      obtain ⟨o1, h1, h2⟩ : ∃ o1, setOpt sc o 'e' arg = .ok o1 ∧ SameButEs o1 o := ⟨_, rfl, by simp [SameButEs]⟩
      simp only [parseArgs, ha, bind, Except.bind, h1]
      rcases parseArgs_same sc post h2 with ⟨e, k1, k2⟩ | ⟨k1, k2⟩ | ⟨p, p', k1, k2, k3⟩
      · rw [k1, k2]
      · rw [k1, k2]
      · rw [k1, k2]
        simp only [main_same lb sys recs h st d k3]

omit [FloatOps F] in
theorem parseArgs_keeps {α : Type} (sc : Scan F) (get : Opts F → α) (c : Char)
    (hget : ∀ (o o' : Opts F) (c' : Char) (arg : String), c' ≠ c → setOpt sc o c' arg = .ok o' → get o' = get o) :
    ∀ (as : List CmdArg), (∀ a ∈ as, ∀ arg, getoptLong a ≠ some (c, arg)) → ∀ {o p : Opts F},
      parseArgs sc as o = .ok (some p) → get p = get o
  | [], _, o, p, h => by
    simp only [parseArgs, pure, Except.pure, Except.ok.injEq, Option.some.injEq] at h
    rw [h]
  | a :: as, hs, o, p, h => by
    simp only [parseArgs] at h
    cases hg : getoptLong a with
    | none => simp [hg, pure, Except.pure] at h
    | some q =>
      simp only [hg] at h
      obtain ⟨o1, h1, h⟩ := bind_ok h
      rw [parseArgs_keeps sc get c hget as (fun a ha => hs a (List.mem_cons_of_mem _ ha)) h]
      refine hget o o1 q.1 q.2 (fun hc => hs a (by simp) q.2 ?_) h1
      rw [hg, ← hc]

omit [FloatOps F] in
theorem setOpt_metrics (sc : Scan F) (o o' : Opts F) (c : Char) (arg : String) (hc : c ≠ 'm') (h : setOpt sc o c arg = .ok o') :
    o'.metrics = o.metrics := by
  unfold setOpt at h
  split at h
  all_goals first
    | exact absurd rfl hc
    | (simp only [pure, Except.pure, Except.ok.injEq] at h; subst h; rfl)
    | (obtain ⟨n, -, h⟩ := bind_ok h; simp only [pure, Except.pure, Except.ok.injEq] at h; subst h; rfl)
    | (split_ifs at h; simp only [pure, Except.pure, Except.ok.injEq] at h; subst h; rfl)

omit [FloatOps F] in
theorem setOpt_loss (sc : Scan F) (o o' : Opts F) (c : Char) (arg : String) (hc : c ≠ 'l') (h : setOpt sc o c arg = .ok o') :
    o'.loss = o.loss := by
  unfold setOpt at h
  split at h
  all_goals first
    | exact absurd rfl hc
    | (simp only [pure, Except.pure, Except.ok.injEq] at h; subst h; rfl)
    | (obtain ⟨n, -, h⟩ := bind_ok h; simp only [pure, Except.pure, Except.ok.injEq] at h; subst h; rfl)
    | (split_ifs at h; simp only [pure, Except.pure, Except.ok.injEq] at h; subst h; rfl)

/-- What a successful run has gone through. -/
theorem main_inv {lb : Lib F} {sys : Sys F} {recs : List ActRecord} {h : Heap} {st : Statics F} {d : Disk} {op : Opts F}
    {s' : State F} (hm : main lb sys recs h st d op = .ok s') :
    ∃ loss metric se recs' data nm st' o lg, op.loss = some loss ∧ op.metrics = some metric ∧
      settings op.learningRate op.optimizer = some se ∧
      loop lb sys recs' data nm nEpochs 0 ⟨st', o, 0, fltMax, (EsStatics.initial, newEarlyStopping 10 (-1) false), lg, d⟩ =
        .ok s' := by
  unfold main at hm
  obtain ⟨⟨tX, tY⟩, -, hm⟩ := bind_ok hm
  obtain ⟨⟨vX, vY⟩, -, hm⟩ := bind_ok hm
  simp only at hm
  split_ifs at hm with h1
  cases hn : op.neuralnet with
  | none => rw [hn] at hm; cases hm
  | some f =>
  rw [hn] at hm
  obtain ⟨⟨nn, recs', h'⟩, -, hm⟩ := bind_ok hm
  cases nn with
  | none => cases hm
  | some nn =>
    simp only at hm
    obtain ⟨nn1, hl, hm⟩ := bind_ok hm
    split_ifs at hm with h2
    obtain ⟨m, hmm, hm⟩ := bind_ok hm
    cases hse : settings op.learningRate op.optimizer with
    | none => simp [hse] at hm
    | some se =>
      simp only [hse] at hm
      obtain ⟨⟨st', o⟩, -, hm⟩ := bind_ok hm
      obtain ⟨ms, -, hm⟩ := bind_ok hm
      obtain ⟨lg, -, hm⟩ := bind_ok hm
      cases hlo : op.loss with
      | none => rw [hlo] at hl; cases hl
      | some loss =>
        cases hme : op.metrics with
        | none => rw [hme] at hmm; cases hmm
        | some metric => exact ⟨_, _, _, _, _, _, _, _, _, rfl, rfl, rfl, hm⟩

theorem program_inv {lb : Lib F} {sc : Scan F} {sys : Sys F} {recs : List ActRecord} {h : Heap} {st : Statics F} {d : Disk}
    {args : List CmdArg} {s' : State F} (hp : program lb sc sys recs h st d args = .ok (some s')) :
    ∃ op, parseArgs sc args Opts.initial = .ok (some op) ∧ main lb sys recs h st d op = .ok s' := by
  unfold program at hp
  obtain ⟨r, h1, hp⟩ := bind_ok hp
  cases r with
  | none => simp [pure, Except.pure] at hp
  | some op =>
    simp only at hp
    obtain ⟨s, h2, hp⟩ := bind_ok hp
    simp only [pure, Except.pure, Except.ok.injEq, Option.some.injEq] at hp
    subst hp
    exact ⟨op, h1, h2⟩

/-- **C74 is false** without `--metrics` or without `--loss`: no such command line trains anything, whatever the files are. -/
theorem C74_missing_false (lb : Lib F) (sc : Scan F) (sys : Sys F) (recs : List ActRecord) (h : Heap) (st : Statics F) (d : Disk)
    (args : List CmdArg) (hargs : (∀ a ∈ args, ∀ arg, getoptLong a ≠ some ('m', arg)) ∨
      ∀ a ∈ args, ∀ arg, getoptLong a ≠ some ('l', arg)) (s' : State F) :
    program lb sc sys recs h st d args ≠ .ok (some s') := by
  intro hp
  obtain ⟨op, h1, h2⟩ := program_inv hp
  obtain ⟨loss, metric, se, -, -, -, -, -, -, e1, e2, -⟩ := main_inv h2
  rcases hargs with ha | ha
  · rw [parseArgs_keeps sc Opts.metrics 'm' (setOpt_metrics sc) args ha h1] at e2
    cases e2
  · rw [parseArgs_keeps sc Opts.loss 'l' (setOpt_loss sc) args ha h1] at e1
    cases e1

/-- **C74 is false** for a name that is none of the five optimizers: nothing is trained. -/
theorem C74_optimizer_false (lb : Lib F) (sys : Sys F) (recs : List ActRecord) (h : Heap) (st : Statics F) (d : Disk) (op : Opts F)
    (ho : op.optimizer ∉ ["SGD", "RMSprop", "adagrad", "adam", "adamw"]) (s' : State F) : main lb sys recs h st d op ≠ .ok s' := by
  intro hm
  obtain ⟨-, -, se, -, -, -, -, -, -, -, -, e, -⟩ := main_inv hm
  simp only [List.mem_cons, List.not_mem_nil, or_false, not_or] at ho
  simp [settings, ho] at e

/-- The names of the options (usage text and lines 49-64). -/
def optionNames : List (Char × String) :=
  [('t', "trainset"), ('v', "verificationset"), ('n', "neuralnet"), ('l', "loss"), ('m', "metrics"), ('o', "optimizer"),
    ('a', "learning-rate"), ('b', "batch-size"), ('q', "log"), ('e', "early-stopping"), ('s', "model-checkpoint")]

/-- The argument spells this option: the letter (except `-m`) or the whole name. -/
def Spells (a : CmdArg) (o : Char × String) : Prop :=
  (a = .short o.1 (some o.2) ∧ o.1 ≠ 'm' ∧ ∃ name, (o.1, name) ∈ optionNames) ∨ ∃ name, (o.1, name) ∈ optionNames ∧ a = .long name (some o.2)

/-- The last value given for an option. -/
def lastOf (c : Char) (opts : List (Char × String)) : Option String := ((opts.filter fun p => p.1 == c).getLast?).map Prod.snd

theorem lastOf_cons (c : Char) (p : Char × String) (opts : List (Char × String)) :
    lastOf c (p :: opts) = (lastOf c opts).or (if p.1 = c then some p.2 else none) := by
  by_cases h : p.1 = c
  · simp only [lastOf, List.filter_cons, h, beq_self_eq_true, if_true, List.getLast?_cons]
    cases (List.filter (fun p => p.1 == c) opts).getLast? <;> simp
  · simp [lastOf, List.filter_cons, h]

theorem spells_get {a : CmdArg} {o : Char × String} (h : Spells a o) : getoptLong a = some o ∧ o.1 ∈ optionNames.map Prod.fst := by
  obtain ⟨c, v⟩ := o
  rcases h with ⟨rfl, hm, name, hn⟩ | ⟨name, hn, rfl⟩
  · simp only [optionNames, List.mem_cons, Prod.mk.injEq, List.not_mem_nil, or_false] at hn
    rcases hn with h | h | h | h | h | h | h | h | h | h | h <;> obtain ⟨rfl, rfl⟩ := h <;>
      first | exact absurd rfl hm | simp [getoptLong, shortOptions, optionNames]
  · simp only [optionNames, List.mem_cons, Prod.mk.injEq, List.not_mem_nil, or_false] at hn
    rcases hn with h | h | h | h | h | h | h | h | h | h | h <;> obtain ⟨rfl, rfl⟩ := h <;>
      simp [getoptLong, longOptions, optionNames]

omit [FloatOps F] in
theorem options_from (sc : Scan F) : ∀ {args : List CmdArg} {opts : List (Char × String)}, List.Forall₂ Spells args opts →
    (∀ v, ('s', v) ∉ opts) → (∀ v, ('b', v) ∈ opts → ∃ n, atoi (str v) = .ok n) → ∀ o : Opts F,
    ∃ op, parseArgs sc args o = .ok (some op) ∧ op.trainset = (lastOf 't' opts).or o.trainset ∧
      op.verificationset = (lastOf 'v' opts).or o.verificationset ∧ op.neuralnet = (lastOf 'n' opts).or o.neuralnet ∧
      op.loss = (lastOf 'l' opts).or o.loss ∧ op.metrics = (lastOf 'm' opts).or o.metrics ∧
      op.log = (lastOf 'q' opts).or o.log ∧ op.optimizer = (lastOf 'o' opts).getD o.optimizer ∧
      op.learningRate = ((lastOf 'a' opts).map fun v => sc.strtof (str v)).getD o.learningRate ∧
      (lastOf 'b' opts = none → op.batchSize = o.batchSize) ∧
      ∀ v, lastOf 'b' opts = some v → atoi (str v) = .ok op.batchSize
  | [], [], .nil, _, _, o => ⟨o, rfl, by simp [lastOf]⟩
  | a :: args, (c, v) :: opts, .cons h t, hs, hb, o => by
    obtain ⟨h1, h2⟩ := spells_get h
    have hs' : ∀ v, ('s', v) ∉ opts := fun v hv => hs v (List.mem_cons_of_mem _ hv)
    have hb' : ∀ v, ('b', v) ∈ opts → ∃ n, atoi (str v) = .ok n := fun v hv => hb v (List.mem_cons_of_mem _ hv)
    have hsv : c ≠ 's' := fun h => hs v (by rw [h]; simp)
    simp only [parseArgs, h1, bind, Except.bind, lastOf_cons]
    simp only [optionNames, List.map_cons, List.map_nil, List.mem_cons, List.not_mem_nil, or_false] at h2
    rcases h2 with rfl | rfl | rfl | rfl | rfl | rfl | rfl | rfl | rfl | rfl | rfl
    case inr.inr.inr.inr.inr.inr.inr.inl =>
      obtain ⟨n, hn⟩ := hb v (by simp)
      obtain ⟨op, g⟩ := options_from sc t hs' hb' { o with batchSize := n }
      simp only [setOpt, hn, bind, Except.bind, pure, Except.pure]
      refine ⟨op, ?_⟩
      simp only [Char.reduceEq, if_false, if_true, Option.or_none] at g ⊢
      refine ⟨g.1, g.2.1, g.2.2.1, g.2.2.2.1, g.2.2.2.2.1, g.2.2.2.2.2.1, g.2.2.2.2.2.2.1, g.2.2.2.2.2.2.2.1, g.2.2.2.2.2.2.2.2.1,
        ?_, ?_⟩
      · intro h; simp at h
      · intro w hw
        cases hl : lastOf 'b' opts with
        | none =>
          rw [hl] at hw
          simp only [Option.none_or, Option.some.injEq] at hw
          rw [← hw, hn, g.2.2.2.2.2.2.2.2.2.1 hl]
        | some u =>
          rw [hl] at hw
          simp only [Option.some_or, Option.some.injEq] at hw
          exact g.2.2.2.2.2.2.2.2.2.2 w (by rw [hl, hw])
    case inr.inr.inr.inr.inr.inr.inr.inr.inr.inr => exact absurd rfl hsv
    all_goals
      simp only [setOpt, pure, Except.pure]
      obtain ⟨op, g⟩ := options_from sc t hs' hb' (_ : Opts F)
      refine ⟨op, g.1, ?_⟩
      replace g := g.2
      simp only [Char.reduceEq, if_false, if_true, Option.or_none] at g ⊢
      refine ⟨?_, ?_, ?_, ?_, ?_, ?_, ?_, ?_, g.2.2.2.2.2.2.2.2.1, g.2.2.2.2.2.2.2.2.2⟩
      · refine g.1.trans ?_; first | rfl | (cases lastOf 't' opts <;> rfl)
      · refine g.2.1.trans ?_; first | rfl | (cases lastOf 'v' opts <;> rfl)
      · refine g.2.2.1.trans ?_; first | rfl | (cases lastOf 'n' opts <;> rfl)
      · refine g.2.2.2.1.trans ?_; first | rfl | (cases lastOf 'l' opts <;> rfl)
      · refine g.2.2.2.2.1.trans ?_; first | rfl | (cases lastOf 'm' opts <;> rfl)
      · refine g.2.2.2.2.2.1.trans ?_; first | rfl | (cases lastOf 'q' opts <;> rfl)
      · refine g.2.2.2.2.2.2.1.trans ?_; first | rfl | (cases lastOf 'o' opts <;> rfl)
      · refine g.2.2.2.2.2.2.2.1.trans ?_; first | rfl | (cases lastOf 'a' opts <;> rfl)

/-- **C74** What the options mean: of every option the last value counts; the defaults are adamw, 0.001 and 32.  (Missing: `-s`,
batch sizes that `atoi` cannot represent, abbreviated names.) -/
theorem C74_options_partial (sc : Scan F) {args : List CmdArg} {opts : List (Char × String)} (h : List.Forall₂ Spells args opts)
    (hs : ∀ v, ('s', v) ∉ opts) (hb : ∀ v, ('b', v) ∈ opts → ∃ n, atoi (str v) = .ok n) :
    ∃ op : Opts F, parseArgs sc args Opts.initial = .ok (some op) ∧ op.trainset = lastOf 't' opts ∧
      op.verificationset = lastOf 'v' opts ∧ op.neuralnet = lastOf 'n' opts ∧ op.loss = lastOf 'l' opts ∧
      op.metrics = lastOf 'm' opts ∧ op.log = lastOf 'q' opts ∧ op.optimizer = (lastOf 'o' opts).getD "adamw" ∧
      op.learningRate = ((lastOf 'a' opts).map fun v => sc.strtof (str v)).getD (lit 1 1000) ∧
      (lastOf 'b' opts = none → op.batchSize = 32) ∧ ∀ v, lastOf 'b' opts = some v → atoi (str v) = .ok op.batchSize := by
  obtain ⟨op, g⟩ := options_from sc h hs hb (Opts.initial : Opts F)
  refine ⟨op, ?_⟩
  simpa only [Opts.initial, Option.or_none] using g

/-- Two values for `-t`. -/
example (sc : Scan F) : ∃ op : Opts F, parseArgs sc [.short 't' (some "a.npz"), .long "loss" (some "mse"), .long "trainset" (some "b.npz")]
    Opts.initial = .ok (some op) ∧ op.trainset = some "b.npz" ∧ op.loss = some "mse" ∧ op.optimizer = "adamw" ∧ op.batchSize = 32 := by
  obtain ⟨op, h1, h2, -, -, h5, -, -, h8, -, h10, -⟩ := C74_options_partial sc
    (args := [.short 't' (some "a.npz"), .long "loss" (some "mse"), .long "trainset" (some "b.npz")])
    (opts := [('t', "a.npz"), ('l', "mse"), ('t', "b.npz")])
    (.cons (.inl ⟨rfl, by decide, "trainset", by simp [optionNames]⟩) (.cons (.inr ⟨"loss", by simp [optionNames], rfl⟩)
      (.cons (.inr ⟨"trainset", by simp [optionNames], rfl⟩) .nil))) (by simp) (by simp)
  exact ⟨op, h1, h2, h5, h8, h10 rfl⟩

/-! ### Ten epochs -/

/-- **C74** Early stopping never stops the program: whatever the options, the data and the results (NaN included) are, a run that
ends without a fault has trained exactly ten epochs. -/
theorem C74_epochs (lb : Lib F) (sc : Scan F) (sys : Sys F) (recs : List ActRecord) (h : Heap) (st : Statics F) (d : Disk)
    (args : List CmdArg) (s' : State F) (hp : program lb sc sys recs h st d args = .ok (some s')) :
    ∃ data nm st1 o ns, Trains lb.env lb.c sys.rand ((List.range 10).map (call sys data nm)) (st1, o, 0) ns
      (s'.st, s'.o, s'.q) ∧ ns.length = 10 ∧ earlystoppingDoStop (some s'.es.2) = false := by
  obtain ⟨op, -, h2⟩ := program_inv hp
  obtain ⟨-, -, -, recs', data, nm, st', o, lg, -, -, -, hl⟩ := main_inv h2
  obtain ⟨ns, k1, k2⟩ := loop_trains nEpochs hl (le_refl _) rfl rfl (le_refl _)
  rw [← List.range_eq_range', show nEpochs = 10 from rfl] at k1
  exact ⟨data, nm, st', o, ns, k1, by rw [k1.length]; simp, k2⟩

/-! ### A run with good files -/

/-- A data set: the file loads, its first two arrays hold `n` rows of `nIn` and `nOut` floats. -/
structure SetOK (zip : ZipLib) (d : Disk) (mem : ℕ → Bool) (file : Option String) (n nIn nOut : ℕ) (x y : NpyArray) : Prop where
  file : ∃ f n1 n2 rest, file = some f ∧ listLoad zip d mem f = .ok ((n1, x) :: (n2, y) :: rest)
  order : x.fortran = false ∧ y.fortran = false
  rows : dim x 0 = n ∧ dim y 0 = n
  cols : dim x 1 = nIn ∧ dim y 1 = nOut
  full : 4 * (n * nIn) ≤ x.data.length ∧ 4 * (n * nOut) ≤ y.data.length
  nlt : n < 2 ^ 31

/-- What the program needs.  `nn`, `recs'`: the network in the file, with layer sizes `sizes`; `n`, `nV`: numbers of samples; `e`:
number of the first epoch in the log. -/
structure Good (lb : Lib F) (sys : Sys F) (recs : List ActRecord) (h : Heap) (d : Disk) (op : Opts F) (loss : Loss) (nn : Net F)
    (recs' : List ActRecord) (sizes : List ℕ) (nIn nOut n nV : ℕ) (tX tY vX vY : NpyArray) (e : ℕ) : Prop where
  zip : lb.zip.Lawful
  bits : lb.bits.Lawful
  train : SetOK lb.zip d sys.mem op.trainset n nIn nOut tX tY
  verify : SetOK lb.zip d sys.mem op.verificationset nV nIn nOut vX vY
  pos : 1 ≤ n
  fit : n * nIn ≤ 2 ^ 32 ∧ n * nOut ≤ 2 ^ 32
  net : ∃ f h', op.neuralnet = some f ∧
    loadNN lb.zip lb.bits d sys.mem sys.ok sys.dl sys.addr sys.junk f recs h = .ok (some nn, recs', h')
  storable : Storable lb.c nn
  layers : nn.layers.map (fun l => (l.nIn, l.nOut)) = sizes.zip sizes.tail
  ends : sizes.head? = some nIn ∧ sizes.getLast? = some nOut
  safe : SafeWidths lb.c sizes
  loss : ∃ s, op.loss = some s ∧ getLossFunc s = some loss
  metric : ∃ s, op.metrics = some s
  optimizer : op.optimizer ∈ ["SGD", "RMSprop", "adagrad", "adam", "adamw"]
  batch : 0 < op.batchSize
  vec1 : ∃ a, sys.vec1 = some a ∧ a % lb.c.alignSize = 0
  vec2 : ∃ a, sys.vec2 = some a ∧ a % lb.c.alignSize = 0
  mem : ∀ i j, ((sys.epoch i).mem j).OK lb.c (paramCount sizes) (batchLen n op.batchSize.toNat j)
  fuel : ∀ i, (n + op.batchSize.toNat - 1) / op.batchSize.toNat ≤ (sys.epoch i).fuel
  evalMem : ∀ i j, ((sys.epoch i).evalMem j).workAddr % lb.c.alignSize = 0 ∧ ((sys.epoch i).evalMem j).predAddr % lb.c.alignSize = 0
  evalMemV : ∀ i j, ((sys.epoch i).evalMemV j).workAddr % lb.c.alignSize = 0 ∧
    ((sys.epoch i).evalMemV j).predAddr % lb.c.alignSize = 0
  sched : ∀ i, (sys.epoch i).sched.Covers n ∧ (sys.epoch i).schedV.Covers nV
  writable : d.writable ckpt = true
  readable : d.readable ckpt = true
  log : op.log ≠ some ckpt ∧ ∀ f, op.log = some f → d.writable f = true
  logger : newLogger d 0 op.log false = .ok ⟨e, op.log, false⟩
  few : e + 10 < 2 ^ 31
  chars : ∀ x, ∀ c ∈ sys.fmt x, c ≠ 0 ∧ c ≠ 10
  short : ∀ x, (sys.fmt x).length ≤ 12
  clock : ∀ i, (sys.clock i).OK

/-- The file holds the network: on any machine with enough memory it loads as the same network (without a loss). -/
def Holds (lb : Lib F) (d : Disk) (f : String) (nn : Net F) : Prop :=
  ∀ (mem ok : ℕ → Bool) (dl : DynLinker) (addr : ℕ → ℕ) (junk : ℕ → ℕ → F) (recs : List ActRecord) (h : Heap),
    (∀ n, mem n = true) → h.WF → (∀ j < 2 * nn.layers.length + 2, ok (h.count + j) = true) →
    ∃ nn' recs' h', loadNN lb.zip lb.bits d mem ok dl addr junk f recs h = .ok (some nn', recs', h') ∧
      List.Forall₂ SameLayer nn'.layers nn.layers

omit [FloatOps F] in
theorem holds_of {lb : Lib F} (hz : lb.zip.Lawful) (hb : lb.bits.Lawful) {c : Cfg} {nn : Net F} (hs : Storable c nn)
    (recs : List ActRecord) {d : Disk} (hw : d.writable ckpt = true) (hr : d.readable ckpt = true)
    (hc : d.content ckpt = some (fileOf lb.zip lb.bits recs ckpt nn)) : Holds lb d ckpt nn := by
  have hf : (str ckpt).length ≤ 128 := by decide
  obtain ⟨d', h1, -, h3⟩ := C49_roundtrip hb hz hw hr hf hs recs
  rw [save_fileOf hz hb recs hs ckpt hf d hw] at h1
  have hd : d' = d := by
    simp only [Except.ok.injEq] at h1
    rw [← h1]
    have : (fun g => if g = ckpt then some (fileOf lb.zip lb.bits recs ckpt nn) else d.content g) = d.content := by
      funext g
      split_ifs with h
      · rw [h, hc]
      · rfl
    rw [this]
  rw [hd] at h3
  intro mem ok dl addr junk recs2 h k1 k2 k3
  obtain ⟨nn', recs', h', g1, g2, -⟩ := h3 mem ok dl addr junk recs2 h k1 k2 k3
  exact ⟨nn', recs', h', g1, g2⟩

theorem setOK_load {zip : ZipLib} {d : Disk} {mem : ℕ → Bool} {file : Option String} {n nIn nOut : ℕ} {x y : NpyArray}
    (h : SetOK zip d mem file n nIn nOut x y) : loadSet zip d mem file = .ok (x, y) := by
  obtain ⟨f, n1, n2, rest, rfl, hl⟩ := h.file
  simp [loadSet, hl, bind, Except.bind, h.order, h.rows, pure, Except.pure]

omit [FloatOps F] in
theorem floats_length (bits : FloatBits F) (addr k : ℕ) {m : NpyArray} (h : 4 * k ≤ m.data.length) :
    k ≤ (floats bits addr m).data.length := by
  rw [floats, decode_length]
  omega

theorem settings_some (lr : F) {name : String} (h : name ∈ ["SGD", "RMSprop", "adagrad", "adam", "adamw"]) :
    ∃ se, settings lr name = some se := by
  simp only [List.mem_cons, List.not_mem_nil, or_false] at h
  rcases h with rfl | rfl | rfl | rfl | rfl <;> simp [settings]

theorem loss_metric (loss : Loss) : ∃ m, getMetricFunc (getLossName (some loss)) = some m := by
  cases loss <;> exact ⟨_, rfl⟩

/-- The optimizers the program offers, with the settings it gives them. -/
inductive Configured (lr : F) : String → Settings F → Prop
  | sgd : Configured lr "SGD" (.sgd lr zero zero false)
  | rmsprop : Configured lr "RMSprop" (.rmsprop lr zero (lit 9 10) zero false)
  | adagrad : Configured lr "adagrad" (.adagrad lr zero)
  | adam : Configured lr "adam" (.adam lr (lit 9 10) (lit 999 1000) zero)
  | adamw : Configured lr "adamw" (.adam lr (lit 9 10) (lit 999 1000) (lit 1 10000))

theorem settings_configured {lr : F} {name : String} {se : Settings F} (h : settings lr name = some se) : Configured lr name se := by
  unfold settings at h
  split_ifs at h with h1 h2 h3 h4 h5 <;> simp only [Option.some.injEq] at h <;> subst h
  · exact h1 ▸ .sgd
  · exact h2 ▸ .rmsprop
  · exact h3 ▸ .adagrad
  · exact h4 ▸ .adam
  · exact h5 ▸ .adamw

/-- The data of the run. -/
abbrev dataOf (lb : Lib F) (sys : Sys F) (n nV : ℕ) (tX tY vX vY : NpyArray) : Data F :=
  ⟨n, floats lb.bits sys.trainX tX, floats lb.bits sys.trainY tY, nV, floats lb.bits sys.verifyX vX, floats lb.bits sys.verifyY vY⟩

/-- **C74** With good files the program trains ten epochs without a fault: with the optimizer, learning rate and batch size of the
options, starting from the parameters in the file, and with the metric of the loss and that of the options.  In the end checkpoint.npz holds the network of the first
epoch with the best loss on the verification set (if no loss was a number below `FLT_MAX`, the file is what it was), the log has
got one line for every epoch, and no other file has changed. -/
theorem C74_run {lb : Lib F} {sys : Sys F} {recs : List ActRecord} {h : Heap} {st : Statics F} (hst : st.nSample = 0) {d : Disk}
    {op : Opts F} {loss : Loss} {nn : Net F} {recs' : List ActRecord} {sizes : List ℕ} {nIn nOut n nV : ℕ}
    {tX tY vX vY : NpyArray} {e : ℕ} (g : Good lb sys recs h d op loss nn recs' sizes nIn nOut n nV tX tY vX vY e)
    {val : F → Option EReal} (hval : Compares val) :
    ∃ (s' : State F) (ms : List Metric) (rest : List (Option Metric)) (st1 : Statics F) (o1 : AnyOpt F) (ns : List (Net F × View F))
      (scores : List F) (lines : List Bytes),
      main lb sys recs h st d op = .ok s' ∧
      (∃ m, getMetricFunc (getLossName (some loss)) = some m ∧ ms = m :: (op.metrics.bind getMetricFunc).toList) ∧
      Configured op.learningRate op.optimizer o1.settings ∧ (o1.opt.batchsize : ℤ) = op.batchSize ∧ o1.opt.shuffle = true ∧
      o1.opt.nn.layers.map (fun l => (l.weight, l.bias)) = nn.layers.map (fun l => (l.weight, l.bias)) ∧
      Trains lb.env lb.c sys.rand ((List.range 10).map (call sys (dataOf lb sys n nV tX tY vX vY) ms.length)) (st1, o1, 0) ns
        (s'.st, s'.o, s'.q) ∧ ns.length = 10 ∧
      (∀ x ∈ ns, x.1.loss = some loss ∧
        x.1.layers.map (fun l => (l.nIn, l.nOut, l.act)) = nn.layers.map (fun l => (l.nIn, l.nOut, l.act))) ∧
      List.Forall₂ (fun x sc => x.2.data[ms.length]? = some sc) ns scores ∧
      (0 < nV → ∀ (i : ℕ) x sc, ns[i]? = some x → scores[i]? = some sc →
        ScoreOf lb (sys.epoch i) (dataOf lb sys n nV tX tY vX vY) ms rest x.1 sc) ∧
      (nV = 0 → ∀ (i : ℕ) sc, scores[i]? = some sc → sc = sys.stack i ms.length) ∧
      ((∃ i x, ns[i]? = some x ∧ firstBest false (scores.map fun s => below fltMaxE (val s)) i ∧ Holds lb s'.d ckpt x.1) ∨
        ((∀ s ∈ scores, below fltMaxE (val s) = none) ∧ s'.d.content ckpt = d.content ckpt)) ∧
      (∀ f, op.log = some f → lines.length = 10 ∧ (∀ (i : ℕ) line, lines[i]? = some line → EpochLine (e + i : ℕ) line) ∧
        s'.d.content f = some ((d.content f).getD [] ++ lines.flatten)) ∧
      ∀ f, f ≠ ckpt → some f ≠ op.log → s'.d.content f = d.content f := by
  obtain ⟨fn, h', hnet, hload⟩ := g.net
  obtain ⟨ls, hls, hloss⟩ := g.loss
  obtain ⟨mname, hmname⟩ := g.metric
  obtain ⟨a1, ha1, ha1'⟩ := g.vec1
  obtain ⟨a2, ha2, ha2'⟩ := g.vec2
  obtain ⟨se, hse⟩ := settings_some op.learningRate g.optimizer
  obtain ⟨lm, hlm⟩ := loss_metric loss
  obtain ⟨nn1, hnn1⟩ : ∃ nn1, nn1 = setLoss recs' nn ls := ⟨_, rfl⟩
  have al1 : List.Forall₂ Layer.Alike nn.layers nn1.layers := hnn1 ▸ alike_setLoss hloss
  have s1 : Storable lb.c nn1 := storable_alike g.storable al1
  have hl1 : nn1.loss = some loss := hnn1 ▸ (C11_sets recs' nn ls loss hloss).1
  have hd1 : ∀ l ∈ nn1.layers, l.deriv ≠ none := hnn1 ▸ setLoss_deriv g.storable recs' hloss
  have hz1 : HasSizes nn1.layers sizes := (alike_sizes al1).trans g.layers
  have hin1 : nn1.nInput = nIn := by
    have := hz1.nInput s1.wf.ne
    rw [g.ends.1] at this
    exact (Option.some.inj this).symm
  have hout1 : nn1.nOutput = nOut := by
    have := hz1.nOutput s1.wf.ne
    rw [g.ends.2] at this
    exact (Option.some.inj this).symm
  have hinlt : nIn < 2 ^ 31 := by
    obtain ⟨l, hl, hl2⟩ : ∃ l ∈ nn1.layers, l.nIn = nIn := by
      cases hL : nn1.layers with
      | nil => exact absurd hL s1.wf.ne
      | cons l ls => exact ⟨l, by simp, by rw [← hin1]; simp [Net.nInput, hL]⟩
    have h1 := s1.small l hl
    have h2 := (s1.wf.layer l hl).out_pos
    rw [← hl2]
    calc l.nIn ≤ l.nIn * l.nOut := Nat.le_mul_of_pos_right _ h2
      _ < 2 ^ 31 := h1
  have houtlt : nOut < 2 ^ 31 := by
    obtain ⟨last, hlast, hno, hlw⟩ := exists_last s1.wf
    have h1 := s1.small last (List.mem_of_getLast? hlast)
    have h2 := hlw.in_pos
    rw [← hout1, hno]
    calc last.nOut ≤ last.nIn * last.nOut := Nat.le_mul_of_pos_left _ h2
      _ < 2 ^ 31 := h1
  -- the metrics
  obtain ⟨ms, rest0, hms, hm1, hm2, hmh⟩ : ∃ (ms : List Metric) (rest0 : List (Option Metric)), [some lm, getMetricFunc mname, none] =
        ms.map some ++ none :: rest0 ∧ 1 ≤ ms.length ∧ ms.length ≤ 2 ∧ ms = lm :: (op.metrics.bind getMetricFunc).toList := by
    rw [hmname, Option.bind_some]
    cases getMetricFunc mname with
    | none => exact ⟨[lm], [none], rfl, by simp, by simp, rfl⟩
    | some m => exact ⟨[lm, m], [], rfl, by simp, by simp, rfl⟩
  obtain ⟨st1, o1, rest, hnew, hR, honn, hP, hM⟩ := newAny_ok lb.c loss nn1 s1.wf hl1 st hst true op.batchSize g.batch
    (some [some lm, getMetricFunc mname, none]) ms ⟨rest0, hms⟩ a1 a2 ha1' ha2' se
  have hset := C63_new _ _ _ _ _ _ _ _ _ _ hnew
  have hparams : o1.opt.nn.layers.map (fun l => (l.weight, l.bias)) = nn.layers.map (fun l => (l.weight, l.bias)) := by
    rw [hset.2.1, hnn1]
    obtain ⟨-, k2, k3⟩ := C11_sets recs' nn ls loss hloss
    refine List.ext_getElem? fun i => ?_
    rw [List.getElem?_map, List.getElem?_map]
    rcases Nat.lt_or_ge i nn.layers.length with hi | hi
    · rw [k3 i _ (List.getElem?_eq_getElem hi), List.getElem?_eq_getElem hi]
      rfl
    · rw [List.getElem?_eq_none hi, List.getElem?_eq_none (by omega)]
  -- the calls
  have hcall : ∀ i, (call sys (dataOf lb sys n nV tX tY vX vY) ms.length i).OK lb.c loss nn1 op.batchSize.toNat ms := by
    intro i
    refine EpochCall.Fits.ok ?_ s1.wf hl1 hd1 (hz1.safe g.safe)
    rw [hin1, hout1, hz1.nParams]
    refine ⟨g.pos, g.train.nlt, floats_length _ _ _ g.train.full.1, floats_length _ _ _ g.train.full.2, g.fit.1, g.fit.2, g.mem i,
      g.fuel i, g.evalMem i, g.evalMemV i, (g.sched i).1, by simp [call], ?_⟩
    intro x y hxy
    simp only [call, Option.some.injEq, Prod.mk.injEq] at hxy
    obtain ⟨rfl, rfl⟩ := hxy
    exact ⟨(g.sched i).2, floats_length _ _ _ g.verify.full.1, floats_length _ _ _ g.verify.full.2⟩
  have hstor : ∀ w : List F, w.length = nParams nn1.layers → Storable lb.c (nn1.setParams w) := fun w hw =>
    storable_alike s1 (alike_withParams (c := lb.c) s1.wf.layer hw)
  obtain ⟨ns, s', scores, lines, t1, t2, t3, t4, t5, t6, t7, t8, t9, t10, t11⟩ := loop_ok (lb := lb) (sys := sys) (recs := recs')
    (data := dataOf lb sys n nV tX tY vX vY) (bs := op.batchSize.toNat) (by have := g.batch; omega) hm1 hm2 rest hcall
    (file := fileOf lb.zip lb.bits recs' ckpt)
    (fun w hw d hd => save_fileOf g.zip g.bits recs' (hstor w hw) ckpt (by decide) d hd) g.chars g.short g.clock g.log.1 e g.few 10 0
    ⟨st1, o1, 0, fltMax, (EsStatics.initial, newEarlyStopping 10 (-1) false), ⟨e, op.log, false⟩, d⟩ (le_refl _) hR hP hM rfl
    (le_refl _) rfl g.writable g.log.2
  rw [← List.range_eq_range'] at t1
  have hmon : List.Forall₂ (fun (k : Net F × CallbackArgs F) s => monitoredScore (-1) k.2 = .ok s)
      (ns.map fun n => (n.1, argsOf (ms.map some ++ none :: rest) n)) scores := by
    rw [List.forall₂_map_left_iff]
    refine t3.imp fun x sc hx => ?_
    exact C39_score ms rest x.2 true (-1) ms.length (by simp) sc hx
  obtain ⟨b, w, k1, k2⟩ := C41_less_partial (saveTo (fileOf lb.zip lb.bits recs' ckpt)) (fun w _ => w)
    (fileOf lb.zip lb.bits recs' ckpt) val hval none (-1) _ scores hmon (fun k _ w => ⟨_, rfl, rfl⟩) (d.content ckpt)
  rw [t7] at k1
  simp only [Except.ok.injEq, Prod.mk.injEq] at k1
  obtain ⟨-, rfl⟩ := k1
  have hdim : dim tX 0 % 2 ^ 32 = n ∧ dim vX 0 % 2 ^ 32 = nV := by
    have h1 := g.train.nlt
    have h2 := g.verify.nlt
    rw [g.train.rows.1, g.verify.rows.1]
    exact ⟨Nat.mod_eq_of_lt (by omega), Nat.mod_eq_of_lt (by omega)⟩
  have hml : metricList (ms.map some ++ none :: rest) = .ok ms := metricList_eq ms rest
  refine ⟨s', ms, rest, st1, o1, ns, scores, lines, ?_, ⟨lm, hlm, hmh⟩, hset.1 ▸ settings_configured hse, hset.2.2.2.1, hset.2.2.1, hparams,
    t1, by rw [t1.length]; simp, ?_, t3, ?_, ?_, ?_, ?_, t11⟩
  · simp only [main, setOK_load g.train, setOK_load g.verify, bind, Except.bind, g.train.cols, g.verify.cols, and_self, if_true, hnet,
      hload, hls, lossOf, pure, Except.pure, ← hnn1, hin1, hout1, castInt_eq hinlt, castInt_eq houtlt, hmname, metricOf, hse, hl1,
      hlm, ha1, ha2, hnew, hM, hml, g.logger, hdim]
    exact t2
  · intro x hx
    obtain ⟨w, hw, hxe⟩ := t6 x hx
    rw [hxe]
    exact ⟨hl1, (Alike.shape (alike_withParams (c := lb.c) s1.wf.layer hw)).trans (Alike.shape al1)⟩
  · intro hp i x sc hx hsc
    have := t5 hp i x sc hx hsc
    rwa [Nat.zero_add] at this
  · intro hz i sc hsc
    have := t4 hz i sc hsc
    rwa [Nat.zero_add] at this
  · rcases k2 with ⟨i, k, q1, q2, q3⟩ | ⟨q1, q2⟩
    · rw [List.getElem?_map, Option.map_eq_some_iff] at q1
      obtain ⟨x, q1, rfl⟩ := q1
      obtain ⟨w, hw, hxe⟩ := t6 x (List.mem_of_getElem? q1)
      refine .inl ⟨i, x, q1, q2, ?_⟩
      refine holds_of g.zip g.bits (c := lb.c) (hxe ▸ hstor w hw) recs' (by rw [t9]; exact g.writable) (by rw [t8]; exact g.readable) q3
    · exact .inr ⟨q1, q2⟩
  · intro f hf
    obtain ⟨l1, l2, l3⟩ := t10 f hf
    refine ⟨l1, fun i line hl => ?_, by simpa using l3⟩
    have := l2 i line hl
    rwa [Nat.add_zero] at this

theorem firstBest_unique {greater : Bool} {scores : List (Option EReal)} {i j : ℕ} (hi : firstBest greater scores i)
    (hj : firstBest greater scores j) : i = j := by
  have key : ∀ a b, firstBest greater scores a → firstBest greater scores b → ¬ a < b := by
    rintro a b ⟨s, h1, h2, -, h4⟩ ⟨t, g1, -, g3, -⟩ hlt
    have hm : s ∈ scores.take b := by
      rw [List.mem_iff_getElem?]
      exact ⟨a, by rw [List.getElem?_take_of_lt hlt, h1]⟩
    exact h4 t (List.mem_of_getElem? g1) (g3 s hm h2)
  have h1 := key i j hi hj
  have h2 := key j i hj hi
  omega

/-- The score in exact arithmetic: the mean loss over the verification set. -/
theorem C74_score_real {lb : Lib ℝ} {ep : EpochCall ℝ} {data : Data ℝ} {m : Metric} {ms : List Metric} {rest : List (Option Metric)}
    {nn : Net ℝ} {sc : ℝ} (h : ScoreOf lb ep data (m :: ms) rest nn sc) (hw : nn.WF lb.c)
    (hmem : ∀ i, (ep.evalMemV i).workAddr % lb.c.alignSize = 0 ∧ (ep.evalMemV i).predAddr % lb.c.alignSize = 0)
    (hs : ep.schedV.Covers data.nVerify) (hX : data.nVerify * nn.nInput ≤ data.verifyX.data.length)
    (hY : data.nVerify * nn.nOutput ≤ data.verifyY.data.length) :
    sc = (∑ i ∈ Finset.range data.nVerify, metricSpec m nn.nOutput
      (Spec.network (nn.layers.map (Layer.toSpec lb.env)) (slice data.verifyX.data (i * nn.nInput) nn.nInput))
      (slice data.verifyY.data (i * nn.nOutput) nn.nOutput)) / data.nVerify := by
  obtain ⟨v, r, h1, h2, h3⟩ := h
  rw [C24_mean lb.env lb.c ep.evalMemV ep.schedV nn data.nVerify hs data.verifyX data.verifyY (m :: ms) rest v hw hmem hX hY h1] at h3
  simp only [Except.ok.injEq] at h3
  rw [← h3] at h2
  simpa using h2.symm

/-! ### Example: a run in IEEE arithmetic -/

/-- The contents of a file with these arrays. -/
theorem list_file {zip : ZipLib} (hz : zip.Lawful) {l : List (Bytes × NpyArray)} (hne : l ≠ []) (hnd : (l.map Prod.fst).Nodup)
    (hl : ∀ p ∈ l, GoodName zip p.1 ∧ p.2.Savable) {mem : ℕ → Bool} (hm : ∀ n, mem n = true) :
    ∃ (s : Bytes) (r : List (Bytes × NpyArray)), (∀ (d : Disk) (f : String), d.content f = some s → d.readable f = true →
      listLoad zip d mem f = .ok r) ∧ List.Forall₂ (fun q p => q.1 = p.1 ∧ Same q.2 p.2) r l := by
  obtain ⟨r, e1, e2⟩ := loadLoop_entries (lib := zip) hm l [] hl
  rw [List.nil_append] at e1
  have ho : zip.open' (zip.close (l.map entryOf)) = some (l.map entryOf) := by
    refine hz.roundtrip _ (by simpa using hne) (by simpa [entryOf, Function.comp_def] using hnd) ?_
    intro e he
    obtain ⟨p, hp, rfl⟩ := List.mem_map.1 he
    exact ⟨(hl p hp).1.ok, rfl, rfl⟩
  refine ⟨zip.close (l.map entryOf), r, fun d f hc hr => ?_, e2⟩
  simp only [listLoad, hc, hr, if_true, ho]
  exact e1

/-- An array of floats (of value 0) with `a` rows of `b`. -/
def exArray (a b : ℕ) : NpyArray := floatArray (List.replicate (a * b * 4) 0) [a, b]

theorem exArray_savable {a b : ℕ} (ha : 0 < a) (ha' : a < 10) (hb : 0 < b) (hb' : b < 10) : (exArray a b).Savable where
  shape := rfl
  ndim := by simp [exArray, floatArray]
  dims := by
    have h1 : a < 2 ^ 31 := by omega
    have h2 : b < 2 ^ 31 := by omega
    simp [exArray, floatArray]
    omega
  elem := by simp [exArray, floatArray]
  typechar := by simp [exArray, floatArray]
  pos := by simp [exArray, floatArray]; omega
  size := by
    have : a * b ≤ 9 * 9 := Nat.mul_le_mul (by omega) (by omega)
    simp [exArray, floatArray, NpyArray.meaning, Spec.Array.nbytes]
    omega
  data := by simp [exArray, floatArray, NpyArray.meaning, Spec.Array.nbytes]
  fits := by
    simp only [Spec.Array.dict, NpyArray.meaning, exArray, floatArray, guessEndianness, List.cons_append, List.nil_append,
      List.length_cons, List.length_nil, List.take, List.map, dec_small (show 4 < 10 by decide), dec_small ha', dec_small hb',
      List.length_append, List.length_flatten, List.sum_cons, List.sum_nil]
    split_ifs <;> decide

/-- Two arrays make a data set. -/
theorem exSet {zip : ZipLib} (hz : zip.Lawful) {n : ℕ} (h0 : 0 < n) (h1 : n < 10) : ∃ (s : Bytes) (x y : NpyArray),
    ∀ (d : Disk) (f : String), d.content f = some s → d.readable f = true →
      SetOK zip d (fun _ => true) (some f) n 2 1 x y := by
  obtain ⟨s, r, k1, k2⟩ := list_file hz (l := [(str "x", exArray n 2), (str "y", exArray n 1)]) (by simp)
    (by simp only [List.map_cons, List.map_nil]; decide) (by
      simp only [List.mem_cons, List.not_mem_nil, or_false, forall_eq_or_imp, forall_eq]
      exact ⟨⟨⟨hz.ascii _ (by decide) (by decide), by decide, by decide, by decide⟩, exArray_savable h0 h1 (by decide) (by decide)⟩,
        ⟨hz.ascii _ (by decide) (by decide), by decide, by decide, by decide⟩, exArray_savable h0 h1 (by decide) (by decide)⟩)
    (mem := fun _ => true) (fun _ => rfl)
  match r, k1, k2 with
  | [(n1, x), (n2, y)], k1, .cons hx (.cons hy .nil) =>
    have shape : ∀ {m : NpyArray} {a b : ℕ}, Same m (exArray a b) → m.fortran = false ∧ dim m 0 = a ∧ dim m 1 = b ∧
        m.data.length = a * b * 4 := by
      intro m a b h
      have e1 : m.fortran = false := congrArg Spec.Array.fortran h.1
      have e2 : m.shape.take m.ndim = [a, b] := congrArg Spec.Array.dims h.1
      have e3 : m.ndim = 2 := h.2.1
      have e4 : m.data = (exArray a b).meaning.data := h.2.2.2
      rw [e3] at e2
      refine ⟨e1, ?_, ?_, ?_⟩
      · rw [dim, List.getD_eq_getElem?_getD, ← List.getElem?_take_of_lt (show 0 < 2 by decide), e2]; rfl
      · rw [dim, List.getD_eq_getElem?_getD, ← List.getElem?_take_of_lt (show 1 < 2 by decide), e2]; rfl
      · rw [e4]
        simp [NpyArray.meaning, exArray, floatArray]
    have sx := shape hx.2
    have sy := shape hy.2
    refine ⟨s, x, y, fun d f hc hr => ⟨⟨f, n1, n2, [], rfl, k1 d f hc hr⟩, ⟨sx.1, sy.1⟩, ⟨sx.2.1, sy.2.1⟩, ⟨sx.2.2.1, sy.2.2.1⟩, ?_,
      by omega⟩⟩
    rw [sx.2.2.2, sy.2.2.2]
    omega

/-- A network 2-3-1. -/
def exNet : Net F :=
  ⟨[⟨2, 3, ⟨0, List.replicate 6 (lit 1 3)⟩, ⟨0, List.replicate 3 zero⟩, .tanh, none⟩,
    ⟨3, 1, ⟨0, List.replicate 3 (lit (-1) 2)⟩, ⟨0, [one]⟩, .sigmoid, none⟩], none⟩

theorem exNet_storable (c : Cfg) : Storable c (exNet : Net F) where
  wf := by
    refine ⟨by simp [exNet], ?_, ⟨rfl, trivial⟩⟩
    intro l hl
    simp only [exNet, List.mem_cons, List.not_mem_nil, or_false] at hl
    rcases hl with rfl | rfl <;> exact ⟨by simp, by simp, rfl, rfl, Nat.zero_mod _, Nat.zero_mod _⟩
  small := by simp [exNet]
  count := by simp [exNet]
  act := by
    simp only [exNet, List.mem_cons, List.not_mem_nil, or_false, forall_eq_or_imp, forall_eq]
    exact ⟨⟨("tanh", .tanh, .tanh), by simp [builtins], rfl⟩, ("sigmoid", .sigmoid, .sigmoid), by simp [builtins], rfl⟩

/-- `-t train.npz -v verify.npz -n net.npz -l binary_crossentropy --metrics binary_accuracy -o adam -b 2 -q log.txt` -/
def exArgs : List CmdArg :=
  [.short 't' (some "train.npz"), .short 'v' (some "verify.npz"), .long "neuralnet" (some "net.npz"),
    .short 'l' (some "binary_crossentropy"), .long "metrics" (some "binary_accuracy"), .short 'o' (some "adam"), .short 'b' (some "2"),
    .short 'q' (some "log.txt")]

def exOpts : Opts F :=
  { Opts.initial with
    trainset := some "train.npz"
    verificationset := some "verify.npz"
    neuralnet := some "net.npz"
    loss := some "binary_crossentropy"
    metrics := some "binary_accuracy"
    optimizer := "adam"
    batchSize := 2
    log := some "log.txt" }

theorem exArgs_parse (sc : Scan F) : parseArgs sc exArgs Opts.initial = .ok (some (exOpts : Opts F)) := by
  have h2 : atoi (str "2") = .ok 2 := by decide
  simp [exArgs, parseArgs, getoptLong, shortOptions, longOptions, setOpt, h2, bind, Except.bind, pure, Except.pure, exOpts]

/-- The system. -/
def exSys (c : Cfg) (jk : ℕ → F) (dl : DynLinker) : Sys F where
  mem _ := true
  ok _ := true
  addr i := 64 * i
  junk _ := jk
  dl := dl
  trainX := 4
  trainY := 8
  verifyX := 12
  verifyY := 16
  vec1 := some 640
  vec2 := some 1280
  rand i := 12345 * i
  clock _ := ⟨12, 0, 0⟩
  fmt _ := str "1.0"
  epoch _ := exEpoch c jk
  stack _ := jk

/-- Such files exist, and the program runs: in IEEE arithmetic, with any mathematical library, in every build. -/
example (L : B32.Libm) (env : CustomEnv B32) (c : Cfg) (jk : ℕ → B32) (dl : DynLinker) (sc : Scan B32) :
    let _ := B32.ops L
    ∃ (zip : ZipLib) (d : Disk) (s' : State B32),
      program ⟨env, c, zip, b32Bits⟩ sc (exSys c jk dl) [] ⟨0, []⟩ Statics.initial d exArgs = .ok (some s') ∧
      (∃ lines : List Bytes, lines.length = 10 ∧ s'.d.content "log.txt" = some lines.flatten) ∧
      s'.d.content "train.npz" = d.content "train.npz" := by
  intro _
  obtain ⟨zip, hz⟩ := exists_lawful
  obtain ⟨s1, tX, tY, g1⟩ := exSet hz (n := 3) (by decide) (by decide)
  obtain ⟨s2, vX, vY, g2⟩ := exSet hz (n := 1) (by decide) (by decide)
  obtain ⟨s3, g3⟩ := save_bytes hz b32Bits_lawful [] (exNet_storable c) "net.npz" (by decide)
  let d0 : Disk := ⟨fun g => if g = "train.npz" then some s1 else if g = "verify.npz" then some s2 else none,
    fun _ => true, fun _ => true⟩
  let d : Disk := { d0 with content := fun g => if g = "net.npz" then some s3 else d0.content g }
  have hsave := g3 d0 rfl
  obtain ⟨d', e1, -, e2⟩ := C49_roundtrip b32Bits_lawful hz (d := d0) (f := "net.npz") rfl rfl (by decide) (exNet_storable c) []
  obtain rfl : d' = d := by
    rw [hsave] at e1
    exact (Except.ok.inj e1).symm
  obtain ⟨nn, recs', h', k1, k2, -, k4⟩ := e2 (fun _ => true) (fun _ => true) dl (fun i => 64 * i) (fun _ => jk) [] ⟨0, []⟩
    (fun _ => rfl) ⟨by simp, by simp⟩ (fun _ _ => rfl)
  have hwf := k4 c (fun i => align64 c _ (by simp))
  have hlay : ∃ a b, nn.layers = [a, b] ∧ a.nIn = 2 ∧ a.nOut = 3 ∧ a.act = .tanh ∧ b.nIn = 3 ∧ b.nOut = 1 ∧ b.act = .sigmoid := by
    simp only [exNet] at k2
    match hL : nn.layers, k2 with
    | [a, b], .cons ha (.cons hb .nil) => exact ⟨a, b, rfl, ha.1, ha.2.1, ha.2.2.2.2, hb.1, hb.2.1, hb.2.2.2.2⟩
  obtain ⟨a, b, hL, ha1, ha2, ha3, hb1, hb2, hb3⟩ := hlay
  have hfit := exEpoch_fits c jk 13
  have good : Good ⟨env, c, zip, b32Bits⟩ (exSys c jk dl) [] ⟨0, []⟩ d exOpts .bce nn recs' [2, 3, 1] 2 1 3 1 tX tY vX vY 0 :=
    { zip := hz
      bits := b32Bits_lawful
      train := g1 _ _ rfl rfl
      verify := g2 _ _ rfl rfl
      pos := by decide
      fit := by decide
      net := ⟨"net.npz", h', rfl, k1⟩
      storable := by
        refine ⟨hwf, ?_, ?_, ?_⟩
        · rw [hL]; simp [ha1, ha2, hb1, hb2]
        · rw [hL]; simp
        · rw [hL]
          simp only [List.mem_cons, List.not_mem_nil, or_false, forall_eq_or_imp, forall_eq, ha3, hb3]
          exact ⟨⟨("tanh", .tanh, .tanh), by simp [builtins], rfl⟩, ("sigmoid", .sigmoid, .sigmoid), by simp [builtins], rfl⟩
      layers := by rw [hL]; simp [ha1, ha2, hb1, hb2]
      ends := ⟨rfl, rfl⟩
      safe := .inr (.inl (by simp))
      loss := ⟨_, rfl, by decide⟩
      metric := ⟨_, rfl⟩
      optimizer := by simp [exOpts]
      batch := by simp [exOpts]
      vec1 := ⟨640, rfl, align64 c _ rfl⟩
      vec2 := ⟨1280, rfl, align64 c _ rfl⟩
      mem := fun _ j => hfit.mem j
      fuel := fun _ => hfit.fuel
      evalMem := fun _ => hfit.evalMem
      evalMemV := fun _ => hfit.evalMemV
      sched := fun _ => ⟨List.Perm.refl _, List.Perm.refl _⟩
      writable := rfl
      readable := rfl
      log := ⟨by simp [exOpts, ckpt], fun _ _ => rfl⟩
      logger := rfl
      few := by decide
      chars := fun _ => by simp only [exSys]; decide
      short := fun _ => by simp only [exSys]; decide
      clock := fun _ => by simp [exSys, Time.OK] }
  obtain ⟨s', ms, rest, st1, o1, ns, scores, lines, q1, -, -, -, -, -, -, -, -, -, -, -, -, q2, q3⟩ := C74_run (st := Statics.initial) rfl good
    (b32_compares L)
  refine ⟨zip, d, s', ?_, ⟨lines, (q2 "log.txt" rfl).1, (q2 "log.txt" rfl).2.2⟩, q3 _ (by decide) (by simp [exOpts])⟩
  simp only [program, exArgs_parse, bind, Except.bind, q1]
  rfl

/-- `-t train.npz -m mse -l mse` -/
example (lb : Lib F) (sc : Scan F) (sys : Sys F) (d : Disk) : program lb sc sys [] ⟨0, []⟩ Statics.initial d
    [.short 't' (some "train.npz"), .short 'm' (some "mse"), .short 'l' (some "mse")] = .ok none :=
  C74_m_false lb sc sys [] ⟨0, []⟩ Statics.initial d [.short 't' (some "train.npz")] [.short 'l' (some "mse")] (some "mse") _ rfl

/-- `-s best.npz` -/
example (lb : Lib F) (sc : Scan F) (sys : Sys F) (d : Disk) : program lb sc sys [] ⟨0, []⟩ Statics.initial d
    (exArgs ++ [.short 's' (some "best.npz")]) = .error .nullDeref :=
  C74_s_false lb sc sys [] ⟨0, []⟩ Statics.initial d exArgs [] (.short 's' (some "best.npz")) "best.npz" rfl 98 (by decide) (by decide)
    _ (exArgs_parse sc)

/-- `-e 3` -/
example (lb : Lib F) (sc : Scan F) (sys : Sys F) (d : Disk) : program lb sc sys [] ⟨0, []⟩ Statics.initial d
    (.short 'e' (some "3") :: exArgs) = program lb sc sys [] ⟨0, []⟩ Statics.initial d exArgs :=
  C74_e_false lb sc sys [] ⟨0, []⟩ Statics.initial d [] exArgs (.short 'e' (some "3")) "3" rfl

/-- No metric. -/
example (lb : Lib F) (sc : Scan F) (sys : Sys F) (d : Disk) (s' : State F) : program lb sc sys [] ⟨0, []⟩ Statics.initial d
    [.short 't' (some "train.npz"), .short 'v' (some "verify.npz"), .short 'n' (some "net.npz"), .short 'l' (some "mse")] ≠
      .ok (some s') := by
  refine C74_missing_false lb sc sys [] ⟨0, []⟩ Statics.initial d _ (.inl ?_) s'
  simp [getoptLong, shortOptions]

/-- `-o Adam` -/
example (lb : Lib F) (sys : Sys F) (d : Disk) (s' : State F) :
    main lb sys [] ⟨0, []⟩ Statics.initial d { exOpts with optimizer := "Adam" } ≠ .ok s' :=
  C74_optimizer_false lb sys [] ⟨0, []⟩ Statics.initial d _ (by simp) s'

end NN.Trainer
