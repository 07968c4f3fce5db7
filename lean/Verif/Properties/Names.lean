import Verif.Model.Names
import Mathlib.Data.List.Basic
import Mathlib.Data.List.TakeWhile
import Mathlib.Tactic.Conv
/-
C14, C15: names of activation functions, losses and metrics.
-/
set_option linter.unusedSimpArgs false

namespace NN

/-- The documented activation names and what they denote. -/
def builtins : List (String × Act × ActDeriv) :=
  [("softplus", .softplus, .softplus), ("softsign", .softsign, .softsign),
   ("hard_sigmoid", .hardSigmoid, .hardSigmoid), ("exponential", .exponential, .exponential),
   ("linear", .linear, .linear), ("relu", .relu, .relu), ("softmax", .softmax, .softmax),
   ("sigmoid", .sigmoid, .sigmoid), ("tanh", .tanh, .tanh)]

/-- **C14** Every built-in name is resolved without touching the loaded records, is printed back,
and has its own derivative. -/
theorem C14_builtin (dl : DynLinker) (recs : List ActRecord) :
    ∀ b ∈ builtins, getActivationFunc dl recs b.1 = .ok (some b.2.1, recs) ∧
      getActivationName recs b.2.1 = b.1 ∧ getActivationDerivative recs b.2.1 = some b.2.2 := by
  intro b hb
  simp only [builtins, List.mem_cons, List.not_mem_nil, or_false] at hb
  rcases hb with rfl | rfl | rfl | rfl | rfl | rfl | rfl | rfl | rfl <;>
    exact ⟨by simp [getActivationFunc, pure, Except.pure], rfl, rfl⟩

/-- Names outside the table go to the dynamic loader. -/
theorem getActivationFunc_other (dl : DynLinker) (recs : List ActRecord) (name : String)
    (h : ∀ b ∈ builtins, name ≠ b.1) :
    getActivationFunc dl recs name = getActivationFuncDynamic dl recs name := by
  simp only [builtins, List.mem_cons, List.not_mem_nil, or_false, forall_eq_or_imp, forall_eq] at h
  obtain ⟨h1, h2, h3, h4, h5, h6, h7, h8, h9⟩ := h
  simp only [getActivationFunc, h1, h2, h3, h4, h5, h6, h7, h8, h9, if_false]

theorem name_cases (name : String) : (∃ b ∈ builtins, name = b.1) ∨ ∀ b ∈ builtins, name ≠ b.1 := by
  by_cases h : ∃ b ∈ builtins, name = b.1
  · exact .inl h
  · right; intro b hb e; exact h ⟨b, hb, e⟩

/-- **C14** Distinct built-in names denote distinct functions, and nothing else resolves to a
built-in function: a name resolving to one is that function's printed name. -/
theorem C14_builtin_unique (dl : DynLinker) (recs recs' : List ActRecord) (name : String) (a : Act)
    (h : getActivationFunc dl recs name = .ok (some a, recs')) (hb : ∀ f, a ≠ .custom f) :
    name = getActivationName recs a ∧ recs' = recs := by
  rcases name_cases name with ⟨b, hb', rfl⟩ | hn
  · obtain ⟨h1, h2, -⟩ := C14_builtin dl recs b hb'
    rw [h1] at h
    simp only [Except.ok.injEq, Prod.mk.injEq, Option.some.injEq] at h
    obtain ⟨rfl, rfl⟩ := h
    exact ⟨h2.symm, rfl⟩
  · rw [getActivationFunc_other dl recs name hn, getActivationFuncDynamic] at h
    split at h
    · simp [pure, Except.pure] at h
    · split at h
      · split at h
        · simp at h
        · split at h
          · simp [pure, Except.pure] at h
          · simp only [pure, Except.pure, Except.ok.injEq, Prod.mk.injEq, Option.some.injEq] at h
            exact absurd h.1.symm (hb _)
      · simp [pure, Except.pure] at h

/-- What a custom name denotes: the text before the first `@` is a symbol of the library after it. -/
def Denotes (dl : DynLinker) (name : String) (f : Nat) (d : Option Nat) : Prop :=
  ∃ symbol lib : String, '@' ∉ symbol.toList ∧ name = symbol ++ "@" ++ lib ∧ dl.opens lib = true ∧
    dl.sym lib symbol = some f ∧ dl.sym lib (symbol ++ "_derivative") = d

theorem splitAt_spec {name symbol lib : String} (h : splitAt name = some (symbol, lib)) :
    '@' ∉ symbol.toList ∧ name = symbol ++ "@" ++ lib := by
  simp only [splitAt] at h
  split at h
  · rename_i hm
    simp only [Option.some.injEq, Prod.mk.injEq] at h
    obtain ⟨rfl, rfl⟩ := h
    constructor
    · intro hc
      have := List.mem_takeWhile_imp (by simpa using hc)
      simp at this
    · apply String.ext
      simp only [String.toList_append, String.toList_ofList]
      have hd : name.toList.dropWhile (· != '@') = '@' :: (name.toList.dropWhile (· != '@')).drop 1 := by
        cases hdw : name.toList.dropWhile (· != '@') with
        | nil =>
          rw [List.dropWhile_eq_nil_iff] at hdw
          have := hdw '@' hm
          simp at this
        | cons a l =>
          have := List.head?_dropWhile_not (fun x => x != '@') name.toList
          rw [hdw] at this
          simp at this
          rw [this]; rfl
      conv_lhs => rw [← List.takeWhile_append_dropWhile (p := (· != '@')) (l := name.toList)]
      conv_lhs => rw [hd]
      simp
  · cases h

/-- **C14** A name without `@` that is not built in resolves to nothing. -/
theorem C14_unknown (dl : DynLinker) (recs : List ActRecord) (name : String)
    (h : ∀ b ∈ builtins, name ≠ b.1) (hat : '@' ∉ name.toList) :
    getActivationFunc dl recs name = .ok (none, recs) := by
  rw [getActivationFunc_other dl recs name h, getActivationFuncDynamic, splitAt]
  simp [hat, pure, Except.pure]

/-- One step of the loader: a custom function is recorded under the name it was loaded by. -/
theorem load_step (dl : DynLinker) (recs recs' : List ActRecord) (name : String) (r : Option Act)
    (h : getActivationFunc dl recs name = .ok (r, recs')) :
    (recs' = recs ∧ ∀ f, r ≠ some (.custom f)) ∨
    ∃ f d, r = some (.custom f) ∧ recs' = recs ++ [⟨name, f, d⟩] ∧ Denotes dl name f d := by
  rcases name_cases name with ⟨b, hb', rfl⟩ | hn
  · obtain ⟨h1, -, -⟩ := C14_builtin dl recs b hb'
    rw [h1] at h
    simp only [Except.ok.injEq, Prod.mk.injEq] at h
    obtain ⟨rfl, rfl⟩ := h
    left
    refine ⟨rfl, ?_⟩
    intro f hf
    simp only [builtins, List.mem_cons, List.not_mem_nil, or_false] at hb'
    rcases hb' with rfl | rfl | rfl | rfl | rfl | rfl | rfl | rfl | rfl <;> simp at hf
  · rw [getActivationFunc_other dl recs name hn, getActivationFuncDynamic] at h
    split at h
    · simp only [pure, Except.pure, Except.ok.injEq, Prod.mk.injEq] at h
      obtain ⟨rfl, rfl⟩ := h
      exact .inl ⟨rfl, by simp⟩
    · rename_i symbol lib hs
      obtain ⟨h1, h2⟩ := splitAt_spec hs
      split at h
      · rename_i ho
        split at h
        · simp at h
        · split at h
          · simp only [pure, Except.pure, Except.ok.injEq, Prod.mk.injEq] at h
            obtain ⟨rfl, rfl⟩ := h
            exact .inl ⟨rfl, by simp⟩
          · rename_i f hf
            simp only [pure, Except.pure, Except.ok.injEq, Prod.mk.injEq] at h
            obtain ⟨rfl, rfl⟩ := h
            exact .inr ⟨f, _, rfl, rfl, symbol, lib, h1, h2, ho, hf, rfl⟩
      · simp only [pure, Except.pure, Except.ok.injEq, Prod.mk.injEq] at h
        obtain ⟨rfl, rfl⟩ := h
        exact .inl ⟨rfl, by simp⟩

/-- A history of `get_activation_func` calls; the results, and the records at the end. -/
def loads (dl : DynLinker) : List String → List ActRecord → M (List (Option Act) × List ActRecord)
  | [], recs => pure ([], recs)
  | n :: ns, recs => do
    let (a, recs) ← getActivationFunc dl recs n
    let (as, recs) ← loads dl ns recs
    pure (a :: as, recs)

/-- Every record was loaded by a name of the history that denotes it. -/
def RecsOk (dl : DynLinker) (names : List String) (recs : List ActRecord) : Prop :=
  ∀ r ∈ recs, r.name ∈ names ∧ Denotes dl r.name r.func r.deriv

theorem loads_inv (dl : DynLinker) (names : List String) : ∀ (past : List String) (recs : List ActRecord)
    (as : List (Option Act)) (recs' : List ActRecord), loads dl names recs = .ok (as, recs') →
    RecsOk dl past recs →
    RecsOk dl (past ++ names) recs' ∧ (∀ r ∈ recs, r ∈ recs') ∧
      ∀ f, some (.custom f) ∈ as → ∃ r ∈ recs', r.func = f := by
  induction names with
  | nil =>
    intro past recs as recs' h hr
    simp only [loads, pure, Except.pure, Except.ok.injEq, Prod.mk.injEq] at h
    obtain ⟨rfl, rfl⟩ := h
    exact ⟨by simpa using hr, fun r h => h, by simp⟩
  | cons n ns ih =>
    intro past recs as recs' h hr
    simp only [loads, bind, Except.bind] at h
    cases h1 : getActivationFunc dl recs n with
    | error e => rw [h1] at h; simp at h
    | ok p =>
      obtain ⟨a, r1⟩ := p
      rw [h1] at h
      simp only at h
      cases h2 : loads dl ns r1 with
      | error e => rw [h2] at h; simp at h
      | ok q =>
        obtain ⟨as2, r2⟩ := q
        rw [h2] at h
        simp only [pure, Except.pure, Except.ok.injEq, Prod.mk.injEq] at h
        obtain ⟨rfl, rfl⟩ := h
        have hr1 : RecsOk dl (past ++ [n]) r1 ∧ (∀ r ∈ recs, r ∈ r1) ∧
            ∀ f, a = some (.custom f) → ∃ r ∈ r1, r.func = f := by
          rcases load_step dl recs r1 n a h1 with ⟨rfl, hc⟩ | ⟨f, d, rfl, rfl, hden⟩
          · refine ⟨fun r h => ⟨by simp [(hr r h).1], (hr r h).2⟩, fun r h => h, ?_⟩
            intro f hf; exact absurd hf (hc f)
          · refine ⟨?_, fun r h => by simp [h], ?_⟩
            · intro r h
              rcases List.mem_append.mp h with h | h
              · exact ⟨by simp [(hr r h).1], (hr r h).2⟩
              · simp only [List.mem_singleton] at h
                subst h
                exact ⟨by simp, hden⟩
            · intro g hg
              simp only [Option.some.injEq, Act.custom.injEq] at hg
              exact ⟨⟨n, f, d⟩, by simp, hg⟩
        obtain ⟨i1, i2, i3⟩ := ih (past ++ [n]) r1 as2 r2 h2 hr1.1
        refine ⟨by simpa using i1, fun r h => i2 r (hr1.2.1 r h), ?_⟩
        intro f hf
        rcases List.mem_cons.mp hf with hf | hf
        · obtain ⟨r, hr', rfl⟩ := hr1.2.2 f hf.symm
          exact ⟨r, i2 r hr', rfl⟩
        · exact i3 f hf

/-- **C14** After any history of calls, every custom function returned by one of them prints back as
a name of the history that denotes this very function, and its derivative is the symbol
`<symbol>_derivative` of the same library. -/
theorem C14_custom_history (dl : DynLinker) (names : List String) (as : List (Option Act))
    (recs : List ActRecord) (h : loads dl names [] = .ok (as, recs)) (f : Nat)
    (hf : some (.custom f) ∈ as) :
    ∃ d, getActivationName recs (.custom f) ∈ names ∧
      Denotes dl (getActivationName recs (.custom f)) f d ∧
      getActivationDerivative recs (.custom f) = d.map .custom := by
  obtain ⟨h1, -, h3⟩ := loads_inv dl names [] [] as recs h (by intro r hr; simp at hr)
  obtain ⟨r, hr, hrf⟩ := h3 f hf
  cases hfind : recs.find? (fun r => r.func == f) with
  | none =>
    rw [List.find?_eq_none] at hfind
    exact absurd (by simpa using hrf) (hfind r hr)
  | some r0 =>
    have hm := List.mem_of_find?_eq_some hfind
    have hp := List.find?_some hfind
    have hp : r0.func = f := by simpa using hp
    obtain ⟨h4, h5⟩ := h1 r0 hm
    refine ⟨r0.deriv, ?_, ?_, ?_⟩
    · simp only [getActivationName, hfind]; simpa using h4
    · simp only [getActivationName, hfind]; rw [← hp]; exact h5
    · simp only [getActivationDerivative, hfind]

/-- **C14 (limit)** A symbol of more than 244 bytes in an existing library overruns the buffer for
the derivative's name. -/
theorem C14_long_symbol (dl : DynLinker) (recs : List ActRecord) (symbol lib : String)
    (h : '@' ∉ symbol.toList) (hl : 244 < symbol.utf8ByteSize) (ho : dl.opens lib = true) :
    getActivationFunc dl recs (symbol ++ "@" ++ lib) = .error .oob := by
  have hat : '@' ∈ (symbol ++ "@" ++ lib).toList := by simp
  rw [getActivationFunc_other, getActivationFuncDynamic]
  · have hs : splitAt (symbol ++ "@" ++ lib) = some (symbol, lib) := by
      unfold splitAt
      simp only
      rw [if_pos hat]
      have e : (symbol ++ "@" ++ lib).toList = symbol.toList ++ '@' :: lib.toList := by simp
      have hall : ∀ x ∈ symbol.toList, (x != '@') = true := by
        intro x hx; simp; rintro rfl; exact h hx
      rw [e, List.takeWhile_append_of_pos hall, List.dropWhile_append_of_pos hall]
      simp
    rw [hs]
    simp only
    rw [if_pos ho, if_pos (by omega)]
  · intro b hb e
    rw [e] at hat
    simp only [builtins, List.mem_cons, List.not_mem_nil, or_false] at hb
    rcases hb with rfl | rfl | rfl | rfl | rfl | rfl | rfl | rfl | rfl <;> simp at hat

/-! ### C15 -/

/-- The documented loss names: canonical names, and the abbreviations. -/
def lossTable : List (String × Loss) :=
  [("mean_squared_error", .mse), ("mean_absolute_error", .mae),
   ("mean_absolute_percentage_error", .mape), ("categorical_crossentropy", .cce),
   ("binary_crossentropy", .bce)]

def lossAliases : List (String × Loss) := [("mse", .mse), ("mae", .mae), ("mape", .mape)]

/-- **C15** A string is accepted as the loss `l` exactly if it is the canonical name of `l` or its
abbreviation. -/
theorem C15_loss_accepts (name : String) (l : Loss) :
    getLossFunc name = some l ↔ (name, l) ∈ lossTable ∨ (name, l) ∈ lossAliases := by
  constructor
  · intro h
    unfold getLossFunc at h
    repeat' (split at h)
    all_goals first
      | (simp only [Option.some.injEq] at h; subst h; subst name; simp [lossTable, lossAliases])
      | simp at h
  · intro h
    simp only [lossTable, lossAliases, List.mem_cons, List.not_mem_nil, or_false, Prod.mk.injEq] at h
    rcases h with (⟨rfl, rfl⟩ | ⟨rfl, rfl⟩ | ⟨rfl, rfl⟩ | ⟨rfl, rfl⟩ | ⟨rfl, rfl⟩) |
      (⟨rfl, rfl⟩ | ⟨rfl, rfl⟩ | ⟨rfl, rfl⟩) <;> rfl

/-- **C15** The printed name of a loss is accepted and denotes the same loss. -/
theorem C15_loss_roundtrip (l : Loss) : getLossFunc (getLossName (some l)) = some l := by
  cases l <;> rfl

/-- The metric that measures a loss. -/
def metricOf : Loss → Metric
  | .mse => .mse
  | .mae => .mae
  | .mape => .mape
  | .cce => .cce
  | .bce => .bce

/-- **C15** Losses and metrics agree on names: a string accepted as a loss is accepted as the metric
measuring it, and prints back as the same name. -/
theorem C15_loss_is_metric (name : String) (l : Loss) (h : getLossFunc name = some l) :
    getMetricFunc name = some (metricOf l) ∧
      getMetricName (some (metricOf l)) = getLossName (some l) := by
  rw [C15_loss_accepts] at h
  simp only [lossTable, lossAliases, List.mem_cons, List.not_mem_nil, or_false, Prod.mk.injEq] at h
  rcases h with (⟨rfl, rfl⟩ | ⟨rfl, rfl⟩ | ⟨rfl, rfl⟩ | ⟨rfl, rfl⟩ | ⟨rfl, rfl⟩) |
    (⟨rfl, rfl⟩ | ⟨rfl, rfl⟩ | ⟨rfl, rfl⟩) <;> exact ⟨rfl, rfl⟩

/-- **C15** The same for metrics, which have two more names. -/
theorem C15_metric_accepts (name : String) (m : Metric) :
    getMetricFunc name = some m ↔
      (∃ l, getLossFunc name = some l ∧ m = metricOf l) ∨
      (name = "categorical_accuracy" ∧ m = .categoricalAccuracy) ∨
      (name = "binary_accuracy" ∧ m = .binaryAccuracy) := by
  constructor
  · intro h
    unfold getMetricFunc at h
    repeat' (split at h)
    all_goals first
      | (simp only [Option.some.injEq] at h; subst h; subst name
         first
          | exact .inl ⟨.mse, rfl, rfl⟩
          | exact .inl ⟨.mae, rfl, rfl⟩
          | exact .inl ⟨.mape, rfl, rfl⟩
          | exact .inl ⟨.cce, rfl, rfl⟩
          | exact .inl ⟨.bce, rfl, rfl⟩
          | exact .inr (.inl ⟨rfl, rfl⟩)
          | exact .inr (.inr ⟨rfl, rfl⟩))
      | simp at h
  · rintro (⟨l, h, rfl⟩ | ⟨rfl, rfl⟩ | ⟨rfl, rfl⟩)
    · exact (C15_loss_is_metric name l h).1
    · rfl
    · rfl

/-- **C15** Metric names print back and parse. -/
theorem C15_metric_roundtrip (m : Metric) : getMetricFunc (getMetricName (some m)) = some m := by
  cases m <;> rfl

/-! ### Examples -/

/-- A library `libswish.so` with a function `swish` and its derivative. -/
def exLinker : DynLinker where
  opens lib := lib == "libswish.so"
  sym lib s := if lib = "libswish.so" then
    (if s = "swish" then some 100 else if s = "swish_derivative" then some 101 else none) else none

example : loads exLinker ["relu", "swish@libswish.so", "gelu@libswish.so", "nothing"] [] =
    .ok ([some .relu, some (.custom 100), none, none], [⟨"swish@libswish.so", 100, some 101⟩]) := by
  rfl

end NN
