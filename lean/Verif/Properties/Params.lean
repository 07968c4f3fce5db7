import Verif.Proofs.Params
import Verif.Properties.Predict
/-
C11 – C13: neuralnet_set_loss, neuralnet_update, neuralnet_get_parameters,
neuralnet_total_n_parameters.
-/
set_option linter.unusedSimpArgs false
set_option linter.unusedSectionVars false

namespace NN
open FloatOps
variable {F : Type}

/-! ### C11 -/

/-- **C11** A call with a known name wipes out every trace of earlier calls. -/
theorem C11_last_wins (recs : List ActRecord) (nn : Net F) (history : List String) (name : String)
    (h : getLossFunc name ≠ none) :
    setLoss recs (history.foldl (setLoss recs) nn) name = setLoss recs nn name := by
  have hmatch : ∀ (loss : Loss) (ls : List (Layer F)),
      (matchPair loss (ls.map (resetDeriv recs))).map (resetDeriv recs) = ls.map (resetDeriv recs) := by
    intro loss ls
    have e : (ls.map (resetDeriv recs)).map (resetDeriv recs) = ls.map (resetDeriv recs) := by
      rw [List.map_map]; rfl
    unfold matchPair
    cases hg : (ls.map (resetDeriv recs)).getLast? with
    | none => exact e
    | some last =>
      simp only
      split
      · have hlast : resetDeriv recs { last with deriv := some .linear } = last := by
          obtain ⟨l0, _, rfl⟩ := List.mem_map.mp (List.mem_of_getLast? hg)
          rfl
        rw [List.map_append, List.map_dropLast, e, List.map_cons, List.map_nil, hlast]
        exact List.dropLast_append_getLast? _ hg
      · exact e
  have key : ∀ (nn : Net F) (n1 : String),
      setLoss recs (setLoss recs nn n1) name = setLoss recs nn name := by
    intro nn n1
    cases hl : getLossFunc name with
    | none => exact absurd hl h
    | some loss =>
      have hmap : (setLoss recs nn n1).layers.map (resetDeriv recs) = nn.layers.map (resetDeriv recs) := by
        cases h1 : getLossFunc n1 with
        | none => simp only [setLoss, h1]
        | some l1 => simp only [setLoss, h1]; exact hmatch l1 nn.layers
      have hloss : ∀ m : Net F, setLoss recs m name =
          ⟨matchPair loss (m.layers.map (resetDeriv recs)), some loss⟩ := by
        intro m; simp only [setLoss, hl]
      rw [hloss, hloss nn, hmap]
  induction history generalizing nn with
  | nil => rfl
  | cons n1 rest ih => rw [List.foldl_cons, ih, key]

/-- **C11** What a call with a known name sets: the loss; for every layer the derivative of its
activation, except that the output layer gets the empty derivative for the two matching pairs. -/
theorem C11_sets (recs : List ActRecord) (nn : Net F) (name : String) (loss : Loss)
    (h : getLossFunc name = some loss) :
    (setLoss recs nn name).loss = some loss ∧
    (setLoss recs nn name).layers.length = nn.layers.length ∧
    ∀ (i : ℕ) (l : Layer F), nn.layers[i]? = some l →
      (setLoss recs nn name).layers[i]? = some ⟨l.nIn, l.nOut, l.weight, l.bias, l.act,
        if i + 1 = nn.layers.length ∧
          ((loss = .bce ∧ l.act = .sigmoid) ∨ (loss = .cce ∧ l.act = .softmax))
        then some .linear else getActivationDerivative recs l.act⟩ := by
  have e : setLoss recs nn name = ⟨matchPair loss (nn.layers.map (resetDeriv recs)), some loss⟩ := by
    simp only [setLoss, h]
  refine ⟨by rw [e], ?_, ?_⟩
  · rw [e]
    simp only [matchPair]
    cases hg : (nn.layers.map (resetDeriv recs)).getLast? with
    | none => simp
    | some last =>
      simp only
      split
      · have : 0 < nn.layers.length := by
          cases hn : nn.layers with
          | nil => simp [hn] at hg
          | cons a b => simp
        simp; omega
      · simp
  · intro i l hi
    have hil : i < nn.layers.length := by
      rw [List.getElem?_eq_some_iff] at hi; exact hi.1
    rw [e]
    simp only [matchPair]
    cases hg : (nn.layers.map (resetDeriv recs)).getLast? with
    | none =>
      have : nn.layers = [] := by simpa using hg
      rw [this] at hi; simp at hi
    | some last =>
      simp only
      have hlast : (nn.layers.map (resetDeriv recs))[nn.layers.length - 1]? = some last := by
        rw [List.getLast?_eq_getElem?] at hg
        simpa using hg
      by_cases hil2 : i + 1 = nn.layers.length
      · have hi' : nn.layers.length - 1 = i := by omega
        rw [hi'] at hlast
        have hd : resetDeriv recs l = last := by
          rw [List.getElem?_map, hi] at hlast; simpa using hlast
        have ha : last.act = l.act := by rw [← hd]; rfl
        rw [ha]
        by_cases hm : (loss = .bce ∧ l.act = .sigmoid) ∨ (loss = .cce ∧ l.act = .softmax)
        · rw [if_pos hm, if_pos ⟨hil2, hm⟩, List.getElem?_append_right (by simp; omega)]
          have : i - ((nn.layers.map (resetDeriv recs)).dropLast).length = 0 := by simp; omega
          rw [this, ← hd]
          rfl
        · rw [if_neg hm, if_neg (fun h => hm h.2), List.getElem?_map, hi]
          rfl
      · have hne : ¬(i + 1 = nn.layers.length ∧
            ((loss = .bce ∧ l.act = .sigmoid) ∨ (loss = .cce ∧ l.act = .softmax))) := fun h => hil2 h.1
        rw [if_neg hne]
        split
        · rw [List.getElem?_append_left (by simp; omega), List.getElem?_dropLast]
          rw [if_pos (by simp; omega), List.getElem?_map, hi]
          rfl
        · rw [List.getElem?_map, hi]
          rfl

/-- **C11** An unknown name leaves no loss and changes nothing else. -/
theorem C11_unknown (recs : List ActRecord) (nn : Net F) (name : String) (h : getLossFunc name = none) :
    setLoss recs nn name = { nn with loss := none } := by
  simp only [setLoss, h]

/-- The network without its derivative pointers. -/
def eraseDeriv (nn : Net F) : List (Layer F) := nn.layers.map fun l => { l with deriv := none }

theorem setLoss_erase (recs : List ActRecord) (nn : Net F) (name : String) :
    eraseDeriv (setLoss recs nn name) = eraseDeriv nn := by
  cases hl : getLossFunc name with
  | none => simp [setLoss, hl, eraseDeriv]
  | some loss =>
    apply List.ext_getElem?
    intro i
    obtain ⟨-, h2, h3⟩ := C11_sets recs nn name loss hl
    simp only [eraseDeriv, List.getElem?_map]
    rcases hi : nn.layers[i]? with _ | l
    · have : (setLoss recs nn name).layers[i]? = none := by
        rw [List.getElem?_eq_none_iff] at hi ⊢; omega
      rw [this]
    · rw [h3 i l hi]; rfl

section
variable [FloatOps F]

theorem layout_erase (c : Cfg) (a : ℕ) : ∀ (off : ℕ) (ls : List (Layer F)),
    layout c a off (ls.map fun l => { l with deriv := none }) = layout c a off ls
  | _, [] => rfl
  | _, [_] => rfl
  | off, l :: l' :: ls => by
    have := layout_erase c a (off + padded c l.nOut) (l' :: ls)
    simp only [List.map_cons] at this
    simp only [List.map_cons, layout, this]

theorem forward_erase (env : CustomEnv F) (c : Cfg) : ∀ (ls : List (Layer F)) (src : Ptr)
    (dsts : List Ptr) (s : Bufs F),
    forward env c (ls.map fun l => { l with deriv := none }) src dsts s = forward env c ls src dsts s
  | [], _, _, _ => rfl
  | _ :: _, _, [], _ => rfl
  | l :: ls, src, d :: ds, s => by
    simp only [List.map_cons, forward]
    have : forwardStep env c { l with deriv := none } src d s = forwardStep env c l src d s := rfl
    rw [this]
    congr 1
    funext s'
    exact forward_erase env c ls d ds s'

theorem predict_erase (env : CustomEnv F) (c : Cfg) (wa : ℕ) (junk : ℕ → F) (nn : Net F)
    (input out : View F) (o : Option Loss) :
    predict env c wa junk ⟨eraseDeriv nn, o⟩ input out = predict env c wa junk nn input out := by
  have h1 : workSize (eraseDeriv nn) = workSize nn.layers := by
    simp [workSize, eraseDeriv, Function.comp_def]
  have h2 : layout c wa 0 (eraseDeriv nn).dropLast = layout c wa 0 nn.layers.dropLast := by
    rw [eraseDeriv, ← List.map_dropLast, layout_erase]
  simp only [predict, h1, h2]
  simp only [eraseDeriv, List.length_map, forward_erase]

/-- **C11** `neuralnet_predict` does not notice any history of `neuralnet_set_loss` calls. -/
theorem C11_predict_unaffected (recs : List ActRecord) (env : CustomEnv F) (c : Cfg) (wa : ℕ)
    (junk : ℕ → F) (nn : Net F) (history : List String) (input out : View F) :
    predict env c wa junk (history.foldl (setLoss recs) nn) input out =
      predict env c wa junk nn input out := by
  induction history generalizing nn with
  | nil => rfl
  | cons n rest ih =>
    rw [List.foldl_cons, ih, ← predict_erase env c wa junk (setLoss recs nn n) input out none,
      setLoss_erase, predict_erase]

end

/-! ### C12 -/

/-- The flat parameter vector in the documented order: for each layer from input to output the
biases, then the row-major weights. -/
def flatParams (nn : Net F) : List F := nn.layers.flatMap fun l => l.bias.data ++ l.weight.data

/-- **C12** `neuralnet_get_parameters` writes exactly the parameter vector and nothing after it. -/
theorem C12_get (c : Cfg) (nn : Net F) (p : View F) (hw : nn.WF c)
    (hp : (flatParams nn).length ≤ p.data.length) :
    getParameters nn p = .ok ⟨p.addr, flatParams nn ++ p.data.drop (flatParams nn).length⟩ := by
  have hl : (flatParams nn).length = nParams nn.layers := params_length c nn.layers hw.layer
  rw [hl] at hp ⊢
  exact getParameters_eq c nn p hw.layer hp

section
variable [FloatOps F]

/-- **C12** `neuralnet_update` adds the vector elementwise to the parameters (one float addition
each) and changes nothing else: sizes, activations, derivatives, loss and buffers stay. -/
theorem C12_update (c : Cfg) (nn : Net F) (delta : View F) (hw : nn.WF c)
    (hd : (flatParams nn).length ≤ delta.data.length) :
    ∃ nn', update c nn delta = .ok nn' ∧ nn'.WF c ∧ nn'.loss = nn.loss ∧
      flatParams nn' = List.zipWith add (flatParams nn) delta.data ∧
      nn'.layers.map (fun l => (l.nIn, l.nOut, l.act, l.deriv, l.weight.addr, l.bias.addr)) =
        nn.layers.map (fun l => (l.nIn, l.nOut, l.act, l.deriv, l.weight.addr, l.bias.addr)) := by
  have hl : (flatParams nn).length = nParams nn.layers := params_length c nn.layers hw.layer
  rw [hl] at hd
  have hz : (List.zipWith add (params nn.layers) delta.data).length = nParams nn.layers := by
    rw [List.length_zipWith, params_length c nn.layers hw.layer]; omega
  refine ⟨_, update_eq c nn delta hw.layer hd, ⟨?_, ?_, ?_⟩, rfl, ?_, ?_⟩
  · have := hw.ne
    cases h : nn.layers with
    | nil => exact absurd h this
    | cons a b => simp [withParams]
  · exact withParams_wf c _ _ hz hw.layer
  · exact withParams_chained _ _ hw.chain
  · exact params_withParams _ _ hz
  · have : ∀ (ls : List (Layer F)) (p : List F),
        (withParams ls p).map (fun l => (l.nIn, l.nOut, l.act, l.deriv, l.weight.addr, l.bias.addr)) =
          ls.map (fun l => (l.nIn, l.nOut, l.act, l.deriv, l.weight.addr, l.bias.addr)) := by
      intro ls
      induction ls with
      | nil => intro p; rfl
      | cons l ls ih => intro p; simp only [withParams, List.map_cons, ih]
    exact this _ _

/-- A sequence of updates. -/
def updates (c : Cfg) (nn : Net F) (ds : List (View F)) : M (Net F) := ds.foldlM (update c) nn

end

theorem zipWith_add_assoc (p a b : List ℝ) :
    List.zipWith add (List.zipWith add p a) b = List.zipWith add p (List.zipWith (· + ·) a b) := by
  apply List.ext_getElem?; intro i
  simp only [List.getElem?_zipWith]
  rcases p[i]? with _ | x <;> rcases a[i]? with _ | y <;> rcases b[i]? with _ | z <;> simp
  ring

/-- **C12** In exact arithmetic any sequence of updates adds up: the parameters end as the initial
ones plus the sum of all deltas, entry by entry. -/
theorem C12_sequence (c : Cfg) (nn : Net ℝ) (ds : List (View ℝ)) (hw : nn.WF c)
    (hd : ∀ d ∈ ds, (flatParams nn).length ≤ d.data.length) :
    ∃ nn', updates c nn ds = .ok nn' ∧ nn'.WF c ∧ (flatParams nn').length = (flatParams nn).length ∧
      ∀ i, i < (flatParams nn).length →
        Spec.at_ (flatParams nn') i =
          Spec.at_ (flatParams nn) i + (ds.map fun d => Spec.at_ d.data i).sum := by
  induction ds generalizing nn with
  | nil => exact ⟨nn, rfl, hw, rfl, by simp⟩
  | cons d ds ih =>
    obtain ⟨n1, h1, hw1, -, hp, -⟩ := C12_update c nn d hw (hd d (by simp))
    have hdl := hd d (by simp)
    have hl : (flatParams n1).length = (flatParams nn).length := by
      rw [hp, List.length_zipWith]; omega
    obtain ⟨n2, h2, hw2, hl2, hs⟩ := ih n1 hw1 (fun e he => by rw [hl]; exact hd e (by simp [he]))
    refine ⟨n2, ?_, hw2, by omega, ?_⟩
    · simp only [updates, List.foldlM_cons, h1, bind, Except.bind]
      exact h2
    · intro i hi
      rw [hs i (by omega)]
      have h3 : Spec.at_ (flatParams n1) i = Spec.at_ (flatParams nn) i + Spec.at_ d.data i := by
        rw [hp, at_eq (by rw [List.length_zipWith]; omega), at_eq hi, at_eq (by omega)]
        simp
      rw [h3, List.map_cons, List.sum_cons]; ring

/-- **C12** In exact arithmetic an update followed by the opposite update restores the network. -/
theorem C12_inverse (c : Cfg) (nn : Net ℝ) (d d' : View ℝ) (hw : nn.WF c)
    (hd : (flatParams nn).length ≤ d.data.length) (hd' : d'.data = d.data.map (fun x => -x)) :
    updates c nn [d, d'] = .ok nn := by
  have hl : (flatParams nn).length = nParams nn.layers := params_length c nn.layers hw.layer
  rw [hl] at hd
  have hz : (List.zipWith add (params nn.layers) d.data).length = nParams nn.layers := by
    rw [List.length_zipWith, params_length c nn.layers hw.layer]; omega
  simp only [updates, List.foldlM_cons, List.foldlM_nil, update_eq c nn d hw.layer hd, bind, Except.bind]
  rw [update_eq c _ d' (withParams_wf c _ _ hz hw.layer)
    (by simp only [nParams_withParams, hd', List.length_map]; exact hd)]
  simp only [pure, Except.pure]
  rw [params_withParams _ _ hz, withParams_withParams, zipWith_add_assoc, hd']
  have : List.zipWith add (params nn.layers)
      (List.zipWith (· + ·) d.data (d.data.map (fun x => -x))) = params nn.layers := by
    have hpl := params_length c nn.layers hw.layer
    apply List.ext_getElem?; intro i
    simp only [List.getElem?_zipWith, List.getElem?_map]
    by_cases hi : i < nParams nn.layers
    · have h1 : i < (params nn.layers).length := by omega
      have h2 : i < d.data.length := by omega
      simp [h1, h2]
    · have h1 : (params nn.layers)[i]? = none := by rw [List.getElem?_eq_none]; omega
      simp [h1]
  rw [this, withParams_params c nn.layers hw.layer]

/-! ### C13 -/

/-- **C13** As long as no layer overflows `int`, `neuralnet_total_n_parameters` is the number of
parameters modulo 2^32. -/
theorem C13_count (c : Cfg) (nn : Net F) (hw : nn.WF c)
    (hi : ∀ l ∈ nn.layers, (l.nIn + 1) * l.nOut < 2 ^ 31) :
    totalNParameters nn = .ok ((flatParams nn).length % 2 ^ 32) := by
  have hl : (flatParams nn).length = nParams nn.layers := params_length c nn.layers hw.layer
  rw [totalNParameters, totalNParametersLoop_eq _ _ hi (by decide), hl, Nat.zero_add]

/-- **C13** So it is exact whenever it fits. -/
theorem C13_exact (c : Cfg) (nn : Net F) (hw : nn.WF c)
    (hi : ∀ l ∈ nn.layers, (l.nIn + 1) * l.nOut < 2 ^ 31) (h : (flatParams nn).length < 2 ^ 32) :
    totalNParameters nn = .ok (flatParams nn).length := by
  rw [C13_count c nn hw hi, Nat.mod_eq_of_lt h]

/-- **C13** A buffer of that many floats is enough for `neuralnet_get_parameters` and
`neuralnet_update`, and with one float less `neuralnet_get_parameters` runs out of bounds. -/
theorem C13_buffer [FloatOps F] (c : Cfg) (nn : Net F) (hw : nn.WF c)
    (hi : ∀ l ∈ nn.layers, (l.nIn + 1) * l.nOut < 2 ^ 31) (h : (flatParams nn).length < 2 ^ 32)
    (n : ℕ) (hn : totalNParameters nn = .ok n) :
    (∀ p : View F, p.data.length = n → getParameters nn p = .ok ⟨p.addr, flatParams nn⟩) ∧
    (∀ d : View F, d.data.length = n → ∃ nn', update c nn d = .ok nn') := by
  rw [C13_exact c nn hw hi h] at hn
  have hn : (flatParams nn).length = n := by simpa using hn
  constructor
  · intro p hp
    rw [C12_get c nn p hw (by omega), List.drop_of_length_le (by omega), List.append_nil]
  · intro d hd
    obtain ⟨nn', h1, -⟩ := C12_update c nn d hw (by omega)
    exact ⟨nn', h1⟩

/-- **C13 (limit)** A layer with 2^31 or more parameters makes the count undefined. -/
theorem C13_overflow (l : Layer F) (ls : List (Layer F)) (loss : Option Loss)
    (h : 2 ^ 31 ≤ (l.nIn + 1) * l.nOut) :
    totalNParameters ⟨l :: ls, loss⟩ = .error .overflow := by
  simp only [totalNParameters, totalNParametersLoop]
  rw [if_neg (by omega)]

/-! ### Examples -/

example : flatParams exNet = [0, 1, -1, 1, 2, 3, -1, 0, 1, 10, 1, 2, 3] := rfl

example : totalNParameters exNet = .ok 13 :=
  C13_exact cfgAvx exNet (exNet_wf _) (by
    intro l hl
    simp only [exNet, List.mem_cons, List.not_mem_nil, or_false] at hl
    rcases hl with rfl | rfl <;> simp) (by simp [exNet, flatParams])

example : ∃ nn', update cfgAvx exNet ⟨0, List.replicate 13 1⟩ = .ok nn' ∧
    flatParams nn' = [1, 2, 0, 2, 3, 4, 0, 1, 2, 11, 2, 3, 4] := by
  obtain ⟨nn', h1, -, -, h2, -⟩ := C12_update cfgAvx exNet ⟨0, List.replicate 13 1⟩ (exNet_wf _)
    (by simp [exNet, flatParams])
  refine ⟨nn', h1, ?_⟩
  rw [h2]
  simp [exNet, flatParams, List.replicate]
  norm_num

example : (setLoss [] exNet "mse").layers.map Layer.deriv = [some .relu, some .linear] := by
  simp [setLoss, getLossFunc, exNet, getActivationDerivative, matchPair, resetDeriv]

example : ["binary_crossentropy", "nonsense", "mae"].foldl (setLoss []) exNet = setLoss [] exNet "mae" := by
  have := C11_last_wins [] exNet ["binary_crossentropy", "nonsense"] "mae" (by decide)
  exact this

end NN
