import Verif.Model.Create
import Verif.Model.NanOps
import Mathlib.Tactic.Linarith
import Mathlib.Tactic.FieldSimp
import Mathlib.Tactic.Ring
/-
C54: `neuralnet_initialize`.
-/
set_option linter.unusedSectionVars false

namespace NN
open FloatOps
section
variable {F : Type} [FloatOps F]

/-! ### `fill_data` and `memset` write the whole array -/

/-- `n` numbers from the generator, scaled. -/
def draws (dist : RandState F → M (F × RandState F)) (scale : F) : Nat → RandState F → M (List F × RandState F)
  | 0, s => pure ([], s)
  | n + 1, s => do
    let (x, s) ← dist s
    let (xs, s) ← draws dist scale n s
    pure (mul x scale :: xs, s)

theorem fillData_eq (dist : RandState F → M (F × RandState F)) (scale : F) (a : Nat) (n : Nat) :
    ∀ (pre old : List F) (s : RandState F), old.length = n →
    fillData dist scale n pre.length ⟨a, pre ++ old⟩ s = (do
      let (xs, s) ← draws dist scale n s
      pure (⟨a, pre ++ xs⟩, s)) := by
  induction n with
  | zero =>
    intro pre old s h
    have : old = [] := by simpa using h
    subst this
    rfl
  | succ n ih =>
    intro pre old s h
    match old, h with
    | o :: old, h =>
      rw [fillData, draws]
      cases hd : dist s with
      | error e => rfl
      | ok p =>
        obtain ⟨x, s1⟩ := p
        have hst : (⟨a, pre ++ o :: old⟩ : View F).store pre.length (mul x scale) = .ok ⟨a, pre ++ mul x scale :: old⟩ := by
          simp [View.store]
        have := ih (pre ++ [mul x scale]) old s1 (by simpa using h)
        simp only [List.append_assoc, List.singleton_append, List.length_append, List.length_singleton] at this
        simp only [bind, Except.bind, hst, this]
        cases draws dist scale n s1 with
        | error e => rfl
        | ok q => rfl

theorem zeroFill_eq (a : Nat) (n : Nat) : ∀ (pre old : List F), old.length = n →
    zeroFill n pre.length ⟨a, pre ++ old⟩ = .ok ⟨a, pre ++ List.replicate n zero⟩ := by
  induction n with
  | zero =>
    intro pre old h
    have : old = [] := by simpa using h
    subst this
    rfl
  | succ n ih =>
    intro pre old h
    match old, h with
    | o :: old, h =>
      have hst : (⟨a, pre ++ o :: old⟩ : View F).store pre.length zero = .ok ⟨a, pre ++ zero :: old⟩ := by
        simp [View.store]
      have := ih (pre ++ [zero]) old (by simpa using h)
      simp only [List.append_assoc, List.singleton_append, List.length_append, List.length_singleton] at this
      simp only [zeroFill, bind, Except.bind, hst, this]
      rw [List.replicate_succ]

/-- A layer has room for its parameters. -/
def Layer.Sized (l : Layer F) : Prop := l.weight.data.length = l.nIn * l.nOut ∧ l.bias.data.length = l.nOut

/-! ### Which scheme -/

inductive Scheme where
  | xavier | kaiming | normal
  deriving DecidableEq

/-- The documented choice: by name, otherwise by the activation function. -/
def schemeOf (initializer : String) (a : Act) : Scheme :=
  if initializer = "xavier" then .xavier
  else if initializer = "kaiming" then .kaiming
  else match a with
    | .sigmoid => .xavier
    | .tanh => .xavier
    | .softmax => .xavier
    | .hardSigmoid => .xavier
    | .softsign => .xavier
    | .relu => .kaiming
    | .softplus => .kaiming
    | _ => .normal

/-- Loaded activation functions have names "symbol@library". -/
def RecsNamed (recs : List ActRecord) : Prop := ∀ r ∈ recs, '@' ∈ r.name.toList

/-- The weights of a layer. -/
def layerDraws (g : Rand) (fuel : Nat) (nIn nOut : Nat) (sch : Scheme) (s : RandState F) : M (List F × RandState F) :=
  match sch with
  | .xavier =>
    if nIn + nOut < 2 ^ 31 then draws (randomUniform g) (sqrt (div (lit 6 1) (ofNat (nIn + nOut)))) (nIn * nOut) s
    else .error .overflow
  | .kaiming => draws (randomNormal g fuel) (sqrt (div (lit 2 1) (ofNat nIn))) (nIn * nOut) s
  | .normal => draws (randomNormal g fuel) one (nIn * nOut) s

theorem custom_name {recs : List ActRecord} (hr : RecsNamed recs) (f : Nat) :
    getActivationName recs (.custom f) ∉ ["sigmoid", "tanh", "softmax", "hard_sigmoid", "softsign"] ∧
    getActivationName recs (.custom f) ∉ ["relu", "softplus"] := by
  have key : ∀ n : String, n = "(unknown)" ∨ '@' ∈ n.toList →
      n ∉ ["sigmoid", "tanh", "softmax", "hard_sigmoid", "softsign"] ∧ n ∉ ["relu", "softplus"] := by
    intro n hn
    constructor <;> intro h <;> simp only [List.mem_cons, List.not_mem_nil, or_false] at h
    · rcases h with rfl | rfl | rfl | rfl | rfl <;> exact absurd hn (by decide)
    · rcases h with rfl | rfl <;> exact absurd hn (by decide)
  apply key
  rw [getActivationName]
  cases h : recs.find? (fun r => r.func == f) with
  | none => exact .inl rfl
  | some r => exact .inr (hr r (List.mem_of_find?_eq_some h))

/-- One layer: its weights are the next numbers from the generator, its biases 0. -/
theorem initLayer_eq {g : Rand} {fuel : Nat} {recs : List ActRecord} (hr : RecsNamed recs) {ini : String} {l : Layer F}
    (hl : l.Sized) (s : RandState F) (hs : l.nIn * l.nOut < 2 ^ 31) :
    initLayer g fuel recs ini l s = (do
      let (xs, s) ← layerDraws g fuel l.nIn l.nOut (schemeOf ini l.act) s
      pure ({ l with weight := ⟨l.weight.addr, xs⟩, bias := ⟨l.bias.addr, List.replicate l.nOut zero⟩ }, s)) := by
  have hf : ∀ (dist : RandState F → M (F × RandState F)) (scale : F),
      fillData dist scale (l.nIn * l.nOut) 0 l.weight s = (do
        let (xs, s) ← draws dist scale (l.nIn * l.nOut) s
        pure (⟨l.weight.addr, xs⟩, s)) := fun dist scale => fillData_eq dist scale l.weight.addr _ [] l.weight.data s hl.1
  have hz : zeroFill l.nOut 0 l.bias = .ok ⟨l.bias.addr, List.replicate l.nOut zero⟩ :=
    zeroFill_eq l.bias.addr _ [] l.bias.data hl.2
  have hx : fillXavier g l s = (do
      let (xs, s) ← layerDraws g fuel l.nIn l.nOut .xavier s
      pure (⟨l.weight.addr, xs⟩, s)) := by
    simp only [fillXavier, layerDraws, hf]
    split_ifs <;> rfl
  have hk : fillKaiming g fuel l s = (do
      let (xs, s) ← layerDraws g fuel l.nIn l.nOut .kaiming s
      pure (⟨l.weight.addr, xs⟩, s)) := by
    simp only [fillKaiming, layerDraws, hf]
  have hn : fillData (randomNormal g fuel) one (l.nIn * l.nOut) 0 l.weight s = (do
      let (xs, s) ← layerDraws g fuel l.nIn l.nOut .normal s
      pure (⟨l.weight.addr, xs⟩, s)) := by
    simp only [layerDraws, hf]
  have hname : (if getActivationName recs l.act ∈ ["sigmoid", "tanh", "softmax", "hard_sigmoid", "softsign"] then
        fillXavier g l s
      else if getActivationName recs l.act ∈ ["relu", "softplus"] then fillKaiming g fuel l s
      else fillData (randomNormal g fuel) one (l.nIn * l.nOut) 0 l.weight s) = (do
      let (xs, s) ← layerDraws g fuel l.nIn l.nOut (schemeOf "" l.act) s
      pure (⟨l.weight.addr, xs⟩, s)) := by
    cases hact : l.act with
    | custom f =>
      obtain ⟨c1, c2⟩ := custom_name hr f
      rw [if_neg c1, if_neg c2]
      exact hn
    | linear => exact hn
    | exponential => exact hn
    | relu => exact hk
    | softplus => exact hk
    | _ => exact hx
  have hw : fillWeights g fuel recs ini l s = (do
      let (xs, s) ← layerDraws g fuel l.nIn l.nOut (schemeOf ini l.act) s
      pure (⟨l.weight.addr, xs⟩, s)) := by
    unfold fillWeights
    by_cases h1 : ini = "xavier"
    · subst h1
      exact hx
    · by_cases h2 : ini = "kaiming"
      · subst h2
        exact hk
      · have he : schemeOf ini l.act = schemeOf "" l.act := by
          unfold schemeOf
          rw [if_neg h1, if_neg h2, if_neg (by decide), if_neg (by decide)]
        rw [if_neg h1, if_neg h2, hname, he]
  rw [initLayer, if_pos hs, hw]
  cases layerDraws g fuel l.nIn l.nOut (schemeOf ini l.act) s with
  | error e => rfl
  | ok p => simp only [bind, Except.bind, pure, Except.pure, hz]

/-- The `i`-th layer of the result comes from the `i`-th layer of the network. -/
theorem initLayers_spec {g : Rand} {fuel : Nat} {recs : List ActRecord} {inits : Option (List (Option String))}
    (Inv : RandState F → Prop)
    (hinv : ∀ ini (l l' : Layer F) s s', Inv s → initLayer g fuel recs ini l s = .ok (l', s') → Inv s') (ls : List (Layer F)) :
    ∀ (i : Nat) (ls' : List (Layer F)) (s s' : RandState F), Inv s → initLayers g fuel recs inits i ls s = .ok (ls', s') →
    Inv s' ∧ ls'.length = ls.length ∧ ∀ (j : Nat) (l : Layer F), ls[j]? = some l → ∃ l' ini s1 s2, ls'[j]? = some l' ∧
      readInitializer inits (i + j) = .ok ini ∧ Inv s1 ∧ initLayer g fuel recs ini l s1 = .ok (l', s2) := by
  induction ls with
  | nil =>
    intro i ls' s s' hs h
    simp only [initLayers, pure, Except.pure, Except.ok.injEq, Prod.mk.injEq] at h
    obtain ⟨rfl, rfl⟩ := h
    exact ⟨hs, rfl, by simp⟩
  | cons l ls ih =>
    intro i ls' s s' hs h
    rw [initLayers] at h
    cases h1 : readInitializer inits i with
    | error e => rw [h1] at h; simp [bind, Except.bind] at h
    | ok ini =>
      cases h2 : initLayer g fuel recs ini l s with
      | error e => simp [h1, h2, bind, Except.bind] at h
      | ok p =>
        obtain ⟨l1, s1⟩ := p
        cases h3 : initLayers g fuel recs inits (i + 1) ls s1 with
        | error e => simp [h1, h2, h3, bind, Except.bind] at h
        | ok q =>
          obtain ⟨ls1, s2⟩ := q
          simp only [h1, h2, h3, bind, Except.bind, pure, Except.pure, Except.ok.injEq, Prod.mk.injEq] at h
          obtain ⟨rfl, rfl⟩ := h
          obtain ⟨k1, k2, k3⟩ := ih (i + 1) ls1 s1 s2 (hinv ini l l1 s s1 hs h2) h3
          refine ⟨k1, by simp [k2], ?_⟩
          intro j x hx
          cases j with
          | zero =>
            simp only [List.getElem?_cons_zero, Option.some.injEq] at hx
            subst hx
            exact ⟨l1, ini, s, s1, rfl, h1, hs, h2⟩
          | succ j =>
            obtain ⟨l', ini', t1, t2, e1, e2, e3⟩ := k3 j x (by simpa using hx)
            exact ⟨l', ini', t1, t2, by simpa using e1, by rw [← e2]; congr 1; omega, e3⟩

/-- A network whose layers have room for their parameters, and fewer than 2^31 weights each. -/
def Net.Sized (nn : Net F) : Prop := ∀ l ∈ nn.layers, l.Sized ∧ l.nIn * l.nOut < 2 ^ 31

theorem draws_length {dist : RandState F → M (F × RandState F)} {scale : F} {n : Nat} : ∀ {s s' : RandState F} {xs : List F},
    draws dist scale n s = .ok (xs, s') → xs.length = n := by
  induction n with
  | zero =>
    intro s s' xs h
    simp only [draws, pure, Except.pure, Except.ok.injEq, Prod.mk.injEq] at h
    rw [← h.1]; rfl
  | succ n ih =>
    intro s s' xs h
    rw [draws] at h
    cases h1 : dist s with
    | error e => simp [h1, bind, Except.bind] at h
    | ok p =>
      cases h2 : draws dist scale n p.2 with
      | error e => simp [h1, h2, bind, Except.bind] at h
      | ok q =>
        simp only [h1, h2, bind, Except.bind, pure, Except.pure, Except.ok.injEq, Prod.mk.injEq] at h
        rw [← h.1, List.length_cons, ih (s := p.2) (s' := q.2) (xs := q.1) h2]

theorem layerDraws_length {g : Rand} {fuel nIn nOut : Nat} {sch : Scheme} {s s' : RandState F} {xs : List F}
    (h : layerDraws g fuel nIn nOut sch s = .ok (xs, s')) : xs.length = nIn * nOut := by
  cases sch with
  | xavier =>
    simp only [layerDraws] at h
    split_ifs at h
    exact draws_length h
  | kaiming => exact draws_length h
  | normal => exact draws_length h

/-- **C54** After initialisation every bias is 0; sizes, activations, loss and the buffers are those from before, and every
weight is one of the numbers drawn for its layer. -/
theorem C54_values {g : Rand} {fuel : Nat} {recs : List ActRecord} (hr : RecsNamed recs)
    {inits : Option (List (Option String))} {nn nn' : Net F} (hn : nn.Sized) {s s' : RandState F}
    (h : initializeNN g fuel recs inits (some nn) s = .ok (some nn', s')) :
    nn'.loss = nn.loss ∧ nn'.layers.length = nn.layers.length ∧
    ∀ (i : Nat) (l : Layer F), nn.layers[i]? = some l → ∃ l' ini xs s1 s2, nn'.layers[i]? = some l' ∧
      readInitializer inits i = .ok ini ∧
      layerDraws g fuel l.nIn l.nOut (schemeOf ini l.act) s1 = .ok (xs, s2) ∧ xs.length = l.nIn * l.nOut ∧
      l' = { l with weight := ⟨l.weight.addr, xs⟩, bias := ⟨l.bias.addr, List.replicate l.nOut zero⟩ } := by
  rw [initializeNN] at h
  cases h1 : initLayers g fuel recs inits 0 nn.layers s with
  | error e => simp [h1, bind, Except.bind] at h
  | ok p =>
    obtain ⟨ls, s1⟩ := p
    simp only [h1, bind, Except.bind, pure, Except.pure, Except.ok.injEq, Prod.mk.injEq, Option.some.injEq] at h
    obtain ⟨rfl, rfl⟩ := h
    obtain ⟨-, k2, k3⟩ := initLayers_spec (fun _ => True) (fun _ _ _ _ _ _ _ => trivial) nn.layers 0 ls s s1 trivial h1
    refine ⟨rfl, k2, ?_⟩
    intro i l hl
    obtain ⟨l', ini, t1, t2, e1, e2, -, e3⟩ := k3 i l hl
    obtain ⟨hs1, hs2⟩ := hn l (List.mem_of_getElem? hl)
    rw [initLayer_eq hr hs1 t1 hs2] at e3
    cases hd : layerDraws g fuel l.nIn l.nOut (schemeOf ini l.act) t1 with
    | error e => simp [hd, bind, Except.bind] at e3
    | ok q =>
      obtain ⟨xs, t3⟩ := q
      simp only [hd, bind, Except.bind, pure, Except.pure, Except.ok.injEq, Prod.mk.injEq] at e3
      exact ⟨l', ini, xs, t1, t3, e1, by simpa using e2, hd, layerDraws_length hd, e3.1.symm⟩

/-- Everything of a layer but the contents of its buffers. -/
def Layer.shape (l : Layer F) : Nat × Nat × Nat × Nat × Act × Option ActDeriv :=
  (l.nIn, l.nOut, l.weight.addr, l.bias.addr, l.act, l.deriv)

/-- **C54** The result does not depend on what was in the buffers before. -/
theorem C54_fresh {g : Rand} {fuel : Nat} {recs : List ActRecord} (hr : RecsNamed recs)
    {inits : Option (List (Option String))} {nn₁ nn₂ : Net F} (h₁ : nn₁.Sized) (h₂ : nn₂.Sized) (hloss : nn₁.loss = nn₂.loss)
    (hshape : nn₁.layers.map Layer.shape = nn₂.layers.map Layer.shape) (s : RandState F) :
    initializeNN g fuel recs inits (some nn₁) s = initializeNN g fuel recs inits (some nn₂) s := by
  have key : ∀ (ls₁ ls₂ : List (Layer F)) (i : Nat) (s : RandState F),
      (∀ l ∈ ls₁, l.Sized ∧ l.nIn * l.nOut < 2 ^ 31) → (∀ l ∈ ls₂, l.Sized ∧ l.nIn * l.nOut < 2 ^ 31) →
      ls₁.map Layer.shape = ls₂.map Layer.shape →
      initLayers g fuel recs inits i ls₁ s = initLayers g fuel recs inits i ls₂ s := by
    intro ls₁
    induction ls₁ with
    | nil => intro ls₂ i s _ _ h; have : ls₂ = [] := by simpa using h.symm
             subst this; rfl
    | cons l₁ ls₁ ih =>
      intro ls₂ i s k1 k2 h
      match ls₂, h with
      | l₂ :: ls₂, h =>
        simp only [List.map_cons, List.cons.injEq] at h
        obtain ⟨ha, hb⟩ := h
        simp only [Layer.shape, Prod.mk.injEq] at ha
        obtain ⟨a1, a2, a3, a4, a5, a6⟩ := ha
        obtain ⟨p1, p2⟩ := k1 l₁ (by simp)
        obtain ⟨q1, q2⟩ := k2 l₂ (by simp)
        have he : ∀ ini, initLayer g fuel recs ini l₁ s = initLayer g fuel recs ini l₂ s := by
          intro ini
          rw [initLayer_eq hr p1 s p2, initLayer_eq hr q1 s q2, a1, a2, a3, a4, a5]
          obtain ⟨_, _, _, _, _, _⟩ := l₁
          obtain ⟨_, _, _, _, _, _⟩ := l₂
          simp only at a1 a2 a5 a6
          subst a1 a2 a5 a6
          rfl
        rw [initLayers, initLayers]
        cases readInitializer inits i with
        | error e => rfl
        | ok ini =>
          simp only [bind, Except.bind, he ini]
          cases initLayer g fuel recs ini l₂ s with
          | error e => rfl
          | ok p =>
            simp only [ih ls₂ (i + 1) p.2 (fun l hl => k1 l (List.mem_cons_of_mem _ hl))
              (fun l hl => k2 l (List.mem_cons_of_mem _ hl)) hb]
  rw [initializeNN, initializeNN, key nn₁.layers nn₂.layers 0 s h₁ h₂ hshape]
  obtain ⟨l1, o1⟩ := nn₁
  obtain ⟨l2, o2⟩ := nn₂
  simp only at hloss
  subst hloss
  rfl

/-! ### Initialisation succeeds -/

/-- Among any `fuel` consecutive pairs of numbers there is one that is not rejected. -/
def Accepting (F : Type) [FloatOps F] (g : Rand) (fuel : Nat) : Prop :=
  ∀ k, ∃ j < fuel, le one (add (mul (uniformOf g.randMax (g.r (k + 2 * j)) : F) (uniformOf g.randMax (g.r (k + 2 * j))))
    (mul (uniformOf g.randMax (g.r (k + 2 * j + 1))) (uniformOf g.randMax (g.r (k + 2 * j + 1))))) = false

theorem polarLoop_ok {g : Rand} (fuel : Nat) : ∀ k : Nat,
    (∃ j < fuel, le one (add (mul (uniformOf g.randMax (g.r (k + 2 * j)) : F) (uniformOf g.randMax (g.r (k + 2 * j))))
    (mul (uniformOf g.randMax (g.r (k + 2 * j + 1))) (uniformOf g.randMax (g.r (k + 2 * j + 1))))) = false) →
    ∃ p, (polarLoop g fuel k : M (F × F × F × Nat)) = .ok p := by
  induction fuel with
  | zero => rintro k ⟨j, hj, -⟩; omega
  | succ fuel ih =>
    rintro k ⟨j, hj, h⟩
    rw [polarLoop]
    split_ifs with hle
    · cases j with
      | zero => simp only [Nat.mul_zero, Nat.add_zero] at h; rw [h] at hle; cases hle
      | succ j =>
        refine ih (k + 2) ⟨j, by omega, ?_⟩
        rw [show k + 2 + 2 * j = k + 2 * (j + 1) by ring]
        exact h
    · exact ⟨_, rfl⟩

theorem randomNormal_ok {g : Rand} {fuel : Nat} (ha : Accepting F g fuel) (s : RandState F) :
    ∃ p, randomNormal g fuel s = .ok p := by
  rw [randomNormal]
  split_ifs
  · exact ⟨_, rfl⟩
  · obtain ⟨p, hp⟩ := polarLoop_ok (F := F) fuel s.k (ha s.k)
    rw [hp]
    exact ⟨_, rfl⟩

theorem draws_ok {dist : RandState F → M (F × RandState F)} (hd : ∀ s, ∃ p, dist s = .ok p) (scale : F) (n : Nat) :
    ∀ s, ∃ p, draws dist scale n s = .ok p := by
  induction n with
  | zero => intro s; exact ⟨_, rfl⟩
  | succ n ih =>
    intro s
    obtain ⟨p, hp⟩ := hd s
    obtain ⟨q, hq⟩ := ih p.2
    exact ⟨_, by simp only [draws, hp, hq, bind, Except.bind]; rfl⟩

/-- **C54** Initialisation succeeds on every network with fewer than 2^31 weights per layer, for every list of initializers,
as long as the generator does not produce rejected pairs forever. -/
theorem C54_defined {g : Rand} {fuel : Nat} {recs : List ActRecord} (hr : RecsNamed recs)
    {inits : Option (List (Option String))} {nn : Net F} (hn : nn.Sized)
    (hsum : ∀ l ∈ nn.layers, l.nIn + l.nOut < 2 ^ 31)
    (hi : ∀ fs, inits = some fs → nn.layers.length ≤ fs.length ∧ none ∉ fs) (ha : Accepting F g fuel) (s : RandState F) :
    ∃ nn' s', initializeNN g fuel recs inits (some nn) s = .ok (some nn', s') := by
  have key : ∀ (ls : List (Layer F)) (i : Nat) (s : RandState F), (∀ l ∈ ls, l.Sized ∧ l.nIn * l.nOut < 2 ^ 31) →
      (∀ l ∈ ls, l.nIn + l.nOut < 2 ^ 31) → (∀ fs, inits = some fs → i + ls.length ≤ fs.length) →
      ∃ p, initLayers g fuel recs inits i ls s = .ok p := by
    intro ls
    induction ls with
    | nil => intro i s _ _ _; exact ⟨_, rfl⟩
    | cons l ls ih =>
      intro i s k1 k2 k3
      have hini : ∃ ini, readInitializer inits i = .ok ini := by
        cases inits with
        | none => exact ⟨_, rfl⟩
        | some fs =>
          have h1 := k3 fs rfl
          have h2 := (hi fs rfl).2
          simp only [List.length_cons] at h1
          have hlt : i < fs.length := by omega
          simp only [readInitializer, List.getElem?_eq_getElem hlt]
          cases hx : fs[i] with
          | none => exact absurd (hx ▸ List.getElem_mem hlt) h2
          | some x => exact ⟨_, rfl⟩
      obtain ⟨ini, hini⟩ := hini
      obtain ⟨p1, p2⟩ := k1 l (by simp)
      have hd : ∃ p, layerDraws g fuel l.nIn l.nOut (schemeOf ini l.act) s = .ok p := by
        cases schemeOf ini l.act with
        | xavier =>
          simp only [layerDraws, if_pos (k2 l (by simp))]
          exact draws_ok (fun s => ⟨_, rfl⟩) _ _ _
        | kaiming => exact draws_ok (randomNormal_ok ha) _ _ _
        | normal => exact draws_ok (randomNormal_ok ha) _ _ _
      obtain ⟨p, hp⟩ := hd
      obtain ⟨q, hq⟩ := ih (i + 1) p.2 (fun l hl => k1 l (List.mem_cons_of_mem _ hl))
        (fun l hl => k2 l (List.mem_cons_of_mem _ hl)) (fun fs hfs => by have := k3 fs hfs; simp at this; omega)
      rw [initLayers, hini]
      simp only [bind, Except.bind, initLayer_eq hr p1 s p2, hp, pure, Except.pure, hq]
      exact ⟨_, rfl⟩
  obtain ⟨p, hp⟩ := key nn.layers 0 s hn hsum (fun fs hfs => by have := (hi fs hfs).1; omega)
  rw [initializeNN, hp]
  exact ⟨_, _, rfl⟩

end

/-! ### Values in exact arithmetic -/

/-- `rand()` returns numbers up to RAND_MAX. -/
def Rand.WF (g : Rand) : Prop := 0 < g.randMax ∧ ∀ k, g.r k ≤ g.randMax

theorem uniform_bound {g : Rand} (hg : g.WF) (k : Nat) : |(uniformOf g.randMax (g.r k) : ℝ)| ≤ 1 := by
  have h0 : (0 : ℝ) < g.randMax := by exact_mod_cast hg.1
  have h1 : ((g.r k : ℕ) : ℝ) ≤ g.randMax := by exact_mod_cast hg.2 k
  have h2 : (0 : ℝ) ≤ (g.r k : ℝ) := Nat.cast_nonneg _
  have h3 : (g.r k : ℝ) / g.randMax ≤ 1 := (div_le_one h0).2 h1
  have h4 : 0 ≤ (g.r k : ℝ) / g.randMax := div_nonneg h2 h0.le
  simp only [uniformOf, RealOps.sub_def, RealOps.mul_def, RealOps.lit_def, RealOps.div_def, RealOps.ofNat_def, RealOps.one_def]
  rw [abs_le]
  constructor <;> push_cast <;> linarith

theorem draws_forall {dist : RandState ℝ → M (ℝ × RandState ℝ)} {scale : ℝ} (Inv : RandState ℝ → Prop) (P : ℝ → Prop)
    (hd : ∀ s x s', Inv s → dist s = .ok (x, s') → Inv s' ∧ P x) {n : Nat} : ∀ {s s' : RandState ℝ} {xs : List ℝ}, Inv s →
    draws dist scale n s = .ok (xs, s') → Inv s' ∧ ∀ w ∈ xs, ∃ x, P x ∧ w = x * scale := by
  induction n with
  | zero =>
    intro s s' xs hs h
    simp only [draws, pure, Except.pure, Except.ok.injEq, Prod.mk.injEq] at h
    obtain ⟨rfl, rfl⟩ := h
    exact ⟨hs, by simp⟩
  | succ n ih =>
    intro s s' xs hs h
    rw [draws] at h
    cases h1 : dist s with
    | error e => simp [h1, bind, Except.bind] at h
    | ok p =>
      cases h2 : draws dist scale n p.2 with
      | error e => simp [h1, h2, bind, Except.bind] at h
      | ok q =>
        simp only [h1, h2, bind, Except.bind, pure, Except.pure, Except.ok.injEq, Prod.mk.injEq] at h
        obtain ⟨rfl, rfl⟩ := h
        obtain ⟨i1, px⟩ := hd s p.1 p.2 hs h1
        obtain ⟨i2, pxs⟩ := ih i1 h2
        refine ⟨i2, ?_⟩
        intro w hw
        rcases List.mem_cons.1 hw with rfl | hw
        · exact ⟨p.1, px, rfl⟩
        · exact pxs w hw

/-- **C54** Xavier: every weight of the layer lies in [-√(6/(n_in+n_out)), √(6/(n_in+n_out))]. -/
theorem C54_xavier {g : Rand} (hg : g.WF) {fuel : Nat} {recs : List ActRecord} (hr : RecsNamed recs)
    {inits : Option (List (Option String))} {nn nn' : Net ℝ} (hn : nn.Sized) {s s' : RandState ℝ}
    (h : initializeNN g fuel recs inits (some nn) s = .ok (some nn', s')) (i : Nat) (l l' : Layer ℝ) (ini : String)
    (hl : nn.layers[i]? = some l) (hl' : nn'.layers[i]? = some l') (hini : readInitializer inits i = .ok ini)
    (hx : schemeOf ini l.act = .xavier) :
    ∀ w ∈ l'.weight.data, |w| ≤ √(6 / (l.nIn + l.nOut)) := by
  obtain ⟨-, -, h3⟩ := C54_values hr hn h
  obtain ⟨l2, ini2, xs, s1, s2, e1, e2, e3, -, e4⟩ := h3 i l hl
  rw [hl'] at e1
  rw [hini] at e2
  simp only [Option.some.injEq, Except.ok.injEq] at e1 e2
  subst e1 e2
  rw [hx] at e3
  simp only [layerDraws] at e3
  split_ifs at e3
  obtain ⟨-, k⟩ := draws_forall (fun _ => True) (fun x => |x| ≤ 1) (by
    intro s x s' _ h
    simp only [randomUniform, pure, Except.pure, Except.ok.injEq, Prod.mk.injEq] at h
    rw [← h.1]
    exact ⟨trivial, uniform_bound hg _⟩) trivial e3
  intro w hw
  rw [e4] at hw
  obtain ⟨x, hx1, rfl⟩ := k w hw
  have hs : FloatOps.sqrt (FloatOps.div (lit 6 1) (FloatOps.ofNat (l.nIn + l.nOut))) = √(6 / ((l.nIn : ℝ) + l.nOut)) := by
    simp
  rw [hs, abs_mul, abs_of_nonneg (Real.sqrt_nonneg _)]
  exact mul_le_of_le_one_left (Real.sqrt_nonneg _) hx1

/-- One coordinate of a point transformed by the polar method of Marsaglia: (u,v) inside the unit circle and not the centre;
the two coordinates x, y satisfy x² + y² = -2 ln(u²+v²) and have the direction of (u,v). -/
def Polar (x : ℝ) : Prop := ∃ u v y : ℝ, |u| ≤ 1 ∧ |v| ≤ 1 ∧ 0 < u ^ 2 + v ^ 2 ∧ u ^ 2 + v ^ 2 < 1 ∧
  x ^ 2 + y ^ 2 = -2 * Real.log (u ^ 2 + v ^ 2) ∧ x * v = y * u

theorem polar_of {u v : ℝ} (hu : |u| ≤ 1) (hv : |v| ≤ 1) (h0 : 0 < u ^ 2 + v ^ 2) (h1 : u ^ 2 + v ^ 2 < 1) :
    Polar (u * √(-2 * Real.log (u ^ 2 + v ^ 2) / (u ^ 2 + v ^ 2))) ∧
    Polar (v * √(-2 * Real.log (u ^ 2 + v ^ 2) / (u ^ 2 + v ^ 2))) := by
  have hlog : Real.log (u ^ 2 + v ^ 2) < 0 := Real.log_neg h0 h1
  have hnn : 0 ≤ -2 * Real.log (u ^ 2 + v ^ 2) / (u ^ 2 + v ^ 2) := div_nonneg (by linarith) h0.le
  have hsq := Real.sq_sqrt hnn
  set f := √(-2 * Real.log (u ^ 2 + v ^ 2) / (u ^ 2 + v ^ 2))
  have key : (u ^ 2 + v ^ 2) * f ^ 2 = -2 * Real.log (u ^ 2 + v ^ 2) := by
    rw [hsq]; field_simp
  refine ⟨⟨u, v, v * f, hu, hv, h0, h1, ?_, by ring⟩, ⟨v, u, u * f, hv, hu, by linarith, by linarith, ?_, by ring⟩⟩
  · rw [← key]; ring
  · rw [show v ^ 2 + u ^ 2 = u ^ 2 + v ^ 2 by ring, ← key]; ring

theorem uniform_ne_zero {g : Rand} (hg : g.WF) (hodd : g.randMax % 2 = 1) (k : Nat) :
    (uniformOf g.randMax (g.r k) : ℝ) ≠ 0 := by
  have h0 : (0 : ℝ) < g.randMax := by exact_mod_cast hg.1
  simp only [uniformOf, RealOps.sub_def, RealOps.mul_def, RealOps.lit_def, RealOps.div_def, RealOps.ofNat_def, RealOps.one_def]
  intro h
  push_cast at h
  rw [sub_eq_zero, div_one, mul_div_assoc', div_eq_one_iff_eq h0.ne'] at h
  have : 2 * g.r k = g.randMax := by exact_mod_cast h
  omega

theorem polarLoop_spec {g : Rand} (hg : g.WF) (hodd : g.randMax % 2 = 1) (fuel : Nat) : ∀ (k : Nat) (u v S : ℝ) (k' : Nat),
    (polarLoop g fuel k : M (ℝ × ℝ × ℝ × Nat)) = .ok (u, v, S, k') →
    |u| ≤ 1 ∧ |v| ≤ 1 ∧ S = u ^ 2 + v ^ 2 ∧ 0 < u ^ 2 + v ^ 2 ∧ u ^ 2 + v ^ 2 < 1 := by
  induction fuel with
  | zero => intro k u v S k' h; cases h
  | succ fuel ih =>
    intro k u v S k' h
    rw [polarLoop] at h
    split_ifs at h with hle
    · exact ih (k + 2) u v S k' h
    · simp only [pure, Except.pure, Except.ok.injEq, Prod.mk.injEq] at h
      obtain ⟨rfl, rfl, rfl, -⟩ := h
      rw [RealOps.le_iff] at hle
      simp only [RealOps.add_def, RealOps.mul_def, RealOps.one_def, not_le] at hle ⊢
      refine ⟨uniform_bound hg _, uniform_bound hg _, by ring, ?_, by nlinarith⟩
      have := uniform_ne_zero hg hodd k
      positivity

/-- What the static variables of `random_normal` hold: a second coordinate, if there is one. -/
def RandState.Good (s : RandState ℝ) : Prop := s.usePrev = true → Polar (s.v * s.fac)

theorem randomNormal_spec {g : Rand} (hg : g.WF) (hodd : g.randMax % 2 = 1) {fuel : Nat} {s s' : RandState ℝ} {x : ℝ}
    (hs : s.Good) (h : randomNormal g fuel s = .ok (x, s')) : s'.Good ∧ Polar x := by
  rw [randomNormal] at h
  split_ifs at h with hp
  · simp only [pure, Except.pure, Except.ok.injEq, Prod.mk.injEq] at h
    obtain ⟨rfl, rfl⟩ := h
    exact ⟨by intro h; simp at h, hs hp⟩
  · cases h1 : (polarLoop g fuel s.k : M (ℝ × ℝ × ℝ × Nat)) with
    | error e => simp [h1, bind, Except.bind] at h
    | ok p =>
      obtain ⟨u, v, S, k⟩ := p
      obtain ⟨a1, a2, a3, a4, a5⟩ := polarLoop_spec hg hodd fuel s.k u v S k h1
      simp only [h1, bind, Except.bind, pure, Except.pure, Except.ok.injEq, Prod.mk.injEq] at h
      obtain ⟨rfl, rfl⟩ := h
      have := polar_of a1 a2 a4 a5
      rw [← a3] at this
      simp only [RandState.Good, RealOps.mul_def, RealOps.sqrt_def, RealOps.div_def, RealOps.neg_def, RealOps.lit_def,
        RealOps.log_def]
      push_cast
      rw [div_one]
      exact ⟨fun _ => this.2, this.1⟩

theorem initLayer_good {g : Rand} (hg : g.WF) (hodd : g.randMax % 2 = 1) {fuel : Nat} {s s' : RandState ℝ} {nIn nOut : Nat}
    {sch : Scheme} {xs : List ℝ} (hs : s.Good) (h : layerDraws g fuel nIn nOut sch s = .ok (xs, s')) :
    s'.Good ∧ (sch = .kaiming → ∀ w ∈ xs, ∃ x, Polar x ∧ w = x * √(2 / nIn)) ∧
      (sch = .normal → ∀ w ∈ xs, Polar w) := by
  cases sch with
  | xavier =>
    simp only [layerDraws] at h
    split_ifs at h
    obtain ⟨k, -⟩ := draws_forall RandState.Good (fun _ => True) (by
      intro s x s' hs h
      simp only [randomUniform, pure, Except.pure, Except.ok.injEq, Prod.mk.injEq] at h
      rw [← h.2]
      exact ⟨hs, trivial⟩) hs h
    exact ⟨k, by simp, by simp⟩
  | kaiming =>
    obtain ⟨k1, k2⟩ := draws_forall RandState.Good Polar (fun s x s' hs h => randomNormal_spec hg hodd hs h) hs h
    refine ⟨k1, fun _ w hw => ?_, by simp⟩
    obtain ⟨x, hx, e⟩ := k2 w hw
    refine ⟨x, hx, ?_⟩
    rw [e]
    simp
  | normal =>
    obtain ⟨k1, k2⟩ := draws_forall RandState.Good Polar (fun s x s' hs h => randomNormal_spec hg hodd hs h) hs h
    refine ⟨k1, by simp, fun _ w hw => ?_⟩
    obtain ⟨x, hx, e⟩ := k2 w hw
    rw [e]
    simpa using hx

/-- **C54** Kaiming and the default: every weight is √(2/n_in) (or 1) times a coordinate produced by the polar method, across
all layers and in whatever state earlier calls left the static variables. -/
theorem C54_normal {g : Rand} (hg : g.WF) (hodd : g.randMax % 2 = 1) {fuel : Nat} {recs : List ActRecord}
    (hr : RecsNamed recs) {inits : Option (List (Option String))} {nn nn' : Net ℝ} (hn : nn.Sized) {s s' : RandState ℝ}
    (hs : s.Good) (h : initializeNN g fuel recs inits (some nn) s = .ok (some nn', s')) :
    s'.Good ∧ ∀ (i : Nat) (l l' : Layer ℝ) (ini : String), nn.layers[i]? = some l → nn'.layers[i]? = some l' →
      readInitializer inits i = .ok ini →
      (schemeOf ini l.act = .kaiming → ∀ w ∈ l'.weight.data, ∃ x, Polar x ∧ w = x * √(2 / l.nIn)) ∧
      (schemeOf ini l.act = .normal → ∀ w ∈ l'.weight.data, Polar w) := by
  rw [initializeNN] at h
  cases h1 : initLayers g fuel recs inits 0 nn.layers s with
  | error e => simp [h1, bind, Except.bind] at h
  | ok p =>
    obtain ⟨ls, s1⟩ := p
    simp only [h1, bind, Except.bind, pure, Except.pure, Except.ok.injEq, Prod.mk.injEq, Option.some.injEq] at h
    obtain ⟨rfl, rfl⟩ := h
    have main : ∀ (ls ls' : List (Layer ℝ)) (i : Nat) (s s' : RandState ℝ), (∀ l ∈ ls, l.Sized ∧ l.nIn * l.nOut < 2 ^ 31) →
        s.Good → initLayers g fuel recs inits i ls s = .ok (ls', s') → s'.Good ∧
        ∀ (j : Nat) (l l' : Layer ℝ) (ini : String), ls[j]? = some l → ls'[j]? = some l' →
          readInitializer inits (i + j) = .ok ini →
          (schemeOf ini l.act = .kaiming → ∀ w ∈ l'.weight.data, ∃ x, Polar x ∧ w = x * √(2 / l.nIn)) ∧
          (schemeOf ini l.act = .normal → ∀ w ∈ l'.weight.data, Polar w) := by
      intro ls
      induction ls with
      | nil =>
        intro ls' i s s' _ hs h
        simp only [initLayers, pure, Except.pure, Except.ok.injEq, Prod.mk.injEq] at h
        rw [← h.2]
        exact ⟨hs, by simp⟩
      | cons l ls ih =>
        intro ls' i s s' hsz hs h
        rw [initLayers] at h
        obtain ⟨p1, p2⟩ := hsz l (by simp)
        cases h1 : readInitializer inits i with
        | error e => rw [h1] at h; simp [bind, Except.bind] at h
        | ok ini =>
          cases h2 : layerDraws g fuel l.nIn l.nOut (schemeOf ini l.act) s with
          | error e => simp [h1, initLayer_eq hr p1 s p2, h2, bind, Except.bind] at h
          | ok p =>
            obtain ⟨xs, t1⟩ := p
            obtain ⟨g1, g2, g3⟩ := initLayer_good hg hodd hs h2
            cases h3 : initLayers g fuel recs inits (i + 1) ls t1 with
            | error e => simp [h1, initLayer_eq hr p1 s p2, h2, h3, bind, Except.bind, pure, Except.pure] at h
            | ok q =>
              obtain ⟨ls1, t2⟩ := q
              simp only [h1, initLayer_eq hr p1 s p2, h2, h3, bind, Except.bind, pure, Except.pure, Except.ok.injEq,
                Prod.mk.injEq] at h
              obtain ⟨rfl, rfl⟩ := h
              obtain ⟨k1, k2⟩ := ih ls1 (i + 1) t1 t2 (fun x hx => hsz x (List.mem_cons_of_mem _ hx)) g1 h3
              refine ⟨k1, ?_⟩
              intro j a b ini' ha hb hi
              cases j with
              | zero =>
                simp only [List.getElem?_cons_zero, Option.some.injEq] at ha hb
                rw [Nat.add_zero, h1] at hi
                simp only [Except.ok.injEq] at hi
                subst ha hb hi
                exact ⟨g2, g3⟩
              | succ j =>
                refine k2 j a b ini' (by simpa using ha) (by simpa using hb) ?_
                rw [← hi]; congr 1; omega
    obtain ⟨k1, k2⟩ := main nn.layers ls 0 s s1 hn hs h1
    exact ⟨k1, fun i l l' ini a b c => k2 i l l' ini a b (by simpa using c)⟩

/-- **C54, limit** `S == 0` is not rejected: if `rand()` gives half of (the float) RAND_MAX twice in a row, the weight is not
a number. -/
theorem C54_zero_false (n : Nat) (hn : 0 < n) (s : RandState NanReal) (hs : s.usePrev = false) :
    ∃ s', randomNormal ⟨fun _ => n, 2 * n⟩ 1 s = .ok ((none : NanReal), s') := by
  have hu : (uniformOf (2 * n) n : NanReal) = some 0 := by
    have h0 : ((2 * n : ℕ) : ℝ) ≠ 0 := by positivity
    have h1 : (n : ℝ) ≠ 0 := by positivity
    simp only [uniformOf, FloatOps.sub, FloatOps.mul, FloatOps.lit, FloatOps.div, FloatOps.ofNat, FloatOps.one, Option.bind_some,
      if_neg h0, Option.map_some]
    congr 1
    push_cast
    field_simp
    norm_num
  have hS : (add (mul (some 0) (some 0)) (mul (some 0) (some 0)) : NanReal) = some 0 := by
    simp [FloatOps.add, FloatOps.mul]
  have hle : le (one : NanReal) (some 0) = false := by
    simp only [FloatOps.le, FloatOps.one]
    simp
  refine ⟨⟨s.k + 2, some 0, none, true⟩, ?_⟩
  rw [randomNormal, hs]
  simp only [Bool.false_eq_true, if_false, polarLoop, hu, hS, hle, bind, Except.bind, pure, Except.pure, Except.ok.injEq,
    Prod.mk.injEq]
  have hlog : log (some 0 : NanReal) = none := by simp [FloatOps.log]
  rw [hlog]
  constructor
  · simp [FloatOps.mul, FloatOps.div, FloatOps.sqrt]
  · congr 1

/-! ### Examples -/

/-- A generator with RAND_MAX 7. -/
def exRand : Rand := ⟨fun k => [3, 5, 7, 0, 4].getD (k % 5) 1, 7⟩

theorem exRand_wf : exRand.WF := by
  refine ⟨by decide, fun k => ?_⟩
  have : ∀ i < 5, [3, 5, 7, 0, 4].getD i 1 ≤ 7 := by decide
  exact this (k % 5) (Nat.mod_lt _ (by decide))

/-- A 2-3 tanh layer in buffers with some previous contents. -/
noncomputable def exInitNet : Net ℝ := ⟨[⟨2, 3, ⟨0, [9, 9, 9, 9, 9, 9]⟩, ⟨64, [8, 8, 8]⟩, .tanh, none⟩], none⟩

theorem exInitNet_sized : exInitNet.Sized := by
  intro l hl
  simp only [exInitNet, List.mem_singleton] at hl
  subst hl
  exact ⟨⟨rfl, rfl⟩, by norm_num⟩

/-- Without initializers a tanh layer gets Xavier weights, here within √(6/5). -/
example : ∃ nn' s' l', initializeNN exRand 0 [] none (some exInitNet) ⟨0, 0, 0, false⟩ = .ok (some nn', s') ∧
    nn'.layers[0]? = some l' ∧ l'.bias.data = [0, 0, 0] ∧ l'.weight.data.length = 6 ∧
    ∀ w ∈ l'.weight.data, |w| ≤ √(6 / ((2 : ℕ) + (3 : ℕ))) := by
  have hr : RecsNamed [] := by intro r hr; cases hr
  have h : ∃ nn' s', initializeNN exRand 0 [] none (some exInitNet) ⟨0, 0, 0, false⟩ = .ok (some nn', s') := ⟨_, _, rfl⟩
  obtain ⟨nn', s', h⟩ := h
  obtain ⟨-, -, h3⟩ := C54_values hr exInitNet_sized h
  obtain ⟨l', ini, xs, s1, s2, e1, e2, e3, e4, e5⟩ := h3 0 _ rfl
  refine ⟨nn', s', l', h, e1, by rw [e5]; rfl, by rw [e5]; exact e4, ?_⟩
  exact C54_xavier exRand_wf hr exInitNet_sized h 0 _ l' ini rfl e1 e2 (by
    simp only [readInitializer, pure, Except.pure, Except.ok.injEq] at e2
    subst e2; rfl)

/-- A generator without rejected pairs. -/
theorem exAccepting : Accepting ℝ ⟨fun _ => 5, 7⟩ 1 := by
  intro k
  refine ⟨0, by norm_num, ?_⟩
  rw [← Bool.not_eq_true, RealOps.le_iff]
  simp only [uniformOf, RealOps.sub_def, RealOps.mul_def, RealOps.lit_def, RealOps.div_def, RealOps.ofNat_def, RealOps.one_def,
    RealOps.add_def]
  norm_num

/-- "kaiming" for the tanh layer. -/
example : ∃ nn' s' l', initializeNN ⟨fun _ => 5, 7⟩ 1 [] (some [some "kaiming"]) (some exInitNet) ⟨0, 0, 0, false⟩ =
      .ok (some nn', s') ∧ nn'.layers[0]? = some l' ∧ l'.weight.data.length = 6 ∧
    ∀ w ∈ l'.weight.data, ∃ x, Polar x ∧ w = x * √(2 / (2 : ℕ)) := by
  have hr : RecsNamed [] := by intro r hr; cases hr
  obtain ⟨nn', s', h⟩ := C54_defined (g := ⟨fun _ => 5, 7⟩) (fuel := 1) (inits := some [some "kaiming"]) hr exInitNet_sized
    (by intro l hl; simp only [exInitNet, List.mem_singleton] at hl; subst hl; norm_num)
    (by intro fs hfs; cases hfs; simp [exInitNet]) exAccepting ⟨0, 0, 0, false⟩
  obtain ⟨-, -, h3⟩ := C54_values hr exInitNet_sized h
  obtain ⟨l', ini, xs, s1, s2, e1, e2, e3, e4, e5⟩ := h3 0 _ rfl
  obtain ⟨-, h4⟩ := C54_normal (g := ⟨fun _ => 5, 7⟩) ⟨by decide, fun _ => (by decide : 5 ≤ 7)⟩ (by decide) hr exInitNet_sized
    (fun h => by simp at h) h
  refine ⟨nn', s', l', h, e1, by rw [e5]; exact e4, ?_⟩
  exact (h4 0 _ l' ini rfl e1 e2).1 (by
    simp only [readInitializer, List.getElem?_cons_zero, pure, Except.pure, Except.ok.injEq] at e2
    subst e2; rfl)

/-- `rand()` returning 2^30, where (float) RAND_MAX is 2^31. -/
example : ∃ s', randomNormal ⟨fun _ => 2 ^ 30, 2 * 2 ^ 30⟩ 1 ⟨0, none, none, false⟩ = .ok ((none : NanReal), s') :=
  C54_zero_false _ (by positivity) _ rfl

end NN
