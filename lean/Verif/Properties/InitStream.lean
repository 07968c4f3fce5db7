import Verif.Properties.Initialize
/-
C54: exactly which random numbers become the weights.
-/
namespace NN
open FloatOps

namespace Spec

/-- The `k`-th number of the generator, scaled to [-1, 1]. -/
noncomputable def unif (g : Rand) (k : ℕ) : ℝ := 2 * (g.r k : ℝ) / g.randMax - 1

/-- A list of uniform numbers taken from position `k` on. -/
noncomputable def uniforms (g : Rand) (k n : ℕ) : List ℝ := (List.range n).map fun j => unif g (k + j)

/-- `Normals g c k xs c' k'`: the polar method of Marsaglia, reading the generator from position `k` on, with `c` left over
from the pair before, delivers `xs`; then the position is `k'`, with `c'` left over.  Pairs outside of the unit circle are
skipped; each accepted pair gives two numbers. -/
inductive Normals (g : Rand) : Option ℝ → ℕ → List ℝ → Option ℝ → ℕ → Prop
  | done (c : Option ℝ) (k : ℕ) : Normals g c k [] c k
  | second {y : ℝ} {k : ℕ} {xs : List ℝ} {c' : Option ℝ} {k' : ℕ} :
      Normals g none k xs c' k' → Normals g (some y) k (y :: xs) c' k'
  | first {k m : ℕ} {u v S : ℝ} {xs : List ℝ} {c' : Option ℝ} {k' : ℕ} :
      (∀ j < m, 1 ≤ unif g (k + 2 * j) ^ 2 + unif g (k + 2 * j + 1) ^ 2) →
      u = unif g (k + 2 * m) → v = unif g (k + 2 * m + 1) → S = u ^ 2 + v ^ 2 → S < 1 →
      Normals g (some (v * √(-2 * Real.log S / S))) (k + 2 * m + 2) xs c' k' →
      Normals g none k (u * √(-2 * Real.log S / S) :: xs) c' k'

/-- The weights `ws` of an `nIn × nOut` layer, from the state `(c, k)` to `(c', k')` of the generators. -/
def Weights (g : Rand) (nIn nOut : ℕ) (sch : Scheme) (σ : Option ℝ × ℕ) (ws : List ℝ) (σ' : Option ℝ × ℕ) : Prop :=
  match sch with
  | .xavier => ws = (uniforms g σ.2 (nIn * nOut)).map (· * √(6 / (nIn + nOut))) ∧ σ' = (σ.1, σ.2 + nIn * nOut)
  | .kaiming => ∃ xs, xs.length = nIn * nOut ∧ Normals g σ.1 σ.2 xs σ'.1 σ'.2 ∧ ws = xs.map (· * √(2 / nIn))
  | .normal => ws.length = nIn * nOut ∧ Normals g σ.1 σ.2 ws σ'.1 σ'.2

end Spec

/-- What the static variables mean: the number left over, and the position. -/
def RandState.abs (s : RandState ℝ) : Option ℝ × ℕ := (if s.usePrev then some (s.v * s.fac) else none, s.k)

theorem uniformOf_real (g : Rand) (k : ℕ) : (uniformOf g.randMax (g.r k) : ℝ) = Spec.unif g k := by
  simp only [uniformOf, RealOps.sub_def, RealOps.mul_def, RealOps.lit_def, RealOps.div_def, RealOps.ofNat_def, RealOps.one_def,
    Spec.unif]
  push_cast
  ring

theorem draws_uniform (g : Rand) (scale : ℝ) (n : ℕ) : ∀ (s : RandState ℝ),
    draws (randomUniform g) scale n s = .ok ((Spec.uniforms g s.k n).map (· * scale), { s with k := s.k + n }) := by
  induction n with
  | zero => intro s; rfl
  | succ n ih =>
    intro s
    rw [draws]
    simp only [randomUniform, bind, Except.bind, pure, Except.pure, ih, uniformOf_real, RealOps.mul_def, Except.ok.injEq,
      Prod.mk.injEq]
    refine ⟨?_, by congr 1; omega⟩
    simp only [Spec.uniforms, List.range_succ_eq_map, List.map_cons, List.map_map, Nat.add_zero]
    congr 1
    apply List.map_congr_left
    intro j _
    simp only [Function.comp_apply]
    rw [show s.k + 1 + j = s.k + j.succ by simp only [Nat.succ_eq_add_one]; omega]

theorem polarLoop_real (g : Rand) (fuel : ℕ) : ∀ (k : ℕ) (u v S : ℝ) (k' : ℕ),
    (polarLoop g fuel k : M (ℝ × ℝ × ℝ × ℕ)) = .ok (u, v, S, k') →
    ∃ m, (∀ j < m, 1 ≤ Spec.unif g (k + 2 * j) ^ 2 + Spec.unif g (k + 2 * j + 1) ^ 2) ∧ u = Spec.unif g (k + 2 * m) ∧
      v = Spec.unif g (k + 2 * m + 1) ∧ S = u ^ 2 + v ^ 2 ∧ S < 1 ∧ k' = k + 2 * m + 2 := by
  induction fuel with
  | zero => intro k u v S k' h; cases h
  | succ fuel ih =>
    intro k u v S k' h
    rw [polarLoop] at h
    simp only [uniformOf_real] at h
    split_ifs at h with hle
    · rw [RealOps.le_iff] at hle
      simp only [RealOps.add_def, RealOps.mul_def, RealOps.one_def] at hle
      obtain ⟨m, h1, h2, h3, h4, h5, h6⟩ := ih (k + 2) u v S k' h
      refine ⟨m + 1, ?_, by rw [h2]; congr 1; omega, by rw [h3]; congr 1; omega, h4, h5, by omega⟩
      intro j hj
      cases j with
      | zero => simpa [sq] using hle
      | succ j =>
        have := h1 j (by omega)
        rwa [show k + 2 + 2 * j = k + 2 * (j + 1) by omega] at this
    · rw [RealOps.le_iff] at hle
      simp only [RealOps.add_def, RealOps.mul_def, RealOps.one_def, not_le] at hle
      simp only [pure, Except.pure, Except.ok.injEq, Prod.mk.injEq] at h
      obtain ⟨rfl, rfl, rfl, rfl⟩ := h
      refine ⟨0, by omega, rfl, rfl, ?_, ?_, by omega⟩
      · simp only [RealOps.add_def, RealOps.mul_def]; ring
      · simpa only [RealOps.add_def, RealOps.mul_def] using hle

theorem draws_normal (g : Rand) (fuel : ℕ) (scale : ℝ) (n : ℕ) : ∀ (s s' : RandState ℝ) (ws : List ℝ),
    draws (randomNormal g fuel) scale n s = .ok (ws, s') →
    ∃ xs, xs.length = n ∧ Spec.Normals g s.abs.1 s.abs.2 xs s'.abs.1 s'.abs.2 ∧ ws = xs.map (· * scale) := by
  induction n with
  | zero =>
    intro s s' ws h
    simp only [draws, pure, Except.pure, Except.ok.injEq, Prod.mk.injEq] at h
    obtain ⟨rfl, rfl⟩ := h
    exact ⟨[], rfl, .done _ _, rfl⟩
  | succ n ih =>
    intro s s' ws h
    rw [draws] at h
    cases h1 : randomNormal g fuel s with
    | error e => simp [h1, bind, Except.bind] at h
    | ok p =>
      obtain ⟨x, s1⟩ := p
      cases h2 : draws (randomNormal g fuel) scale n s1 with
      | error e => simp [h1, h2, bind, Except.bind] at h
      | ok q =>
        obtain ⟨ws1, s2⟩ := q
        simp only [h1, h2, bind, Except.bind, pure, Except.pure, Except.ok.injEq, Prod.mk.injEq, RealOps.mul_def] at h
        obtain ⟨rfl, rfl⟩ := h
        obtain ⟨xs, e1, e2, e3⟩ := ih s1 s2 ws1 h2
        refine ⟨x :: xs, by simp [e1], ?_, by simp [e3]⟩
        rw [randomNormal] at h1
        split_ifs at h1 with hp
        · simp only [pure, Except.pure, Except.ok.injEq, Prod.mk.injEq, RealOps.mul_def] at h1
          obtain ⟨rfl, rfl⟩ := h1
          have : s.abs = (some (s.v * s.fac), s.k) := by simp [RandState.abs, hp]
          rw [this]
          exact .second e2
        · cases h3 : (polarLoop g fuel s.k : M (ℝ × ℝ × ℝ × ℕ)) with
          | error e => simp [h3, bind, Except.bind] at h1
          | ok p =>
            obtain ⟨u, v, S, k⟩ := p
            obtain ⟨m, a1, a2, a3, a4, a5, rfl⟩ := polarLoop_real g fuel s.k u v S k h3
            simp only [h3, bind, Except.bind, pure, Except.pure, Except.ok.injEq, Prod.mk.injEq, RealOps.mul_def,
              RealOps.sqrt_def, RealOps.div_def, RealOps.neg_def, RealOps.lit_def, RealOps.log_def] at h1
            push_cast at h1
            rw [div_one] at h1
            obtain ⟨rfl, rfl⟩ := h1
            have : s.abs = (none, s.k) := by simp [RandState.abs, hp]
            rw [this]
            exact .first a1 a2 a3 a4 a5 e2

theorem layerDraws_real {g : Rand} {fuel nIn nOut : ℕ} {sch : Scheme} {s s' : RandState ℝ} {ws : List ℝ}
    (h : layerDraws g fuel nIn nOut sch s = .ok (ws, s')) : Spec.Weights g nIn nOut sch s.abs ws s'.abs := by
  cases sch with
  | xavier =>
    simp only [layerDraws] at h
    split_ifs at h
    rw [draws_uniform] at h
    simp only [Except.ok.injEq, Prod.mk.injEq] at h
    obtain ⟨rfl, rfl⟩ := h
    refine ⟨?_, rfl⟩
    simp [RandState.abs]
  | kaiming =>
    obtain ⟨xs, e1, e2, e3⟩ := draws_normal g fuel _ _ s s' ws h
    refine ⟨xs, e1, e2, ?_⟩
    rw [e3]
    simp
  | normal =>
    obtain ⟨xs, e1, e2, e3⟩ := draws_normal g fuel _ _ s s' ws h
    have : ws = xs := by rw [e3]; simp
    subst this
    exact ⟨e1, e2⟩

theorem initLayers_stream {g : Rand} {fuel : ℕ} {recs : List ActRecord} (hr : RecsNamed recs)
    {inits : Option (List (Option String))} (ls : List (Layer ℝ)) :
    ∀ (i : ℕ) (ls' : List (Layer ℝ)) (s s' : RandState ℝ), (∀ l ∈ ls, l.Sized ∧ l.nIn * l.nOut < 2 ^ 31) →
    initLayers g fuel recs inits i ls s = .ok (ls', s') →
    ∃ σ : ℕ → Option ℝ × ℕ, σ 0 = s.abs ∧ σ ls.length = s'.abs ∧ ls'.length = ls.length ∧
      ∀ (j : ℕ) (l l' : Layer ℝ), ls[j]? = some l → ls'[j]? = some l' → ∃ ini, readInitializer inits (i + j) = .ok ini ∧
        Spec.Weights g l.nIn l.nOut (schemeOf ini l.act) (σ j) l'.weight.data (σ (j + 1)) ∧
        l'.bias.data = List.replicate l.nOut 0 := by
  induction ls with
  | nil =>
    intro i ls' s s' _ h
    simp only [initLayers, pure, Except.pure, Except.ok.injEq, Prod.mk.injEq] at h
    obtain ⟨rfl, rfl⟩ := h
    exact ⟨fun _ => s.abs, rfl, rfl, rfl, by simp⟩
  | cons l ls ih =>
    intro i ls' s s' hsz h
    rw [initLayers] at h
    obtain ⟨p1, p2⟩ := hsz l (by simp)
    cases h1 : readInitializer inits i with
    | error e => rw [h1] at h; simp [bind, Except.bind] at h
    | ok ini =>
      cases h2 : layerDraws g fuel l.nIn l.nOut (schemeOf ini l.act) s with
      | error e => simp [h1, initLayer_eq hr p1 s p2, h2, bind, Except.bind] at h
      | ok p =>
        obtain ⟨xs, t1⟩ := p
        cases h3 : initLayers g fuel recs inits (i + 1) ls t1 with
        | error e => simp [h1, initLayer_eq hr p1 s p2, h2, h3, bind, Except.bind, pure, Except.pure] at h
        | ok q =>
          obtain ⟨ls1, t2⟩ := q
          simp only [h1, initLayer_eq hr p1 s p2, h2, h3, bind, Except.bind, pure, Except.pure, Except.ok.injEq,
            Prod.mk.injEq] at h
          obtain ⟨rfl, rfl⟩ := h
          obtain ⟨σ, k0, k1, k2, k3⟩ := ih (i + 1) ls1 t1 t2 (fun x hx => hsz x (List.mem_cons_of_mem _ hx)) h3
          refine ⟨fun j => match j with | 0 => s.abs | j + 1 => σ j, rfl, k1, by simp [k2], ?_⟩
          intro j a b ha hb
          cases j with
          | zero =>
            simp only [List.getElem?_cons_zero, Option.some.injEq] at ha hb
            subst ha hb
            refine ⟨ini, h1, ?_, by simp⟩
            show Spec.Weights g _ _ _ s.abs _ (σ 0)
            rw [k0]
            exact layerDraws_real h2
          | succ j =>
            obtain ⟨ini', e1, e2⟩ := k3 j a b (by simpa using ha) (by simpa using hb)
            exact ⟨ini', by rw [← e1]; congr 1; omega, e2⟩

/-- **C54** Exactly which numbers become the weights, in exact arithmetic: the layers are filled one after the other, each
from where the one before stopped.  A Xavier layer takes the next `n_in n_out` uniform numbers times √(6/(n_in+n_out)); a
Kaiming layer the next normal numbers times √(2/n_in), any other the next normal numbers; of every accepted pair of the polar
method both numbers are used, each once, also if they fall into different layers or calls.  Biases are 0. -/
theorem C54_stream {g : Rand} {fuel : ℕ} {recs : List ActRecord} (hr : RecsNamed recs)
    {inits : Option (List (Option String))} {nn nn' : Net ℝ} (hn : nn.Sized) {s s' : RandState ℝ}
    (h : initializeNN g fuel recs inits (some nn) s = .ok (some nn', s')) :
    ∃ σ : ℕ → Option ℝ × ℕ, σ 0 = s.abs ∧ σ nn.layers.length = s'.abs ∧
      ∀ (i : ℕ) (l l' : Layer ℝ), nn.layers[i]? = some l → nn'.layers[i]? = some l' →
        ∃ ini, readInitializer inits i = .ok ini ∧
        Spec.Weights g l.nIn l.nOut (schemeOf ini l.act) (σ i) l'.weight.data (σ (i + 1)) ∧
        l'.bias.data = List.replicate l.nOut 0 := by
  rw [initializeNN] at h
  cases h1 : initLayers g fuel recs inits 0 nn.layers s with
  | error e => simp [h1, bind, Except.bind] at h
  | ok p =>
    obtain ⟨ls, s1⟩ := p
    simp only [h1, bind, Except.bind, pure, Except.pure, Except.ok.injEq, Prod.mk.injEq, Option.some.injEq] at h
    obtain ⟨rfl, rfl⟩ := h
    obtain ⟨σ, k0, k1, -, k3⟩ := initLayers_stream hr nn.layers 0 ls s s1 hn h1
    refine ⟨σ, k0, k1, fun i l l' a b => ?_⟩
    obtain ⟨ini, e1, e2⟩ := k3 i l l' a b
    exact ⟨ini, by simpa using e1, e2⟩

/-- Two tanh layers; the second starts where the first stopped (position 2), with numbers 3, 5, 7, … of at most 7. -/
example : ∃ nn' s' w b, initializeNN exRand 0 [] none (some (⟨[⟨1, 2, ⟨0, [9, 9]⟩, ⟨64, [8, 8]⟩, .tanh, none⟩,
      ⟨2, 1, ⟨128, [9, 9]⟩, ⟨192, [8]⟩, .tanh, none⟩], none⟩ : Net ℝ)) ⟨0, 0, 0, false⟩ = .ok (some nn', s') ∧
    nn'.layers.map (fun l => l.weight.data) = [[-1 / 7 * w, 3 / 7 * w], [b * w, -1 * w]] ∧ w = √(6 / 3) ∧ b = 1 ∧
    s'.k = 4 := by
  have hr : RecsNamed [] := by intro r hr; cases hr
  have h : ∃ a b s', initializeNN exRand 0 [] none (some (⟨[⟨1, 2, ⟨0, [9, 9]⟩, ⟨64, [8, 8]⟩, .tanh, none⟩,
      ⟨2, 1, ⟨128, [9, 9]⟩, ⟨192, [8]⟩, .tanh, none⟩], none⟩ : Net ℝ)) ⟨0, 0, 0, false⟩ =
        .ok (some ⟨[a, b], none⟩, s') := ⟨_, _, _, rfl⟩
  obtain ⟨a, b, s', h⟩ := h
  obtain ⟨σ, h0, h2, h3⟩ := C54_stream hr (by
    intro l hl
    simp only [List.mem_cons, List.not_mem_nil, or_false] at hl
    rcases hl with rfl | rfl
    · exact ⟨⟨rfl, rfl⟩, by norm_num⟩
    · exact ⟨⟨rfl, rfl⟩, by norm_num⟩) h
  obtain ⟨i1, e1, k1, -⟩ := h3 0 _ a rfl rfl
  obtain ⟨i2, e2, k2, -⟩ := h3 1 _ b rfl rfl
  simp only [readInitializer, pure, Except.pure, Except.ok.injEq] at e1 e2
  subst e1 e2
  obtain ⟨w1, t1⟩ := k1
  obtain ⟨w2, t2⟩ := k2
  refine ⟨_, s', √(6 / 3), 1, h, ?_, rfl, rfl, ?_⟩
  · simp only [List.map_cons, List.map_nil]
    rw [w1, w2, t1, h0]
    simp [Spec.uniforms, Spec.unif, exRand, RandState.abs, List.range_succ]
    norm_num
  · have : σ 2 = s'.abs := h2
    rw [t2, t1, h0] at this
    simpa [RandState.abs] using (congrArg Prod.snd this).symm

end NN
