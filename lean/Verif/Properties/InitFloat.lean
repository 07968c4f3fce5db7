import Verif.Proofs.InitFloat
/-
C54 in IEEE-754 single precision: the random numbers of `neuralnet_initialize` as the compiled program computes them.

The C library enters through `Libm.Accurate` (`logf` within 2^-22 relative).  `rand()` is any sequence of numbers up to
RAND_MAX, and RAND_MAX is any number from 1 to 2^32 - 1.
-/
set_option linter.unusedSectionVars false

namespace NN.B32
open FloatOps

/-! ### `random_uniform` -/

/-- **C54** `random_uniform` returns a number in [-1, 1], within 10^-6 of 2·rand()/RAND_MAX - 1, for every value of `rand()`. -/
theorem C54_float_uniform (L : Libm) {rm n : ℕ} (h1 : 1 ≤ rm) (h2 : rm < 2 ^ 32) (hn : n ≤ rm) :
    ∃ u : ℝ, Is (@uniformOf B32 (ops L) rm n) u ∧ |u| ≤ 1 ∧ |u - (2 * n / rm - 1)| ≤ 1 / 10 ^ 6 ∧ (u = 0 ∨ 1 / 16777216 ≤ |u|) := by
  obtain ⟨q, q1, q2, q3, q4, q5⟩ := uniform_is L h1 h2 hn
  rw [rnd_double q1 q2 q3] at q5
  have e := rnd_abs' (2 * q - 1)
  have hb : |2 * q - 1| ≤ 1 := by rw [abs_le]; constructor <;> linarith
  refine ⟨_, q5, ?_, ?_, ?_⟩
  · rw [abs_le]
    refine ⟨le_rnd (by linarith) (by rw [rnd_neg, rnd_one]), rnd_le (by linarith) rnd_one⟩
  · have h3 : |(2 * q - 1) - (2 * n / rm - 1)| ≤ 5 / 10 ^ 7 := by
      have : (2 * q - 1) - (2 * (n : ℝ) / rm - 1) = 2 * (q - n / rm) := by ring
      rw [this, abs_mul, abs_of_pos (by norm_num : (0 : ℝ) < 2)]
      linarith
    have := abs_sub_le (rnd (2 * q - 1)) (2 * q - 1) (2 * n / rm - 1)
    linarith
  · rcases uniform_grid q1 q2 q3 with h | h
    · exact .inl h.1
    · exact .inr h

/-! ### The scale -/

theorem is_nat_lit {c : ℕ} (hc : c < 2 ^ 24) : Is (ofReal false (((c : ℤ) : ℝ) / ((1 : ℕ) : ℝ))) c := by
  have := is_lit (p := c) (q := 1) 0 (by norm_num) (by
    rw [abs_of_nonneg (by positivity)]; exact_mod_cast hc) (by norm_num)
  simpa using this

/-- `sqrtf( c / m )`. -/
theorem scale_float {c m : ℕ} (hc1 : 1 ≤ c) (hc : c < 100) (h1 : 1 ≤ m) (h2 : m < 2 ^ 32) :
    ∃ σ, Is (B32.sqrt (B32.div (ofReal false (((c : ℤ) : ℝ) / ((1 : ℕ) : ℝ))) (ofReal false (m : ℝ)))) σ ∧ 0 < σ ∧
      |σ - √(c / m)| ≤ 2 / 10 ^ 7 * √(c / m) := by
  have hC := is_nat_lit (c := c) (by omega)
  have hM := ofNat_is h2
  have hm1 : (1 : ℝ) ≤ m := by exact_mod_cast h1
  have hm2 : (m : ℝ) ≤ 2 ^ 32 := by exact_mod_cast h2.le
  have hc0 : (1 : ℝ) ≤ c := by exact_mod_cast hc1
  have hc2 : (c : ℝ) ≤ 100 := by exact_mod_cast hc.le
  obtain ⟨b1, b2⟩ := rnd_bounds (x := m) (le_trans (by norm_num) hm1)
  have hb1 : 1 ≤ rnd (m : ℝ) := le_rnd hm1 rnd_one
  generalize rnd (m : ℝ) = b at *
  have hb0 : 0 < b := by linarith
  have hm0 : (0 : ℝ) < m := by linarith
  have q1 : 1 / 2 ^ 34 ≤ (c : ℝ) / b := by
    rw [le_div_iff₀ hb0]; linarith
  have q2 : (c : ℝ) / b ≤ 100 := by rw [div_le_iff₀ hb0]; nlinarith
  have hq := div_is hC hM hb0.ne' (small_le_max (by rw [abs_of_nonneg (by positivity)]; exact q2.trans (by norm_num)))
  obtain ⟨r1, r2⟩ := rnd_bounds (x := (c : ℝ) / b) (le_trans (by norm_num) q1)
  -- the quotient within `13·10^-8`
  have e1 : (c : ℝ) / b ≤ (1 + 61 / 10 ^ 9) * (c / m) := by
    rw [div_le_iff₀ hb0]
    have : (1 + 61 / 10 ^ 9) * ((c : ℝ) / m) * b = c * ((1 + 61 / 10 ^ 9) * b / m) := by field_simp
    rw [this]
    refine le_mul_of_one_le_right (by linarith) ?_
    rw [le_div_iff₀ hm0]; linarith
  have e2 : (1 - 61 / 10 ^ 9) * (c / m) ≤ (c : ℝ) / b := by
    rw [le_div_iff₀ hb0]
    have : (1 - 61 / 10 ^ 9) * ((c : ℝ) / m) * b = c * ((1 - 61 / 10 ^ 9) * b / m) := by field_simp
    rw [this]
    refine mul_le_of_le_one_right (by linarith) ?_
    rw [div_le_iff₀ hm0]; linarith
  have hp : 0 < (c : ℝ) / m := by positivity
  generalize (c : ℝ) / b = x at *
  generalize rnd x = d at *
  generalize (c : ℝ) / m = p at *
  have d1 : d ≤ (1 + 122 / 10 ^ 9) * p := by linarith
  have d2 : (1 - 122 / 10 ^ 9) * p ≤ d := by linarith
  have d0 : 1 / 2 ^ 35 ≤ d := by linarith
  have d3 : d ≤ 2 ^ 10 := by linarith
  have d0' : 0 < d := lt_of_lt_of_le (by positivity) d0
  have s1 : √d ≤ 2 ^ 5 := Real.sqrt_le_iff.2 ⟨by norm_num, by linarith⟩
  have s2 : 1 / 2 ^ 18 ≤ √d := Real.le_sqrt_of_sq_le (by linarith)
  have hs := sqrt_is hq d0' (s1.trans (by rw [maxF32]; norm_num))
  obtain ⟨t1, t2⟩ := rnd_bounds (x := √d) (le_trans (by norm_num) s2)
  have u1 : √d ≤ (1 + 7 / 10 ^ 8) * √p := by
    rw [Real.sqrt_le_iff]
    refine ⟨by positivity, ?_⟩
    rw [mul_pow, Real.sq_sqrt hp.le]
    nlinarith
  have u2 : (1 - 7 / 10 ^ 8) * √p ≤ √d := by
    refine Real.le_sqrt_of_sq_le ?_
    rw [mul_pow, Real.sq_sqrt hp.le]
    nlinarith
  have hpp : 0 < √p := Real.sqrt_pos.2 hp
  refine ⟨rnd √d, hs, ?_, ?_⟩
  · linarith
  · rw [abs_le]
    constructor <;> linarith

/-! ### Drawing the weights of a layer -/

theorem draws_all {F : Type} [FloatOps F] {dist : RandState F → M (F × RandState F)} {scale : F} (Inv : RandState F → Prop) (P : F → Prop)
    (hd : ∀ s x s', Inv s → dist s = .ok (x, s') → Inv s' ∧ P x) {n : Nat} : ∀ {s s' : RandState F} {xs : List F}, Inv s →
    draws dist scale n s = .ok (xs, s') → Inv s' ∧ ∀ w ∈ xs, ∃ x, P x ∧ w = FloatOps.mul x scale := by
  induction n with
  | zero =>
    intro s s' xs hs h
    simp only [draws, pure, Except.pure, Except.ok.injEq, Prod.mk.injEq] at h
    obtain ⟨rfl, rfl⟩ := h
    exact ⟨hs, by simp⟩
  | succ n ih =>
    intro s s' xs hs h
    rw [draws] at h
    cases h1 : dist s with
    | error e => simp [h1, bind, Except.bind] at h
    | ok p =>
      cases h2 : draws dist scale n p.2 with
      | error e => simp [h1, h2, bind, Except.bind] at h
      | ok q =>
        simp only [h1, h2, bind, Except.bind, pure, Except.pure, Except.ok.injEq, Prod.mk.injEq] at h
        obtain ⟨rfl, rfl⟩ := h
        obtain ⟨i1, px⟩ := hd s p.1 p.2 hs h1
        obtain ⟨i2, pxs⟩ := ih i1 h2
        refine ⟨i2, ?_⟩
        intro w hw
        rcases List.mem_cons.1 hw with rfl | hw
        · exact ⟨p.1, px, rfl⟩
        · exact pxs w hw

/-- Of any two consecutive values of `rand()` at least one is away from the middle: 2·rand()/RAND_MAX - 1 is at least 10^-6
from 0. -/
def OffCentre (g : Rand) : Prop :=
  ∀ k, 1 / 10 ^ 6 < |2 * (g.r k : ℝ) / g.randMax - 1| ∨ 1 / 10 ^ 6 < |2 * (g.r (k + 1) : ℝ) / g.randMax - 1|

/-- The static variables of `random_normal` hold a second coordinate whenever it will be used. -/
def Carried (s : RandState B32) : Prop := s.usePrev = true → ∃ V f : ℝ, Is s.v V ∧ Is s.fac f ∧ |V * f| ≤ 816 / 100

theorem polarLoop_float (L : Libm) {g : Rand} (hg : g.WF) (h32 : g.randMax < 2 ^ 32) (ho : OffCentre g) (fuel : ℕ) :
    ∀ (k : ℕ) (u v S : B32) (k' : ℕ), @polarLoop B32 (ops L) g fuel k = .ok (u, v, S, k') →
    ∃ U V : ℝ, Is u U ∧ Is v V ∧ |U| ≤ 1 ∧ |V| ≤ 1 ∧ (U = 0 ∨ 1 / 16777216 ≤ |U|) ∧ (V = 0 ∨ 1 / 16777216 ≤ |V|) ∧ ¬ (U = 0 ∧ V = 0) ∧
      S = B32.add (B32.mul u u) (B32.mul v v) ∧ B32.le (ofReal false 1) S = false := by
  let _ := ops L
  induction fuel with
  | zero => intro k u v S k' h; cases h
  | succ fuel ih =>
    intro k u v S k' h
    rw [polarLoop] at h
    split_ifs at h with hle
    · exact ih _ _ _ _ _ h
    · simp only [pure, Except.pure, Except.ok.injEq, Prod.mk.injEq] at h
      obtain ⟨rfl, rfl, rfl, -⟩ := h
      obtain ⟨U, u1, u2, u3, u4⟩ := C54_float_uniform L hg.1 h32 (hg.2 k)
      obtain ⟨V, v1, v2, v3, v4⟩ := C54_float_uniform L hg.1 h32 (hg.2 (k + 1))
      refine ⟨U, V, u1, v1, u2, v2, u4, v4, ?_, rfl, by exact Bool.not_eq_true _ ▸ hle⟩
      rintro ⟨rfl, rfl⟩
      rw [zero_sub, abs_neg] at u3 v3
      rcases ho k with h | h <;> linarith

theorem randomNormal_float {L : Libm} (hL : L.Accurate) {g : Rand} (hg : g.WF) (h32 : g.randMax < 2 ^ 32) (ho : OffCentre g)
    {fuel : ℕ} {s s' : RandState B32} {x : B32} (hs : Carried s) (h : @randomNormal B32 (ops L) g fuel s = .ok (x, s')) :
    Carried s' ∧ ∃ z, Is x z ∧ |z| ≤ 817 / 100 := by
  let _ := ops L
  have key : ∀ {a f : B32} {A φ : ℝ}, Is a A → Is f φ → |A * φ| ≤ 816 / 100 → ∃ z, Is (B32.mul a f) z ∧ |z| ≤ 817 / 100 := by
    intro a f A φ ha hf hb
    refine ⟨_, mul_is ha hf (small_le_max (hb.trans (by norm_num))), ?_⟩
    have := rnd_abs' (A * φ)
    have h2 := abs_sub_abs_le_abs_sub (rnd (A * φ)) (A * φ)
    norm_num at *
    linarith
  rw [randomNormal] at h
  split_ifs at h with hp
  · simp only [pure, Except.pure, Except.ok.injEq, Prod.mk.injEq] at h
    obtain ⟨rfl, rfl⟩ := h
    refine ⟨by intro h; simp at h, ?_⟩
    obtain ⟨V, f, v1, f1, b⟩ := hs hp
    exact key v1 f1 b
  · cases h1 : @polarLoop B32 (ops L) g fuel s.k with
    | error e => simp [h1, bind, Except.bind] at h
    | ok p =>
      obtain ⟨u, v, S, k⟩ := p
      obtain ⟨U, V, u1, v1, u2, v2, u4, v4, n0, rfl, hle⟩ := polarLoop_float L hg h32 ho fuel s.k u v S k h1
      simp only [h1, bind, Except.bind, pure, Except.pure, Except.ok.injEq, Prod.mk.injEq] at h
      obtain ⟨rfl, rfl⟩ := h
      obtain ⟨f, -, -, -, f1, b1, b2, -, -⟩ := polar_float hL u1 v1 u2 v2 u4 v4 n0 hle
      exact ⟨fun _ => ⟨V, f, v1, f1, b2⟩, key u1 f1 b1⟩

theorem randomUniform_float (L : Libm) {g : Rand} (hg : g.WF) (h32 : g.randMax < 2 ^ 32) {s s' : RandState B32} {x : B32}
    (hs : Carried s) (h : @randomUniform B32 (ops L) g s = .ok (x, s')) : Carried s' ∧ ∃ u, Is x u ∧ |u| ≤ 1 := by
  simp only [randomUniform, pure, Except.pure, Except.ok.injEq, Prod.mk.injEq] at h
  obtain ⟨rfl, rfl⟩ := h
  obtain ⟨U, u1, u2, -⟩ := C54_float_uniform L hg.1 h32 (hg.2 s.k)
  exact ⟨hs, U, u1, u2⟩

/-- The largest absolute value a weight can have, by scheme. -/
noncomputable def bound (nIn nOut : ℕ) : Scheme → ℝ
  | .xavier => (1 + 2 / 10 ^ 7) * √(6 / (nIn + nOut : ℕ))
  | .kaiming => 82 / 10 * √(2 / nIn)
  | .normal => 82 / 10

theorem layerDraws_float {L : Libm} (hL : L.Accurate) {g : Rand} (hg : g.WF) (h32 : g.randMax < 2 ^ 32) {fuel nIn nOut : ℕ} {sch : Scheme}
    (ho : sch ≠ .xavier → OffCentre g) (hsz : nIn * nOut < 2 ^ 31) {s s' : RandState B32} {xs : List B32} (hs : Carried s)
    (h : @layerDraws B32 (ops L) g fuel nIn nOut sch s = .ok (xs, s')) :
    Carried s' ∧ ∀ w ∈ xs, w.isFinite = true ∧ |w.value| ≤ bound nIn nOut sch := by
  have hlen := @layerDraws_length B32 (ops L) _ _ _ _ _ _ _ _ h
  have hpos : ∀ w ∈ xs, 1 ≤ nIn ∧ 1 ≤ nOut ∧ nIn < 2 ^ 31 := by
    intro w hw
    have : 0 < nIn * nOut := by rw [← hlen]; exact List.length_pos_of_mem hw
    have h1 := Nat.pos_of_mul_pos_right this
    have h2 := Nat.pos_of_mul_pos_left this
    exact ⟨h1, h2, lt_of_le_of_lt (Nat.le_mul_of_pos_right nIn h2) hsz⟩
  cases sch with
  | xavier =>
    simp only [layerDraws] at h
    split_ifs at h with hov
    obtain ⟨k1, k2⟩ := @draws_all B32 (ops L) _ _ Carried (fun x => ∃ u, Is x u ∧ |u| ≤ 1) (fun s x s' hs h => randomUniform_float L hg h32 hs h)
      _ _ _ _ hs h
    refine ⟨k1, fun w hw => ?_⟩
    obtain ⟨p1, p2, -⟩ := hpos w hw
    obtain ⟨σ, s1, s2, s3⟩ := scale_float (c := 6) (m := nIn + nOut) (by norm_num) (by norm_num) (by omega) (by omega)
    obtain ⟨x, ⟨u, u1, u2⟩, rfl⟩ := k2 w hw
    have hle : |u * σ| ≤ σ := by
      rw [abs_mul, abs_of_pos s2]; exact mul_le_of_le_one_left s2.le u2
    have hm := mul_is u1 s1 (hle.trans (by have := value_abs_le s1.1; rw [s1.2, abs_of_pos s2] at this; exact this))
    have hw' : Is (@FloatOps.mul B32 (ops L) x (@FloatOps.sqrt B32 (ops L) (@FloatOps.div B32 (ops L) (@FloatOps.lit B32 (ops L) 6 1)
      (@FloatOps.ofNat B32 (ops L) (nIn + nOut))))) (rnd (u * σ)) := hm
    refine ⟨hw'.1, ?_⟩
    rw [hw'.2, bound]
    have hσ := rnd_is s1
    rw [abs_le] at hle
    have : |rnd (u * σ)| ≤ σ := abs_le.2 ⟨le_rnd hle.1 (by rw [rnd_neg, hσ]), rnd_le hle.2 hσ⟩
    have := (abs_le.1 s3).2
    push_cast at *
    linarith
  | kaiming =>
    obtain ⟨k1, k2⟩ := @draws_all B32 (ops L) _ _ Carried (fun x => ∃ z, Is x z ∧ |z| ≤ 817 / 100)
      (fun s x s' hs h => randomNormal_float hL hg h32 (ho (by simp)) hs h) _ _ _ _ hs h
    refine ⟨k1, fun w hw => ?_⟩
    obtain ⟨p1, p2, p3⟩ := hpos w hw
    obtain ⟨σ, s1, s2, s3⟩ := scale_float (c := 2) (m := nIn) (by norm_num) (by norm_num) p1 (by omega)
    obtain ⟨x, ⟨u, u1, u2⟩, rfl⟩ := k2 w hw
    have q0 : (1 : ℝ) ≤ nIn := by exact_mod_cast p1
    have q1 : 1 / 2 ^ 15 ≤ √(2 / (nIn : ℝ)) := by
      refine Real.le_sqrt_of_sq_le ?_
      rw [le_div_iff₀ (by linarith)]
      have : (nIn : ℝ) < 2 ^ 31 := by exact_mod_cast p3
      linarith
    have q2 : √(2 / (nIn : ℝ)) ≤ 2 := Real.sqrt_le_iff.2 ⟨by norm_num, by rw [div_le_iff₀ (by linarith)]; linarith⟩
    have s4 := (abs_le.1 s3).2
    push_cast at s4
    have hbd : bound nIn nOut .kaiming = 82 / 10 * √(2 / (nIn : ℝ)) := rfl
    generalize √(2 / (nIn : ℝ)) = ρ at *
    have hle : |u * σ| ≤ 817 / 100 * ((1 + 2 / 10 ^ 7) * ρ) := by
      rw [abs_mul, abs_of_pos s2]
      exact mul_le_mul u2 (by linarith) s2.le (by norm_num)
    have hm := mul_is u1 s1 (small_le_max (hle.trans (by norm_num; linarith)))
    have hw' : Is (@FloatOps.mul B32 (ops L) x (@FloatOps.sqrt B32 (ops L) (@FloatOps.div B32 (ops L) (@FloatOps.lit B32 (ops L) 2 1)
      (@FloatOps.ofNat B32 (ops L) nIn)))) (rnd (u * σ)) := hm
    refine ⟨hw'.1, ?_⟩
    have e1 := rnd_abs' (u * σ)
    have e2 := abs_sub_abs_le_abs_sub (rnd (u * σ)) (u * σ)
    rw [hw'.2, hbd]
    generalize |u * σ| = y at *
    linarith
  | normal =>
    obtain ⟨k1, k2⟩ := @draws_all B32 (ops L) _ _ Carried (fun x => ∃ z, Is x z ∧ |z| ≤ 817 / 100)
      (fun s x s' hs h => randomNormal_float hL hg h32 (ho (by simp)) hs h) _ _ _ _ hs h
    refine ⟨k1, fun w hw => ?_⟩
    obtain ⟨x, ⟨u, u1, u2⟩, rfl⟩ := k2 w hw
    have hm := mul_is u1 is_one (small_le_max (by rw [mul_one]; exact u2.trans (by norm_num)))
    rw [mul_one, rnd_is u1] at hm
    have hw' : Is (@FloatOps.mul B32 (ops L) x (@FloatOps.one B32 (ops L))) u := hm
    refine ⟨hw'.1, ?_⟩
    rw [hw'.2, bound]
    linarith

/-! ### A whole network -/

theorem initLayers_float {L : Libm} (hL : L.Accurate) {g : Rand} (hg : g.WF) (h32 : g.randMax < 2 ^ 32) (ho : OffCentre g) {fuel : ℕ}
    {recs : List ActRecord} (hr : RecsNamed recs) {inits : Option (List (Option String))} (ls : List (Layer B32)) :
    ∀ (i : ℕ) (ls' : List (Layer B32)) (s s' : RandState B32), (∀ l ∈ ls, l.Sized ∧ l.nIn * l.nOut < 2 ^ 31) → Carried s →
    @initLayers B32 (ops L) g fuel recs inits i ls s = .ok (ls', s') → Carried s' ∧
    ∀ (j : ℕ) (l l' : Layer B32) (ini : String), ls[j]? = some l → ls'[j]? = some l' → readInitializer inits (i + j) = .ok ini →
      ∀ w ∈ l'.weight.data, w.isFinite = true ∧ |w.value| ≤ bound l.nIn l.nOut (schemeOf ini l.act) := by
  let _ := ops L
  induction ls with
  | nil =>
    intro i ls' s s' _ hs h
    simp only [initLayers, pure, Except.pure, Except.ok.injEq, Prod.mk.injEq] at h
    rw [← h.2]
    exact ⟨hs, by simp⟩
  | cons l ls ih =>
    intro i ls' s s' hsz hs h
    rw [initLayers] at h
    obtain ⟨p1, p2⟩ := hsz l (by simp)
    cases h1 : readInitializer inits i with
    | error e => rw [h1] at h; simp [bind, Except.bind] at h
    | ok ini =>
      cases h2 : layerDraws g fuel l.nIn l.nOut (schemeOf ini l.act) s with
      | error e => simp [h1, initLayer_eq hr p1 s p2, h2, bind, Except.bind] at h
      | ok p =>
        obtain ⟨xs, t1⟩ := p
        obtain ⟨g1, g2⟩ := layerDraws_float hL hg h32 (fun _ => ho) p2 hs h2
        cases h3 : initLayers g fuel recs inits (i + 1) ls t1 with
        | error e => simp [h1, initLayer_eq hr p1 s p2, h2, h3, bind, Except.bind, pure, Except.pure] at h
        | ok q =>
          obtain ⟨ls1, t2⟩ := q
          simp only [h1, initLayer_eq hr p1 s p2, h2, h3, bind, Except.bind, pure, Except.pure, Except.ok.injEq,
            Prod.mk.injEq] at h
          obtain ⟨rfl, rfl⟩ := h
          obtain ⟨k1, k2⟩ := ih (i + 1) ls1 t1 t2 (fun x hx => hsz x (List.mem_cons_of_mem _ hx)) g1 h3
          refine ⟨k1, ?_⟩
          intro j a b ini' ha hb hi
          cases j with
          | zero =>
            simp only [List.getElem?_cons_zero, Option.some.injEq] at ha hb
            rw [Nat.add_zero, h1] at hi
            simp only [Except.ok.injEq] at hi
            subst ha hb hi
            exact g2
          | succ j =>
            refine k2 j a b ini' (by simpa using ha) (by simpa using hb) ?_
            rw [← hi]; congr 1; omega

/-- **C54** In IEEE arithmetic: if `rand()` never hits the middle twice in a row, every weight is a finite number.  Xavier weights are
at most (1 + 2·10^-7)·√(6/(n_in+n_out)) in absolute value, Kaiming weights at most 8.2·√(2/n_in), the others at most 8.2; whatever
earlier calls left in the static variables, as long as the same can be said of them. -/
theorem C54_float_weights {L : Libm} (hL : L.Accurate) {g : Rand} (hg : g.WF) (h32 : g.randMax < 2 ^ 32) (ho : OffCentre g) {fuel : ℕ}
    {recs : List ActRecord} (hr : RecsNamed recs) {inits : Option (List (Option String))} {nn nn' : Net B32} (hn : nn.Sized)
    {s s' : RandState B32} (hs : Carried s) (h : @initializeNN B32 (ops L) g fuel recs inits (some nn) s = .ok (some nn', s')) :
    Carried s' ∧ ∀ (i : ℕ) (l l' : Layer B32) (ini : String), nn.layers[i]? = some l → nn'.layers[i]? = some l' →
      readInitializer inits i = .ok ini →
      (∀ w ∈ l'.weight.data, w.isFinite = true ∧ |w.value| ≤ match schemeOf ini l.act with
        | .xavier => (1 + 2 / 10 ^ 7) * √(6 / (l.nIn + l.nOut : ℕ))
        | .kaiming => 82 / 10 * √(2 / l.nIn)
        | .normal => 82 / 10) ∧
      (∀ b ∈ l'.bias.data, Is b 0) := by
  let _ := ops L
  have hv := (C54_values hr hn h).2.2
  rw [initializeNN] at h
  cases h1 : initLayers g fuel recs inits 0 nn.layers s with
  | error e => simp [h1, bind, Except.bind] at h
  | ok p =>
    obtain ⟨ls, s1⟩ := p
    simp only [h1, bind, Except.bind, pure, Except.pure, Except.ok.injEq, Prod.mk.injEq, Option.some.injEq] at h
    obtain ⟨rfl, rfl⟩ := h
    obtain ⟨k1, k2⟩ := initLayers_float hL hg h32 ho hr nn.layers 0 ls s s1 hn hs h1
    refine ⟨k1, fun i l l' ini a b c => ⟨?_, ?_⟩⟩
    · intro w hw
      have := k2 i l l' ini a b (by simpa using c) w hw
      cases hsch : schemeOf ini l.act <;> rw [hsch] at this <;> exact this
    · obtain ⟨l2, ini2, xs2, s2, s3, e1, -, -, -, e4⟩ := hv i l a
      rw [show ls[i]? = some l' from b] at e1
      simp only [Option.some.injEq] at e1
      subst e1
      intro x hx
      rw [e4] at hx
      rw [List.eq_of_mem_replicate hx]
      exact is_zeroS false

/-! ### The middle, twice -/

/-- glibc: RAND_MAX as a float is 2^31. -/
theorem rnd_randMax : rnd ((2147483647 : ℕ) : ℝ) = 2147483648 := by
  have h0 : ((2147483647 : ℕ) : ℝ) ≠ 0 := by norm_num
  have hu : ulpExp ((2147483647 : ℕ) : ℝ) = 7 := by
    rw [ulpExp, abs_of_nonneg (Nat.cast_nonneg _), Int.log_natCast]
    have : Nat.log 2 2147483647 = 30 := by
      rw [Nat.log_eq_iff (by norm_num)]; norm_num
    rw [this]; norm_num
  have he := rnd_error ((2147483647 : ℕ) : ℝ)
  have hr : rnd ((2147483647 : ℕ) : ℝ) = (mant ((2147483647 : ℕ) : ℝ) : ℝ) * 2 ^ (7 : ℤ) := by
    rw [rnd, if_neg (by norm_num), hu]
  rw [hr, hu] at he
  generalize mant ((2147483647 : ℕ) : ℝ) = m at *
  rw [hr]
  norm_num at he ⊢
  rw [abs_le] at he
  have h1 : m = 16777216 := by
    have a1 : (16777215 : ℝ) < m := by linarith [he.1]
    have a2 : (m : ℝ) < 16777217 := by linarith [he.2]
    have b1 : 16777215 < m := by exact_mod_cast a1
    have b2 : m < 16777217 := by exact_mod_cast a2
    omega
  rw [h1]; norm_num

theorem uniform_middle (L : Libm) : Is (@uniformOf B32 (ops L) 2147483647 1073741824) 0 := by
  have ha := ofNat_is (n := 1073741824) (by norm_num)
  have hb := ofNat_is (n := 2147483647) (by norm_num)
  rw [rnd_randMax] at hb
  have e : rnd ((1073741824 : ℕ) : ℝ) = 1073741824 := by
    have := rnd_exact (x := ((1073741824 : ℕ) : ℝ)) (k := 1) (j := 30) (by norm_num) (by norm_num) (by norm_num)
    rw [this]; norm_num
  rw [e] at ha
  have hq := div_is ha hb (by norm_num) (small_le_max (by norm_num [abs_le]))
  have eh : rnd ((1073741824 : ℝ) / 2147483648) = 1 / 2 :=
    (rnd_exact (k := 1) (j := -1) (by norm_num) (by norm_num) (by norm_num)).trans (by norm_num)
  rw [eh] at hq
  have hd := mul_is is_two hq (small_le_max (by norm_num))
  rw [show (2 : ℝ) * (1 / 2) = 1 by norm_num, rnd_one] at hd
  have hs := sub_is hd is_one (small_le_max (by norm_num))
  rw [sub_self, rnd_zero] at hs
  exact hs

/-- `logf(0)` is minus infinity (C standard F.10.3.7). -/
def LogZero (L : Libm) : Prop := ∀ a : B32, Is a 0 → L.log a = inf true

theorem nan_mul {a b : B32} (h : a.isNan = true ∨ b.isNan = true) : (B32.mul a b).isNan = true := by
  have : (a.isNan || b.isNan) = true := by rcases h with h | h <;> simp [h]
  rw [B32.mul, if_pos this]; decide

theorem centre_nan {L : Libm} (hz : LogZero L) {u S : B32} (hu : Is u 0) (hS : Is S 0) :
    (B32.mul u (B32.sqrt (B32.div (B32.mul (B32.neg (ofReal false (((2 : ℤ) : ℝ) / ((1 : ℕ) : ℝ)))) (L.log S)) S))).isNan = true := by
  have h2 := is_neg is_two
  have hsg : (B32.neg (ofReal false (((2 : ℤ) : ℝ) / ((1 : ℕ) : ℝ)))).sign = true := sign_of_neg (by rw [h2.2]; norm_num)
  obtain ⟨i1, i2, i3, i4⟩ := is_inf true
  obtain ⟨j1, j2, j3, j4⟩ := is_inf false
  rw [hz S hS]
  have hm : B32.mul (B32.neg (ofReal false (((2 : ℤ) : ℝ) / ((1 : ℕ) : ℝ)))) (inf true) = inf false := by
    simp only [B32.mul, not_nan h2.1, i3, not_inf h2.1, i2, h2.2, hsg, i4]
    norm_num
  rw [hm]
  have hd : B32.div (inf false) S = inf S.sign := by
    simp only [B32.div, not_nan hS.1, j3, j2, j4, not_inf hS.1]
    simp
  rw [hd]
  cases hs : S.sign with
  | true =>
    refine nan_mul (.inr ?_)
    simp only [B32.sqrt, i3, i1, i4]
    decide
  | false =>
    have : B32.sqrt (inf false) = inf false := by
      simp only [B32.sqrt, j3, j1, j2, j4]
      simp
    rw [this]
    simp only [B32.mul, not_nan hu.1, j3, not_inf hu.1, j2, hu.2]
    simp
    decide

/-- **C54, limit** With glibc's RAND_MAX = 2^31 - 1 (odd, so that 2·rand() = RAND_MAX is impossible) rounding still gives `u = v = 0`:
if `rand()` returns 2^30 twice in a row, `S == 0` passes the test of the loop, and the weight is not a number. -/
theorem C54_float_nan_false {L : Libm} (hz : LogZero L) (s : RandState B32) (hs : s.usePrev = false) (fuel : ℕ) :
    ∃ x s', @randomNormal B32 (ops L) ⟨fun _ => 2 ^ 30, 2 ^ 31 - 1⟩ (fuel + 1) s = .ok (x, s') ∧ x.isNan = true := by
  let _ := ops L
  have hu := uniform_middle L
  have h2 := mul_is hu hu (small_le_max (by norm_num))
  rw [mul_zero, rnd_zero] at h2
  have hS := add_is h2 h2 (small_le_max (by norm_num))
  rw [add_zero, rnd_zero] at hS
  have hle' : B32.le (ofReal false 1) (B32.add (B32.mul (uniformOf 2147483647 1073741824) (uniformOf 2147483647 1073741824))
      (B32.mul (uniformOf 2147483647 1073741824) (uniformOf 2147483647 1073741824))) = false := by
    rw [Bool.eq_false_iff]
    intro h
    have := (le_iff is_one hS).1 h
    norm_num at this
  have hle : FloatOps.le (one : B32) (FloatOps.add (FloatOps.mul (uniformOf 2147483647 1073741824) (uniformOf 2147483647 1073741824))
      (FloatOps.mul (uniformOf 2147483647 1073741824) (uniformOf 2147483647 1073741824))) = false := hle'
  rw [randomNormal, hs, if_neg (by simp), polarLoop]
  norm_num only
  rw [hle, if_neg (by simp)]
  exact ⟨_, _, rfl, centre_nan hz hu hS⟩

/-! ### Termination of the rejection loop -/

theorem accept_real {x y U V a b : ℝ} (hxy : x ^ 2 + y ^ 2 ≤ 1 - 1 / 10 ^ 5) (hU : |U - x| ≤ 1 / 10 ^ 6) (hV : |V - y| ≤ 1 / 10 ^ 6)
    (ha : a ≤ U * U + 1 / 10 ^ 7) (hb : b ≤ V * V + 1 / 10 ^ 7) : a + b ≤ 1 - 1 / 10 ^ 6 := by
  have key : ∀ z Z : ℝ, z ^ 2 ≤ 1 → |Z - z| ≤ 1 / 10 ^ 6 → Z * Z ≤ z ^ 2 + 3 / 10 ^ 6 := by
    intro z Z hz hZ
    have h1 : |z| ≤ 1 := abs_le_one_iff_mul_self_le_one.2 (by nlinarith)
    have h2 : Z * Z = z ^ 2 + (Z - z) * (2 * z + (Z - z)) := by ring
    have h3 : |(Z - z) * (2 * z + (Z - z))| ≤ 1 / 10 ^ 6 * 3 := by
      rw [abs_mul]
      refine mul_le_mul hZ ?_ (abs_nonneg _) (by norm_num)
      have := abs_add_le (2 * z) (Z - z)
      rw [abs_mul, abs_of_pos (by norm_num : (0 : ℝ) < 2)] at this
      linarith
    have := (abs_le.1 h3).2
    linarith
  have h1 := key x U (by nlinarith [sq_nonneg y]) hU
  have h2 := key y V (by nlinarith [sq_nonneg x]) hV
  linarith

/-- **C54** If among any `fuel` consecutive pairs of values of `rand()` there is one for which (2·rand()/RAND_MAX - 1)² + (2·rand()/RAND_MAX - 1)²
is at most 1 - 10^-5 in exact arithmetic, the rejection loop of `random_normal` ends after at most `fuel` rounds also in IEEE arithmetic. -/
theorem C54_float_terminates (L : Libm) {g : Rand} (hg : g.WF) (h32 : g.randMax < 2 ^ 32) {fuel : ℕ}
    (h : ∀ k, ∃ j < fuel, (2 * (g.r (k + 2 * j) : ℝ) / g.randMax - 1) ^ 2 + (2 * (g.r (k + 2 * j + 1) : ℝ) / g.randMax - 1) ^ 2 ≤ 1 - 1 / 10 ^ 5) :
    @Accepting B32 (ops L) g fuel ∧ ∀ s : RandState B32, ∃ p, @randomNormal B32 (ops L) g fuel s = .ok p := by
  have hacc : @Accepting B32 (ops L) g fuel := by
    intro k
    obtain ⟨j, hj, hle⟩ := h k
    refine ⟨j, hj, ?_⟩
    obtain ⟨U, u1, u2, u3, -⟩ := C54_float_uniform L hg.1 h32 (hg.2 (k + 2 * j))
    obtain ⟨V, v1, v2, v3, -⟩ := C54_float_uniform L hg.1 h32 (hg.2 (k + 2 * j + 1))
    have sqle : ∀ x : ℝ, |x| ≤ 1 → x * x ≤ 1 := fun x h => by rw [← abs_mul_abs_self]; nlinarith [abs_nonneg x]
    have hu2 := mul_is u1 u1 (small_le_max (by rw [abs_of_nonneg (mul_self_nonneg U)]; exact (sqle U u2).trans (by norm_num)))
    have hv2 := mul_is v1 v1 (small_le_max (by rw [abs_of_nonneg (mul_self_nonneg V)]; exact (sqle V v2).trans (by norm_num)))
    have eb : ∀ x : ℝ, |x| ≤ 1 → rnd (x * x) ≤ x * x + 1 / 10 ^ 7 := by
      intro x hx
      have := (abs_le.1 (rnd_abs' (x * x))).2
      rw [abs_of_nonneg (mul_self_nonneg x)] at this
      have := sqle x hx
      linarith
    have hs := accept_real hle u3 v3 (eb U u2) (eb V v2)
    have h0 : 0 ≤ rnd (U * U) := rnd_nonneg (mul_self_nonneg U)
    have h1 : 0 ≤ rnd (V * V) := rnd_nonneg (mul_self_nonneg V)
    have hS := add_is hu2 hv2 (small_le_max (by rw [abs_of_nonneg (by linarith)]; exact hs.trans (by norm_num)))
    have es := (abs_le.1 (rnd_abs' (rnd (U * U) + rnd (V * V)))).2
    rw [abs_of_nonneg (by linarith)] at es
    have : B32.le (ofReal false 1) (B32.add (B32.mul (@uniformOf B32 (ops L) g.randMax (g.r (k + 2 * j))) (@uniformOf B32 (ops L) g.randMax (g.r (k + 2 * j))))
        (B32.mul (@uniformOf B32 (ops L) g.randMax (g.r (k + 2 * j + 1))) (@uniformOf B32 (ops L) g.randMax (g.r (k + 2 * j + 1))))) = false := by
      rw [Bool.eq_false_iff]
      intro h
      have := (le_iff is_one hS).1 h
      linarith
    exact this
  exact ⟨hacc, fun s => @randomNormal_ok B32 (ops L) g fuel hacc s⟩

/-! ### Examples -/

/-- A library whose `logf(0)` is minus infinity. -/
noncomputable def zeroLibm : Libm :=
  open Classical in { exactLibm with log := fun a => if a.isFinite = true ∧ a.value = 0 then inf true else exactLibm.log a }

theorem zeroLibm_accurate : zeroLibm.Accurate where
  exp := exactLibm_accurate.exp
  exp_neg_inf := exactLibm_accurate.exp_neg_inf
  log a h h0 := by
    have : zeroLibm.log a = exactLibm.log a := by
      simp [zeroLibm, h0.ne']
    rw [this]
    exact exactLibm_accurate.log a h h0
  tanh := exactLibm_accurate.tanh

theorem zeroLibm_logZero : LogZero zeroLibm := by
  intro a ha
  simp [zeroLibm, ha.1, ha.2]

/-- `rand()` with glibc's RAND_MAX, returning about 3/4 and 2/5 of it in turn. -/
def exRand31 : Rand := ⟨fun k => if k % 2 = 0 then 1610612736 else 858993459, 2147483647⟩

theorem exRand31_wf : exRand31.WF := by
  refine ⟨by decide, fun k => ?_⟩
  simp only [exRand31]
  split_ifs <;> norm_num

theorem exRand31_off : OffCentre exRand31 := by
  intro k
  left
  simp only [exRand31]
  split_ifs
  · rw [lt_abs]; left; norm_num
  · rw [lt_abs]; right; norm_num

theorem exRand31_ok (k : ℕ) : (2 * (exRand31.r k : ℝ) / exRand31.randMax - 1) ^ 2 ≤ 1 / 3 := by
  simp only [exRand31]
  split_ifs <;> norm_num

theorem exRand31_accepting (L : Libm) : @Accepting B32 (ops L) exRand31 1 :=
  (C54_float_terminates L exRand31_wf (by decide) (fun k => ⟨0, by norm_num, by
    have h1 := exRand31_ok (k + 2 * 0)
    have h2 := exRand31_ok (k + 2 * 0 + 1)
    linarith⟩)).1

/-- Two layers: tanh (Xavier) and ReLU (Kaiming). -/
def exNet32 : Net B32 := ⟨[⟨2, 3, ⟨0, List.replicate 6 qnan⟩, ⟨64, List.replicate 3 qnan⟩, .tanh, none⟩,
  ⟨3, 1, ⟨128, List.replicate 3 qnan⟩, ⟨192, List.replicate 1 qnan⟩, .relu, none⟩], none⟩

theorem exNet32_sized : exNet32.Sized := by
  intro l hl
  simp only [exNet32, List.mem_cons, List.not_mem_nil, or_false] at hl
  rcases hl with rfl | rfl <;> refine ⟨⟨?_, ?_⟩, ?_⟩ <;> simp

/-- Initialising the network gives finite weights. -/
example : ∃ nn' s', @initializeNN B32 (ops zeroLibm) exRand31 1 [] none (some exNet32) ⟨0, zeroS false, zeroS false, false⟩ = .ok (some nn', s') ∧
    ∀ l' ∈ nn'.layers, ∀ w ∈ l'.weight.data, w.isFinite = true := by
  let _ := ops zeroLibm
  obtain ⟨nn', s', h⟩ := C54_defined (g := exRand31) (fuel := 1) (recs := []) (by intro r hr; cases hr) (inits := none) (nn := exNet32) exNet32_sized
    (by intro l hl; simp only [exNet32, List.mem_cons, List.not_mem_nil, or_false] at hl; rcases hl with rfl | rfl <;> norm_num)
    (by intro fs h; cases h) (exRand31_accepting zeroLibm) ⟨0, zeroS false, zeroS false, false⟩
  refine ⟨nn', s', h, ?_⟩
  intro l' hl' w hw
  obtain ⟨i, hi⟩ := List.getElem?_of_mem hl'
  have hlen := (C54_values (by intro r hr; cases hr) exNet32_sized h).2.1
  have hlt : i < exNet32.layers.length := by
    rw [← hlen]; exact (List.getElem?_eq_some_iff.1 hi).1
  exact ((C54_float_weights zeroLibm_accurate exRand31_wf (by decide) exRand31_off (by intro r hr; cases hr) exNet32_sized
    (by intro h; cases h) h).2 i _ l' "" (List.getElem?_eq_getElem hlt) hi rfl).1 w hw |>.1

example (s : RandState B32) (hs : s.usePrev = false) :
    ∃ x s', @randomNormal B32 (ops zeroLibm) ⟨fun _ => 2 ^ 30, 2 ^ 31 - 1⟩ 1 s = .ok (x, s') ∧ x.isNan = true :=
  C54_float_nan_false zeroLibm_logZero s hs 0

end NN.B32
