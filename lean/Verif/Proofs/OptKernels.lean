import Verif.Model.Optimizer
import Verif.Proofs.Kernels
import Verif.Model.RealOps
/-
The elementwise loops of src/adam.c, src/adagrad.c and src/RMSprop.c.
-/
set_option linter.unusedSimpArgs false

namespace NN
open FloatOps
variable {F : Type}

theorem ladder8_eq {σ : Type} {c : Cfg} {n : Nat} {b8 b1 : Nat → σ → M σ} (f : Nat → σ)
    (h8 : c.avx = true → ∀ k, 8 ∣ k → k + 8 ≤ n → k + 8 ≤ vcut c n → b8 k (f k) = .ok (f (k + 8)))
    (h1 : ∀ k, k < n → vcut c n ≤ k → b1 k (f k) = .ok (f (k + 1))) :
    ladder8 c n b8 b1 (f 0) = .ok (f n) := by
  unfold ladder8
  cases ha : c.avx
  · have hv : vcut c n = 0 := by simp [vcut, ha]
    simp only [Bool.false_eq_true, if_false, bind, Except.bind, pure, Except.pure]
    rw [stripLe_eq f (by decide) (fun k _ _ hk => h1 k (by omega) (by omega))]
    simp [Nat.div_one]
  · have hv : vcut c n = 8 * (n / 8) := by simp [vcut, ha]
    simp only [if_true, bind, Except.bind, pure, Except.pure]
    rw [stripLe_eq (n := n) (j := 0) f (by decide) (fun k _ hm hk => h8 ha k (by omega) (by omega) (by omega))]
    simp only [Nat.zero_add, Nat.sub_zero]
    rw [stripLe_eq f (by decide) (fun k _ _ hk => h1 k (by omega) (by omega))]
    have : 8 * (n / 8) + 1 * ((n - 8 * (n / 8)) / 1) = n := by omega
    simp only [this]

theorem ladder8_elem {c : Cfg} {n : Nat} {v : View F} {b8 b1 : Nat → View F → M (View F)} (g : Nat → F → F)
    (hv : ∀ k, c.avx = true → 8 ∣ k → k + 8 ≤ n → k + 8 ≤ vcut c n →
      b8 k ⟨v.addr, applyTo g k v.data⟩ = .ok ⟨v.addr, applyTo g (k + 8) v.data⟩)
    (h1 : ∀ k, k < n → vcut c n ≤ k →
      b1 k ⟨v.addr, applyTo g k v.data⟩ = .ok ⟨v.addr, applyTo g (k + 1) v.data⟩) :
    ladder8 c n b8 b1 v = .ok ⟨v.addr, applyTo g n v.data⟩ := by
  have := ladder8_eq (c := c) (n := n) (b8 := b8) (b1 := b1)
    (fun k => (⟨v.addr, applyTo g k v.data⟩ : View F)) (fun h k hk hn hc => hv k h hk hn hc) h1
  simpa using this

theorem align8 {c : Cfg} {n k a : Nat} (hx : c.avx = true) (hk : 8 ∣ k) (hn : k + 8 ≤ n)
    (ha : AlignedFor c n a) : (a + 4 * k) % (4 * 8) = 0 := by
  have := ha.1 hx (by omega)
  omega

theorem set1_get {w t : Nat} {x : F} (h : t < w) : (set1 w x)[t]? = some x := by
  simp [set1, h]

/-- `fv` in the vector part, `fs` in the scalar tail. -/
def cutOp (c : Cfg) (n : Nat) (fv fs : F → F → F) (b : List F) : Nat → F → F :=
  fun k x => match b[k]? with
    | some y => if k < vcut c n then fv x y else fs x y
    | none => x

/-- If vector and scalar part compute the same, it is a `zipWith`. -/
theorem applyTo_cut (c : Cfg) (fv fs : F → F → F) (n : Nat) (l b : List F) (hb : n ≤ b.length)
    (hl : n ≤ l.length) (h : ∀ x y, fv x y = fs x y) :
    applyTo (cutOp c n fv fs b) n l = List.zipWith fs (l.take n) (b.take n) ++ l.drop n := by
  rw [← applyTo_zip _ _ _ _ hb hl]
  apply applyTo_congr
  intro k hk x _
  simp only [cutOp, zipOp]
  cases b[k]? with
  | none => rfl
  | some y => simp [h]

section
variable [FloatOps F]

theorem accumulateSquaredGradient_eq (c : Cfg) (n : Nat) (r g : View F) (hal : AlignedFor c n r.addr)
    (hbl : AlignedFor c n g.addr) (ha : n ≤ r.data.length) (hb : n ≤ g.data.length) :
    accumulateSquaredGradient c n r g =
      .ok ⟨r.addr, applyTo (zipOp (fun x y => add x (mul y y)) g.data) n r.data⟩ := by
  unfold accumulateSquaredGradient
  apply ladder8_elem
  · intro k hx hk hn _
    rw [loada_ok (by omega) (align8 hx hk hn hbl)]
    simp only [bind, Except.bind]
    rw [loada_applyTo (by omega) (align8 hx hk hn hal)]
    simp only
    apply storea_applyTo (align8 hx hk hn hal)
    · simp [vop2, set1]; omega
    · omega
    · intro t ht
      have h1 : k + t < r.data.length := by omega
      have h2 : k + t < g.data.length := by omega
      simp [vop2, List.getElem?_zipWith, set1_get ht, slice_getElem?, ht, zipOp, h1, h2]
  · intro k hk _
    rw [load_ok (by omega)]
    simp only [bind, Except.bind]
    rw [load_applyTo (by omega)]
    apply store_applyTo (by omega)
    simp [zipOp, show k < g.data.length by omega]

theorem computeUpdate_eq (c : Cfg) (n : Nat) (d r : View F) (lr : F) (hal : AlignedFor c n d.addr)
    (hbl : AlignedFor c n r.addr) (ha : n ≤ d.data.length) (hb : n ≤ r.data.length) :
    computeUpdate c n d r lr =
      .ok ⟨d.addr, applyTo (zipOp (fun x y => mul x (div (neg lr) (add epsUpdate (FloatOps.sqrt y)))) r.data)
        n d.data⟩ := by
  unfold computeUpdate
  apply ladder8_elem
  · intro k hx hk hn _
    rw [loada_applyTo (by omega) (align8 hx hk hn hal)]
    simp only [bind, Except.bind]
    rw [loada_ok (by omega) (align8 hx hk hn hbl)]
    simp only
    apply storea_applyTo (align8 hx hk hn hal)
    · simp [vop2, set1]; omega
    · omega
    · intro t ht
      have h1 : k + t < d.data.length := by omega
      have h2 : k + t < r.data.length := by omega
      simp [vop2, List.getElem?_zipWith, set1_get ht, slice_getElem?, ht, zipOp, h1, h2]
  · intro k hk _
    rw [load_applyTo (by omega)]
    simp only [bind, Except.bind]
    rw [load_ok (by omega)]
    apply store_applyTo (by omega)
    simp [zipOp, show k < r.data.length by omega]

theorem updateFirstMoment_eq (c : Cfg) (n : Nat) (s g : View F) (rho : F) (hal : AlignedFor c n s.addr)
    (hbl : AlignedFor c n g.addr) (ha : n ≤ s.data.length) (hb : n ≤ g.data.length) :
    updateFirstMoment c n s g rho =
      .ok ⟨s.addr, applyTo (cutOp c n (fun x y => add (mul x rho) (mul y (sub one rho)))
        (fun x y => add (mul rho x) (mul (sub one rho) y)) g.data) n s.data⟩ := by
  unfold updateFirstMoment
  apply ladder8_elem
  · intro k hx hk hn hc
    rw [loada_ok (by omega) (align8 hx hk hn hbl)]
    simp only [bind, Except.bind]
    rw [loada_applyTo (by omega) (align8 hx hk hn hal)]
    simp only
    apply storea_applyTo (align8 hx hk hn hal)
    · simp [vop2, set1]; omega
    · omega
    · intro t ht
      have h1 : k + t < s.data.length := by omega
      have h2 : k + t < g.data.length := by omega
      have h3 : k + t < vcut c n := by omega
      simp [vop2, List.getElem?_zipWith, set1_get ht, slice_getElem?, ht, cutOp, h1, h2, h3]
  · intro k hk hc
    rw [load_ok (by omega)]
    simp only [bind, Except.bind]
    rw [load_applyTo (by omega)]
    apply store_applyTo (by omega)
    simp [cutOp, show k < g.data.length by omega, show ¬ k < vcut c n by omega]

theorem updateSecondMoment_eq (c : Cfg) (n : Nat) (s g : View F) (rho : F) (hal : AlignedFor c n s.addr)
    (hbl : AlignedFor c n g.addr) (ha : n ≤ s.data.length) (hb : n ≤ g.data.length) :
    updateSecondMoment c n s g rho =
      .ok ⟨s.addr, applyTo (cutOp c n (fun x y => add (mul x rho) (mul (mul y y) (sub one rho)))
        (fun x y => add (mul rho x) (mul (mul (sub one rho) y) y)) g.data) n s.data⟩ := by
  unfold updateSecondMoment
  apply ladder8_elem
  · intro k hx hk hn hc
    rw [loada_ok (by omega) (align8 hx hk hn hbl)]
    simp only [bind, Except.bind]
    rw [loada_applyTo (by omega) (align8 hx hk hn hal)]
    simp only
    apply storea_applyTo (align8 hx hk hn hal)
    · simp [vop2, set1]; omega
    · omega
    · intro t ht
      have h1 : k + t < s.data.length := by omega
      have h2 : k + t < g.data.length := by omega
      have h3 : k + t < vcut c n := by omega
      simp [vop2, List.getElem?_zipWith, set1_get ht, slice_getElem?, ht, cutOp, h1, h2, h3]
  · intro k hk hc
    rw [load_ok (by omega)]
    simp only [bind, Except.bind]
    rw [load_applyTo (by omega)]
    apply store_applyTo (by omega)
    simp [cutOp, show k < g.data.length by omega, show ¬ k < vcut c n by omega]

/-- The Adam step of one parameter. -/
def adamElem (rho1 rho2 lr s r : F) : F :=
  div (mul (neg lr) (div s (sub one rho1))) (add (FloatOps.sqrt (div r (sub one rho2))) epsAdam)

/-- The Adam step at index `k`. -/
def adamOp (rho1 rho2 lr : F) (s r : List F) : Nat → F → F :=
  fun k x => match s[k]?, r[k]? with
    | some a, some b => adamElem rho1 rho2 lr a b
    | _, _ => x

theorem computeUpdateAdam_eq (c : Cfg) (n : Nat) (d s r : View F) (rho1 rho2 lr : F)
    (hal : AlignedFor c n d.addr) (hsl : AlignedFor c n s.addr) (hrl : AlignedFor c n r.addr)
    (ha : n ≤ d.data.length) (hs : n ≤ s.data.length) (hr : n ≤ r.data.length) :
    computeUpdateAdam c n d s r rho1 rho2 lr =
      .ok ⟨d.addr, applyTo (adamOp rho1 rho2 lr s.data r.data) n d.data⟩ := by
  unfold computeUpdateAdam
  apply ladder8_elem
  · intro k hx hk hn hc
    rw [loada_ok (by omega) (align8 hx hk hn hsl)]
    simp only [bind, Except.bind]
    rw [loada_ok (by omega) (align8 hx hk hn hrl)]
    simp only
    apply storea_applyTo (align8 hx hk hn hal)
    · simp [vop2, set1]; omega
    · omega
    · intro t ht
      have h1 : k + t < d.data.length := by omega
      have h2 : k + t < s.data.length := by omega
      have h3 : k + t < r.data.length := by omega
      simp [vop2, List.getElem?_zipWith, set1_get ht, slice_getElem?, ht, adamOp, adamElem,
        h1, h2, h3]
  · intro k hk hc
    rw [load_ok (by omega)]
    simp only [bind, Except.bind]
    rw [load_ok (by omega)]
    apply store_applyTo (by omega)
    simp [adamOp, adamElem, show k < s.data.length by omega, show k < r.data.length by omega]

theorem applyTo_adam (rho1 rho2 lr : F) (n : Nat) (l s r : List F) (hl : n ≤ l.length) (hs : n ≤ s.length)
    (hr : n ≤ r.length) :
    applyTo (adamOp rho1 rho2 lr s r) n l =
      List.zipWith (adamElem rho1 rho2 lr) (s.take n) (r.take n) ++ l.drop n := by
  apply List.ext_getElem?; intro i
  simp only [applyTo_getElem?, adamOp]
  by_cases hi : i < n
  · rw [List.getElem?_append_left (by simp; omega)]
    have h1 : i < s.length := by omega
    have h2 : i < l.length := by omega
    have h3 : i < r.length := by omega
    simp [List.getElem?_zipWith, hi, h1, h2, h3]
  · rw [List.getElem?_append_right (by simp; omega), List.getElem?_drop]
    have : n + (i - (List.zipWith (adamElem rho1 rho2 lr) (s.take n) (r.take n)).length) = i := by
      simp; omega
    rw [this]; simp [hi]

end
end NN
