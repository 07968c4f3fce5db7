import Verif.Model.Activation
import Verif.Proofs.Kernels
/-
Refinement of the activation functions to list functions (lawless floats).
-/
set_option linter.unusedSimpArgs false
set_option linter.unusedSectionVars false

namespace NN
open FloatOps
variable {F : Type} [FloatOps F]

/-- First index handled by the vector loop after an unaligned head. -/
def bodyLo (c : Cfg) (addr n : Nat) : Nat := headEnd (fun i => !isAligned c (addr + 4 * i)) n 0

/-- End of the vector loop of width `w` started at `lo`. -/
def bodyHi (lo w n : Nat) : Nat := lo + w * ((n - lo) / w)

/-- Vector operation inside `[lo, hi)`, scalar operation outside. -/
def regionOp (lo hi : Nat) (vop sop : F → F) : Nat → F → F :=
  fun k x => if lo ≤ k ∧ k < hi then vop x else sop x

theorem bodyLo_le (c : Cfg) (addr n : Nat) : bodyLo c addr n ≤ n := headEnd_le (Nat.zero_le _)

theorem bodyHi_le {lo w n : Nat} (h : lo ≤ n) : bodyHi lo w n ≤ n := by
  unfold bodyHi
  have := Nat.div_mul_le_self (n - lo) w
  rw [Nat.mul_comm] at this; omega

theorem bodyLo_aligned {c : Cfg} {addr n : Nat} (h : bodyLo c addr n < n) :
    (addr + 4 * bodyLo c addr n) % c.alignSize = 0 := by
  have := headEnd_stop (p := fun i => !isAligned c (addr + 4 * i)) (n := n) (j := 0) h
  simpa [isAligned, bodyLo] using this

theorem bodyLo_of_aligned {c : Cfg} {addr n : Nat} (h : addr % c.alignSize = 0) :
    bodyLo c addr n = 0 := by
  apply headEnd_of_not
  simp [isAligned, h]

theorem mod32_of_aligned {c : Cfg} {a : Nat} (hx : c.avx = true) (h : a % c.alignSize = 0) :
    a % 32 = 0 := by
  rcases c with ⟨s, _, _⟩
  cases s <;> simp_all [Cfg.avx, Cfg.alignSize] <;> omega

theorem Cfg.avx_of_hasAvx2 {c : Cfg} (h : c.hasAvx2 = true) : c.avx = true := by
  simp [Cfg.hasAvx2] at h; exact h.1

theorem scalarBody_ok {g : Nat → F → F} {f : F → F} {k : Nat} {l : List F} {a : Nat}
    (h : k < l.length) (hg : ∀ x, g k x = f x) :
    scalarBody f k ⟨a, applyTo g k l⟩ = .ok ⟨a, applyTo g (k + 1) l⟩ := by
  unfold scalarBody
  rw [load_applyTo h]
  simp only [bind, Except.bind]
  exact store_applyTo h (by rw [hg])

theorem vecMapStore_ok {g : Nat → F → F} {f : F → F} {k : Nat} {l : List F} {a : Nat}
    (h : k + 8 ≤ l.length) (ha : (a + 4 * k) % 32 = 0) (hg : ∀ t, t < 8 → ∀ x, g (k + t) x = f x) :
    View.storea 8 ⟨a, applyTo g k l⟩ k ((slice l k 8).map f) = .ok ⟨a, applyTo g (k + 8) l⟩ := by
  apply storea_applyTo ha
  · simp; omega
  · exact h
  · intro t ht
    simp only [List.getElem?_map, slice_getElem?, ht, if_true]
    congr 1; funext x; exact (hg t ht x).symm

theorem twoRegBody_ok {g : Nat → F → F} {f : F → F} {k : Nat} {l : List F} {a : Nat}
    (h : k + 16 ≤ l.length) (ha : (a + 4 * k) % 32 = 0)
    (hg : ∀ t, t < 16 → ∀ x, g (k + t) x = f x) :
    twoRegBody f k ⟨a, applyTo g k l⟩ = .ok ⟨a, applyTo g (k + 16) l⟩ := by
  unfold twoRegBody
  have e : slice (applyTo g k l) (k + 8) 8 = slice l (k + 8) 8 := by
    apply List.ext_getElem?; intro i
    simp only [slice_getElem?, applyTo_getElem?]
    split
    · have : ¬ (k + 8 + i < k) := by omega
      simp [this]
    · rfl
  rw [loada_applyTo (by omega) ha, loada_ok (by simp; omega) (by simp only; omega)]
  simp only [bind, Except.bind, e]
  rw [vecMapStore_ok (by omega) ha (fun t ht x => hg t (by omega) x)]
  simp only
  exact vecMapStore_ok (k := k + 8) (by omega) (by omega)
    (fun t ht x => by rw [Nat.add_assoc]; exact hg (8 + t) (by omega) x)

/-- Head, two-register body, scalar tail. -/
theorem headBodyTail_eq (c : Cfg) (sop vop : F → F) (n : Nat) (y : View F) (hx : c.avx = true)
    (hn : n ≤ y.data.length) :
    (do
      let (i, y') ← headLoop (fun i => !isAligned c (y.addr + 4 * i)) n (scalarBody sop) 0 y
      let (i, y') ← stripLe 16 n (twoRegBody vop) i y'
      let (_, y') ← stripLe 1 n (scalarBody sop) i y'
      pure y' : M (View F)) =
    .ok ⟨y.addr, applyTo (regionOp (bodyLo c y.addr n) (bodyHi (bodyLo c y.addr n) 16 n) vop sop) n
      y.data⟩ := by
  let g := regionOp (bodyLo c y.addr n) (bodyHi (bodyLo c y.addr n) 16 n) vop sop
  let f : Nat → View F := fun k => ⟨y.addr, applyTo g k y.data⟩
  have hlo := bodyLo_le c y.addr n
  have hhi := bodyHi_le (w := 16) hlo
  have hle : bodyLo c y.addr n ≤ bodyHi (bodyLo c y.addr n) 16 n := by unfold bodyHi; omega
  have h1 : headLoop (fun i => !isAligned c (y.addr + 4 * i)) n (scalarBody sop) 0 (f 0) =
      .ok (bodyLo c y.addr n, f (bodyLo c y.addr n)) := by
    apply headLoop_eq f
    intro k _ hk
    change k < bodyLo c y.addr n at hk
    apply scalarBody_ok (by omega)
    intro x
    simp only [g, regionOp]
    rw [if_neg (by omega)]
  have h2 : stripLe 16 n (twoRegBody vop) (bodyLo c y.addr n) (f (bodyLo c y.addr n)) =
      .ok (bodyHi (bodyLo c y.addr n) 16 n, f (bodyHi (bodyLo c y.addr n) 16 n)) := by
    apply stripLe_eq f (by decide)
    intro k hk hm hkn
    have hal := mod32_of_aligned hx (bodyLo_aligned (c := c) (addr := y.addr) (n := n) (by omega))
    apply twoRegBody_ok (by omega) (by omega)
    intro t ht x
    simp only [g, regionOp]
    rw [if_pos]
    refine ⟨by omega, ?_⟩
    unfold bodyHi; omega
  have h3 : stripLe 1 n (scalarBody sop) (bodyHi (bodyLo c y.addr n) 16 n) (f (bodyHi (bodyLo c y.addr n) 16 n)) =
      .ok (n, f n) := by
    rw [stripLe_eq f (by decide)]
    · have : bodyHi (bodyLo c y.addr n) 16 n + 1 * ((n - bodyHi (bodyLo c y.addr n) 16 n) / 1) = n := by
        omega
      rw [this]
    · intro k hk _ hkn
      apply scalarBody_ok (by omega)
      intro x
      simp only [g, regionOp]
      rw [if_neg (by omega)]
  have e0 : f 0 = y := by simp [f]
  rw [e0] at h1
  simp only [h1, h2, h3, bind, Except.bind, pure, Except.pure, f, g]

theorem scalarAll_eq (sop : F → F) (n : Nat) (y : View F) (hn : n ≤ y.data.length) :
    (do
      let (_, y') ← stripLe 1 n (scalarBody sop) 0 y
      pure y' : M (View F)) = .ok ⟨y.addr, applyTo (fun _ => sop) n y.data⟩ := by
  have h := stripLe_eq (W := 1) (n := n) (j := 0) (body := scalarBody sop)
    (fun k => (⟨y.addr, applyTo (fun _ => sop) k y.data⟩ : View F)) (by decide)
    (fun k _ _ hk => scalarBody_ok (by omega) (fun _ => rfl))
  have e : 0 + 1 * ((n - 0) / 1) = n := by omega
  simp only [applyTo_zero, e] at h
  simp only [h, bind, Except.bind, pure, Except.pure]

/-- Elementwise result of `relu`: which elements the vector instruction handles depends on the
address. -/
def reluOp (c : Cfg) (addr n : Nat) : Nat → F → F :=
  if c.avx then regionOp (bodyLo c addr n) (bodyHi (bodyLo c addr n) 16 n) (fun x => maxps zero x)
    (fun x => fmax zero x)
  else fun _ x => fmax zero x

theorem relu_eq (c : Cfg) (n : Nat) (y : View F) (hn : n ≤ y.data.length) :
    relu c n y = .ok ⟨y.addr, applyTo (reluOp c y.addr n) n y.data⟩ := by
  unfold relu reluOp
  cases hx : c.avx
  · exact scalarAll_eq _ n y hn
  · have := headBodyTail_eq c (fun x : F => fmax zero x) (fun x => maxps zero x) n y hx hn
    simp only [bind, Except.bind] at this
    simp only [if_true, bind, Except.bind]
    rw [← this]

def sigmoidOp (c : Cfg) (addr n : Nat) : Nat → F → F :=
  if c.hasAvx2 then regionOp (bodyLo c addr n) (bodyHi (bodyLo c addr n) 16 n) sigmoidV sigmoidS
  else fun _ => sigmoidS

theorem sigmoid_eq (c : Cfg) (n : Nat) (y : View F) (hn : n ≤ y.data.length) :
    sigmoid c n y = .ok ⟨y.addr, applyTo (sigmoidOp c y.addr n) n y.data⟩ := by
  unfold sigmoid sigmoidOp
  cases hx : c.hasAvx2
  · exact scalarAll_eq _ n y hn
  · have := headBodyTail_eq c (sigmoidS (F := F)) sigmoidV n y (Cfg.avx_of_hasAvx2 hx) hn
    simp only [bind, Except.bind] at this
    simp only [if_true, bind, Except.bind]
    rw [← this]

def tanhOp (c : Cfg) (n : Nat) : Nat → F → F :=
  if c.hasAvx2 then regionOp 0 (16 * (n / 16)) tanhV FloatOps.tanh else fun _ => FloatOps.tanh

theorem tanhAct_eq (c : Cfg) (n : Nat) (y : View F) (hn : n ≤ y.data.length)
    (ha : c.hasAvx2 = true → 16 ≤ n → y.addr % 32 = 0) :
    tanhAct c n y = .ok ⟨y.addr, applyTo (tanhOp c n) n y.data⟩ := by
  unfold tanhAct tanhOp
  cases hx : c.hasAvx2
  · exact scalarAll_eq _ n y hn
  · simp only [if_true]
    let g : Nat → F → F := regionOp 0 (16 * (n / 16)) tanhV FloatOps.tanh
    have h2 := stripLe_eq (W := 16) (n := n) (j := 0) (body := twoRegBody (tanhV (F := F)))
      (fun k => (⟨y.addr, applyTo g k y.data⟩ : View F)) (by decide)
      (fun k hk hm hkn => by
        have := ha hx (by omega)
        apply twoRegBody_ok (by omega) (by omega)
        intro t ht x
        simp only [g, regionOp]
        rw [if_pos]
        omega)
    have h3 := stripLe_eq (W := 1) (n := n) (j := 16 * (n / 16)) (body := scalarBody (FloatOps.tanh (F := F)))
      (fun k => (⟨y.addr, applyTo g k y.data⟩ : View F)) (by decide)
      (fun k hk hm hkn => by
        apply scalarBody_ok (by omega)
        intro x
        simp only [g, regionOp]
        rw [if_neg (by omega)])
    have e : 16 * (n / 16) + 1 * ((n - 16 * (n / 16)) / 1) = n := by omega
    simp only [applyTo_zero, e, Nat.zero_add, Nat.sub_zero] at h2 h3
    simp only [h2, h3, bind, Except.bind, pure, Except.pure, g]

theorem mapLoop_eq (f : F → F) (n : Nat) (y : View F) (hn : n ≤ y.data.length) :
    mapLoop f n y = .ok ⟨y.addr, applyTo (fun _ => f) n y.data⟩ := by
  unfold mapLoop
  have h0 : y = (fun k => (⟨y.addr, applyTo (fun _ => f) k y.data⟩ : View F)) 0 := by simp
  refine (congrArg (forN n _) h0).trans ?_
  rw [forN_eq (fun k => (⟨y.addr, applyTo (fun _ => f) k y.data⟩ : View F))]
  intro k hk
  exact scalarBody_ok (f := f) (by omega) (fun _ => rfl)

/-! ### softmax -/

/-- Maximum found by the first pass. -/
def maxF : List F → F
  | [] => zero
  | x :: l => l.foldl (fun m x => if FloatOps.lt m x then x else m) x

theorem softmaxMax_eq (n : Nat) (ar : View F) (h1 : 1 ≤ n) (hn : n ≤ ar.data.length) :
    softmaxMax n ar = .ok (maxF (ar.data.take n)) := by
  unfold softmaxMax
  rcases hd : ar.data with _ | ⟨x, l⟩
  · simp [hd] at hn; omega
  · have hl : n ≤ l.length + 1 := by simpa [hd] using hn
    rw [load_ok (by simp [hd])]
    simp only [bind, Except.bind, hd, List.getElem_cons_zero]
    have h := stripLe_eq (W := 1) (n := n) (j := 1) (body := fun j (m : F) => (do
        let x ← ar.load j
        pure (if FloatOps.lt m x then x else m) : M F))
      (fun k => (l.take (k - 1)).foldl (fun m x => if FloatOps.lt m x then x else m) x) (by decide)
      (fun k hk _ hkn => by
        rw [load_ok (by simp [hd]; omega)]
        obtain ⟨k, rfl⟩ : ∃ k', k = k' + 1 := ⟨k - 1, by omega⟩
        have hkl : k < l.length := by omega
        simp only [bind, Except.bind, pure, Except.pure, hd, List.getElem_cons_succ,
          Nat.add_sub_cancel]
        rw [List.take_add_one, List.foldl_append]
        simp [hkl])
    have e : 1 + 1 * ((n - 1) / 1) = n := by omega
    simp only [e, Nat.sub_self, List.take_zero, List.foldl_nil, bind, Except.bind] at h
    rw [h]
    obtain ⟨n, rfl⟩ : ∃ n', n = n' + 1 := ⟨n - 1, by omega⟩
    simp [maxF, pure, Except.pure]

/-- Lane sums of the vector part of the second pass. -/
def vsumF (lo : Nat) (exps : List F) : Nat → List F
  | 0 => set1 8 zero
  | t + 1 => vop2 add (vsumF lo exps t) (slice exps (lo + 8 * t) 8)

/-- Elementwise part of the second pass. -/
def softmaxExpOp (c : Cfg) (addr n : Nat) (m : F) : Nat → F → F :=
  if c.hasAvx2 then regionOp (bodyLo c addr n) (bodyHi (bodyLo c addr n) 8 n)
    (fun x => exp8 (sub x m)) (fun x => FloatOps.exp (sub x m))
  else fun _ x => FloatOps.exp (sub x m)

/-- The sum accumulated by the second pass from the exponentials. -/
def softmaxSumF (c : Cfg) (addr n : Nat) (exps : List F) : F :=
  if c.hasAvx2 then
    let lo := bodyLo c addr n
    let s0 := (exps.take lo).foldl add zero
    let s1 := add s0 (hsum256 (vsumF lo exps ((n - lo) / 8)))
    ((exps.take n).drop (bodyHi lo 8 n)).foldl add s1
  else (exps.take n).foldl add zero

theorem softmaxScalar_strip (m : F) (g : Nat → F → F) (a n j : Nat) (l : List F) (s : F)
    (hj : j ≤ n) (hn : n ≤ l.length)
    (hg : ∀ k, j ≤ k → k < n → ∀ x, g k x = FloatOps.exp (sub x m)) :
    stripLe 1 n (softmaxScalarBody m) j (⟨a, applyTo g j l⟩, s) =
      .ok (n, ⟨a, applyTo g n l⟩, (((applyTo g n l).take n).drop j).foldl add s) := by
  have h := stripLe_eq (W := 1) (n := n) (j := j) (body := softmaxScalarBody m)
    (fun k => ((⟨a, applyTo g k l⟩ : View F), (((applyTo g n l).take k).drop j).foldl add s))
    (by decide) (fun k hk _ hkn => by
      simp only [softmaxScalarBody]
      rw [load_applyTo (by omega)]
      simp only [bind, Except.bind]
      rw [store_applyTo (by omega) (by rw [hg k hk (by omega)])]
      simp only [pure, Except.pure]
      congr 2
      have hkl : k < l.length := by omega
      have hkn' : k < n := by omega
      have hE : (applyTo g n l)[k]? = some (FloatOps.exp (sub l[k] m)) := by
        rw [applyTo_getElem?]; simp [hkl, hkn', hg k hk hkn']
      rw [List.take_add_one, hE, List.drop_append_of_le_length (by simp; omega), List.foldl_append]
      simp)
  have e : j + 1 * ((n - j) / 1) = n := by omega
  have e2 : ((applyTo g n l).take j).drop j = [] := by simp
  simp only [e, e2, List.foldl_nil] at h
  exact h

theorem softmaxExp_eq (c : Cfg) (n : Nat) (m : F) (ar : View F) (hn : n ≤ ar.data.length) :
    softmaxExp c n m ar =
      .ok (⟨ar.addr, applyTo (softmaxExpOp c ar.addr n m) n ar.data⟩,
        softmaxSumF c ar.addr n (applyTo (softmaxExpOp c ar.addr n m) n ar.data)) := by
  unfold softmaxExp
  cases hx : c.hasAvx2
  · simp only [Bool.false_eq_true, if_false, bind, Except.bind, pure, Except.pure]
    have e0 : ar = ⟨ar.addr, applyTo (softmaxExpOp c ar.addr n m) 0 ar.data⟩ := by simp
    have := softmaxScalar_strip m (softmaxExpOp c ar.addr n m) ar.addr n 0 ar.data zero (by omega) hn
      (fun k _ _ x => by simp [softmaxExpOp, hx])
    rw [← e0] at this
    rw [this]
    simp [softmaxSumF, hx]
  · simp only [if_true]
    let lo := bodyLo c ar.addr n
    let hi := bodyHi lo 8 n
    let g : Nat → F → F := softmaxExpOp c ar.addr n m
    let E := applyTo g n ar.data
    have hg : ∀ k x, g k x = if lo ≤ k ∧ k < hi then exp8 (sub x m) else FloatOps.exp (sub x m) := by
      intro k x; simp [g, softmaxExpOp, hx, regionOp, lo, hi]
    have hlo : lo ≤ n := bodyLo_le c ar.addr n
    have hhi : hi ≤ n := bodyHi_le hlo
    have hle : lo ≤ hi := by simp only [hi, bodyHi]; omega
    have hEget : ∀ k, k < n → E[k]? = (ar.data[k]?).map (g k) := by
      intro k hk
      simp only [E, applyTo_getElem?, hk, if_true]
    have h1 : headLoop (fun j => !isAligned c (ar.addr + 4 * j)) n (softmaxScalarBody m) 0
        (⟨ar.addr, applyTo g 0 ar.data⟩, zero) =
        .ok (lo, ⟨ar.addr, applyTo g lo ar.data⟩, (E.take lo).foldl add zero) := by
      have := headLoop_eq (p := fun j => !isAligned c (ar.addr + 4 * j)) (n := n) (j := 0)
        (body := softmaxScalarBody m)
        (fun k => ((⟨ar.addr, applyTo g k ar.data⟩ : View F), (E.take k).foldl add zero))
        (fun k _ hk => by
          change k < lo at hk
          have hkl : k < ar.data.length := by omega
          have hgk : ∀ x, g k x = FloatOps.exp (sub x m) := by
            intro x; rw [hg, if_neg (by omega)]
          simp only [softmaxScalarBody]
          rw [load_applyTo hkl]
          simp only [bind, Except.bind]
          rw [store_applyTo hkl (by rw [hgk])]
          simp only [pure, Except.pure]
          congr 2
          rw [List.take_add_one, hEget k (by omega), List.foldl_append]
          simp [hkl, hgk])
      simp only [List.take_zero, List.foldl_nil] at this
      exact this
    have h2 : stripLe 8 n (softmaxVecBody m) lo (⟨ar.addr, applyTo g lo ar.data⟩, set1 8 zero) =
        .ok (hi, ⟨ar.addr, applyTo g hi ar.data⟩, vsumF lo E ((n - lo) / 8)) := by
      have := stripLe_eq (W := 8) (n := n) (j := lo) (body := softmaxVecBody m)
        (fun k => ((⟨ar.addr, applyTo g k ar.data⟩ : View F), vsumF lo E ((k - lo) / 8)))
        (by decide) (fun k hk hm hkn => by
          have hal := mod32_of_aligned (Cfg.avx_of_hasAvx2 hx)
            (bodyLo_aligned (c := c) (addr := ar.addr) (n := n) (by omega))
          change (ar.addr + 4 * lo) % 32 = 0 at hal
          have hkhi : k + 8 ≤ hi := by
            simp only [hi, bodyHi]; omega
          simp only [softmaxVecBody]
          rw [loada_applyTo (by omega) (by omega)]
          simp only [bind, Except.bind]
          have ev : List.map exp8 (vop2 sub (slice ar.data k 8) (set1 8 m)) =
              (slice ar.data k 8).map (fun x => exp8 (sub x m)) := by
            apply List.ext_getElem?; intro i
            simp only [List.getElem?_map, vop2, List.getElem?_zipWith, slice_getElem?, set1,
              List.getElem?_replicate]
            by_cases hi8 : i < 8
            · simp only [hi8, if_true]
              rcases ar.data[k + i]? with _ | x <;> rfl
            · simp [hi8]
          rw [ev, vecMapStore_ok (by omega) (by omega)
            (fun t ht x => by rw [hg, if_pos ⟨by omega, by omega⟩])]
          simp only [pure, Except.pure]
          congr 2
          have e : (k + 8 - lo) / 8 = (k - lo) / 8 + 1 := by omega
          have e2 : lo + 8 * ((k - lo) / 8) = k := by omega
          rw [e, vsumF, e2]
          congr 1
          apply List.ext_getElem?; intro i
          simp only [List.getElem?_map, slice_getElem?]
          by_cases hi8 : i < 8
          · simp only [hi8, if_true]
            rw [hEget (k + i) (by omega)]
            congr 1; funext x
            rw [hg, if_pos ⟨by omega, by omega⟩]
          · simp [hi8])
      have e3 : (lo + 8 * ((n - lo) / 8) - lo) / 8 = (n - lo) / 8 := by omega
      simp only [Nat.sub_self, Nat.zero_div, vsumF, e3] at this
      exact this
    have h3 := softmaxScalar_strip m g ar.addr n hi ar.data
      (add ((E.take lo).foldl add zero) (hsum256 (vsumF lo E ((n - lo) / 8)))) hhi hn
      (fun k hk _ x => by rw [hg, if_neg (by omega)])
    simp only [applyTo_zero] at h1
    simp only [h1, h2, h3, bind, Except.bind, pure, Except.pure]
    simp only [softmaxSumF, hx, if_true]
    rfl

theorem softmaxDiv_eq (c : Cfg) (n : Nat) (s : F) (ar : View F) (hn : n ≤ ar.data.length) :
    softmaxDiv c n s ar = .ok ⟨ar.addr, applyTo (fun _ x => div x s) n ar.data⟩ := by
  unfold softmaxDiv
  cases hx : c.avx
  · exact scalarAll_eq _ n ar hn
  · simp only [if_true]
    let g : Nat → F → F := fun _ x => div x s
    let lo := bodyLo c ar.addr n
    have hlo : lo ≤ n := bodyLo_le c ar.addr n
    have hhi : bodyHi lo 8 n ≤ n := bodyHi_le hlo
    have h1 : headLoop (fun j => !isAligned c (ar.addr + 4 * j)) n (scalarBody (fun x => div x s)) 0
        ⟨ar.addr, applyTo g 0 ar.data⟩ = .ok (lo, ⟨ar.addr, applyTo g lo ar.data⟩) :=
      headLoop_eq (fun k => (⟨ar.addr, applyTo g k ar.data⟩ : View F)) (fun k _ hk => by
        change k < lo at hk
        exact scalarBody_ok (by omega) (fun _ => rfl))
    have h2 : stripLe 8 n (fun j (ar : View F) => (do
        let x ← ar.loada 8 j
        ar.storea 8 j (vop2 div x (set1 8 s)) : M (View F))) lo ⟨ar.addr, applyTo g lo ar.data⟩ =
        .ok (bodyHi lo 8 n, ⟨ar.addr, applyTo g (bodyHi lo 8 n) ar.data⟩) :=
      stripLe_eq (fun k => (⟨ar.addr, applyTo g k ar.data⟩ : View F)) (by decide)
        (fun k hk hm hkn => by
          have hal := mod32_of_aligned hx
            (bodyLo_aligned (c := c) (addr := ar.addr) (n := n) (by omega))
          change (ar.addr + 4 * lo) % 32 = 0 at hal
          rw [loada_applyTo (by omega) (by omega)]
          simp only [bind, Except.bind]
          have ev : vop2 div (slice ar.data k 8) (set1 8 s) =
              (slice ar.data k 8).map (fun x => div x s) := by
            apply List.ext_getElem?; intro i
            simp only [List.getElem?_map, vop2, List.getElem?_zipWith, slice_getElem?, set1,
              List.getElem?_replicate]
            by_cases hi8 : i < 8
            · simp only [hi8, if_true]
              rcases ar.data[k + i]? with _ | x <;> rfl
            · simp [hi8]
          rw [ev]
          exact vecMapStore_ok (by omega) (by omega) (fun t ht x => rfl))
    have h3 : stripLe 1 n (scalarBody (fun x => div x s)) (bodyHi lo 8 n)
        ⟨ar.addr, applyTo g (bodyHi lo 8 n) ar.data⟩ = .ok (n, ⟨ar.addr, applyTo g n ar.data⟩) := by
      have := stripLe_eq (W := 1) (n := n) (j := bodyHi lo 8 n) (body := scalarBody (fun x => div x s))
        (fun k => (⟨ar.addr, applyTo g k ar.data⟩ : View F)) (by decide)
        (fun k _ _ hk => scalarBody_ok (by omega) (fun _ => rfl))
      rw [show bodyHi lo 8 n + 1 * ((n - bodyHi lo 8 n) / 1) = n by omega] at this
      exact this
    simp only [applyTo_zero] at h1
    simp only [bind, Except.bind] at h2
    simp only [h1, h2, h3, bind, Except.bind, pure, Except.pure, g]

/-- The list computed by `softmax` on a buffer at address `addr` (`l` are the `n` elements). -/
def softmaxF (c : Cfg) (addr : Nat) (l : List F) : List F :=
  let exps := applyTo (softmaxExpOp c addr l.length (maxF l)) l.length l
  let sum := softmaxSumF c addr l.length exps
  exps.map (fun x => div x sum)

theorem applyTo_append (g : Nat → F → F) (l l' : List F) (n : Nat) (h : n ≤ l.length) :
    applyTo g n (l ++ l') = applyTo g n l ++ l' := by
  apply List.ext_getElem?; intro i
  simp only [applyTo_getElem?, List.getElem?_append, applyTo_length]
  by_cases hi : i < l.length
  · simp [hi]
  · have : ¬ i < n := by omega
    simp [hi, this]

theorem applyTo_take_drop (g : Nat → F → F) (l : List F) (n : Nat) (h : n ≤ l.length) :
    applyTo g n l = applyTo g n (l.take n) ++ l.drop n := by
  have := applyTo_append g (l.take n) (l.drop n) n (by simp; omega)
  rwa [List.take_append_drop] at this

theorem softmaxSumF_take (c : Cfg) (addr n : Nat) (l : List F) :
    softmaxSumF c addr n (l.take n) = softmaxSumF c addr n l := by
  have hs : ∀ t, bodyLo c addr n + 8 * t ≤ n →
      vsumF (bodyLo c addr n) (l.take n) t = vsumF (bodyLo c addr n) l t := by
    intro t
    induction t with
    | zero => intro _; rfl
    | succ t ih =>
      intro ht
      simp only [vsumF]
      rw [ih (by omega)]
      congr 1
      apply List.ext_getElem?; intro i
      simp only [slice_getElem?, List.getElem?_take]
      by_cases hi : i < 8
      · simp only [hi, if_true]
        rw [if_pos (by omega)]
      · simp [hi]
  have hlo := bodyLo_le c addr n
  unfold softmaxSumF
  simp only [List.take_take, Nat.min_self]
  rw [Nat.min_eq_left hlo, hs _ (by omega)]

theorem softmax_eq (c : Cfg) (n : Nat) (ar : View F) (h1 : 1 ≤ n) (hn : n ≤ ar.data.length) :
    softmax c n ar = .ok ⟨ar.addr, softmaxF c ar.addr (ar.data.take n) ++ ar.data.drop n⟩ := by
  unfold softmax
  rw [softmaxMax_eq n ar h1 hn]
  simp only [bind, Except.bind]
  rw [softmaxExp_eq c n _ ar hn]
  simp only
  rw [softmaxDiv_eq c n _ _ (by simpa using hn)]
  congr 2
  have hlen : (ar.data.take n).length = n := by simp; omega
  simp only [softmaxF, hlen]
  rw [← softmaxSumF_take c ar.addr n _]
  have e1 := applyTo_take_drop (softmaxExpOp c ar.addr n (maxF (ar.data.take n))) ar.data n hn
  have e2 : (applyTo (softmaxExpOp c ar.addr n (maxF (ar.data.take n))) n ar.data).take n =
      applyTo (softmaxExpOp c ar.addr n (maxF (ar.data.take n))) n (ar.data.take n) := by
    rw [e1, List.take_append_of_le_length (by simp; omega), List.take_of_length_le (by simp; omega)]
  rw [e2]
  rw [e1, applyTo_append _ _ _ _ (by simp; omega), applyTo_full _ (by simp; omega)]

/-! ### Calls through the function pointer -/

/-- List function computed by an activation function on a buffer at address `addr`. -/
def activateF (env : CustomEnv F) (c : Cfg) (a : Act) (addr : Nat) (l : List F) : List F :=
  match a with
  | .relu => applyTo (reluOp c addr l.length) l.length l
  | .softmax => softmaxF c addr l
  | .sigmoid => applyTo (sigmoidOp c addr l.length) l.length l
  | .tanh => applyTo (tanhOp c l.length) l.length l
  | .linear => l
  | .exponential => l.map FloatOps.exp
  | .softplus => l.map softplusS
  | .softsign => l.map softsignS
  | .hardSigmoid => l.map hardSigmoidS
  | .custom i => env.act i l

theorem activateF_length (env : CustomEnv F) (c : Cfg) (a : Act) (addr : Nat) (l : List F) :
    (activateF env c a addr l).length = l.length := by
  cases a <;> simp [activateF, softmaxF, env.act_length]

theorem activate_eq' (env : CustomEnv F) (c : Cfg) (a : Act) (n : Nat) (y : View F)
    (h1 : a = .softmax → 1 ≤ n) (hn : n ≤ y.data.length)
    (ha : a = .tanh → c.hasAvx2 = true → 16 ≤ n → y.addr % 32 = 0) :
    activate env c a n y =
      .ok ⟨y.addr, activateF env c a y.addr (y.data.take n) ++ y.data.drop n⟩ := by
  have hlen : (y.data.take n).length = n := by simp; omega
  have key : ∀ g : Nat → F → F, (.ok ⟨y.addr, applyTo g n y.data⟩ : M (View F)) =
      .ok ⟨y.addr, applyTo g n (y.data.take n) ++ y.data.drop n⟩ := by
    intro g; rw [← applyTo_take_drop _ _ _ hn]
  have hmap : ∀ f : F → F, (.ok ⟨y.addr, applyTo (fun _ => f) n y.data⟩ : M (View F)) =
      .ok ⟨y.addr, (y.data.take n).map f ++ y.data.drop n⟩ := by
    intro f; rw [applyTo_map f n _ hn]
  cases a <;> simp only [activate, activateF, hlen]
  · rw [mapLoop_eq _ _ _ hn, hmap]
  · rw [mapLoop_eq _ _ _ hn, hmap]
  · rw [mapLoop_eq _ _ _ hn, hmap]
  · rw [mapLoop_eq _ _ _ hn, hmap]
  · simp [pure, Except.pure]
  · rw [softmax_eq c n y (h1 rfl) hn]
  · rw [relu_eq c n y hn, key]
  · rw [sigmoid_eq c n y hn, key]
  · rw [tanhAct_eq c n y hn (ha rfl), key]
  · simp [hn, pure, Except.pure]

theorem activate_eq (env : CustomEnv F) (c : Cfg) (a : Act) (n : Nat) (y : View F) (h1 : 1 ≤ n)
    (hn : n ≤ y.data.length) (ha : AlignedFor c n y.addr) :
    activate env c a n y =
      .ok ⟨y.addr, activateF env c a y.addr (y.data.take n) ++ y.data.drop n⟩ :=
  activate_eq' env c a n y (fun _ => h1) hn (fun _ hx h16 =>
    ha.1 (Cfg.avx_of_hasAvx2 hx) (by omega))

/-! ### Derivatives -/

/-- Elementwise result of a derivative function with vector part. -/
def derivOp (c : Cfg) (n : Nat) (d : F → F) (act : List F) : Nat → F → F :=
  fun k x => match act[k]? with
    | some a => if c.avx = true ∧ k < 16 * (n / 16) then mul (d a) x else mul x (d a)
    | none => x

theorem derivScalarBody_ok {g : Nat → F → F} {d : F → F} {act : View F} {k : Nat} {l : List F} {a : Nat}
    (h : k < l.length) (hact : k < act.data.length) (hg : ∀ x, g k x = mul x (d act.data[k])) :
    derivScalarBody d act k ⟨a, applyTo g k l⟩ = .ok ⟨a, applyTo g (k + 1) l⟩ := by
  unfold derivScalarBody
  rw [load_ok hact, load_applyTo h]
  simp only [bind, Except.bind]
  exact store_applyTo h (by rw [hg])

theorem derivVec_eq (c : Cfg) (d : F → F) (n : Nat) (act ar : View F)
    (hact : n ≤ act.data.length) (hn : n ≤ ar.data.length)
    (ha : c.avx = true → 16 ≤ n → act.addr % 32 = 0 ∧ ar.addr % 32 = 0) :
    derivVec c d n act ar = .ok ⟨ar.addr, applyTo (derivOp c n d act.data) n ar.data⟩ := by
  unfold derivVec
  let g : Nat → F → F := derivOp c n d act.data
  let f : Nat → View F := fun k => ⟨ar.addr, applyTo g k ar.data⟩
  have e0 : f 0 = ar := by simp [f]
  cases hx : c.avx
  · simp only [Bool.false_eq_true, if_false, bind, Except.bind, pure, Except.pure]
    have h := stripLe_eq (W := 1) (n := n) (j := 0) (body := derivScalarBody d act) f (by decide)
      (fun k _ _ hk => derivScalarBody_ok (by omega) (by omega)
        (fun x => by simp [g, derivOp, hx, show k < act.data.length by omega]))
    rw [show 0 + 1 * ((n - 0) / 1) = n by omega, e0] at h
    rw [h]
  · simp only [if_true]
    have h2 := stripLe_eq (W := 16) (n := n) (j := 0) (body := derivTwoRegBody d act) f (by decide)
      (fun k _ hm hkn => by
        obtain ⟨ha1, ha2⟩ := ha hx (by omega)
        have half : ∀ k, k + 8 ≤ ar.data.length → k + 8 ≤ act.data.length → k + 8 ≤ 16 * (n / 16) →
            (ar.addr + 4 * k) % 32 = 0 →
            View.storea 8 ⟨ar.addr, applyTo g k ar.data⟩ k
              (vop2 mul ((slice act.data k 8).map d) (slice ar.data k 8)) =
              .ok ⟨ar.addr, applyTo g (k + 8) ar.data⟩ := by
          intro k h1 h2 h3 hal
          apply storea_applyTo hal
          · simp [vop2]; omega
          · exact h1
          · intro t ht
            have l1 : k + t < ar.data.length := by omega
            have l2 : k + t < act.data.length := by omega
            have l3 : k + t < 16 * (n / 16) := by omega
            simp [vop2, List.getElem?_zipWith, slice_getElem?, ht, l1, l2, g, derivOp, hx, l3]
        have e8 : slice (applyTo g k ar.data) (k + 8) 8 = slice ar.data (k + 8) 8 := by
          apply List.ext_getElem?; intro i
          simp only [slice_getElem?, applyTo_getElem?]
          split
          · have : ¬ (k + 8 + i < k) := by omega
            simp [this]
          · rfl
        have hk16 : k + 16 ≤ 16 * (n / 16) := by omega
        simp only [derivTwoRegBody, f]
        rw [loada_ok (by omega) (by omega), loada_ok (by omega) (by omega),
          loada_applyTo (by omega) (by omega), loada_ok (by simp; omega) (by simp; omega)]
        simp only [bind, Except.bind, e8]
        rw [half k (by omega) (by omega) (by omega) (by omega)]
        exact half (k + 8) (by omega) (by omega) (by omega) (by omega))
    have h3 := stripLe_eq (W := 1) (n := n) (j := 16 * (n / 16)) (body := derivScalarBody d act) f
      (by decide) (fun k hk _ hkn => derivScalarBody_ok (by omega) (by omega)
        (fun x => by
          have : ¬ k < 16 * (n / 16) := by omega
          simp [g, derivOp, this, show k < act.data.length by omega]))
    rw [show 16 * (n / 16) + 1 * ((n - 16 * (n / 16)) / 1) = n by omega] at h3
    simp only [e0, Nat.zero_add, Nat.sub_zero] at h2
    simp only [h2, h3, bind, Except.bind, pure, Except.pure, f, g]

theorem derivScalar_eq (d : F → F) (n : Nat) (act ar : View F)
    (hact : n ≤ act.data.length) (hn : n ≤ ar.data.length) :
    forN n (derivScalarBody d act) ar =
      .ok ⟨ar.addr, applyTo (zipOp (fun x a => mul x (d a)) act.data) n ar.data⟩ := by
  have h0 : ar = (fun k => (⟨ar.addr, applyTo (zipOp (fun x a => mul x (d a)) act.data) k ar.data⟩ : View F)) 0 := by
    simp
  refine (congrArg (forN n _) h0).trans ?_
  rw [forN_eq (fun k => (⟨ar.addr, applyTo (zipOp (fun x a => mul x (d a)) act.data) k ar.data⟩ : View F))]
  intro k hk
  exact derivScalarBody_ok (by omega) (by omega)
    (fun x => by simp [zipOp, show k < act.data.length by omega])

/-- List function computed by a derivative function on activations `act` and gradient `l` (both of
length `n`). -/
def activateDerivF (env : CustomEnv F) (c : Cfg) (d : ActDeriv) (act l : List F) : List F :=
  match d with
  | .relu => applyTo (derivOp c l.length reluD act) l.length l
  | .sigmoid => applyTo (derivOp c l.length sigmoidD act) l.length l
  | .tanh => applyTo (derivOp c l.length tanhD act) l.length l
  | .softplus => applyTo (zipOp (fun x a => mul x (softplusD a)) act) l.length l
  | .softsign => applyTo (zipOp (fun x a => mul x (softsignD a)) act) l.length l
  | .hardSigmoid => applyTo (zipOp (fun x a => mul x (hardSigmoidD a)) act) l.length l
  | .exponential => applyTo (zipOp (fun x a => mul x a) act) l.length l
  | .linear => l
  | .softmax => l
  | .custom i => env.deriv i act l

/-- Derivatives executing aligned vector instructions on both buffers. -/
def ActDeriv.vectorised : ActDeriv → Bool
  | .relu | .sigmoid | .tanh => true
  | _ => false

theorem activateDerivF_length (env : CustomEnv F) (c : Cfg) (d : ActDeriv) (act l : List F) :
    (activateDerivF env c d act l).length = l.length := by
  cases d <;> simp [activateDerivF, env.deriv_length]

theorem activateDeriv_eq (env : CustomEnv F) (c : Cfg) (d : ActDeriv) (n : Nat) (act ar : View F)
    (hact : n ≤ act.data.length) (hn : n ≤ ar.data.length)
    (ha : d.vectorised = true → c.avx = true → 16 ≤ n → act.addr % 32 = 0 ∧ ar.addr % 32 = 0) :
    activateDeriv env c d n act ar =
      .ok ⟨ar.addr, activateDerivF env c d (act.data.take n) (ar.data.take n) ++ ar.data.drop n⟩ := by
  have hlen : (ar.data.take n).length = n := by simp; omega
  have key : ∀ g g' : Nat → F → F, (∀ k, k < n → ∀ x, g k x = g' k x) →
      (.ok ⟨ar.addr, applyTo g n ar.data⟩ : M (View F)) =
      .ok ⟨ar.addr, applyTo g' n (ar.data.take n) ++ ar.data.drop n⟩ := by
    intro g g' h
    rw [← applyTo_take_drop _ _ _ hn, applyTo_congr (g := g) (g' := g') (fun k hk x _ => h k hk x)]
  have kd : ∀ d' : F → F, ∀ k, k < n → ∀ x,
      derivOp c n d' act.data k x = derivOp c n d' (act.data.take n) k x := by
    intro d' k hk x
    simp only [derivOp, List.getElem?_take, hk, if_true]
  have kz : ∀ op : F → F → F, ∀ k, k < n → ∀ x,
      zipOp op act.data k x = zipOp op (act.data.take n) k x := by
    intro op k hk x
    simp only [zipOp, List.getElem?_take, hk, if_true]
  cases d <;> simp only [activateDeriv, activateDerivF, hlen]
  · rw [derivScalar_eq _ _ _ _ hact hn, key _ _ (kz _)]
  · rw [derivScalar_eq _ _ _ _ hact hn, key _ _ (kz _)]
  · rw [derivScalar_eq _ _ _ _ hact hn, key _ _ (kz _)]
  · rw [derivScalar_eq _ _ _ _ hact hn, key _ _ (kz _)]
  · simp [pure, Except.pure]
  · simp [pure, Except.pure]
  · rw [derivVec_eq c _ n act ar hact hn (ha rfl), key _ _ (kd _)]
  · rw [derivVec_eq c _ n act ar hact hn (ha rfl), key _ _ (kd _)]
  · rw [derivVec_eq c _ n act ar hact hn (ha rfl), key _ _ (kd _)]
  · simp [hn, hact, pure, Except.pure]

end NN
