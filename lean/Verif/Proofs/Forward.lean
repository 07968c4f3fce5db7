import Verif.Model.Network
import Verif.Proofs.Activation
/-
Refinement of the forward pass to list functions (lawless floats).
-/
set_option linter.unusedSimpArgs false
set_option linter.unusedSectionVars false

namespace NN
open FloatOps
variable {F : Type}

/-! ### Layout of the stack buffer -/

theorem Cfg.alignSize_eq (c : Cfg) : c.alignSize = 4 * c.lanes := by
  rcases c with ⟨s, _, _⟩; cases s <;> simp [Cfg.lanes, Cfg.alignSize]

theorem Cfg.lanes_pos (c : Cfg) : 0 < c.lanes := by
  rcases c with ⟨s, _, _⟩; cases s <;> simp [Cfg.lanes, Cfg.alignSize]

theorem padded_mod (c : Cfg) (n : Nat) : padded c n % c.lanes = 0 := by
  simp [padded]

theorem padded_ge (c : Cfg) (n : Nat) : n ≤ padded c n := by
  have := c.lanes_pos
  unfold padded
  have h := Nat.div_add_mod (n + c.lanes - 1) c.lanes
  have h2 := Nat.mod_lt (n + c.lanes - 1) this
  rw [Nat.mul_comm] at h
  omega

theorem padded_le (c : Cfg) (n : Nat) : padded c n ≤ n + c.lanes - 1 := by
  unfold padded
  exact Nat.div_mul_le_self _ _

theorem aligned_off {c : Cfg} {a o : Nat} (ha : a % c.alignSize = 0) (ho : o % c.lanes = 0) :
    (a + 4 * o) % c.alignSize = 0 := by
  rw [c.alignSize_eq] at *
  obtain ⟨k, hk⟩ := Nat.dvd_of_mod_eq_zero ha
  obtain ⟨j, hj⟩ := Nat.dvd_of_mod_eq_zero ho
  apply Nat.mod_eq_zero_of_dvd
  exact ⟨k + j, by rw [hk, hj, Nat.mul_add, Nat.mul_assoc 4 c.lanes j]⟩

/-- The offsets the layout loop produces. -/
def offsets (c : Cfg) : Nat → List (Layer F) → List Nat
  | _, [] => []
  | off, [_] => [off]
  | off, l :: l' :: ls => off :: offsets c (off + padded c l.nOut) (l' :: ls)

theorem offsets_length (c : Cfg) : ∀ (off : Nat) (ls : List (Layer F)), (offsets c off ls).length = ls.length
  | _, [] => rfl
  | _, [_] => rfl
  | off, l :: l' :: ls => by simp [offsets, offsets_length c _ (l' :: ls)]

theorem layout_eq (c : Cfg) (a : Nat) (ha : a % c.alignSize = 0) :
    ∀ (off : Nat) (ls : List (Layer F)), off % c.lanes = 0 → layout c a off ls = .ok (offsets c off ls)
  | _, [], _ => rfl
  | _, [_], _ => rfl
  | off, l :: l' :: ls, ho => by
    have h1 : (off + padded c l.nOut) % c.lanes = 0 := by
      rw [Nat.add_mod, ho, padded_mod]; simp
    have h2 : isAligned c (a + 4 * (off + padded c l.nOut)) = true := by
      simp [isAligned, aligned_off ha h1]
    simp only [layout, h2, if_true, layout_eq c a ha _ (l' :: ls) h1, bind, Except.bind, pure,
      Except.pure, offsets]

/-- Buffers for the layers `ls` at offsets `offs` of an object of `len` floats at address `addr`: in
order from `lo` on, disjoint, in range and aligned. -/
def Laid (c : Cfg) (addr len : Nat) : Nat → List (Layer F) → List Nat → Prop
  | _, [], [] => True
  | lo, l :: ls, o :: os => lo ≤ o ∧ o + l.nOut ≤ len ∧ (addr + 4 * o) % c.alignSize = 0 ∧
      Laid c addr len (o + l.nOut) ls os
  | _, _, _ => False

theorem Laid.mono {c : Cfg} {addr len lo lo' : Nat} {ls : List (Layer F)} {os : List Nat}
    (h : Laid c addr len lo ls os) (hl : lo' ≤ lo) : Laid c addr len lo' ls os := by
  cases ls <;> cases os <;> simp_all [Laid]
  omega

theorem laid_offsets (c : Cfg) (a : Nat) (ha : a % c.alignSize = 0) (len : Nat) :
    ∀ (off : Nat) (ls : List (Layer F)), off % c.lanes = 0 →
      off + workSize ls + c.lanes * ls.length ≤ len → Laid c a len off ls (offsets c off ls)
  | _, [], _, _ => trivial
  | off, [l], ho, hl => by
    simp [workSize] at hl
    exact ⟨Nat.le_refl _, by omega, aligned_off ha ho, trivial⟩
  | off, l :: l' :: ls, ho, hl => by
    have h1 : (off + padded c l.nOut) % c.lanes = 0 := by
      rw [Nat.add_mod, ho, padded_mod]; simp
    have hp := padded_le c l.nOut
    have hg := padded_ge c l.nOut
    have hlp := c.lanes_pos
    have e1 : workSize (l :: l' :: ls) = l.nOut + workSize (l' :: ls) := by simp [workSize]
    have e2 : c.lanes * (l :: l' :: ls).length = c.lanes + c.lanes * (l' :: ls).length := by
      simp only [List.length_cons, Nat.mul_add]; omega
    refine ⟨Nat.le_refl _, by omega, aligned_off ha ho, ?_⟩
    exact (laid_offsets c a ha len _ (l' :: ls) h1 (by omega)).mono (by omega)

/-! ### One layer -/
section
variable [FloatOps F]

theorem vmmF_length (c : Cfg) (n m : Nat) (w b x : List F) (h : m ≤ b.length) :
    (vmmF c n m w b x).length = m := by simp [vmmF, h]

/-- `vector_matrix_multiply` looks at the first `n` inputs only. -/
theorem vmmF_take (c : Cfg) (n m : Nat) (w b x : List F) :
    vmmF c n m w b (x.take n) = vmmF c n m w b x := by
  unfold vmmF
  congr 1; funext k bk
  unfold vmmElem
  have : ∀ (r : List Nat), (∀ i ∈ r, i < n) → ∀ y : F,
      r.foldl (fun y i => match (x.take n)[i]?, w[i * m + k]? with
        | some xi, some wv => vmmStep c m k xi wv y
        | _, _ => y) y =
      r.foldl (fun y i => match x[i]?, w[i * m + k]? with
        | some xi, some wv => vmmStep c m k xi wv y
        | _, _ => y) y := by
    intro r
    induction r with
    | nil => intro _ y; rfl
    | cons i r ih =>
      intro h y
      have hi : i < n := h i (by simp)
      have e : (x.take n)[i]? = x[i]? := by simp [hi]
      rw [List.foldl_cons, List.foldl_cons, e]
      exact ih (fun j hj => h j (by simp [hj])) _
  exact this _ (fun i hi => List.mem_range.mp hi) _

/-- What a layer computes from its input into a buffer at address `addr`. -/
def layerF (env : CustomEnv F) (c : Cfg) (l : Layer F) (addr : Nat) (x : List F) : List F :=
  activateF env c l.act addr (vmmF c l.nIn l.nOut l.weight.data l.bias.data x)

theorem layerF_length (env : CustomEnv F) (c : Cfg) (l : Layer F) (addr : Nat) (x : List F)
    (h : l.WF c) : (layerF env c l addr x).length = l.nOut := by
  rw [layerF, activateF_length, vmmF_length _ _ _ _ _ _ (Nat.le_of_eq h.bias_len.symm)]

/-- The kernel and the activation function on a destination view. -/
theorem layer_step (env : CustomEnv F) (c : Cfg) (l : Layer F) (hw : l.WF c) (x : List F)
    (vx vy : View F) (hx : vx.data.take l.nIn = x) (hxl : x.length = l.nIn)
    (hyl : l.nOut ≤ vy.data.length) (hal : AlignedFor c l.nOut vy.addr) :
    (do
      let y ← vectorMatrixMultiply c l.nIn l.nOut l.weight l.bias vx vy
      activate env c l.act l.nOut y : M (View F)) =
      .ok ⟨vy.addr, layerF env c l vy.addr x ++ vy.data.drop l.nOut⟩ := by
  have hxl' : l.nIn ≤ vx.data.length := by
    rw [← hx] at hxl; simp at hxl; omega
  have hvl : (vmmF c l.nIn l.nOut l.weight.data l.bias.data vx.data).length = l.nOut :=
    vmmF_length _ _ _ _ _ _ (Nat.le_of_eq hw.bias_len.symm)
  rw [vectorMatrixMultiply_eq c l.nIn l.nOut l.weight l.bias vx vy hal
    (AlignedFor.of_aligned hw.bias_al) hyl (Nat.le_of_eq hw.bias_len.symm) hxl'
    (Nat.le_of_eq hw.weight_len.symm)]
  simp only [bind, Except.bind]
  rw [activate_eq env c l.act l.nOut _ hw.out_pos (by simp [hvl]) (by exact hal)]
  simp only
  rw [List.take_append_of_le_length (by omega), List.take_of_length_le (by omega),
    List.drop_append_of_le_length (by omega), List.drop_of_length_le (by omega), List.nil_append]
  rw [layerF, ← hx, vmmF_take]

/-- The first `n` floats behind `p` are `x`, and `p` ends below `lo` if it points into the work
memory. -/
structure SrcOk (s : Bufs F) (p : Ptr) (n : Nat) (x : List F) (lo : Nat) : Prop where
  val : (s.at p).data.take n = x
  len : x.length = n
  below : match p with
    | .work o => o + n ≤ lo
    | .input => True
    | .out => False

theorem setSlice_eq_take_drop {α : Type} (l : List α) (i : Nat) (xs : List α) :
    l.take i ++ (xs ++ (l.drop i).drop xs.length) = setSlice l i xs := by
  simp [setSlice, List.drop_drop]

/-- One layer into the work memory. -/
theorem forwardStep_work (env : CustomEnv F) (c : Cfg) (l : Layer F) (hw : l.WF c) (src : Ptr)
    (o lo : Nat) (s : Bufs F) (x : List F) (hs : SrcOk s src l.nIn x lo) (hlo : lo ≤ o)
    (hl : o + l.nOut ≤ s.work.data.length) (hal : (s.work.addr + 4 * o) % c.alignSize = 0) :
    forwardStep env c l src (.work o) s =
      .ok { s with work := ⟨s.work.addr,
        setSlice s.work.data o (layerF env c l (s.work.addr + 4 * o) x)⟩ } := by
  unfold forwardStep
  have hov : overlaps src l.nIn (.work o) l.nOut = false := by
    have hb := hs.below
    cases src with
    | input => rfl
    | out => rfl
    | work a =>
      simp only [overlaps, decide_eq_false_iff_not]
      simp only at hb
      have := hw.in_pos
      omega
  rw [hov]
  have h := layer_step env c l hw x (s.at src) (s.at (.work o)) hs.val hs.len
    (by simp [Bufs.at, View.offset]; omega) (AlignedFor.of_aligned hal)
  simp only [bind, Except.bind] at h
  have hlen := layerF_length env c l (s.work.addr + 4 * o) x hw
  simp only [Bool.false_eq_true, if_false, bind, Except.bind]
  split at h
  · exact absurd h (by simp)
  · simp only [h]
    simp only [pure, Except.pure, Bufs.put, Bufs.at, View.offset]
    have := setSlice_eq_take_drop s.work.data o (layerF env c l (s.work.addr + 4 * o) x)
    rw [hlen] at this
    rw [this]

/-- One layer into the caller's output. -/
theorem forwardStep_out (env : CustomEnv F) (c : Cfg) (l : Layer F) (hw : l.WF c) (src : Ptr)
    (lo : Nat) (s : Bufs F) (x : List F) (hs : SrcOk s src l.nIn x lo)
    (hl : l.nOut ≤ s.out.data.length) (hal : AlignedFor c l.nOut s.out.addr) :
    forwardStep env c l src .out s =
      .ok { s with out := ⟨s.out.addr,
        layerF env c l s.out.addr x ++ s.out.data.drop l.nOut⟩ } := by
  unfold forwardStep
  have hov : overlaps src l.nIn .out l.nOut = false := by
    have hb := hs.below
    cases src with
    | input => rfl
    | out => exact hb.elim
    | work a => rfl
  rw [hov]
  have h := layer_step env c l hw x (s.at src) (s.at .out) hs.val hs.len hl hal
  simp only [bind, Except.bind] at h
  simp only [Bool.false_eq_true, if_false, bind, Except.bind]
  split at h
  · exact absurd h (by simp)
  · simp only [h]
    rfl

theorem setSlice_self {α : Type} (l : List α) (i : Nat) (xs : List α) (h : i + xs.length ≤ l.length) :
    slice (setSlice l i xs) i xs.length = xs := by
  apply List.ext_getElem?; intro k
  rw [slice_getElem?]
  by_cases hk : k < xs.length
  · rw [if_pos hk, setSlice_getElem? _ _ _ h, if_pos ⟨by omega, by omega⟩]
    congr 1; omega
  · rw [if_neg hk, List.getElem?_eq_none (by omega)]

theorem SrcOk.after {s : Bufs F} {o : Nat} {a : List F} (h : o + a.length ≤ s.work.data.length) :
    SrcOk { s with work := ⟨s.work.addr, setSlice s.work.data o a⟩ } (.work o) a.length a
      (o + a.length) := by
  refine ⟨?_, rfl, Nat.le_refl _⟩
  exact setSlice_self _ _ _ h

/-! ### The whole forward pass -/

/-- Output of the layers: hidden buffers at `addr + 4*o`, the last one at `outAddr`. -/
def outF (env : CustomEnv F) (c : Cfg) (addr outAddr : Nat) : List (Layer F) → List Nat → List F → List F
  | [l], _, x => layerF env c l outAddr x
  | l :: ls, o :: os, x => outF env c addr outAddr ls os (layerF env c l (addr + 4 * o) x)
  | _, _, x => x

theorem forward_out (env : CustomEnv F) (c : Cfg) (len : Nat) :
    ∀ (ls : List (Layer F)) (os : List Nat) (src : Ptr) (lo : Nat) (s : Bufs F) (x : List F)
      (last : Layer F), ls.getLast? = some last →
      (∀ l ∈ ls, l.WF c) → Chained ls → len = s.work.data.length →
      Laid c s.work.addr len lo ls.dropLast os →
      (∀ l, ls.head? = some l → SrcOk s src l.nIn x lo) →
      last.nOut ≤ s.out.data.length → AlignedFor c last.nOut s.out.addr →
      ∃ s', forward env c ls src (os.map .work ++ [.out]) s = .ok s' ∧
        s'.out = ⟨s.out.addr, outF env c s.work.addr s.out.addr ls os x ++ s.out.data.drop last.nOut⟩ ∧
        s'.input = s.input
  | [], _, _, _, _, _, _, h, _, _, _, _, _, _, _ => by simp at h
  | [l], os, src, lo, s, x, last, h, hw, hc, hlen, hl, hs, ho, ha => by
    simp at h; subst h
    cases os with
    | cons o os => simp [Laid] at hl
    | nil =>
      have := forwardStep_out env c l (hw l (by simp)) src lo s x (hs l rfl) ho ha
      simp only [List.map_nil, List.nil_append, forward, this, bind, Except.bind, pure, Except.pure]
      exact ⟨_, rfl, rfl, rfl⟩
  | l :: l' :: ls, os, src, lo, s, x, last, h, hw, hc, hlen, hl, hs, ho, ha => by
    cases os with
    | nil => simp [Laid] at hl
    | cons o os =>
      simp only [List.dropLast_cons_cons, Laid] at hl
      obtain ⟨h1, h2, h3, h4⟩ := hl
      have hwl := hw l (by simp)
      have step := forwardStep_work env c l hwl src o lo s x (hs l rfl) h1 (by omega) h3
      have hll := layerF_length env c l (s.work.addr + 4 * o) x hwl
      simp only [List.map_cons, List.cons_append, forward, step, bind, Except.bind]
      have hafter := SrcOk.after (s := s) (o := o)
        (a := layerF env c l (s.work.addr + 4 * o) x) (by rw [hll]; omega)
      rw [hll] at hafter
      have hlen' : (setSlice s.work.data o (layerF env c l (s.work.addr + 4 * o) x)).length =
          s.work.data.length := setSlice_length _ _ _ (by rw [hll]; omega)
      obtain ⟨s', e, ho', hi'⟩ := forward_out env c len (l' :: ls) os (.work o) (o + l.nOut)
        { s with work := ⟨s.work.addr, setSlice s.work.data o (layerF env c l (s.work.addr + 4 * o) x)⟩ }
        (layerF env c l (s.work.addr + 4 * o) x) last (by simpa using h)
        (fun m hm => hw m (by simp [List.mem_cons.mp hm]))
        hc.2 (by rw [hlen, ← hlen']) h4
        (fun m hm => by
          simp at hm; subst hm
          rw [← hc.1]
          exact hafter) ho ha
      refine ⟨s', e, ?_, hi'⟩
      rw [ho']
      simp [outF]

/-- Activations of all layers, each in its buffer in the work memory. -/
def actsF (env : CustomEnv F) (c : Cfg) (addr : Nat) : List (Layer F) → List Nat → List F → List (List F)
  | l :: ls, o :: os, x =>
    layerF env c l (addr + 4 * o) x :: actsF env c addr ls os (layerF env c l (addr + 4 * o) x)
  | _, _, _ => []

/-- The work memory holds the activations. -/
def Holds (w : List F) : List (Layer F) → List Nat → List (List F) → Prop
  | [], [], [] => True
  | l :: ls, o :: os, a :: as => slice w o l.nOut = a ∧ Holds w ls os as
  | _, _, _ => False

theorem slice_setSlice_below {α : Type} (l : List α) (i n o : Nat) (xs : List α)
    (h : i + xs.length ≤ l.length) (ho : o + n ≤ i) : slice (setSlice l i xs) o n = slice l o n := by
  apply List.ext_getElem?; intro k
  rw [slice_getElem?, slice_getElem?]
  by_cases hk : k < n
  · rw [if_pos hk, if_pos hk, setSlice_getElem? _ _ _ h, if_neg (by omega)]
  · simp [hk]

theorem forward_work (env : CustomEnv F) (c : Cfg) (len : Nat) :
    ∀ (ls : List (Layer F)) (os : List Nat) (src : Ptr) (lo : Nat) (s : Bufs F) (x : List F),
      (∀ l ∈ ls, l.WF c) → Chained ls → len = s.work.data.length →
      Laid c s.work.addr len lo ls os →
      (∀ l, ls.head? = some l → SrcOk s src l.nIn x lo) →
      ∃ s', forward env c ls src (os.map .work) s = .ok s' ∧
        Holds s'.work.data ls os (actsF env c s.work.addr ls os x) ∧
        s'.input = s.input ∧ s'.out = s.out ∧ s'.work.addr = s.work.addr ∧
        s'.work.data.length = len ∧
        (∀ o n, o + n ≤ lo → slice s'.work.data o n = slice s.work.data o n)
  | [], os, src, lo, s, x, hw, hc, hlen, hl, hs => by
    cases os with
    | cons o os => simp [Laid] at hl
    | nil => exact ⟨s, rfl, trivial, rfl, rfl, rfl, hlen.symm, fun _ _ _ => rfl⟩
  | l :: ls, os, src, lo, s, x, hw, hc, hlen, hl, hs => by
    cases os with
    | nil => simp [Laid] at hl
    | cons o os =>
      simp only [Laid] at hl
      obtain ⟨h1, h2, h3, h4⟩ := hl
      have hwl := hw l (by simp)
      have step := forwardStep_work env c l hwl src o lo s x (hs l rfl) h1 (by omega) h3
      have hll := layerF_length env c l (s.work.addr + 4 * o) x hwl
      simp only [List.map_cons, forward, step, bind, Except.bind]
      have hafter := SrcOk.after (s := s) (o := o)
        (a := layerF env c l (s.work.addr + 4 * o) x) (by rw [hll]; omega)
      rw [hll] at hafter
      have hlen' : (setSlice s.work.data o (layerF env c l (s.work.addr + 4 * o) x)).length =
          s.work.data.length := setSlice_length _ _ _ (by rw [hll]; omega)
      obtain ⟨s', e, hh, hi', ho', ha', hlen2, hb⟩ := forward_work env c len ls os (.work o) (o + l.nOut)
        { s with work := ⟨s.work.addr, setSlice s.work.data o (layerF env c l (s.work.addr + 4 * o) x)⟩ }
        (layerF env c l (s.work.addr + 4 * o) x)
        (fun m hm => hw m (by simp [hm]))
        (by cases ls with
          | nil => trivial
          | cons l' ls => exact hc.2) (by rw [hlen, ← hlen']) h4
        (fun m hm => by
          cases ls with
          | nil => simp at hm
          | cons l' ls =>
            simp at hm; subst hm
            rw [← hc.1]
            exact hafter)
      refine ⟨s', e, ⟨?_, hh⟩, hi', ho', ha', hlen2, ?_⟩
      · rw [hb o l.nOut (Nat.le_refl _)]
        have := setSlice_self s.work.data o (layerF env c l (s.work.addr + 4 * o) x) (by rw [hll]; omega)
        rw [hll] at this
        exact this
      · intro o' n ho''
        rw [hb o' n (by omega)]
        exact slice_setSlice_below _ _ _ _ _ (by rw [hll]; omega) (by omega)

theorem stackArray_length (a n : Nat) (junk : Nat → F) : (stackArray a n junk).data.length = n := by
  simp [stackArray]

theorem workSize_dropLast_le (ls : List (Layer F)) : workSize ls.dropLast ≤ workSize ls := by
  induction ls with
  | nil => simp
  | cons l ls ih =>
    cases ls with
    | nil => simp [workSize]
    | cons l' ls => simp [workSize] at ih ⊢; omega

/-- `neuralnet_predict` refines the list function `outF`. -/
theorem predict_eq (env : CustomEnv F) (c : Cfg) (workAddr : Nat) (junk : Nat → F) (nn : Net F)
    (input out : View F) (hw : nn.WF c) (hwa : workAddr % c.alignSize = 0)
    (hin : nn.nInput ≤ input.data.length) (hout : nn.nOutput ≤ out.data.length)
    (hal : AlignedFor c nn.nOutput out.addr) :
    predict env c workAddr junk nn input out =
      .ok ⟨out.addr, outF env c workAddr out.addr nn.layers (offsets c 0 nn.layers.dropLast)
        (input.data.take nn.nInput) ++ out.data.drop nn.nOutput⟩ := by
  unfold predict
  rw [layout_eq c workAddr hwa 0 _ (by simp)]
  simp only [bind, Except.bind]
  obtain ⟨last, hlast⟩ : ∃ l, nn.layers.getLast? = some l := by
    cases h : nn.layers.getLast? with
    | none => exact absurd (List.getLast?_eq_none_iff.mp h) hw.ne
    | some l => exact ⟨l, rfl⟩
  have hno : nn.nOutput = last.nOut := by simp [Net.nOutput, hlast]
  rw [hno] at hout hal ⊢
  have hlaid := laid_offsets c workAddr hwa (workSize nn.layers + c.lanes * nn.layers.length) 0
    nn.layers.dropLast (by simp) (by
      have := workSize_dropLast_le nn.layers
      have h2 : c.lanes * nn.layers.dropLast.length ≤ c.lanes * nn.layers.length :=
        Nat.mul_le_mul_left _ (by simp)
      omega)
  obtain ⟨s', e, ho, -⟩ := forward_out env c (workSize nn.layers + c.lanes * nn.layers.length)
    nn.layers (offsets c 0 nn.layers.dropLast) .input 0
    ⟨input, stackArray workAddr (workSize nn.layers + c.lanes * nn.layers.length) junk, out⟩
    (input.data.take nn.nInput) last hlast hw.layer hw.chain (by rw [stackArray_length])
    hlaid (fun l hl => by
      have hni : nn.nInput = l.nIn := by
        rcases hls : nn.layers with _ | ⟨l0, ls⟩
        · simp [hls] at hl
        · simp [hls] at hl; subst hl; simp [Net.nInput, hls]
      rw [hni] at hin ⊢
      exact ⟨rfl, by simp; omega, trivial⟩) hout hal
  rw [e]
  simp only [pure, Except.pure, ho]
  rfl

end
end NN
