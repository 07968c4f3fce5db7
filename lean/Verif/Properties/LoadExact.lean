import Verif.Properties.SaveLoad
/-
C51: the archives of well typed arrays that `neuralnet_load` accepts, and what it makes of arrays that do not fit.
-/
namespace NN

/-- The sizes are such that the network can be created: no size 0, every weight matrix of the network has less than 2^31
elements.  Nothing is said of the inputs of the layers after the first, of the biases, of the types or of the data. -/
def Creatable : Nat → List NpyArray → Prop
  | _, [] => True
  | i, w :: b :: wb => (1 ≤ i ∧ i < 2 ^ 31 ∧ 1 ≤ dim w 1 ∧ dim w 1 < 2 ^ 31 ∧ i * dim w 1 < 2 ^ 31 ∧ dim w 0 < 2 ^ 31 ∧
      dim b 0 < 2 ^ 31) ∧ Creatable (dim w 1) wb
  | _, [_] => False

/-- What the copies need: every array goes into the room of its layer, has data enough for single precision numbers of its
shape, and is in C order. -/
def Fits : Nat → List NpyArray → Prop
  | i, w :: b :: wb => (dim w 0 ≤ i ∧ dim w 0 * dim w 1 * 4 ≤ w.data.length ∧ dim b 0 ≤ dim w 1 ∧ dim b 0 * 4 ≤ b.data.length ∧
      w.fortran = false ∧ b.fortran = false) ∧ Fits (dim w 1) wb
  | _, _ => True

/-- The layers hold the bytes of the arrays read as single precision numbers.  Missing biases are 0, missing weights are
what was in the memory. -/
def Filled {F : Type} (bits : FloatBits F) (dl : DynLinker) (junk : Nat → Nat → F) :
    Nat → List NpyArray → List Bytes → List (Layer F) → Prop
  | _, [], [], [] => True
  | i, w :: b :: wb, name :: names, l :: ls =>
    (l.nIn = i ∧ l.nOut = dim w 1 ∧
      (∃ blk, l.weight.data = bits.decode (dim w 0 * dim w 1) w.data ++
        ((List.range (i * dim w 1)).map (junk blk)).drop (dim w 0 * dim w 1)) ∧
      l.bias.data = bits.decode (dim b 0) b.data ++ List.replicate (dim w 1 - dim b 0) (bits.ofBytes [0, 0, 0, 0]) ∧
      Chosen dl (some (unstr name)) l.act) ∧ Filled bits dl junk (dim w 1) wb names ls
  | _, _, _, _ => False

theorem copyFloats_cases {F : Type} (bits : FloatBits F) (dst : View F) (src : Bytes) {n : Nat} (hn : n * 4 < 2 ^ 64) :
    copyFloats bits dst src n = if n ≤ dst.data.length ∧ n * 4 ≤ src.length then
      .ok ⟨dst.addr, bits.decode n src ++ dst.data.drop n⟩ else .error .oob := by
  have hk : n * 4 % 2 ^ 64 / 4 = n := by rw [Nat.mod_eq_of_lt hn]; omega
  simp only [copyFloats, hk]
  by_cases h1 : dst.data.length < n
  · rw [if_pos h1, if_neg (by omega)]
  · rw [if_neg h1]
    by_cases h2 : src.length < n * 4
    · rw [if_pos h2, if_neg (by omega)]
    · rw [if_neg h2, if_pos (by omega)]; rfl

theorem creatable_even : ∀ {i : Nat} {wb : List NpyArray}, Creatable i wb → wb.length = 2 * (weightArrays wb).length
  | _, [], _ => rfl
  | _, w :: b :: wb, h => by
    have := creatable_even h.2
    simp only [List.length_cons, weightArrays, this]; omega
  | _, [_], h => h.elim

theorem creatable_pos : ∀ {i : Nat} {wb : List NpyArray}, 1 ≤ i → Creatable i wb → ∀ s ∈ sizesOf i wb, 1 ≤ s
  | i, [], hi, _ => by simp [sizesOf, weightArrays]; omega
  | i, w :: b :: wb, hi, h => by
    rw [sizesOf_cons]
    intro s hs
    rcases List.mem_cons.1 hs with rfl | hs
    · omega
    · exact creatable_pos h.1.2.2.1 h.2 s hs
  | _, [_], _, h => h.elim

theorem creatable_small : ∀ {i : Nat} {wb : List NpyArray}, Creatable i wb →
    ∀ l ∈ List.zipWith freshLayer (sizesOf i wb) (sizesOf i wb).tail, l.nIn * l.nOut < 2 ^ 31
  | i, [], _ => by simp [sizesOf, weightArrays]
  | i, w :: b :: wb, h => by
    rw [sizesOf_cons, List.tail_cons]
    have e : List.zipWith freshLayer ((i : Int) :: sizesOf (dim w 1) wb) (sizesOf (dim w 1) wb) =
        freshLayer i (dim w 1) :: List.zipWith freshLayer (sizesOf (dim w 1) wb) (sizesOf (dim w 1) wb).tail := rfl
    rw [e]
    intro l hl
    rcases List.mem_cons.1 hl with rfl | hl
    · have : ((i * dim w 1 : Nat) : Int) < 2 ^ 31 := by exact_mod_cast h.1.2.2.2.2.1
      simpa [freshLayer] using this
    · exact creatable_small h.2 l hl
  | _, [_], h => h.elim

theorem creatable_sizeArray {w b : NpyArray} {wb : List NpyArray} (h : Creatable (dim w 0) (w :: b :: wb)) :
    sizeArray (w :: b :: wb) = .ok (sizesOf (dim w 0) (w :: b :: wb)) := by
  have key : ∀ (wb : List NpyArray) (i : Nat), Creatable i wb →
      (weightArrays wb).map (fun w => castInt (dim w 1)) = (weightArrays wb).map fun w => (dim w 1 : Int) := by
    intro wb
    induction wb using weightArrays.induct with
    | case1 w b wb ih =>
      intro i h
      simp only [weightArrays, List.map_cons, castInt_eq h.1.2.2.2.1, ih _ h.2]
    | case2 wb hwb =>
      intro i _
      rcases wb with _ | ⟨_, _ | ⟨_, _⟩⟩
      · rfl
      · rfl
      · exact (hwb _ _ _ rfl).elim
  have hk := key _ _ h
  simp only [sizeArray, weightArrays]
  simp only [weightArrays] at hk
  rw [hk, castInt_eq h.1.2.1]
  rfl

theorem copyLayers_exact {F : Type} (bits : FloatBits F) (dl : DynLinker) (addr : Nat → Nat) (junk : Nat → Nat → F) :
    ∀ (wb : List NpyArray) (i : Nat) (names : List Bytes) (ls : List CLayer), Creatable i wb →
    ls.map (fun l => (l.nIn, l.nOut)) = (sizesOf i wb).zip (sizesOf i wb).tail →
    List.Forall₂ (fun name (l : CLayer) => Chosen dl name (l.act.getD .linear)) (names.map fun s => some (unstr s)) ls →
    (∀ l ∈ ls, (∃ i, l.weight = .blk i) ∧ ∃ i, l.bias = .blk i) →
    (Fits i wb → ∃ ls', copyLayers bits wb (ls.map (viewLayer addr junk)) = .ok ls' ∧ Filled bits dl junk i wb names ls') ∧
    (¬ Fits i wb → copyLayers bits wb (ls.map (viewLayer addr junk)) = .error .oob ∨
      copyLayers bits wb (ls.map (viewLayer addr junk)) = .error .assertFail) := by
  intro wb
  induction wb using weightArrays.induct with
  | case1 w b wb ih =>
    intro i names ls hs hz hc hb
    obtain ⟨⟨s1, s2, s3, s4, s5, s6, s7⟩, hs'⟩ := hs
    rw [sizesOf_cons, List.tail_cons] at hz
    have e : List.zip ((i : Int) :: sizesOf (dim w 1) wb) (sizesOf (dim w 1) wb) =
        ((i : Int), (dim w 1 : Int)) :: List.zip (sizesOf (dim w 1) wb) (sizesOf (dim w 1) wb).tail := rfl
    rw [e] at hz
    match ls, names, hz, hc, hb with
    | [], _, hz, _, _ => simp at hz
    | l :: ls, [], hz, hc, _ => simp at hc
    | l :: ls, name :: names, hz, hc, hb =>
      simp only [List.map_cons, List.cons.injEq, Prod.mk.injEq] at hz
      obtain ⟨⟨z1, z2⟩, hz⟩ := hz
      rw [List.map_cons, List.forall₂_cons] at hc
      obtain ⟨ih1, ih2⟩ := ih (dim w 1) names ls hs' hz hc.2 (fun l hl => hb l (List.mem_cons_of_mem _ hl))
      obtain ⟨⟨bw, hbw⟩, bb, hbb⟩ := hb l (by simp)
      have hin : l.nIn.toNat = i := by rw [z1]; rfl
      have hout : l.nOut.toNat = dim w 1 := by rw [z2]; rfl
      have hmul : dim w 0 * dim w 1 ≤ i * dim w 1 ↔ dim w 0 ≤ i := Nat.mul_le_mul_right_iff (by omega)
      have hbig : dim w 0 * dim w 1 * 4 < 2 ^ 64 := by
        have : dim w 0 * dim w 1 ≤ (2 ^ 31 - 1) * 2 ^ 31 := Nat.mul_le_mul (by omega) (by omega)
        omega
      have hw : copyFloats bits (viewLayer addr junk l).weight w.data (dim w 0 * dim w 1) =
          if dim w 0 ≤ i ∧ dim w 0 * dim w 1 * 4 ≤ w.data.length then
            .ok ⟨addr bw, bits.decode (dim w 0 * dim w 1) w.data ++
              ((List.range (i * dim w 1)).map (junk bw)).drop (dim w 0 * dim w 1)⟩ else .error .oob := by
        rw [copyFloats_cases bits _ _ hbig]
        simp only [viewLayer, hbw, blockView, hin, hout, List.length_map, List.length_range, hmul]
      have hbias : copyFloats bits ⟨(viewLayer addr junk l).bias.addr,
          List.replicate (viewLayer addr junk l).nOut (bits.ofBytes [0, 0, 0, 0]) ++
            (viewLayer addr junk l).bias.data.drop (viewLayer addr junk l).nOut⟩ b.data (dim b 0) =
          if dim b 0 ≤ dim w 1 ∧ dim b 0 * 4 ≤ b.data.length then
            .ok ⟨addr bb, bits.decode (dim b 0) b.data ++ List.replicate (dim w 1 - dim b 0) (bits.ofBytes [0, 0, 0, 0])⟩
          else .error .oob := by
        rw [copyFloats_cases bits _ _ (by omega)]
        have hd : ((List.range (dim w 1)).map (junk bb)).drop (dim w 1) = [] := by simp
        simp only [viewLayer, hbb, blockView, hout, hd, List.append_nil, List.length_replicate, List.drop_replicate]
      have hcopy : copyLayers bits (w :: b :: wb) ((l :: ls).map (viewLayer addr junk)) = (do
          let l ← copyLayer bits w b (viewLayer addr junk l)
          let ls ← copyLayers bits wb (ls.map (viewLayer addr junk))
          pure (l :: ls)) := rfl
      rw [hcopy]
      by_cases hwf : dim w 0 ≤ i ∧ dim w 0 * dim w 1 * 4 ≤ w.data.length
      swap
      · refine ⟨fun hf => absurd ⟨hf.1.1, hf.1.2.1⟩ hwf, fun _ => .inl ?_⟩
        rw [if_neg hwf] at hw
        simp only [copyLayer, hw, bind, Except.bind]
      rw [if_pos hwf] at hw
      by_cases hbf : dim b 0 ≤ dim w 1 ∧ dim b 0 * 4 ≤ b.data.length
      swap
      · refine ⟨fun hf => absurd ⟨hf.1.2.2.1, hf.1.2.2.2.1⟩ hbf, fun _ => .inl ?_⟩
        rw [if_neg hbf] at hbias
        simp only [copyLayer, hw, hbias, bind, Except.bind]
      rw [if_pos hbf] at hbias
      by_cases hwo : w.fortran = true
      · refine ⟨fun hf => by rw [hf.1.2.2.2.2.1] at hwo; exact absurd hwo (by simp), fun _ => .inr ?_⟩
        simp only [copyLayer, hw, hbias, bind, Except.bind, hwo, if_true]
      have hwo : w.fortran = false := by simpa using hwo
      by_cases hbo : b.fortran = true
      · refine ⟨fun hf => by rw [hf.1.2.2.2.2.2] at hbo; exact absurd hbo (by simp), fun _ => .inr ?_⟩
        simp only [copyLayer, hw, hbias, bind, Except.bind, hwo, hbo, if_true, Bool.false_eq_true, if_false]
      have hbo : b.fortran = false := by simpa using hbo
      refine ⟨fun hf => ?_, fun hf => ?_⟩
      · obtain ⟨ls', e1, e2⟩ := ih1 hf.2
        refine ⟨⟨(viewLayer addr junk l).nIn, (viewLayer addr junk l).nOut,
          ⟨addr bw, bits.decode (dim w 0 * dim w 1) w.data ++ ((List.range (i * dim w 1)).map (junk bw)).drop (dim w 0 * dim w 1)⟩,
          ⟨addr bb, bits.decode (dim b 0) b.data ++ List.replicate (dim w 1 - dim b 0) (bits.ofBytes [0, 0, 0, 0])⟩,
          (viewLayer addr junk l).act, (viewLayer addr junk l).deriv⟩ :: ls', ?_, ⟨hin, hout, ⟨bw, rfl⟩, rfl, hc.1⟩, e2⟩
        simp only [copyLayer, hw, hbias, bind, Except.bind, hwo, hbo, Bool.false_eq_true, if_false, e1, pure, Except.pure]
      · have hrest : ¬ Fits (dim w 1) wb := fun h => hf ⟨⟨hwf.1, hwf.2, hbf.1, hbf.2, hwo, hbo⟩, h⟩
        simp only [copyLayer, hw, hbias, bind, Except.bind, hwo, hbo, Bool.false_eq_true, if_false, pure, Except.pure]
        rcases ih2 hrest with g | g
        · left; rw [g]
        · right; rw [g]
  | case2 wb hwb =>
    intro i names ls hs hz hc hb
    rcases wb with _ | ⟨_, _ | ⟨_, _⟩⟩
    rotate_left
    · exact hs.elim
    · exact (hwb _ _ _ rfl).elim
    · have : ls = [] := by simpa [sizesOf, weightArrays] using hz
      subst this
      have : names = [] := by simpa using hc
      subst this
      exact ⟨fun _ => ⟨[], rfl, trivial⟩, fun h => absurd trivial h⟩

/-- **C51** For arrays from which a network can be created and as many names as layers: `neuralnet_load` returns a network
exactly when every array goes into the room of its layer, has enough data and is in C order; the network then holds the
bytes of the arrays, whatever the size of their elements, followed by zeros (biases) or by what was in the memory (weights).
Otherwise it writes or reads out of bounds or an assertion fails; it never returns NULL. -/
theorem C51_exact {F : Type} (bits : FloatBits F) {mem ok : Nat → Bool} (hm : ∀ n, mem n = true) (dl : DynLinker)
    (addr : Nat → Nat) (junk : Nat → Nat → F) {ms wb : List NpyArray} {w b : NpyArray} {names : List Bytes} (recs : List ActRecord)
    {h : Heap} (hsort : sortArrays mem ms [] none = .ok (some (w :: b :: wb, some names)))
    (hs : Creatable (dim w 0) (w :: b :: wb)) (hn : 2 * names.length = wb.length + 2) (hname : ∀ s ∈ names, NameOk (unstr s))
    (hw : h.WF) (hok : ∀ j < wb.length + 4, ok (h.count + j) = true) :
    (Fits (dim w 0) (w :: b :: wb) → ∃ nn recs' h', loadArrays bits mem ok dl addr junk ms recs h = .ok (some nn, recs', h') ∧
      Filled bits dl junk (dim w 0) (w :: b :: wb) names nn.layers) ∧
    (¬ Fits (dim w 0) (w :: b :: wb) → loadArrays bits mem ok dl addr junk ms recs h = .error .oob ∨
      loadArrays bits mem ok dl addr junk ms recs h = .error .assertFail) := by
  set n := (weightArrays (w :: b :: wb)).length with hnn
  have hlen : (w :: b :: wb).length = 2 * n := creatable_even hs
  have hnames : names.length = n := by simp only [List.length_cons] at hlen; omega
  have hn1 : 1 ≤ n := by simp [hnn, weightArrays]
  have hpos := creatable_pos hs.1.1 hs
  have hslen : (sizesOf (dim w 0) (w :: b :: wb)).length = n + 1 := by simp [sizesOf, hnn]
  have ha : CreateArgs n (sizesOf (dim w 0) (w :: b :: wb)) (names.map fun s => some (unstr s)) :=
    ⟨hslen, creatable_small hs, by simpa using hnames, by
      intro s hs
      obtain ⟨x, hx, e⟩ := List.mem_map.1 hs
      simp only [Option.some.injEq] at e
      rw [← e]; exact hname x hx⟩
  obtain ⟨net, recs', h', e1, -, -, e2, e3, e4⟩ := create_ok (ok := ok) (dl := dl) (recs := recs) hn1 ha hpos hw
    (by intro j hj; exact hok j (by simp only [List.length_cons] at hlen; omega))
  obtain ⟨f1, f2⟩ := copyLayers_exact bits dl addr junk (w :: b :: wb) (dim w 0) names net.layers hs e2 e3 e4
  have hne2 : ms.isEmpty = false := by
    cases ms with
    | nil => simp [sortArrays, pure, Except.pure] at hsort
    | cons => rfl
  have key : loadArrays bits mem ok dl addr junk ms recs h =
      (do let ls ← copyLayers bits (w :: b :: wb) (net.layers.map (viewLayer addr junk)); pure (some ⟨ls, none⟩, recs', h')) := by
    simp only [loadArrays, hne2, Bool.false_eq_true, if_false, hm, Bool.not_true, hsort, bind, Except.bind]
    rw [if_neg (by rw [hlen]; omega), creatable_sizeArray hs]
    simp only
    rw [show (w :: b :: wb).length / 2 = n by omega]
    simp only [Option.map_some, e1, toNet_layers]
  rw [key]
  refine ⟨fun hf => ?_, fun hf => ?_⟩
  · obtain ⟨ls', g1, g2⟩ := f1 hf
    exact ⟨⟨ls', none⟩, recs', h', by rw [g1]; rfl, g2⟩
  · rcases f2 hf with g | g
    · left; rw [g]; rfl
    · right; rw [g]; rfl

theorem filled_cons {F : Type} {bits : FloatBits F} {dl : DynLinker} {junk : Nat → Nat → F} {i : Nat} {w b : NpyArray}
    {wb : List NpyArray} {name : Bytes} {names : List Bytes} {ls : List (Layer F)}
    (h : Filled bits dl junk i (w :: b :: wb) (name :: names) ls) : ∃ l ls', ls = l :: ls' ∧
      (∃ blk, l.weight.data = bits.decode (dim w 0 * dim w 1) w.data ++
        ((List.range (i * dim w 1)).map (junk blk)).drop (dim w 0 * dim w 1)) ∧
      l.bias.data = bits.decode (dim b 0) b.data ++ List.replicate (dim w 1 - dim b 0) (bits.ofBytes [0, 0, 0, 0]) ∧
      Filled bits dl junk (dim w 1) wb names ls' := by
  cases ls with
  | nil => exact h.elim
  | cons l ls => exact ⟨l, ls, rfl, h.1.2.2.1, h.1.2.2.2.1, h.2⟩

theorem filled_nil {F : Type} {bits : FloatBits F} {dl : DynLinker} {junk : Nat → Nat → F} {i : Nat} {ls : List (Layer F)}
    (h : Filled bits dl junk i [] [] ls) : ls = [] := by
  cases ls with
  | nil => rfl
  | cons l ls => exact h.elim

/-- An array in double precision, `numpy`'s own choice for a list of numbers. -/
def doubleArray (data : Bytes) (dims : List Nat) : NpyArray :=
  ⟨data, dims ++ List.replicate (8 - dims.length) 0, dims.length, 0, 102, 8, false, false⟩

theorem doubleArray_savable {data : Bytes} {dims : List Nat} (hl : dims.length ≤ 2) (hd : ∀ d ∈ dims, 0 < d ∧ d < 2 ^ 31)
    (hp : dims.prod < 2 ^ 31) (hdata : data.length = dims.prod * 8) : (doubleArray data dims).Savable := by
  have e : (doubleArray data dims).shape.take (doubleArray data dims).ndim = dims := by simp [doubleArray]
  have hb : (doubleArray data dims).meaning.nbytes = dims.prod * 8 := by
    simp only [Spec.Array.nbytes, NpyArray.meaning, e]; rfl
  have hdict : (doubleArray data dims).meaning.dict.length = (floatArray data dims).meaning.dict.length := by
    have ef : (floatArray data dims).shape.take (floatArray data dims).ndim = dims := by simp [floatArray]
    simp only [Spec.Array.dict, NpyArray.meaning, e, ef, List.length_append]
    rw [show (doubleArray data dims).elemSize = 8 from rfl, show (floatArray data dims).elemSize = 4 from rfl,
      dec_small (by decide), dec_small (by decide)]
    rfl
  refine ⟨⟨?_, ?_, ?_, ⟨by simp [doubleArray], by simp [doubleArray]⟩, by simp [doubleArray]⟩, ?_, ?_, ?_, ?_⟩
  · simp only [doubleArray, List.length_append, List.length_replicate]; omega
  · exact hl.trans (by norm_num)
  · rw [e]; exact fun d h => (hd d h).2
  · rw [e]; exact fun d h => (hd d h).1
  · rw [hb]; omega
  · rw [hb, ← hdata]; exact Nat.le_refl _
  · rw [hdict]; exact floatArray_dict hl fun d h => (hd d h).2

theorem same_double {r : NpyArray} {data : Bytes} {dims : List Nat} (h : Same r (doubleArray data dims))
    (hd : data.length = dims.prod * 8) :
    r.typechar = 102 ∧ r.fortran = false ∧ r.data = data ∧ ∀ i < dims.length, dim r i = dims.getD i 0 := by
  obtain ⟨h1, h2, -, h4⟩ := h
  have e : (doubleArray data dims).shape.take (doubleArray data dims).ndim = dims := by simp [doubleArray]
  have e2 : (doubleArray data dims).meaning.data = data := by
    simp only [NpyArray.meaning, e]
    rw [show (doubleArray data dims).elemSize = 8 from rfl, ← hd]
    exact List.take_length
  refine ⟨congrArg Spec.Array.typechar h1, congrArg Spec.Array.fortran h1, by rw [h4, e2], ?_⟩
  intro i hi
  have hs : r.shape.take r.ndim = dims := by
    have := congrArg Spec.Array.dims h1
    simpa only [NpyArray.meaning, e] using this
  rw [show (doubleArray data dims).ndim = dims.length from rfl] at h2
  rw [dim, List.getD_eq_getElem?_getD, List.getD_eq_getElem?_getD, ← hs, List.getElem?_take_of_lt (by omega)]

theorem decode_halves {F : Type} (bits : FloatBits F) {x : Bytes} (x' : Bytes) (hx : x.length = 8) :
    bits.decode 2 (x ++ x') = [bits.ofBytes (x.take 4), bits.ofBytes (x.drop 4)] := by
  have h1 : (x ++ x').take 4 = x.take 4 := List.take_append_of_le_length (by omega)
  have h2 : ((x ++ x').drop 4).take 4 = x.drop 4 := by
    have hl : (x.drop 4).length = 4 := by rw [List.length_drop]; omega
    rw [List.drop_append_of_le_length (by omega)]
    exact List.take_left' hl
  simp only [FloatBits.decode, h1, h2]

theorem relu_ok : NameOk (unstr (str "relu")) := by
  intro symbol lb hsym e
  have hat : '@' ∉ (unstr (str "relu")).toList := by decide
  rw [e] at hat
  simp at hat

/-- **C51 is false** for double precision: a file with two weights `x`, `x'` and two biases `y`, `y'` as doubles, of eight
bytes each, is accepted without a word; the weights of the network are the two halves of `x`, the biases the two halves of
`y`, and `x'` and `y'` are not read. -/
theorem C51_double_false {lib : ZipLib} (hlib : lib.Lawful) {F : Type} (bits : FloatBits F) (d : Disk) (f : String)
    (hw : d.writable f = true) (hr : d.readable f = true) (x x' y y' : Bytes) (hx : x.length = 8) (hx' : x'.length = 8)
    (hy : y.length = 8) (hy' : y'.length = 8) :
    ∃ d', listSave lib d f [(some (str "weight_0"), doubleArray (x ++ x') [1, 2]), (some (str "bias_0"), doubleArray (y ++ y') [2]),
        (some (str "activations"), namesArr [str "relu"])] = .ok (3, d') ∧
      ∀ (mem ok : Nat → Bool) (dl : DynLinker) (addr : Nat → Nat) (junk : Nat → Nat → F)
      (recs : List ActRecord) (h : Heap), (∀ n, mem n = true) → (∀ n, ok n = true) → h.WF →
      ∃ nn l recs' h', loadNN lib bits d' mem ok dl addr junk f recs h = .ok (some nn, recs', h') ∧ nn.layers = [l] ∧
        l.weight.data = [bits.ofBytes (x.take 4), bits.ofBytes (x.drop 4)] ∧
        l.bias.data = [bits.ofBytes (y.take 4), bits.ofBytes (y.drop 4)] := by
  have hrelu : str "relu" ≠ [] ∧ (str "relu").length ≤ 12 ∧ 0 ∉ str "relu" := by decide
  obtain ⟨d', r, e1, -, e3, e4⟩ := C47_roundtrip hlib hw hr (mem := fun _ => true) (fun _ => rfl)
    (l := [(str "weight_0", doubleArray (x ++ x') [1, 2]), (str "bias_0", doubleArray (y ++ y') [2]),
      (str "activations", namesArr [str "relu"])]) (by simp) (by
      show [str "weight_0", str "bias_0", str "activations"].Nodup
      decide) (by
      intro p hp
      simp only [List.mem_cons, List.not_mem_nil, or_false] at hp
      obtain ⟨n1, n2⟩ := exName hlib
      rcases hp with rfl | rfl | rfl
      · exact ⟨n1, doubleArray_savable (by simp) (by simp) (by simp) (by simp [hx, hx'])⟩
      · exact ⟨n2, doubleArray_savable (by simp) (by simp) (by simp) (by simp [hy, hy'])⟩
      · exact ⟨activations_good hlib, namesArr_savable (k := 12) (by simp) (by simpa using hrelu.1) (by simpa using hrelu.2.1) (by simp)⟩)
  refine ⟨d', e1, ?_⟩
  intro mem ok dl addr junk recs h hm hok hwf
  obtain rfl : mem = fun _ => true := funext hm
  obtain ⟨w, b, s, rfl, h1, h2, h3⟩ := forall₂_three e4
  obtain ⟨w1, w2, w3, w4⟩ := same_double h1.2 (by simp [hx, hx'])
  obtain ⟨b1, b2, b3, b4⟩ := same_double h2.2 (by simp [hy, hy'])
  obtain ⟨s1, s2⟩ := names_read (mem := fun _ => true) hm (by simp) (by simpa using hrelu.2.2) (by simp) h3.2
  have d0 : dim w.2 0 = 1 := w4 0 (by simp)
  have d1 : dim w.2 1 = 2 := w4 1 (by simp)
  have d2 : dim b.2 0 = 2 := b4 0 (by simp)
  have hsort : sortArrays (fun _ => true) [w.2, b.2, s.2] [] none = .ok (some ([w.2, b.2], some [str "relu"])) := by
    have := sortArrays_names (fun _ => true) (as := [w.2, b.2]) (bs := []) (s := s.2) (by simp [w1, b1]) s1
    simp only [List.append_nil, List.cons_append, List.nil_append, s2] at this
    exact this
  obtain ⟨nn, recs', h', g1, g2⟩ := (C51_exact bits hm dl addr junk (ok := ok) recs hsort
    (by simp [Creatable, d0, d1, d2]) rfl (by simpa using relu_ok) hwf (fun _ _ => hok _)).1
    (by simp [Fits, d0, d1, d2, w2, w3, b2, b3, hx, hx', hy, hy'])
  obtain ⟨l, ls, hnl, ⟨blk, g3⟩, g4, g5⟩ := filled_cons g2
  rw [filled_nil g5] at hnl
  refine ⟨nn, l, recs', h', ?_, hnl, ?_, ?_⟩
  · simp only [loadNN, e3, bind, Except.bind, List.map_cons, List.map_nil, g1]
  · rw [g3, d0, d1, w3, List.drop_of_length_le (by simp), List.append_nil, Nat.one_mul, decode_halves bits x' hx]
  · rw [g4, d1, d2, b3, Nat.sub_self, List.replicate_zero, List.append_nil, decode_halves bits y' hy]

/-- **C51 is false** when a weight array has fewer rows than the layer before it has outputs: only a warning is printed, and
weights of the network are whatever the memory held. -/
theorem C51_junk_false {F : Type} (bits : FloatBits F) {mem ok : Nat → Bool} (hm : ∀ n, mem n = true) (dl : DynLinker)
    (addr : Nat → Nat) (v : F) (recs : List ActRecord) {h : Heap} (hw : h.WF) (hok : ∀ n, ok n = true) :
    ∃ nn l l' recs' h', loadArrays bits mem ok dl addr (fun _ _ => v)
      [floatArray (List.replicate 8 0) [1, 2], floatArray (List.replicate 8 0) [2], floatArray (List.replicate 4 0) [1, 1],
        floatArray (List.replicate 4 0) [1], namesArr [str "relu", str "relu"]] recs h = .ok (some nn, recs', h') ∧
      nn.layers = [l, l'] ∧ l'.weight.data = [bits.ofBytes [0, 0, 0, 0], v] := by
  obtain rfl : mem = fun _ => true := funext hm
  obtain ⟨nn, recs', h', g1, g2⟩ := (C51_exact bits hm dl addr (fun _ _ => v) (ok := ok) (names := [str "relu", str "relu"])
    (w := floatArray (List.replicate 8 0) [1, 2]) (b := floatArray (List.replicate 8 0) [2])
    (wb := [floatArray (List.replicate 4 0) [1, 1], floatArray (List.replicate 4 0) [1]])
    (ms := [floatArray (List.replicate 8 0) [1, 2], floatArray (List.replicate 8 0) [2], floatArray (List.replicate 4 0) [1, 1],
        floatArray (List.replicate 4 0) [1], namesArr [str "relu", str "relu"]])
    recs rfl (by simp [Creatable, dim, floatArray]) rfl (by simpa using relu_ok) hw (fun _ _ => hok _)).1
    (by simp [Fits, dim, floatArray])
  obtain ⟨l, ls, hnl, -, -, g5⟩ := filled_cons g2
  obtain ⟨l', ls', rfl, ⟨blk, g3⟩, -, g6⟩ := filled_cons g5
  rw [filled_nil g6] at hnl
  exact ⟨nn, l, l', recs', h', g1, hnl, g3⟩

/-! ### Examples -/

/-- The double 1.0 as a weight: the network gets 0 and 1.875 (bits 0x3ff00000). -/
example : exBits.ofBytes ([0, 0, 0, 0, 0, 0, 0xf0, 0x3f].take 4) = 0 ∧
    exBits.ofBytes ([0, 0, 0, 0, 0, 0, 0xf0, 0x3f].drop 4) = 0x3ff00000 := by decide

/-- The conditions of `C51_exact` hold of well shaped arrays, and of some that are not. -/
example : let wb := [floatArray (List.replicate 8 0) [1, 2], floatArray (List.replicate 8 0) [2],
      floatArray (List.replicate 4 0) [1, 1], floatArray (List.replicate 4 0) [1]]
    Creatable 1 wb ∧ Fits 1 wb ∧ ¬ Shaped 1 wb := by
  simp [Creatable, Fits, Shaped, dim, floatArray]

/-- Fortran order or too many biases: the network can be created and the arrays do not fit. -/
example : let w := floatArray (List.replicate 8 0) [1, 2]
    Creatable 1 [w, floatArray (List.replicate 12 0) [3]] ∧ ¬ Fits 1 [w, floatArray (List.replicate 12 0) [3]] ∧
    ¬ Fits 1 [{ w with fortran := true }, floatArray (List.replicate 8 0) [2]] := by
  simp [Creatable, Fits, dim, floatArray]

end NN
