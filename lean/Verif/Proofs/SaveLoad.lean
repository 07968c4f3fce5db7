import Verif.Model.SaveLoad
import Verif.Properties.Create
import Verif.Properties.NpyList
/-
Lemmas on `neuralnet_save` and `neuralnet_load`.
-/
namespace NN

/-! ### Floats and bytes -/

/-- Four bytes per float, and reading gives back what was written. -/
structure FloatBits.Lawful {F : Type} (bits : FloatBits F) : Prop where
  len : ∀ x, (bits.toBytes x).length = 4
  left_inv : ∀ x, bits.ofBytes (bits.toBytes x) = x

theorem encode_length {F : Type} {bits : FloatBits F} (hb : bits.Lawful) (xs : List F) :
    (bits.encode xs).length = xs.length * 4 := by
  induction xs with
  | nil => rfl
  | cons x xs ih =>
    rw [FloatBits.encode, List.flatMap_cons, List.length_append, hb.len]
    rw [FloatBits.encode] at ih
    rw [ih, List.length_cons]; omega

theorem decode_encode {F : Type} {bits : FloatBits F} (hb : bits.Lawful) (xs : List F) (extra : Bytes) :
    bits.decode xs.length (bits.encode xs ++ extra) = xs := by
  induction xs with
  | nil => rfl
  | cons x xs ih =>
    have e : bits.encode (x :: xs) ++ extra = bits.toBytes x ++ (bits.encode xs ++ extra) := by
      simp [FloatBits.encode]
    rw [e, List.length_cons, FloatBits.decode, List.take_left' (hb.len x), List.drop_left' (hb.len x), hb.left_inv, ih]

theorem decode_length {F : Type} (bits : FloatBits F) (n : Nat) (b : Bytes) : (bits.decode n b).length = n := by
  induction n generalizing b with
  | zero => rfl
  | succ n ih => rw [FloatBits.decode, List.length_cons, ih]

/-! ### Well shaped arrays -/

/-- The arrays describe a chain of layers starting with `i` inputs: for every layer a weight array of shape `(i, o)` and a bias
array of shape `(o)`, in C order, with enough data. -/
def Shaped : Nat → List NpyArray → Prop
  | _, [] => True
  | i, w :: b :: wb => (dim w 0 = i ∧ 1 ≤ i ∧ i < 2 ^ 31 ∧ 1 ≤ dim w 1 ∧ dim w 1 < 2 ^ 31 ∧ i * dim w 1 < 2 ^ 31 ∧
      i * dim w 1 * 4 ≤ w.data.length ∧ w.fortran = false ∧
      dim b 0 = dim w 1 ∧ dim w 1 * 4 ≤ b.data.length ∧ b.fortran = false) ∧ Shaped (dim w 1) wb
  | _, [_] => False

/-- The layers hold what the arrays describe. -/
def Loaded {F : Type} (bits : FloatBits F) (dl : DynLinker) : List NpyArray → List Bytes → List (Layer F) → Prop
  | [], [], [] => True
  | w :: b :: wb, name :: names, l :: ls =>
    (l.nIn = dim w 0 ∧ l.nOut = dim w 1 ∧ l.weight.data = bits.decode (dim w 0 * dim w 1) w.data ∧
      l.bias.data = bits.decode (dim w 1) b.data ∧ Chosen dl (some (unstr name)) l.act) ∧ Loaded bits dl wb names ls
  | _, _, _ => False

/-- The sizes of the layers. -/
def sizesOf (i : Nat) (wb : List NpyArray) : List Int := (i : Int) :: (weightArrays wb).map fun w => (dim w 1 : Int)

theorem sizesOf_cons (i : Nat) (w b : NpyArray) (wb : List NpyArray) :
    sizesOf i (w :: b :: wb) = (i : Int) :: sizesOf (dim w 1) wb := rfl

theorem Shaped.length_even : ∀ {i : Nat} {wb : List NpyArray}, Shaped i wb → wb.length = 2 * (weightArrays wb).length
  | _, [], _ => rfl
  | _, w :: b :: wb, h => by
    have := Shaped.length_even h.2
    simp only [List.length_cons, weightArrays, this]; omega
  | _, [_], h => h.elim

theorem shaped_pos : ∀ {i : Nat} {wb : List NpyArray}, 1 ≤ i → Shaped i wb → ∀ s ∈ sizesOf i wb, 1 ≤ s
  | i, [], hi, _ => by simp [sizesOf, weightArrays]; omega
  | i, w :: b :: wb, hi, h => by
    rw [sizesOf_cons]
    intro s hs
    rcases List.mem_cons.1 hs with rfl | hs
    · omega
    · exact shaped_pos h.1.2.2.2.1 h.2 s hs
  | _, [_], _, h => h.elim

theorem shaped_small : ∀ {i : Nat} {wb : List NpyArray}, Shaped i wb →
    ∀ l ∈ List.zipWith freshLayer (sizesOf i wb) (sizesOf i wb).tail, l.nIn * l.nOut < 2 ^ 31
  | i, [], _ => by simp [sizesOf, weightArrays]
  | i, w :: b :: wb, h => by
    rw [sizesOf_cons, List.tail_cons]
    have e : List.zipWith freshLayer ((i : Int) :: sizesOf (dim w 1) wb) (sizesOf (dim w 1) wb) =
        freshLayer i (dim w 1) :: List.zipWith freshLayer (sizesOf (dim w 1) wb) (sizesOf (dim w 1) wb).tail := rfl
    rw [e]
    intro l hl
    rcases List.mem_cons.1 hl with rfl | hl
    · have : ((i * dim w 1 : Nat) : Int) < 2 ^ 31 := by exact_mod_cast h.1.2.2.2.2.2.1
      simpa [freshLayer] using this
    · exact shaped_small h.2 l hl
  | _, [_], h => h.elim

theorem shaped_sizeArray {i : Nat} {w b : NpyArray} {wb : List NpyArray} (h : Shaped i (w :: b :: wb)) :
    sizeArray (w :: b :: wb) = .ok (sizesOf i (w :: b :: wb)) := by
  have key : ∀ (wb : List NpyArray) (i : Nat), Shaped i wb →
      (weightArrays wb).map (fun w => castInt (dim w 1)) = (weightArrays wb).map fun w => (dim w 1 : Int) := by
    intro wb
    induction wb using weightArrays.induct with
    | case1 w b wb ih =>
      intro i h
      simp only [weightArrays, List.map_cons, castInt_eq h.1.2.2.2.2.1, ih _ h.2]
    | case2 wb hwb =>
      intro i _
      rcases wb with _ | ⟨_, _ | ⟨_, _⟩⟩
      · rfl
      · rfl
      · exact (hwb _ _ _ rfl).elim
  have hk := key _ _ h
  simp only [sizeArray, weightArrays]
  simp only [weightArrays] at hk
  rw [hk, h.1.1, castInt_eq h.1.2.2.1]
  rfl

/-- Sizes and addresses of a layer. -/
def Layer.frame {F : Type} (l : Layer F) : Nat × Nat × Nat × Nat := (l.nIn, l.nOut, l.weight.addr, l.bias.addr)

/-- The layer of `CNet.toNet`. -/
def viewLayer {F : Type} (addr : Nat → Nat) (junk : Nat → Nat → F) (l : CLayer) : Layer F :=
  ⟨l.nIn.toNat, l.nOut.toNat, blockView addr junk (l.nIn.toNat * l.nOut.toNat) l.weight,
    blockView addr junk l.nOut.toNat l.bias, l.act.getD .linear, none⟩

theorem toNet_layers {F : Type} (addr : Nat → Nat) (junk : Nat → Nat → F) (net : CNet) :
    (net.toNet addr junk).layers = net.layers.map (viewLayer addr junk) := rfl

theorem copyFloats_eq {F : Type} (bits : FloatBits F) {dst : View F} {src : Bytes} {n : Nat} (hd : dst.data.length = n)
    (hs : n * 4 ≤ src.length) (hn : n < 2 ^ 31) : copyFloats bits dst src n = .ok ⟨dst.addr, bits.decode n src⟩ := by
  have hk : n * 4 % 2 ^ 64 / 4 = n := by
    rw [Nat.mod_eq_of_lt (by omega)]; omega
  simp only [copyFloats, hk]
  rw [if_neg (by omega), if_neg (by omega), List.drop_of_length_le (by omega), List.append_nil]
  rfl

/-- Copying well shaped arrays into the layers created for them. -/
theorem copyLayers_ok {F : Type} (bits : FloatBits F) (dl : DynLinker) (addr : Nat → Nat) (junk : Nat → Nat → F) :
    ∀ (wb : List NpyArray) (i : Nat) (names : List Bytes) (ls : List CLayer), Shaped i wb →
    ls.map (fun l => (l.nIn, l.nOut)) = (sizesOf i wb).zip (sizesOf i wb).tail →
    List.Forall₂ (fun name (l : CLayer) => Chosen dl name (l.act.getD .linear)) (names.map fun s => some (unstr s)) ls →
    (∀ l ∈ ls, (∃ i, l.weight = .blk i) ∧ ∃ i, l.bias = .blk i) →
    ∃ ls', copyLayers bits wb (ls.map (viewLayer addr junk)) = .ok ls' ∧ Loaded bits dl wb names ls' ∧
      ls'.map Layer.frame = (ls.map (viewLayer addr junk)).map Layer.frame := by
  intro wb
  induction wb using weightArrays.induct with
  | case1 w b wb ih =>
    intro i names ls hs hz hc hb
    obtain ⟨⟨s1, s2, s3, s4, s5, s6, s7, s8, s9, s10, s11⟩, hs'⟩ := hs
    rw [sizesOf_cons, List.tail_cons] at hz
    have e : List.zip ((i : Int) :: sizesOf (dim w 1) wb) (sizesOf (dim w 1) wb) =
        ((i : Int), (dim w 1 : Int)) :: List.zip (sizesOf (dim w 1) wb) (sizesOf (dim w 1) wb).tail := rfl
    rw [e] at hz
    match ls, names, hz, hc, hb with
    | [], _, hz, _, _ => simp at hz
    | l :: ls, [], hz, hc, _ => simp at hc
    | l :: ls, name :: names, hz, hc, hb =>
      simp only [List.map_cons, List.cons.injEq, Prod.mk.injEq] at hz
      obtain ⟨⟨z1, z2⟩, hz⟩ := hz
      rw [List.map_cons, List.forall₂_cons] at hc
      obtain ⟨ls', e1, e2, e3⟩ := ih (dim w 1) names ls hs' hz hc.2 (fun l hl => hb l (List.mem_cons_of_mem _ hl))
      obtain ⟨⟨bw, hbw⟩, bb, hbb⟩ := hb l (by simp)
      have hin : l.nIn.toNat = i := by rw [z1]; rfl
      have hout : l.nOut.toNat = dim w 1 := by rw [z2]; rfl
      have hw : copyFloats bits (viewLayer addr junk l).weight w.data (dim w 0 * dim w 1) =
          .ok ⟨addr bw, bits.decode (dim w 0 * dim w 1) w.data⟩ := by
        rw [copyFloats_eq bits _ (by rw [s1]; exact s7) (by rw [s1]; exact s6)]
        · simp [viewLayer, hbw, blockView]
        · simp [viewLayer, hbw, blockView, hin, hout, s1]
      have hbias : copyFloats bits ⟨(viewLayer addr junk l).bias.addr,
          List.replicate (viewLayer addr junk l).nOut (bits.ofBytes [0, 0, 0, 0]) ++
            (viewLayer addr junk l).bias.data.drop (viewLayer addr junk l).nOut⟩ b.data (dim b 0) =
          .ok ⟨addr bb, bits.decode (dim w 1) b.data⟩ := by
        rw [copyFloats_eq bits _ (by rw [s9]; exact s10) (by rw [s9]; exact s5)]
        · simp [viewLayer, hbb, blockView, s9]
        · simp [viewLayer, hbb, blockView, hout, s9]
      refine ⟨⟨(viewLayer addr junk l).nIn, (viewLayer addr junk l).nOut,
        ⟨addr bw, bits.decode (dim w 0 * dim w 1) w.data⟩, ⟨addr bb, bits.decode (dim w 1) b.data⟩,
        (viewLayer addr junk l).act, (viewLayer addr junk l).deriv⟩ :: ls', ?_, ⟨⟨?_, ?_, rfl, rfl, hc.1⟩, e2⟩, ?_⟩
      · simp only [List.map_cons, copyLayers, copyLayer, hw, hbias, s8, s11, bind, Except.bind, Bool.false_eq_true, if_false,
          e1, pure, Except.pure]
      · simp [viewLayer, hin, s1]
      · simp [viewLayer, hout]
      · simp only [List.map_cons, e3, List.cons.injEq, and_true]
        simp [Layer.frame, viewLayer, hbw, hbb, blockView]
  | case2 wb hwb =>
    intro i names ls hs hz hc hb
    rcases wb with _ | ⟨_, _ | ⟨_, _⟩⟩
    rotate_left
    · exact hs.elim
    · exact (hwb _ _ _ rfl).elim
    · have : ls = [] := by simpa [sizesOf, weightArrays] using hz
      subst this
      have : names = [] := by simpa using hc
      subst this
      exact ⟨[], rfl, trivial, rfl⟩

/-- Lines 152-206 of src/neuralnet.c for well shaped arrays and enough names. -/
theorem load_shaped {F : Type} (bits : FloatBits F) {mem ok : Nat → Bool} (hm : ∀ n, mem n = true) {dl : DynLinker}
    (addr : Nat → Nat) (junk : Nat → Nat → F) {ms wb : List NpyArray} {names : List Bytes} {i : Nat} {recs : List ActRecord}
    {h : Heap} (hne : wb ≠ []) (hsort : sortArrays mem ms [] none = .ok (some (wb, some names))) (hs : Shaped i wb)
    (hn : 2 * names.length = wb.length) (hname : ∀ s ∈ names, NameOk (unstr s)) (hw : h.WF)
    (hok : ∀ j < wb.length + 2, ok (h.count + j) = true) :
    ∃ nn recs' h', loadArrays bits mem ok dl addr junk ms recs h = .ok (some nn, recs', h') ∧
      Loaded bits dl wb names nn.layers ∧ nn.loss = none ∧
      ∀ c : Cfg, (∀ i, addr i % c.alignSize = 0) → nn.WF c := by
  match wb, hne, hs with
  | w :: b :: wb, _, hs =>
    set n := (weightArrays (w :: b :: wb)).length with hnn
    have hlen : (w :: b :: wb).length = 2 * n := hs.length_even
    have hnames : names.length = n := by omega
    have hn1 : 1 ≤ n := by simp [hnn, weightArrays]
    have hi : 1 ≤ i := hs.1.2.1
    have hpos := shaped_pos hi hs
    have hslen : (sizesOf i (w :: b :: wb)).length = n + 1 := by simp [sizesOf, hnn]
    have ha : CreateArgs n (sizesOf i (w :: b :: wb)) (names.map fun s => some (unstr s)) :=
      ⟨hslen, shaped_small hs, by simpa using hnames, by
        intro s hs
        obtain ⟨x, hx, e⟩ := List.mem_map.1 hs
        simp only [Option.some.injEq] at e
        rw [← e]; exact hname x hx⟩
    obtain ⟨net, recs', h', e1, -, -, e2, e3, e4⟩ := create_ok (ok := ok) (dl := dl) (recs := recs) hn1 ha hpos hw
      (by intro j hj; exact hok j (by omega))
    obtain ⟨ls', f1, f2, f3⟩ := copyLayers_ok bits dl addr junk (w :: b :: wb) i names net.layers hs e2 e3 e4
    have hne2 : ms.isEmpty = false := by
      cases ms with
      | nil => simp [sortArrays, pure, Except.pure] at hsort
      | cons => rfl
    refine ⟨⟨ls', none⟩, recs', h', ?_, f2, rfl, ?_⟩
    · simp only [loadArrays, hne2, Bool.false_eq_true, if_false, hm, Bool.not_true, hsort, bind, Except.bind]
      rw [if_neg (by rw [hlen]; omega), shaped_sizeArray hs]
      simp only
      rw [show (w :: b :: wb).length / 2 = n by omega]
      simp only [Option.map_some, e1, toNet_layers, f1]
      rfl
    · intro c hal
      have hwf := toNet_wf hn1 hslen hpos e2 e4 c addr hal junk
      have hlayers : ∀ {F : Type} {xs ys : List (Layer F)}, xs.map Layer.frame = ys.map Layer.frame → Chained ys → Chained xs := by
        intro F xs
        induction xs with
        | nil => intro ys _ _; trivial
        | cons x xs ih =>
          intro ys he hc
          match xs, ys, he, hc with
          | [], _, _, _ => trivial
          | x2 :: xs, [], he, _ => simp at he
          | x2 :: xs, [y], he, _ => simp at he
          | x2 :: xs, y :: y2 :: ys, he, hc =>
            simp only [List.map_cons, List.cons.injEq] at he
            refine ⟨?_, ih (ys := y2 :: ys) (by simp [he.2]) hc.2⟩
            have h1 := he.1
            have h2 := he.2.1
            simp only [Layer.frame, Prod.mk.injEq] at h1 h2
            rw [h1.2.1, h2.1]; exact hc.1
      have hld : ∀ (wb : List NpyArray) (names : List Bytes) (ls : List (Layer F)) (i : Nat), Shaped i wb →
          Loaded bits dl wb names ls → ∀ l ∈ ls, l.weight.data.length = l.nIn * l.nOut ∧ l.bias.data.length = l.nOut := by
        intro wb
        induction wb using weightArrays.induct with
        | case1 w b wb ih =>
          intro names ls i hs hl l hmem
          match names, ls, hl, hmem with
          | name :: names, l0 :: ls, hl, hmem =>
            rcases List.mem_cons.1 hmem with rfl | hmem
            · obtain ⟨⟨q1, q2, q3, q4, -⟩, -⟩ := hl
              rw [q3, q4, decode_length, decode_length, q1, q2]
              exact ⟨rfl, rfl⟩
            · exact ih names ls _ hs.2 hl.2 l hmem
        | case2 wb hwb =>
          intro names ls i hs hl l hmem
          rcases wb with _ | ⟨_, _ | ⟨_, _⟩⟩
          · match names, ls, hl, hmem with
            | [], [], _, hmem => cases hmem
          · exact hs.elim
          · exact (hwb _ _ _ rfl).elim
      refine ⟨?_, ?_, hlayers f3 (by rw [← toNet_layers]; exact hwf.chain)⟩
      · intro hnil
        have hnil' : ls' = [] := hnil
        rw [hnil'] at f3
        have : net.layers = [] := by simpa using f3.symm
        exact hwf.ne (by rw [toNet_layers, this]; rfl)
      · intro l hl
        have hmem : l.frame ∈ (net.layers.map (viewLayer addr junk)).map Layer.frame := by
          rw [← f3]; exact List.mem_map_of_mem hl
        obtain ⟨l0, hl0, he⟩ := List.mem_map.1 hmem
        have h0 := hwf.layer l0 (by rw [toNet_layers]; exact hl0)
        simp only [Layer.frame, Prod.mk.injEq] at he
        obtain ⟨d1, d2⟩ := hld _ _ _ _ hs f2 l hl
        exact ⟨by rw [← he.1]; exact h0.in_pos, by rw [← he.2.1]; exact h0.out_pos, d1, d2,
          by rw [← he.2.2.1]; exact h0.weight_al, by rw [← he.2.2.2]; exact h0.bias_al⟩

end NN
