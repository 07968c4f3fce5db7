import Verif.Proofs.SaveArrays
import Verif.Properties.Predict
/-
C49: saving and loading a network; C50: the position of the array of names; C51: archives that are not well formed.
-/
namespace NN

/-! ### C49: round trip -/

/-- Same sizes, same numbers, same activation function. -/
def SameLayer {F : Type} (l' l : Layer F) : Prop :=
  l'.nIn = l.nIn ∧ l'.nOut = l.nOut ∧ l'.weight.data = l.weight.data ∧ l'.bias.data = l.bias.data ∧ l'.act = l.act

/-- A network that can be saved: built-in activation functions, and the numbers of weights and the array of names fit in an
`int`. -/
structure Storable {F : Type} (c : Cfg) (nn : Net F) : Prop where
  wf : nn.WF c
  small : ∀ l ∈ nn.layers, l.nIn * l.nOut < 2 ^ 31
  count : 12 * nn.layers.length < 2 ^ 31
  act : ∀ l ∈ nn.layers, ∃ b ∈ builtins, l.act = b.2.1

theorem builtin_names : ∀ b ∈ builtins, unstr (str b.1) = b.1 ∧ (str b.1).length ≤ 12 ∧ str b.1 ≠ [] ∧ 0 ∉ str b.1 ∧
    '@' ∉ b.1.toList := by
  intro b hb
  simp only [builtins, List.mem_cons, List.not_mem_nil, or_false] at hb
  rcases hb with rfl | rfl | rfl | rfl | rfl | rfl | rfl | rfl | rfl <;>
    exact ⟨by decide, by decide, by decide, by decide, by decide⟩

theorem builtin_printed (recs : List ActRecord) : ∀ b ∈ builtins, getActivationName recs b.2.1 = b.1 := by
  intro b hb
  simp only [builtins, List.mem_cons, List.not_mem_nil, or_false] at hb
  rcases hb with rfl | rfl | rfl | rfl | rfl | rfl | rfl | rfl | rfl <;> rfl

theorem activations_good {lib : ZipLib} (hlib : lib.Lawful) : GoodName lib (str "activations") :=
  ⟨hlib.ascii _ (by decide) (by decide), by decide, by decide, by decide⟩

theorem builtin_inj : ∀ b ∈ builtins, ∀ b' ∈ builtins, b.1 = b'.1 → b.2.1 = b'.2.1 := by
  intro b hb b' hb'
  simp only [builtins, List.mem_cons, List.not_mem_nil, or_false] at hb hb'
  rcases hb with rfl | rfl | rfl | rfl | rfl | rfl | rfl | rfl | rfl <;>
  rcases hb' with rfl | rfl | rfl | rfl | rfl | rfl | rfl | rfl | rfl <;> intro h <;> first | rfl | (exact absurd h (by decide))

/-- The names `neuralnet_save` writes. -/
def savedNames {F : Type} (recs : List ActRecord) (ls : List (Layer F)) : List Bytes :=
  ls.map fun l => str (getActivationName recs l.act)

theorem sameLayers_of_loaded {F : Type} {bits : FloatBits F} (hb : bits.Lawful) {dl : DynLinker} {recs : List ActRecord} :
    ∀ (ls : List (Layer F)) (wb : List NpyArray) (ls' : List (Layer F)),
    (∀ l ∈ ls, (∃ b ∈ builtins, l.act = b.2.1) ∧ l.weight.data.length = l.nIn * l.nOut ∧ l.bias.data.length = l.nOut) →
    Copies bits ls wb → Loaded bits dl wb (savedNames recs ls) ls' → List.Forall₂ SameLayer ls' ls
  | [], [], [], _, _, _ => .nil
  | [], [], _ :: _, _, _, h => h.elim
  | [], _ :: _, _, _, h, _ => h.elim
  | l :: ls, [], _, _, h, _ => h.elim
  | l :: ls, [_], _, _, h, _ => h.elim
  | l :: ls, w :: b :: wb, [], _, _, h => h.elim
  | l :: ls, w :: b :: wb, l' :: ls', hls, ⟨⟨cw, cb⟩, hc⟩, ⟨⟨q1, q2, q3, q4, q5⟩, hl⟩ => by
    obtain ⟨⟨bi, hbi, hact⟩, h4, h5⟩ := hls l (by simp)
    obtain ⟨-, -, w3, w4⟩ := same_float cw (by rw [encode_length hb, h4]; simp)
    obtain ⟨-, -, b3, b4⟩ := same_float cb (by rw [encode_length hb, h5]; simp)
    have d0 : dim w 0 = l.nIn := w4 0 (by simp)
    have d1 : dim w 1 = l.nOut := w4 1 (by simp)
    refine .cons ⟨by rw [q1, d0], by rw [q2, d1], ?_, ?_, ?_⟩
      (sameLayers_of_loaded hb ls wb ls' (fun l hl => hls l (List.mem_cons_of_mem _ hl)) hc hl)
    · rw [q3, w3, d0, d1, ← h4]
      simpa using decode_encode hb l.weight.data []
    · rw [q4, b3, d1, ← h5]
      simpa using decode_encode hb l.bias.data []
    · have hname : unstr (str (getActivationName recs l.act)) = bi.1 := by
        rw [hact, builtin_printed recs bi hbi, (builtin_names bi hbi).1]
      rw [hname] at q5
      rcases q5 with ⟨b', hb', e1, e2⟩ | ⟨h, -⟩
      · rw [e2, hact]; exact (builtin_inj bi hbi b' hb' e1).symm
      · exact absurd rfl (h bi hbi)

/-- **C49** `neuralnet_save` writes a file from which `neuralnet_load`, in any later state of the program, creates a network
with the same sizes, weights, biases and activation functions (and no loss function). -/
theorem C49_roundtrip {F : Type} {bits : FloatBits F} (hb : bits.Lawful) {lib : ZipLib} (hlib : lib.Lawful) {d : Disk} {f : String}
    (hw : d.writable f = true) (hr : d.readable f = true) (hf : (str f).length ≤ 128) {c : Cfg} {nn : Net F} (hs : Storable c nn)
    (recs : List ActRecord) :
    ∃ d', saveNN lib bits recs d (some nn) (some f) = .ok d' ∧ (∀ g, g ≠ f → d'.content g = d.content g) ∧
      ∀ (mem ok : Nat → Bool) (dl : DynLinker) (addr : Nat → Nat) (junk : Nat → Nat → F) (recs2 : List ActRecord) (h : Heap),
        (∀ n, mem n = true) → h.WF → (∀ j < 2 * nn.layers.length + 2, ok (h.count + j) = true) →
        ∃ nn' recs' h', loadNN lib bits d' mem ok dl addr junk f recs2 h = .ok (some nn', recs', h') ∧
          List.Forall₂ SameLayer nn'.layers nn.layers ∧ nn'.loss = none ∧
          ∀ c : Cfg, (∀ i, addr i % c.alignSize = 0) → nn'.WF c := by
  set names := savedNames recs nn.layers with hnames
  have hlay : ∀ l ∈ nn.layers, 1 ≤ l.nIn ∧ 1 ≤ l.nOut ∧ l.nIn * l.nOut < 2 ^ 31 ∧ l.weight.data.length = l.nIn * l.nOut ∧
      l.bias.data.length = l.nOut := fun l hl =>
    ⟨(hs.wf.layer l hl).in_pos, (hs.wf.layer l hl).out_pos, hs.small l hl, (hs.wf.layer l hl).weight_len,
      (hs.wf.layer l hl).bias_len⟩
  have hnl : names.length = nn.layers.length := by rw [hnames, savedNames, List.length_map]
  have hne : names ≠ [] := by
    intro h
    rw [h] at hnl
    exact hs.wf.ne (List.length_eq_zero_iff.1 hnl.symm)
  have hnm : ∀ s ∈ names, ∃ b ∈ builtins, s = str b.1 := by
    intro s h
    obtain ⟨l, hl, e⟩ := List.mem_map.1 h
    obtain ⟨b, hb, ha⟩ := hs.act l hl
    exact ⟨b, hb, by rw [← e, ha, builtin_printed recs b hb]⟩
  have hlen12 : ∀ s ∈ names, s.length ≤ 12 := by
    intro s h
    obtain ⟨b, hb, rfl⟩ := hnm s h
    exact (builtin_names b hb).2.1
  have hcount := hs.count
  have harr : namesArray names = .ok (namesArr names) := by
    have : longestName names * names.length < 2 ^ 31 := by
      refine lt_of_le_of_lt (Nat.mul_le_mul_right _ (longest_le hlen12)) ?_
      rw [hnl]; exact hcount
    simp only [namesArray, if_pos this]
    rfl
  set l := saveLayers bits 0 nn.layers ++ [(str "activations", namesArr names)] with hl
  have hgood : ∀ p ∈ l, GoodName lib p.1 ∧ p.2.Savable := by
    intro p hp
    rcases List.mem_append.1 hp with hp | hp
    · exact saveLayers_good hb hlib nn.layers 0 (by omega) hlay p hp
    · simp only [List.mem_singleton] at hp
      subst hp
      refine ⟨activations_good hlib, namesArr_savable hne ?_ hlen12
        (by rw [hnl]; exact hcount)⟩
      intro s h
      obtain ⟨b, hb, rfl⟩ := hnm s h
      exact (builtin_names b hb).2.2.1
  obtain ⟨d', r, e1, e2, e3, e4⟩ := C47_roundtrip hlib hw hr (mem := fun _ => true) (fun _ => rfl) (l := l) (by simp [hl])
    (saveNames_nodup bits nn.layers _) hgood
  refine ⟨d', ?_, e2, ?_⟩
  · simp only [saveNN, if_neg (show ¬ maxFilenameLen < (str f).length by simp only [maxFilenameLen]; omega), saveArrays]
    rw [show (nn.layers.map fun l => str (getActivationName recs l.act)) = names from rfl, harr]
    simp only [bind, Except.bind, pure, Except.pure, ← hl, e1]
  · intro mem ok dl addr junk recs2 h hm hwf hok
    obtain rfl : mem = fun _ => true := funext hm
    obtain ⟨wb, q, f1, f2, f3⟩ := copies_of_saved bits _ nn.layers 0 r e4
    have hwl := copies_length _ _ f3
    have hshape := shaped_of_copies hb nn.layers wb hs.wf.chain hlay f3 nn.nInput (by
      intro l hl
      unfold Net.nInput
      cases hn : nn.layers with
      | nil => rw [hn] at hl; simp at hl
      | cons x xs => rw [hn] at hl; simp at hl; rw [hl])
    obtain ⟨q1, q2⟩ := names_read (mem := fun _ => true) hm hne (by
      intro s h
      obtain ⟨b, hb, rfl⟩ := hnm s h
      exact (builtin_names b hb).2.2.2.1) (by omega) f2
    have hsort : sortArrays (fun _ => true) (wb ++ [q]) [] none = .ok (some (wb, some names)) := by
      rw [sortArrays_floats _ wb (copies_float _ _ f3), sortArrays, if_neg (by rw [q1]; decide), if_pos q1, q2]
      rfl
    have hwne : wb ≠ [] := by
      intro h
      rw [h] at hwl
      exact hs.wf.ne (List.length_eq_zero_iff.1 (by simpa using hwl.symm))
    obtain ⟨nn', recs', h', g1, g2, g3, g4⟩ := load_shaped bits (ok := ok) hm (dl := dl) addr junk (recs := recs2) hwne hsort hshape
      (by omega) (by
        intro s hmem symbol lb hsym e
        obtain ⟨b, hb, rfl⟩ := hnm s hmem
        obtain ⟨p1, -, -, -, p5⟩ := builtin_names b hb
        rw [p1] at e
        rw [e] at p5
        simp at p5) hwf (by rw [hwl]; exact hok)
    refine ⟨nn', recs', h', ?_, ?_, g3, g4⟩
    · simp only [loadNN, e3, bind, Except.bind, f1]
      exact g1
    · exact sameLayers_of_loaded hb nn.layers wb nn'.layers
        (fun l hl => ⟨hs.act l hl, (hlay l hl).2.2.2.1, (hlay l hl).2.2.2.2⟩) f3 g2

theorem netF_same {F : Type} [FloatOps F] (env : CustomEnv F) (c : Cfg) (outAddr : Nat) : ∀ {ls' ls : List (Layer F)},
    List.Forall₂ SameLayer ls' ls → ∀ x, netF env c outAddr ls' x = netF env c outAddr ls x := by
  have hl : ∀ {l' l : Layer F}, SameLayer l' l → ∀ a x, layerF env c l' a x = layerF env c l a x := by
    intro l' l h a x
    obtain ⟨h1, h2, h3, h4, h5⟩ := h
    simp only [layerF, h1, h2, h3, h4, h5]
  intro ls' ls h
  induction h with
  | nil => intro x; rfl
  | cons h1 h2 ih =>
    intro x
    cases h2 with
    | nil => simp only [netF, hl h1]
    | cons h3 h4 =>
      simp only [netF, hl h1] at ih ⊢
      exact ih _

/-- **C49** Such networks give the same predictions, bit by bit, for any meaning of the floating point operations. -/
theorem C49_predict {F : Type} [FloatOps F] (env : CustomEnv F) (c : Cfg) {nn nn' : Net F} (hw : nn.WF c) (hw' : nn'.WF c)
    (h : List.Forall₂ SameLayer nn'.layers nn.layers) (wa wa' : Nat) (junk junk' : Nat → F) (input out : View F)
    (hwa : wa % c.alignSize = 0) (hwa' : wa' % c.alignSize = 0) (hin : nn.nInput ≤ input.data.length)
    (hout : nn.nOutput ≤ out.data.length) (hal : AlignedFor c nn.nOutput out.addr) :
    predict env c wa' junk' nn' input out = predict env c wa junk nn input out := by
  have hi : nn'.nInput = nn.nInput := by
    unfold Net.nInput
    generalize nn.layers = ls at h
    generalize nn'.layers = ls' at h
    cases h with
    | nil => rfl
    | cons h1 _ => exact h1.1
  have ho : nn'.nOutput = nn.nOutput := by
    unfold Net.nOutput
    have key : ∀ {ls' ls : List (Layer F)}, List.Forall₂ SameLayer ls' ls → ls'.getLast?.map Layer.nOut = ls.getLast?.map Layer.nOut := by
      intro ls' ls h
      induction h with
      | nil => rfl
      | cons h1 h2 ih =>
        cases h2 with
        | nil => simp [h1.2.1]
        | cons h3 h4 => rw [List.getLast?_cons_cons, List.getLast?_cons_cons]; exact ih
    have := key h
    cases h1 : nn'.layers.getLast? <;> cases h2 : nn.layers.getLast? <;> simp_all
  rw [predict_netF env c wa' junk' nn' input out hw' hwa' (by omega) (by omega) (by rw [ho]; exact hal),
    predict_netF env c wa junk nn input out hw hwa hin hout hal, hi, ho, netF_same env c out.addr h]

/-- **C49** A file name of more than 128 bytes: nothing is written. -/
theorem C49_long_name {F : Type} (lib : ZipLib) (bits : FloatBits F) (recs : List ActRecord) (d : Disk) (nn : Net F) (f : String)
    (h : 128 < (str f).length) : saveNN lib bits recs d (some nn) (some f) = .ok d := by
  have h' : maxFilenameLen < (str f).length := h
  simp only [saveNN, if_pos h']
  rfl

/-- **C49** Without a network or a file name nothing is written. -/
theorem C49_null {F : Type} (lib : ZipLib) (bits : FloatBits F) (recs : List ActRecord) (d : Disk) (nn : Option (Net F))
    (f : Option String) (h : nn = none ∨ f = none) : saveNN lib bits recs d nn f = .ok d := by
  rcases h with rfl | rfl
  · rfl
  · cases nn <;> rfl

/-! ### C50: position of the array of names -/

theorem sortArrays_names (mem : Nat → Bool) {as bs : List NpyArray} {s : NpyArray} (ha : ∀ m ∈ as ++ bs, m.typechar = 102)
    (hs : s.typechar = 83) : sortArrays mem (as ++ s :: bs) [] none = (do
      let names ← namesFromNpy mem s
      pure (some (as ++ bs, some names))) := by
  rw [sortArrays_floats mem as (fun m hm => ha m (List.mem_append_left _ hm)), sortArrays, if_neg (by rw [hs]; decide), if_pos hs]
  congr 1
  funext names
  have := sortArrays_floats mem bs (fun m hm => ha m (List.mem_append_right _ hm)) [] ([] ++ as) (some names)
  rw [List.append_nil] at this
  rw [this]
  rfl

/-- **C50** The position of the array of names among the others does not matter: same network, or same failure. -/
theorem C50_list {F : Type} (bits : FloatBits F) (mem ok : Nat → Bool) (dl : DynLinker) (addr : Nat → Nat) (junk : Nat → Nat → F)
    (recs : List ActRecord) (h : Heap) {as bs cs ds : List NpyArray} {s : NpyArray} (hf : ∀ m ∈ as ++ bs, m.typechar = 102)
    (hs : s.typechar = 83) (he : as ++ bs = cs ++ ds) :
    loadArrays bits mem ok dl addr junk (as ++ s :: bs) recs h = loadArrays bits mem ok dl addr junk (cs ++ s :: ds) recs h := by
  have hl : (as ++ s :: bs).length = (cs ++ s :: ds).length := by
    have := congrArg List.length he
    simp only [List.length_append, List.length_cons] at this ⊢
    omega
  have e1 : (as ++ s :: bs).isEmpty = false := by cases as <;> rfl
  have e2 : (cs ++ s :: ds).isEmpty = false := by cases cs <;> rfl
  simp only [loadArrays, e1, e2, hl, sortArrays_names mem hf hs, sortArrays_names mem (he ▸ hf : ∀ m ∈ cs ++ ds, m.typechar = 102) hs, he]

theorem loadLoop_acc (mem : Nat → Bool) : ∀ (es : List ZipEntry) (l : List (Bytes × NpyArray)),
    loadLoop mem es l = (do
      let r ← loadLoop mem es []
      pure (l ++ r))
  | [], l => by simp [loadLoop, bind, Except.bind, pure, Except.pure]
  | e :: es, l => by
    have ih := loadLoop_acc mem es
    rw [loadLoop, loadLoop]
    cases e.data with
    | none => exact ih l
    | some b =>
      simp only [bind, Except.bind] at ih ⊢
      cases readMatrix false mem b with
      | error x => rfl
      | ok r =>
        cases r with
        | none => exact ih l
        | some m =>
          simp only [loadAppend]
          by_cases h24 : mem 24 = true
          · simp only [h24, if_true, bind, Except.bind]
            cases printfNoArgs (cstr e.name) with
            | error x => rfl
            | ok t =>
              simp only
              by_cases h1 : maxNameLen < t.length
              · simp only [if_pos h1]
              · by_cases h2 : mem (t.length + 1) = true
                · simp only [if_neg h1, if_pos h2, pure, Except.pure]
                  rw [ih (l ++ [(t, m)]), ih ([] ++ [(t, m)])]
                  cases loadLoop mem es [] with
                  | error x => rfl
                  | ok r => simp [pure, Except.pure]
                · simp only [if_neg h1, if_neg h2]
          · simp only [if_neg h24, pure, Except.pure]
            exact ih l

theorem loadLoop_split {mem : Nat → Bool} {A B : List ZipEntry} {fs : List (Bytes × NpyArray)}
    (h : loadLoop mem (A ++ B) [] = .ok fs) : ∃ a b, loadLoop mem A [] = .ok a ∧ loadLoop mem B [] = .ok b ∧ fs = a ++ b := by
  rw [loadLoop_append] at h
  cases ha : loadLoop mem A [] with
  | error x => rw [ha] at h; cases h
  | ok a =>
    rw [ha] at h
    simp only [bind, Except.bind] at h
    rw [loadLoop_acc] at h
    cases hb : loadLoop mem B [] with
    | error x => rw [hb] at h; cases h
    | ok b =>
      rw [hb] at h
      simp only [bind, Except.bind, pure, Except.pure, Except.ok.injEq] at h
      exact ⟨a, b, rfl, rfl, h.symm⟩

/-- **C50** The same for archives: the member with the names may be anywhere among the others. -/
theorem C50_archive {F : Type} (lib : ZipLib) (bits : FloatBits F) (mem ok : Nat → Bool) (dl : DynLinker) (addr : Nat → Nat)
    (junk : Nat → Nat → F) (recs : List ActRecord) (h : Heap) (d : Disk) {f g : String} {x y : Bytes} (hf : d.content f = some x)
    (hg : d.content g = some y) (hrf : d.readable f = true) (hrg : d.readable g = true) {A B C D : List ZipEntry} {e : ZipEntry}
    (hx : lib.open' x = some (A ++ e :: B)) (hy : lib.open' y = some (C ++ e :: D)) (hABCD : A ++ B = C ++ D)
    {fs : List (Bytes × NpyArray)} (hfs : loadLoop mem (A ++ B) [] = .ok fs) (hfl : ∀ p ∈ fs, p.2.typechar = 102)
    {s : Bytes × NpyArray} (hs : loadLoop mem [e] [] = .ok [s]) (hst : s.2.typechar = 83) :
    loadNN lib bits d mem ok dl addr junk f recs h = loadNN lib bits d mem ok dl addr junk g recs h := by
  have key : ∀ {A B : List ZipEntry} {a b : List (Bytes × NpyArray)}, loadLoop mem A [] = .ok a → loadLoop mem B [] = .ok b →
      loadLoop mem (A ++ e :: B) [] = .ok (a ++ s :: b) := by
    intro A B a b ha hb
    rw [loadLoop_append, ha]
    simp only [bind, Except.bind]
    rw [show e :: B = [e] ++ B from rfl, loadLoop_append, loadLoop_acc mem [e], hs]
    simp only [bind, Except.bind, pure, Except.pure]
    rw [loadLoop_acc, hb]
    simp [bind, Except.bind, pure, Except.pure]
  obtain ⟨a, b, a1, b1, e1⟩ := loadLoop_split hfs
  obtain ⟨a', b', a2, b2, e2⟩ := loadLoop_split (hABCD ▸ hfs)
  simp only [loadNN, listLoad, hf, hg, hrf, hrg, if_true, hx, hy, key a1 b1, key a2 b2, bind, Except.bind, List.map_append, List.map_cons]
  refine C50_list bits mem ok dl addr junk recs h ?_ hst ?_
  · intro m hm
    rw [← List.map_append, ← e1] at hm
    obtain ⟨p, hp, rfl⟩ := List.mem_map.1 hm
    exact hfl p hp
  · rw [← List.map_append, ← List.map_append, ← e1, ← e2]

/-! ### C51: other archives -/

/-- **C51, partial** Full claim: for every archive `neuralnet_load` fails cleanly or returns a network.  Proved: an archive of
float arrays whose shapes fit, in C order, with one array of as many names, anywhere, gives a well formed network, within
bounds.  Not proved, since false: `C51_*_false`. -/
theorem C51_shapes_partial {F : Type} (lib : ZipLib) (bits : FloatBits F) {mem ok : Nat → Bool} (hm : ∀ n, mem n = true) (dl : DynLinker)
    (addr : Nat → Nat) (junk : Nat → Nat → F) (recs : List ActRecord) {h : Heap} (hw : h.WF) (d : Disk) {f : String}
    {l : List (Bytes × NpyArray)} (hl : listLoad lib d mem f = .ok l) {as bs : List NpyArray} {s : NpyArray}
    (hls : l.map Prod.snd = as ++ s :: bs) (hf : ∀ m ∈ as ++ bs, m.typechar = 102) (hs : s.typechar = 83) {i : Nat}
    (hshape : Shaped i (as ++ bs)) (hne : as ++ bs ≠ []) (hn : 2 * dim s 0 = (as ++ bs).length) (h32 : dim s 0 < 2 ^ 32)
    (hdata : dim s 0 * s.elemSize ≤ s.data.length)
    (hname : ∀ j < dim s 0, NameOk (unstr (cstr ((s.data.drop (j * s.elemSize)).take s.elemSize))))
    (hok : ∀ j < (as ++ bs).length + 2, ok (h.count + j) = true) :
    ∃ nn recs' h', loadNN lib bits d mem ok dl addr junk f recs h = .ok (some nn, recs', h') ∧
      Loaded bits dl (as ++ bs) ((List.range (dim s 0)).map fun j => cstr ((s.data.drop (j * s.elemSize)).take s.elemSize)) nn.layers ∧
      ∀ c : Cfg, (∀ i, addr i % c.alignSize = 0) → nn.WF c := by
  have hpos : dim s 0 ≠ 0 := by
    intro h0
    rw [h0] at hn
    exact hne (List.length_eq_zero_iff.1 hn.symm)
  have hnames : namesFromNpy mem s =
      .ok ((List.range (dim s 0)).map fun j => cstr ((s.data.drop (j * s.elemSize)).take s.elemSize)) := by
    simp only [namesFromNpy, hm, Bool.not_true, Bool.false_eq_true, if_false, if_neg hpos, if_neg (Nat.not_le.2 h32),
      if_neg (Nat.not_lt.2 hdata)]
    rfl
  obtain ⟨nn, recs', h', g1, g2, -, g4⟩ := load_shaped bits (ok := ok) hm (dl := dl) addr junk (ms := as ++ s :: bs) (recs := recs) hne
    (by rw [sortArrays_names mem hf hs, hnames]; rfl) hshape (by simpa using hn) (by
      intro t ht
      obtain ⟨j, hj, rfl⟩ := List.mem_map.1 ht
      exact hname j (List.mem_range.1 hj)) hw hok
  refine ⟨nn, recs', h', ?_, g2, g4⟩
  simp only [loadNN, hl, bind, Except.bind, hls]
  exact g1

/-- **C51** No readable array in the archive (or no archive): NULL. -/
theorem C51_empty {F : Type} (lib : ZipLib) (bits : FloatBits F) (mem ok : Nat → Bool) (dl : DynLinker) (addr : Nat → Nat)
    (junk : Nat → Nat → F) (recs : List ActRecord) (h : Heap) (d : Disk) {f : String} (hl : listLoad lib d mem f = .ok []) :
    loadNN lib bits d mem ok dl addr junk f recs h = .ok (none, recs, h) := by
  simp only [loadNN, hl, bind, Except.bind]
  rfl

/-- **C51** An array of another type after float arrays: NULL. -/
theorem C51_other_type {F : Type} (lib : ZipLib) (bits : FloatBits F) (mem ok : Nat → Bool) (dl : DynLinker) (addr : Nat → Nat)
    (junk : Nat → Nat → F) (recs : List ActRecord) (h : Heap) (d : Disk) {f : String} {l : List (Bytes × NpyArray)}
    (hl : listLoad lib d mem f = .ok l) {as bs : List NpyArray} {m : NpyArray} (hls : l.map Prod.snd = as ++ m :: bs)
    (hf : ∀ m ∈ as, m.typechar = 102) (h1 : m.typechar ≠ 102) (h2 : m.typechar ≠ 83) :
    loadNN lib bits d mem ok dl addr junk f recs h = .ok (none, recs, h) := by
  have e1 : (as ++ m :: bs).isEmpty = false := by cases as <;> rfl
  simp only [loadNN, hl, bind, Except.bind, hls, loadArrays, e1, Bool.false_eq_true, if_false,
    sortArrays_floats mem as hf, sortArrays, if_neg h1, if_neg h2]
  split <;> rfl

/-- **C51 is false** for an odd number of float arrays: assertion. -/
theorem C51_odd_false {F : Type} (bits : FloatBits F) {mem : Nat → Bool} (hm : ∀ n, mem n = true) (ok : Nat → Bool) (dl : DynLinker)
    (addr : Nat → Nat) (junk : Nat → Nat → F) (recs : List ActRecord) (h : Heap) {ms wb : List NpyArray} {acts : Option (List Bytes)}
    (hne : ms ≠ []) (hsort : sortArrays mem ms [] none = .ok (some (wb, acts))) (ho : wb.length % 2 = 1) :
    loadArrays bits mem ok dl addr junk ms recs h = .error .assertFail := by
  have e1 : ms.isEmpty = false := by cases ms <;> simp_all
  simp only [loadArrays, e1, hm, Bool.false_eq_true, if_false, Bool.not_true, hsort, bind, Except.bind]
  rw [if_pos (by omega)]

/-- **C51 is false** without float arrays: `weights_and_biases[0]` is read but was never set. -/
theorem C51_no_weights_false {F : Type} (bits : FloatBits F) {mem : Nat → Bool} (hm : ∀ n, mem n = true) (ok : Nat → Bool)
    (dl : DynLinker) (addr : Nat → Nat) (junk : Nat → Nat → F) (recs : List ActRecord) (h : Heap) {ms : List NpyArray}
    {acts : Option (List Bytes)} (hne : ms ≠ []) (hsort : sortArrays mem ms [] none = .ok (some ([], acts))) :
    loadArrays bits mem ok dl addr junk ms recs h = .error .uninit := by
  have e1 : ms.isEmpty = false := by cases ms <;> simp_all
  simp only [loadArrays, e1, hm, Bool.false_eq_true, if_false, Bool.not_true, hsort, bind, Except.bind]
  rfl

/-- **C51 is false** without an array of names, for any well shaped float arrays: NULL is dereferenced. -/
theorem C51_no_names_false {F : Type} (bits : FloatBits F) {mem ok : Nat → Bool} (hm : ∀ n, mem n = true) (dl : DynLinker)
    (addr : Nat → Nat) (junk : Nat → Nat → F) (recs : List ActRecord) {h : Heap} (hw : h.WF) {i : Nat} {wb : List NpyArray}
    (hne : wb ≠ []) (hf : ∀ m ∈ wb, m.typechar = 102) (hs : Shaped i wb) (hok : ∀ j < wb.length + 2, ok (h.count + j) = true) :
    loadArrays bits mem ok dl addr junk wb recs h = .error .nullDeref := by
  match wb, hne, hs with
  | w :: b :: wb, _, hs =>
    have hsort : sortArrays mem (w :: b :: wb) [] none = .ok (some (w :: b :: wb, none)) := by
      have := sortArrays_floats mem (w :: b :: wb) hf [] [] none
      rw [List.append_nil] at this
      rw [this]; rfl
    set n := (weightArrays (w :: b :: wb)).length with hnn
    have hlen : (w :: b :: wb).length = 2 * n := hs.length_even
    have hslen : (sizesOf i (w :: b :: wb)).length = n + 1 := by simp [sizesOf, hnn]
    have hc := C52_names_false (ok := ok) (dl := dl) (recs := recs) (n := n) (h := h) (by simp [hnn, weightArrays]) hslen
      (shaped_pos hs.1.2.1 hs) (shaped_small hs) hw (by intro j hj; exact hok j (by omega))
    simp only [loadArrays, List.isEmpty_cons, Bool.false_eq_true, if_false, hm, Bool.not_true, hsort, bind, Except.bind]
    rw [if_neg (by rw [hlen]; omega), shaped_sizeArray hs]
    simp only
    rw [show (w :: b :: wb).length / 2 = n by omega]
    simp only [Option.map_none, hc]

/-- **C51 is false** when a bias array is longer than the layer: the copy runs over the end of the allocated block (only a
warning is printed). -/
theorem C51_bias_false {F : Type} (bits : FloatBits F) {mem ok : Nat → Bool} (hm : ∀ n, mem n = true) (dl : DynLinker)
    (addr : Nat → Nat) (junk : Nat → Nat → F) (recs : List ActRecord) {h : Heap} (hw : h.WF) {w b s : NpyArray} {name : Bytes}
    (htw : w.typechar = 102) (htb : b.typechar = 102) (hts : s.typechar = 83) (hs : namesFromNpy mem s = .ok [name])
    (hname : NameOk (unstr name)) (h0 : 1 ≤ dim w 0) (h1 : 1 ≤ dim w 1) (hsmall : dim w 0 * dim w 1 < 2 ^ 31)
    (hdw : dim w 0 * dim w 1 * 4 ≤ w.data.length) (hbig : dim w 1 < dim b 0) (hb31 : dim b 0 < 2 ^ 31)
    (hok : ∀ j < 4, ok (h.count + j) = true) : loadArrays bits mem ok dl addr junk [w, b, s] recs h = .error .oob := by
  have d0 : dim w 0 < 2 ^ 31 := lt_of_le_of_lt (Nat.le_mul_of_pos_right _ h1) hsmall
  have d1 : dim w 1 < 2 ^ 31 := lt_of_le_of_lt (Nat.le_mul_of_pos_left _ h0) hsmall
  have hsort : sortArrays mem [w, b, s] [] none = .ok (some ([w, b], some [name])) := by
    have := sortArrays_names mem (as := [w, b]) (bs := []) (s := s) (by simp [htw, htb]) hts
    simp only [List.append_nil, List.cons_append, List.nil_append, hs] at this
    exact this
  have ha : CreateArgs 1 [(dim w 0 : Int), (dim w 1 : Int)] [some (unstr name)] := by
    refine ⟨rfl, ?_, rfl, by simpa using hname⟩
    have : ((dim w 0 * dim w 1 : Nat) : Int) < 2 ^ 31 := by exact_mod_cast hsmall
    simpa [freshLayer] using this
  obtain ⟨net, recs', h', e1, -, -, e2, -, e4⟩ := create_ok (ok := ok) (dl := dl) (recs := recs) (Nat.le_refl 1) ha
    (by simp; omega) hw (by intro j hj; exact hok j (by omega))
  match hnl : net.layers, e2, e4 with
  | [l], e2, e4 =>
    simp only [List.map_cons, List.map_nil, List.tail_cons, List.zip_cons_cons, List.zip_nil_right, List.cons.injEq, Prod.mk.injEq,
      and_true] at e2
    obtain ⟨⟨bw, hbw⟩, bb, hbb⟩ := e4 l (by simp)
    have hin : l.nIn.toNat = dim w 0 := by rw [e2.1]; rfl
    have hout : l.nOut.toNat = dim w 1 := by rw [e2.2]; rfl
    have hcw : copyFloats bits (viewLayer addr junk l).weight w.data (dim w 0 * dim w 1) =
        .ok ⟨addr bw, bits.decode (dim w 0 * dim w 1) w.data⟩ := by
      rw [copyFloats_eq bits _ hdw hsmall]
      · simp [viewLayer, hbw, blockView]
      · simp [viewLayer, hbw, blockView, hin, hout]
    have hcb : copyFloats bits ⟨(viewLayer addr junk l).bias.addr,
        List.replicate (viewLayer addr junk l).nOut (bits.ofBytes [0, 0, 0, 0]) ++
          (viewLayer addr junk l).bias.data.drop (viewLayer addr junk l).nOut⟩ b.data (dim b 0) = .error .oob := by
      have hk : dim b 0 * 4 % 2 ^ 64 / 4 = dim b 0 := by
        rw [Nat.mod_eq_of_lt (by omega)]; omega
      simp only [copyFloats, hk]
      rw [if_pos]
      simp [viewLayer, hbb, blockView, hout]
      exact hbig
    simp only [loadArrays, List.isEmpty_cons, Bool.false_eq_true, if_false, hm, Bool.not_true, hsort, bind, Except.bind]
    rw [if_neg (by simp)]
    simp only [sizeArray, weightArrays, List.map_cons, List.map_nil, castInt_eq d0, castInt_eq d1, pure, Except.pure, Option.map_some,
      List.length_cons, List.length_nil, Nat.reduceAdd, Nat.reduceDiv, e1, toNet_layers, hnl, copyLayers, copyLayer, hcw, hcb, bind,
      Except.bind]
  | [], e2, _ => simp at e2
  | _ :: _ :: _, e2, _ => simp at e2

theorem forall₂_three {α β : Type} {R : α → β → Prop} {r : List α} {a b c : β} (h : List.Forall₂ R r [a, b, c]) :
    ∃ x y z, r = [x, y, z] ∧ R x a ∧ R y b ∧ R z c := by
  cases h with
  | cons h1 h => cases h with
    | cons h2 h => cases h with
      | cons h3 h => cases h; exact ⟨_, _, _, rfl, h1, h2, h3⟩

theorem forall₂_one {α β : Type} {R : α → β → Prop} {r : List α} {a : β} (h : List.Forall₂ R r [a]) : ∃ x, r = [x] ∧ R x a := by
  cases h with
  | cons h1 h => cases h; exact ⟨_, rfl, h1⟩

/-- **C51 is false**: there is an archive, written by the library itself, on which `neuralnet_load` writes out of bounds,
whatever the state of the program. -/
theorem C51_archive_false {lib : ZipLib} (hlib : lib.Lawful) {F : Type} (bits : FloatBits F) (d : Disk) (f : String)
    (hw : d.writable f = true) (hr : d.readable f = true) :
    ∃ l d', listSave lib d f l = .ok (3, d') ∧ ∀ (mem ok : Nat → Bool) (dl : DynLinker) (addr : Nat → Nat) (junk : Nat → Nat → F)
      (recs : List ActRecord) (h : Heap), (∀ n, mem n = true) → (∀ n, ok n = true) → h.WF →
      loadNN lib bits d' mem ok dl addr junk f recs h = .error .oob := by
  have hrelu : str "relu" ≠ [] ∧ (str "relu").length ≤ 12 ∧ 0 ∉ str "relu" := by decide
  obtain ⟨d', r, e1, -, e3, e4⟩ := C47_roundtrip hlib hw hr (mem := fun _ => true) (fun _ => rfl)
    (l := [(str "weight_0", floatArray (List.replicate 4 0) [1, 1]), (str "bias_0", floatArray (List.replicate 8 65) [2]),
      (str "activations", namesArr [str "relu"])]) (by simp) (by
      show [str "weight_0", str "bias_0", str "activations"].Nodup
      decide) (by
      intro p hp
      simp only [List.mem_cons, List.not_mem_nil, or_false] at hp
      obtain ⟨n1, n2⟩ := exName hlib
      rcases hp with rfl | rfl | rfl
      · exact ⟨n1, floatArray_savable (by simp) (by simp) (by simp) (by simp)⟩
      · exact ⟨n2, floatArray_savable (by simp) (by simp) (by simp) (by simp)⟩
      · exact ⟨activations_good hlib, namesArr_savable (k := 12) (by simp) (by simpa using hrelu.1) (by simpa using hrelu.2.1) (by simp)⟩)
  refine ⟨_, d', e1, ?_⟩
  intro mem ok dl addr junk recs h hm hok hwf
  obtain rfl : mem = fun _ => true := funext hm
  obtain ⟨w, b, s, rfl, h1, h2, h3⟩ := forall₂_three e4
  obtain ⟨w1, -, w3, w4⟩ := same_float h1.2 (by simp)
  obtain ⟨b1, -, b3, b4⟩ := same_float h2.2 (by simp)
  obtain ⟨s1, s2⟩ := names_read (mem := fun _ => true) hm (by simp) (by simpa using hrelu.2.2) (by simp) h3.2
  have d0 : dim w.2 0 = 1 := w4 0 (by simp)
  have d1 : dim w.2 1 = 1 := w4 1 (by simp)
  have d2 : dim b.2 0 = 2 := b4 0 (by simp)
  simp only [loadNN, e3, bind, Except.bind, List.map_cons, List.map_nil]
  refine C51_bias_false bits hm dl addr junk recs hwf w1 b1 s1 s2 ?_ (by omega) (by omega) (by rw [d0, d1]; norm_num) ?_
    (by omega) (by rw [d2]; norm_num) (fun _ _ => hok _)
  · intro symbol lb hsym e
    have hat : '@' ∉ (unstr (str "relu")).toList := by decide
    rw [e] at hat
    simp at hat
  · rw [w3, d0, d1]; simp

/-! ### Examples -/

/-- Arrays that fit together. -/
example : Shaped 2 [floatArray (List.replicate 24 0) [2, 3], floatArray (List.replicate 12 0) [3],
    floatArray (List.replicate 12 0) [3, 1], floatArray (List.replicate 4 0) [1]] := by
  simp [Shaped, dim, floatArray]

/-- The names first or last. -/
example {F : Type} (bits : FloatBits F) (dl : DynLinker) (addr : Nat → Nat) (junk : Nat → Nat → F) (h : Heap) :
    loadArrays bits (fun _ => true) (fun _ => true) dl addr junk
      [namesArr [str "relu"], floatArray (List.replicate 24 0) [2, 3], floatArray (List.replicate 12 0) [3]] [] h =
    loadArrays bits (fun _ => true) (fun _ => true) dl addr junk
      [floatArray (List.replicate 24 0) [2, 3], floatArray (List.replicate 12 0) [3], namesArr [str "relu"]] [] h :=
  C50_list bits _ _ dl addr junk [] h (as := []) (cs := [_, _]) (ds := []) (by simp [floatArray]) rfl (by simp)

/-- Two archives with the same members in a different order. -/
example {F : Type} (bits : FloatBits F) (dl : DynLinker) (addr : Nat → Nat) (junk : Nat → Nat → F) (h : Heap)
    (hn : (namesArr [str "relu"]).Savable) :
    ∃ (lib : ZipLib) (d : Disk) (A B : List ZipEntry), lib.open' [1] = some A ∧ lib.open' [2] = some B ∧ A ≠ B ∧
      loadNN lib bits d (fun _ => true) (fun _ => true) dl addr junk "a.npz" [] h =
      loadNN lib bits d (fun _ => true) (fun _ => true) dl addr junk "b.npz" [] h := by
  let e := entryOf (str "n", namesArr [str "relu"])
  let w := entryOf (str "w", exNpy)
  let lib : ZipLib := ⟨fun _ => [], fun x => if x = [1] then some ([w] ++ e :: []) else some ([] ++ e :: [w]), fun _ => true⟩
  have g1 : GoodName lib (str "w") := ⟨rfl, by decide, by decide, by decide⟩
  have g2 : GoodName lib (str "n") := ⟨rfl, by decide, by decide, by decide⟩
  obtain ⟨r1, a1, a2⟩ := loadLoop_entries (lib := lib) (mem := fun _ => true) (fun _ => rfl) [(str "w", exNpy)] []
    (by simpa using ⟨g1, exNpy_savable⟩)
  obtain ⟨r2, b1, b2⟩ := loadLoop_entries (lib := lib) (mem := fun _ => true) (fun _ => rfl) [(str "n", namesArr [str "relu"])] []
    (by simpa using ⟨g2, hn⟩)
  obtain ⟨x, rfl, h1⟩ := forall₂_one a2
  obtain ⟨y, rfl, h2⟩ := forall₂_one b2
  refine ⟨lib, ⟨fun f => if f = "a.npz" then some [1] else some [2], fun _ => true, fun _ => true⟩, _, _, rfl, rfl, ?_, ?_⟩
  · intro hh
    have : w.name = e.name := by simpa [w, e] using congrArg (fun l => (l.head?.map ZipEntry.name)) hh
    exact absurd this (by decide)
  · refine C50_archive lib bits _ _ dl addr junk [] h _ (x := [1]) (y := [2]) (A := [w]) (B := []) (C := []) (D := [w]) (e := e)
      rfl (by decide) rfl rfl rfl rfl rfl (fs := [x]) (by simpa using a1) ?_ (s := y) (by simpa using b1) ?_
    · simp only [List.mem_singleton, forall_eq]
      exact congrArg Spec.Array.typechar h1.2.1
    · exact congrArg Spec.Array.typechar h2.2.1

/-- Floats of 32 bits, least significant byte first. -/
def exBits : FloatBits (BitVec 32) :=
  ⟨fun x => [(x.toNat % 256).toUInt8, (x.toNat / 256 % 256).toUInt8, (x.toNat / 65536 % 256).toUInt8, (x.toNat / 16777216).toUInt8],
   fun b => BitVec.ofNat 32 ((b.getD 0 0).toNat + 256 * (b.getD 1 0).toNat + 65536 * (b.getD 2 0).toNat +
     16777216 * (b.getD 3 0).toNat)⟩

theorem exBits_lawful : exBits.Lawful where
  len _ := rfl
  left_inv x := by
    have hx := x.isLt
    simp only [exBits, List.getD_cons_zero, List.getD_cons_succ]
    rw [toUInt8_toNat (by omega), toUInt8_toNat (by omega), toUInt8_toNat (by omega), toUInt8_toNat (by omega)]
    apply BitVec.eq_of_toNat_eq
    rw [BitVec.toNat_ofNat]
    omega

/-- Two inputs, two rectified linear units, one sigmoid. -/
def exSaveNet : Net (BitVec 32) :=
  ⟨[⟨2, 2, ⟨0, [0x3f800000, 0xbf800000, 0x40000000, 0]⟩, ⟨0, [1, 0x80000000]⟩, .relu, none⟩,
    ⟨2, 1, ⟨0, [0x7fc00001, 3]⟩, ⟨0, [5]⟩, .sigmoid, none⟩], none⟩

theorem exSaveNet_storable (c : Cfg) : Storable c exSaveNet where
  wf := by
    refine ⟨by simp [exSaveNet], ?_, ⟨rfl, trivial⟩⟩
    intro l hl
    simp only [exSaveNet, List.mem_cons, List.not_mem_nil, or_false] at hl
    rcases hl with rfl | rfl <;> exact ⟨by simp, by simp, rfl, rfl, Nat.zero_mod _, Nat.zero_mod _⟩
  small := by simp [exSaveNet]
  count := by simp [exSaveNet]
  act := by
    simp only [exSaveNet, List.mem_cons, List.not_mem_nil, or_false, forall_eq_or_imp, forall_eq]
    exact ⟨⟨("relu", .relu, .relu), by simp [builtins], rfl⟩, ("sigmoid", .sigmoid, .sigmoid), by simp [builtins], rfl⟩

/-- It is saved and loaded again. -/
example (dl : DynLinker) : ∃ (lib : ZipLib) (d d' : Disk) (nn' : Net (BitVec 32)) (recs' : List ActRecord) (h' : Heap),
    saveNN lib exBits [] d (some exSaveNet) (some "net.npz") = .ok d' ∧
    loadNN lib exBits d' (fun _ => true) (fun _ => true) dl (fun i => 64 * i) (fun _ _ => 0) "net.npz" [] ⟨0, []⟩ =
      .ok (some nn', recs', h') ∧ List.Forall₂ SameLayer nn'.layers exSaveNet.layers := by
  obtain ⟨lib, hlib⟩ := exists_lawful
  obtain ⟨d', e1, -, e2⟩ := C49_roundtrip exBits_lawful hlib (d := ⟨fun _ => none, fun _ => true, fun _ => true⟩) (f := "net.npz")
    rfl rfl (by decide) (exSaveNet_storable ⟨.avx, true, true⟩) []
  obtain ⟨nn', recs', h', g1, g2, -⟩ := e2 (fun _ => true) (fun _ => true) dl (fun i => 64 * i) (fun _ _ => 0) [] ⟨0, []⟩
    (fun _ => rfl) ⟨by simp, by simp⟩ (fun _ _ => rfl)
  exact ⟨lib, _, d', nn', recs', h', e1, g1, g2⟩

end NN
