import Verif.Proofs.Create
import Verif.Properties.Names
/-
C52, C53: creation and destruction of networks.
-/
namespace NN

/-! ### Specification -/

/-- What the `activation_funcs` entry of a layer selects: a built-in name its function, a name "symbol@library" that can be
resolved that function, NULL or anything else linear. -/
def Chosen (dl : DynLinker) (name : Option String) (a : Act) : Prop :=
  match name with
  | none => a = .linear
  | some n =>
    (∃ b ∈ builtins, n = b.1 ∧ a = b.2.1) ∨
    ((∀ b ∈ builtins, n ≠ b.1) ∧ ((∃ f d, Denotes dl n f d ∧ a = .custom f) ∨ ((¬ ∃ f d, Denotes dl n f d) ∧ a = .linear)))

/-- The symbol in front of the `@` has at most 244 bytes (otherwise: `C14_long_symbol`). -/
def NameOk (name : String) : Prop :=
  ∀ symbol lib : String, '@' ∉ symbol.toList → name = symbol ++ "@" ++ lib → symbol.utf8ByteSize ≤ 244

theorem splitAt_append {symbol lib : String} (h : '@' ∉ symbol.toList) :
    splitAt (symbol ++ "@" ++ lib) = some (symbol, lib) := by
  have hat : '@' ∈ (symbol ++ "@" ++ lib).toList := by simp
  unfold splitAt
  simp only
  rw [if_pos hat]
  have e : (symbol ++ "@" ++ lib).toList = symbol.toList ++ '@' :: lib.toList := by simp
  have hall : ∀ x ∈ symbol.toList, (x != '@') = true := by
    intro x hx; simp; rintro rfl; exact h hx
  rw [e, List.takeWhile_append_of_pos hall, List.dropWhile_append_of_pos hall]
  simp

/-- The lookup with its default. -/
theorem lookup_chosen (dl : DynLinker) (recs : List ActRecord) (name : Option String) (hn : ∀ n, name = some n → NameOk n) :
    ∃ r recs', getActivationFunc dl recs (name.getD "linear") = .ok (r, recs') ∧
      (∀ a, r = some a → Chosen dl name a) ∧ (r = none → Chosen dl name .linear) := by
  have hlin := (C14_builtin dl recs ("linear", .linear, .linear) (by simp [builtins])).1
  cases name with
  | none =>
    refine ⟨some .linear, recs, hlin, ?_, by simp⟩
    intro a ha
    simp only [Option.some.injEq] at ha
    exact ha.symm
  | some n =>
    rcases name_cases n with ⟨b, hb, rfl⟩ | hno
    · refine ⟨_, _, (C14_builtin dl recs b hb).1, ?_, by simp⟩
      intro a ha
      simp only [Option.some.injEq] at ha
      exact .inl ⟨b, hb, rfl, ha.symm⟩
    · have huniq : ∀ symbol lib, splitAt n = some (symbol, lib) → ∀ f d, Denotes dl n f d →
          dl.opens lib = true ∧ dl.sym lib symbol = some f := by
        rintro symbol lib hs f d ⟨s', l', h1, h2, h3, h4, -⟩
        rw [h2, splitAt_append h1] at hs
        simp only [Option.some.injEq, Prod.mk.injEq] at hs
        rw [← hs.1, ← hs.2]
        exact ⟨h3, h4⟩
      have hnone : (¬ ∃ f d, Denotes dl n f d) → Chosen dl (some n) .linear := fun h => .inr ⟨hno, .inr ⟨h, rfl⟩⟩
      rw [Option.getD_some, getActivationFunc_other dl recs n hno, getActivationFuncDynamic]
      cases hs : splitAt n with
      | none =>
        refine ⟨none, recs, rfl, by simp, fun _ => hnone ?_⟩
        rintro ⟨f, d, s', l', h1, h2, -⟩
        rw [h2, splitAt_append h1] at hs
        cases hs
      | some p =>
        obtain ⟨symbol, lib⟩ := p
        obtain ⟨h1, h2⟩ := splitAt_spec hs
        have hlen := hn n rfl symbol lib h1 h2
        simp only
        by_cases ho : dl.opens lib = true
        · rw [if_pos ho, if_neg (by omega)]
          cases hsym : dl.sym lib symbol with
          | none =>
            refine ⟨none, recs, rfl, by simp, fun _ => hnone ?_⟩
            rintro ⟨f, d, hd⟩
            have := (huniq symbol lib hs f d hd).2
            rw [hsym] at this; cases this
          | some f =>
            refine ⟨some (.custom f), _, rfl, ?_, by simp⟩
            intro a ha
            simp only [Option.some.injEq] at ha
            subst ha
            exact .inr ⟨hno, .inl ⟨f, _, ⟨symbol, lib, h1, h2, ho, hsym, rfl⟩, rfl⟩⟩
        · rw [if_neg ho]
          refine ⟨none, recs, rfl, by simp, fun _ => hnone ?_⟩
          rintro ⟨f, d, hd⟩
          exact ho (huniq symbol lib hs f d hd).1

/-- Everything of a layer but its activation function. -/
def CLayer.rest (l : CLayer) : Int × Int × BlkPtr × BlkPtr := (l.nIn, l.nOut, l.weight, l.bias)

theorem setActivations_spec (dl : DynLinker) (post : List (Option String)) (ls : List CLayer) :
    ∀ (pre fs : List (Option String)) (recs : List ActRecord), fs.length = ls.length →
    (∀ n, some n ∈ fs → NameOk n) →
    ∃ ls' recs', setActivations dl (some (pre ++ fs ++ post)) pre.length ls recs = .ok (ls', recs') ∧
      ls'.map CLayer.rest = ls.map CLayer.rest ∧
      List.Forall₂ (fun name l => ∃ a, l.act = some a ∧ Chosen dl name a) fs ls' := by
  induction ls with
  | nil =>
    intro pre fs recs hl _
    have : fs = [] := by simpa using hl
    subst this
    exact ⟨[], recs, rfl, rfl, .nil⟩
  | cons l ls ih =>
    intro pre fs recs hl hn
    match fs, hl with
    | name :: fs, hl =>
      obtain ⟨r, recs1, e1, c1, c2⟩ := lookup_chosen dl recs name (fun n hn' => hn n (by simp [hn']))
      have e0 : readName (some (pre ++ name :: fs ++ post)) pre.length = .ok name := by
        simp [readName, pure, Except.pure]
      have e2 : ∃ a recs2, (match r with
          | some a => (pure (some a, recs1) : M _)
          | none => getActivationFunc dl recs1 "linear") = .ok (some a, recs2) ∧ Chosen dl name a := by
        cases r with
        | none => exact ⟨.linear, recs1, (C14_builtin dl recs1 ("linear", .linear, .linear) (by simp [builtins])).1, c2 rfl⟩
        | some a => exact ⟨a, recs1, rfl, c1 a rfl⟩
      obtain ⟨a, recs2, e2, ch⟩ := e2
      obtain ⟨ls', recs3, e3, p3, f3⟩ := ih (pre ++ [name]) fs recs2 (by simpa using hl)
        (fun n hn' => hn n (List.mem_cons_of_mem _ hn'))
      simp only [List.append_assoc, List.singleton_append, List.length_append, List.length_singleton] at e3
      refine ⟨{ l with act := some a } :: ls', recs3, ?_, ?_, ?_⟩
      · simp only [List.append_assoc, List.cons_append] at e0 e3 ⊢
        rw [setActivations, e0]
        simp only [bind, Except.bind, e1]
        cases r with
        | none => simp only at e2; simp only [e2, e3]; rfl
        | some r =>
          simp only [pure, Except.pure, Except.ok.injEq, Prod.mk.injEq] at e2
          simp only [pure, Except.pure, e2.1, e2.2, e3]
      · simp only [List.map_cons, p3]; rfl
      · exact .cons ⟨a, rfl, ch⟩ f3

/-! ### Allocation of the weights -/

/-- No layer has memory yet, and all sizes are fine. -/
structure Fresh (ls : List CLayer) : Prop where
  uninit : ∀ l ∈ ls, l.weight = .uninit ∧ l.bias = .uninit
  pos : ∀ l ∈ ls, 1 ≤ l.nIn ∧ 1 ≤ l.nOut
  small : ∀ l ∈ ls, l.nIn * l.nOut < 2 ^ 31

theorem Fresh.any {ls : List CLayer} (hf : Fresh ls) : ls.any (fun l => l.nIn < 1 || l.nOut < 1) = false := by
  rw [List.any_eq_false]
  intro l hl
  have := hf.pos l hl
  simp; omega

theorem weightsAllocate_ok {ok : Nat → Bool} {ls : List CLayer} {h : Heap} (hf : Fresh ls) (hw : h.WF)
    (hok : ∀ i < 2 * ls.length, ok (h.count + i) = true) :
    ∃ ls' h', weightsAllocate ok ls h = .ok (true, ls', h') ∧ h'.WF ∧ h'.live.Perm (blocks ls' ++ h.live) ∧
      ls'.map CLayer.sizes = ls.map CLayer.sizes ∧
      (∀ l ∈ ls', (∃ i, l.weight = .blk i) ∧ ∃ i, l.bias = .blk i) ∧ h'.count = h.count + 2 * ls.length := by
  obtain ⟨b, ls1, h1, e1, w1, p1, z1, u1, bi1, bt1⟩ := allocWeights_spec ok ls h hw hf.small hf.uninit
  have hb : b = true := bi1.2 fun i hi => hok i (by omega)
  subst hb
  obtain ⟨c1, wt1⟩ := bt1 rfl
  have hlen : ls1.length = ls.length := by simpa using congrArg List.length z1
  obtain ⟨b, ls2, h2, e2, w2, p2, z2, u2, bi2, bt2, -, -⟩ := allocBiases_spec ok ls1 h1 w1 wt1 u1 h.live p1
  have hb : b = true := bi2.2 fun i hi => by
    rw [c1, Nat.add_assoc]; exact hok _ (by omega)
  subst hb
  obtain ⟨c2, bt⟩ := bt2 rfl
  refine ⟨ls2, h2, ?_, w2, p2, z2.trans z1, fun l hl => ⟨u2 l hl, bt l hl⟩, by omega⟩
  simp only [weightsAllocate, hf.any, e1, e2, bind, Except.bind, Bool.false_eq_true, if_false, if_true]
  rfl

theorem weightsAllocate_weight {ok : Nat → Bool} {ls : List CLayer} {h : Heap} (hf : Fresh ls) (hw : h.WF)
    (hfail : ∃ i < ls.length, ok (h.count + i) = false) : weightsAllocate ok ls h = .error .uninit := by
  obtain ⟨b, ls1, h1, e1, w1, p1, z1, u1, bi1, bt1⟩ := allocWeights_spec ok ls h hw hf.small hf.uninit
  obtain ⟨i, hi, hfi⟩ := hfail
  have hb : b = false := by
    cases b with
    | false => rfl
    | true => have := bi1.1 rfl i hi; rw [hfi] at this; cases this
  subst hb
  have hlen : ls1.length = ls.length := by simpa using congrArg List.length z1
  obtain ⟨x, hx⟩ := List.exists_mem_of_length_pos (l := ls1) (by omega)
  have := weightsFree_uninit ls1 h1 h.live ⟨x, hx, .inr (u1 x hx)⟩ p1
  simp only [weightsAllocate, hf.any, e1, this, bind, Except.bind, Bool.false_eq_true, if_false]

theorem weightsAllocate_bias {ok : Nat → Bool} {ls : List CLayer} {h : Heap} (hf : Fresh ls) (hw : h.WF)
    (hok : ∀ i < ls.length, ok (h.count + i) = true)
    (hfail : ∃ i, i + 1 < ls.length ∧ ok (h.count + ls.length + i) = false) : weightsAllocate ok ls h = .error .uninit := by
  obtain ⟨b, ls1, h1, e1, w1, p1, z1, u1, bi1, bt1⟩ := allocWeights_spec ok ls h hw hf.small hf.uninit
  have hb : b = true := bi1.2 fun i hi => hok i (by omega)
  subst hb
  obtain ⟨c1, wt1⟩ := bt1 rfl
  have hlen : ls1.length = ls.length := by simpa using congrArg List.length z1
  obtain ⟨b, ls2, h2, e2, w2, p2, z2, u2, bi2, bt2, -, bx⟩ := allocBiases_spec ok ls1 h1 w1 wt1 u1 h.live p1
  obtain ⟨i, hi, hfi⟩ := hfail
  have hfi' : ok (h1.count + i) = false := by rw [c1]; exact hfi
  have hb : b = false := by
    cases b with
    | false => rfl
    | true => have := bi2.1 rfl i (by omega); rw [hfi'] at this; cases this
  subst hb
  obtain ⟨x, hx, hxu⟩ := bx i (by omega) hfi'
  have := weightsFree_uninit ls2 h2 h.live ⟨x, hx, .inr hxu⟩ p2
  simp only [weightsAllocate, hf.any, e1, e2, this, bind, Except.bind, Bool.false_eq_true, if_false, if_true]

theorem weightsAllocate_last {ok : Nat → Bool} {ls : List CLayer} {h : Heap} (hf : Fresh ls) (hw : h.WF)
    (hok : ∀ i, i + 1 < 2 * ls.length → ok (h.count + i) = true) (hne : 0 < ls.length)
    (hfail : ok (h.count + 2 * ls.length - 1) = false) :
    ∃ ls' h', weightsAllocate ok ls h = .ok (false, ls', h') ∧ h'.live.Perm h.live := by
  obtain ⟨b, ls1, h1, e1, w1, p1, z1, u1, bi1, bt1⟩ := allocWeights_spec ok ls h hw hf.small hf.uninit
  have hb : b = true := bi1.2 fun i hi => hok i (by omega)
  subst hb
  obtain ⟨c1, wt1⟩ := bt1 rfl
  have hlen : ls1.length = ls.length := by simpa using congrArg List.length z1
  obtain ⟨b, ls2, h2, e2, w2, p2, z2, u2, bi2, bt2, bf, -⟩ := allocBiases_spec ok ls1 h1 w1 wt1 u1 h.live p1
  have hb : b = false := by
    cases b with
    | false => rfl
    | true =>
      have := bi2.1 rfl (ls1.length - 1) (by omega)
      rw [c1, show h.count + ls.length + (ls1.length - 1) = h.count + 2 * ls.length - 1 by omega, hfail] at this
      cases this
  subst hb
  have hini := bf rfl fun i hi => by
    rw [c1, Nat.add_assoc]; exact hok _ (by omega)
  obtain ⟨h3, e3, p3, -⟩ := weightsFree_perm ls2 h2 h.live
    (fun l hl => ⟨by obtain ⟨i, hi⟩ := u2 l hl; simp [hi], hini l hl⟩) p2
  refine ⟨ls2, h3, ?_, p3⟩
  simp only [weightsAllocate, hf.any, e1, e2, e3, bind, Except.bind, Bool.false_eq_true, if_false, if_true]
  rfl

/-! ### Creation -/

/-- The arguments of `neuralnet_create` for `n` layers: sizes, products that are `int`s, names. -/
structure CreateArgs (n : Nat) (sizes : List Int) (funcs : List (Option String)) : Prop where
  len : sizes.length = n + 1
  small : ∀ l ∈ List.zipWith freshLayer sizes sizes.tail, l.nIn * l.nOut < 2 ^ 31
  names : funcs.length = n
  nameOk : ∀ s, some s ∈ funcs → NameOk s

theorem zipWith_fresh_mem {xs : List Int} {l : CLayer} : l ∈ List.zipWith freshLayer xs xs.tail →
    l.weight = .uninit ∧ l.bias = .uninit ∧ l.nIn ∈ xs ∧ l.nOut ∈ xs := by
  intro h
  rw [← List.map_uncurry_zip_eq_zipWith] at h
  obtain ⟨⟨a, b⟩, hab, rfl⟩ := List.mem_map.1 h
  exact ⟨rfl, rfl, (List.of_mem_zip hab).1, List.mem_of_mem_tail (List.of_mem_zip hab).2⟩

theorem fresh_layers {n : Nat} {sizes : List Int} {funcs : List (Option String)} (ha : CreateArgs n sizes funcs)
    (hpos : ∀ s ∈ sizes, 1 ≤ s) : Fresh (List.zipWith freshLayer sizes sizes.tail) where
  uninit := fun _ hl => ⟨(zipWith_fresh_mem hl).1, (zipWith_fresh_mem hl).2.1⟩
  pos := fun _ hl => ⟨hpos _ (zipWith_fresh_mem hl).2.2.1, hpos _ (zipWith_fresh_mem hl).2.2.2⟩
  small := ha.small

theorem zipWith_fresh_length {n : Nat} {sizes : List Int} (h : sizes.length = n + 1) :
    (List.zipWith freshLayer sizes sizes.tail).length = n := by
  rw [List.length_zipWith, List.length_tail, h]; omega

theorem check_all {sizes : List Int} {n : Nat} (h : sizes.length = n + 1) :
    checkSizes sizes 0 n = .ok (sizes.all fun s => decide (1 ≤ s)) := checkSizes_eq sizes [] n h

/-- **C52** Bad dimensions: `NULL`, and nothing is allocated, whatever the other arguments are. -/
theorem C52_reject (ok : Nat → Bool) (dl : DynLinker) (n : Int) (sizes : List Int) (funcs : Option (List (Option String)))
    (recs : List ActRecord) (h : Heap) (hlen : 1 ≤ n → sizes.length = n.toNat + 1)
    (hbad : n < 1 ∨ ∃ s ∈ sizes, s < 1) : createNN ok dl n sizes funcs recs h = .ok (none, recs, h) := by
  by_cases hn : n < 1
  · simp only [createNN, if_pos hn]; rfl
  · rcases hbad with hb | ⟨s, hs, hs1⟩
    · exact absurd hb hn
    · have : (sizes.all fun s => decide (1 ≤ s)) = false := by
        rw [List.all_eq_false]
        exact ⟨s, hs, by simp; omega⟩
      simp only [createNN, if_neg hn, check_all (hlen (by omega)), this, bind, Except.bind, Bool.not_false, if_true]
      rfl

theorem createNN_start {ok : Nat → Bool} {dl : DynLinker} {n : Nat} {sizes : List Int}
    {funcs : Option (List (Option String))} {recs : List ActRecord} {h : Heap} (hn : 1 ≤ n) (hlen : sizes.length = n + 1)
    (hpos : ∀ s ∈ sizes, 1 ≤ s) (h0 : ok h.count = true) (h1 : ok (h.count + 1) = true) :
    createNN ok dl n sizes funcs recs h = (do
      let (b, ls, h') ← weightsAllocate ok (List.zipWith freshLayer sizes sizes.tail)
        ⟨h.count + 2, (h.count + 1) :: h.count :: h.live⟩
      if b then
        let (ls, recs) ← setActivations dl funcs 0 ls recs
        pure (some ⟨h.count, h.count + 1, ls⟩, recs, h')
      else
        let h' ← h'.free (h.count + 1)
        let h' ← h'.free h.count
        pure (none, recs, h')) := by
  have hall : (sizes.all fun s => decide (1 ≤ s)) = true := by
    rw [List.all_eq_true]; intro s hs; simpa using hpos s hs
  have hls := layerSizes_eq n [] sizes hlen
  simp only [List.nil_append, List.length_nil] at hls
  simp only [createNN, if_neg (show ¬ (n : Int) < 1 by omega), Int.toNat_natCast, check_all hlen, hall, bind, Except.bind,
    Bool.not_true, Bool.false_eq_true, if_false, malloc_ok h0, malloc_ok (h := ⟨h.count + 1, h.count :: h.live⟩) h1, hls]

theorem forall₂_chosen_acts {dl : DynLinker} {fs : List (Option String)} {ls : List CLayer}
    (h : List.Forall₂ (fun name l => ∃ a, l.act = some a ∧ Chosen dl name a) fs ls) :
    List.Forall₂ (fun name (l : CLayer) => Chosen dl name (l.act.getD .linear)) fs ls := by
  refine h.imp ?_
  rintro name l ⟨a, h1, h2⟩
  rw [h1]; exact h2

/-- The blocks of a network. -/
def CNet.blocks (net : CNet) : List Nat := net.layer :: net.nn :: NN.blocks net.layers

theorem create_ok {ok : Nat → Bool} {dl : DynLinker} {n : Nat} {sizes : List Int} {funcs : List (Option String)}
    {recs : List ActRecord} {h : Heap} (hn : 1 ≤ n) (ha : CreateArgs n sizes funcs) (hpos : ∀ s ∈ sizes, 1 ≤ s)
    (hw : h.WF) (hok : ∀ i < 2 * n + 2, ok (h.count + i) = true) :
    ∃ net recs' h', createNN ok dl n sizes (some funcs) recs h = .ok (some net, recs', h') ∧ h'.WF ∧
      h'.live.Perm (net.blocks ++ h.live) ∧
      net.layers.map (fun l => (l.nIn, l.nOut)) = sizes.zip sizes.tail ∧
      List.Forall₂ (fun name (l : CLayer) => Chosen dl name (l.act.getD .linear)) funcs net.layers ∧
      (∀ l ∈ net.layers, (∃ i, l.weight = .blk i) ∧ ∃ i, l.bias = .blk i) := by
  have hl := zipWith_fresh_length ha.len
  have hw2 : Heap.WF ⟨h.count + 2, (h.count + 1) :: h.count :: h.live⟩ := hw.cons.cons
  obtain ⟨ls, h', e, w, p, z, bl, c⟩ := weightsAllocate_ok (ok := ok) (fresh_layers ha hpos) hw2 (by
    intro i hi
    rw [hl] at hi
    simp only
    rw [Nat.add_assoc]
    exact hok _ (by omega))
  have hlen : ls.length = n := by
    have := congrArg List.length z
    simp only [List.length_map] at this
    rw [this, hl]
  obtain ⟨ls', recs', e2, r2, f2⟩ := setActivations_spec dl [] ls [] funcs recs (by rw [ha.names, hlen]) ha.nameOk
  simp only [List.nil_append, List.append_nil, List.length_nil] at e2
  have hblocks : NN.blocks ls' = NN.blocks ls := by
    have : ∀ l : List CLayer, NN.blocks l = (l.map CLayer.rest).flatMap fun x => x.2.2.1.ids ++ x.2.2.2.ids := by
      intro l; rw [List.flatMap_map]; rfl
    rw [this, this, r2]
  refine ⟨⟨h.count, h.count + 1, ls'⟩, recs', h', ?_, w, ?_, ?_, forall₂_chosen_acts f2, ?_⟩
  · rw [createNN_start hn ha.len hpos (hok 0 (by omega)) (hok 1 (by omega)), e]
    simp only [bind, Except.bind, if_true, e2]
    rfl
  · refine p.trans ?_
    simp only [CNet.blocks, hblocks, List.cons_append]
    exact List.perm_middle.trans (List.Perm.cons _ List.perm_middle)
  · have h1 : ls'.map (fun l => (l.nIn, l.nOut)) = ls.map (fun l => (l.nIn, l.nOut)) := by
      have := congrArg (List.map fun x : Int × Int × BlkPtr × BlkPtr => (x.1, x.2.1)) r2
      simpa [CLayer.rest, Function.comp_def] using this
    have h2 : ls.map (fun l => (l.nIn, l.nOut)) =
        (List.zipWith freshLayer sizes sizes.tail).map (fun l => (l.nIn, l.nOut)) := by
      have := congrArg (List.map fun x : Int × Int × Option Act => (x.1, x.2.1)) z
      simpa [CLayer.sizes, Function.comp_def] using this
    show ls'.map _ = _
    rw [h1, h2, List.map_zipWith]
    simp only [freshLayer]
    rw [List.zip]
  · intro l hl'
    have : l.rest ∈ ls.map CLayer.rest := by rw [← r2]; exact List.mem_map_of_mem hl'
    obtain ⟨l0, hl0, he⟩ := List.mem_map.1 this
    simp only [CLayer.rest, Prod.mk.injEq] at he
    obtain ⟨-, -, h3, h4⟩ := he
    rw [← h3, ← h4]
    exact bl l0 hl0

theorem chained_of_zip {F : Type} (xs : List Int) : ∀ (ls : List (Layer F)),
    ls.map (fun l => (l.nIn, l.nOut)) = (xs.zip xs.tail).map (fun p => (p.1.toNat, p.2.toNat)) → Chained ls := by
  induction xs with
  | nil => intro ls h; have : ls = [] := by simpa using h
           subst this; trivial
  | cons x xs ih =>
    intro ls h
    match xs, ls, h with
    | [], ls, h => have : ls = [] := by simpa using h
                   subst this; trivial
    | y :: xs, [], h => trivial
    | y :: xs, [l], h => trivial
    | y :: xs, l :: l' :: ls, h =>
      simp only [List.tail_cons, List.zip_cons_cons, List.map_cons, List.cons.injEq, Prod.mk.injEq] at h
      obtain ⟨⟨-, h1⟩, h2⟩ := h
      refine ⟨?_, ih (l' :: ls) (by simpa using h2)⟩
      match xs, h2 with
      | z :: zs, h2 =>
        simp only [List.zip_cons_cons, List.map_cons, List.cons.injEq, Prod.mk.injEq] at h2
        rw [h1, h2.1.1]

/-- The network is as the theorems about prediction and training require it. -/
theorem toNet_wf {F : Type} {n : Nat} {sizes : List Int} {net : CNet} (hn : 1 ≤ n) (hlen : sizes.length = n + 1)
    (hpos : ∀ s ∈ sizes, 1 ≤ s) (hs : net.layers.map (fun l => (l.nIn, l.nOut)) = sizes.zip sizes.tail)
    (hb : ∀ l ∈ net.layers, (∃ i, l.weight = .blk i) ∧ ∃ i, l.bias = .blk i) (c : Cfg) (addr : Nat → Nat)
    (hal : ∀ i, addr i % c.alignSize = 0) (junk : Nat → Nat → F) : (net.toNet addr junk).WF c where
  ne := by
    intro h
    have : net.layers = [] := by simpa [CNet.toNet] using h
    rw [this] at hs
    have := congrArg List.length hs
    rw [List.length_zip, List.length_tail, hlen] at this
    simp at this; omega
  layer := by
    intro l hl
    obtain ⟨l0, hl0, rfl⟩ := List.mem_map.1 hl
    have hm : (l0.nIn, l0.nOut) ∈ sizes.zip sizes.tail := by
      rw [← hs]; exact List.mem_map_of_mem (f := fun l : CLayer => (l.nIn, l.nOut)) hl0
    have h1 := hpos _ (List.of_mem_zip hm).1
    have h2 := hpos _ (List.mem_of_mem_tail (List.of_mem_zip hm).2)
    obtain ⟨⟨i, hi⟩, j, hj⟩ := hb l0 hl0
    exact ⟨by simp only; omega, by simp only; omega, by simp [hi, blockView], by simp [hj, blockView],
      by simp only [hi, blockView]; exact hal i, by simp only [hj, blockView]; exact hal j⟩
  chain := by
    refine chained_of_zip sizes _ ?_
    have := congrArg (List.map fun p : Int × Int => (p.1.toNat, p.2.toNat)) hs
    simpa [CNet.toNet, Function.comp_def] using this

/-- **C52** Good dimensions and enough memory: a network of the requested sizes and activations without loss, fit for
prediction and training.  (Missing: products of sizes of 2^31 and more, where it is false.) -/
theorem C52_create_partial {ok : Nat → Bool} {dl : DynLinker} {n : Nat} {sizes : List Int} {funcs : List (Option String)}
    {recs : List ActRecord} {h : Heap} (hn : 1 ≤ n) (ha : CreateArgs n sizes funcs) (hpos : ∀ s ∈ sizes, 1 ≤ s)
    (hw : h.WF) (hok : ∀ i < 2 * n + 2, ok (h.count + i) = true) :
    ∃ net recs' h', createNN ok dl n sizes (some funcs) recs h = .ok (some net, recs', h') ∧
      net.layers.map (fun l => (l.nIn, l.nOut)) = sizes.zip sizes.tail ∧
      List.Forall₂ (fun name (l : CLayer) => Chosen dl name (l.act.getD .linear)) funcs net.layers ∧
      ∀ (F : Type) (c : Cfg) (addr : Nat → Nat) (junk : Nat → Nat → F), (∀ i, addr i % c.alignSize = 0) →
        (net.toNet addr junk).WF c ∧ (net.toNet addr junk).loss = none := by
  obtain ⟨net, recs', h', e, -, -, hs, hc, hb⟩ := create_ok (dl := dl) (recs := recs) hn ha hpos hw hok
  exact ⟨net, recs', h', e, hs, hc, fun F c addr junk hal => ⟨toNet_wf hn ha.len hpos hs hb c addr hal junk, rfl⟩⟩

/-- **C52** With enough memory, `NULL` is returned exactly for bad dimensions.  (Missing: as above.) -/
theorem C52_null_partial {ok : Nat → Bool} {dl : DynLinker} {n : Nat} {sizes : List Int} {funcs : List (Option String)}
    {recs : List ActRecord} {h : Heap} (ha : CreateArgs n sizes funcs) (hw : h.WF)
    (hok : ∀ i < 2 * n + 2, ok (h.count + i) = true) :
    (∃ recs' h', createNN ok dl n sizes (some funcs) recs h = .ok (none, recs', h')) ↔ n < 1 ∨ ∃ s ∈ sizes, s < 1 := by
  constructor
  · rintro ⟨recs', h', e⟩
    by_contra hc
    simp only [not_or, not_lt, not_exists, not_and] at hc
    obtain ⟨net, r2, h2, e2, -⟩ := create_ok (dl := dl) (recs := recs) hc.1 ha hc.2 hw hok
    rw [e2] at e
    simp at e
  · intro hb
    refine ⟨recs, h, C52_reject ok dl n sizes (some funcs) recs h (fun _ => by rw [ha.len]; simp) ?_⟩
    rcases hb with hb | hb
    · exact .inl (by omega)
    · exact .inr hb

/-- **C52 is false** when the number of weights of a layer is 2^31 or more: the product of the sizes overflows. -/
theorem C52_overflow_false {ok : Nat → Bool} {dl : DynLinker} {a b : Int} {funcs : Option (List (Option String))}
    {recs : List ActRecord} {h : Heap} (ha : 1 ≤ a) (hb : 1 ≤ b) (hab : 2 ^ 31 ≤ a * b) (h0 : ok h.count = true)
    (h1 : ok (h.count + 1) = true) : createNN ok dl 1 [a, b] funcs recs h = .error .overflow := by
  have := createNN_start (ok := ok) (dl := dl) (n := 1) (sizes := [a, b]) (funcs := funcs) (recs := recs) (h := h) le_rfl rfl
    (by simp [ha, hb]) h0 h1
  rw [show ((1 : Nat) : Int) = 1 from rfl] at this
  rw [this]
  have hany : (List.zipWith freshLayer [a, b] [a, b].tail).any (fun l => l.nIn < 1 || l.nOut < 1) = false := by
    simp [freshLayer]; omega
  simp only [weightsAllocate, hany, Bool.false_eq_true, if_false]
  simp only [List.tail_cons, List.zipWith_cons_cons, List.zipWith_nil_right, allocWeights, freshLayer,
    if_neg (show ¬ a * b < 2 ^ 31 by omega)]
  rfl

/-- **C52 is false** for a NULL array of names: it is read without a check. -/
theorem C52_names_false {ok : Nat → Bool} {dl : DynLinker} {n : Nat} {sizes : List Int} {recs : List ActRecord} {h : Heap}
    (hn : 1 ≤ n) (hlen : sizes.length = n + 1) (hpos : ∀ s ∈ sizes, 1 ≤ s)
    (hsmall : ∀ l ∈ List.zipWith freshLayer sizes sizes.tail, l.nIn * l.nOut < 2 ^ 31) (hw : h.WF)
    (hok : ∀ i < 2 * n + 2, ok (h.count + i) = true) : createNN ok dl n sizes none recs h = .error .nullDeref := by
  have hl := zipWith_fresh_length hlen
  have ha : CreateArgs n sizes (List.replicate n none) := ⟨hlen, hsmall, by simp, by simp [List.mem_replicate]⟩
  have hw2 : Heap.WF ⟨h.count + 2, (h.count + 1) :: h.count :: h.live⟩ := hw.cons.cons
  obtain ⟨ls, h', e, -, -, z, -, -⟩ := weightsAllocate_ok (ok := ok) (fresh_layers ha hpos) hw2 (by
    intro i hi
    rw [hl] at hi
    simp only
    rw [Nat.add_assoc]
    exact hok _ (by omega))
  rw [createNN_start hn hlen hpos (hok 0 (by omega)) (hok 1 (by omega)), e]
  have : ls.length = n := by
    have := congrArg List.length z
    simp only [List.length_map] at this
    rw [this, hl]
  match ls, this with
  | [], h => simp at h; omega
  | l :: ls, _ => rfl

/-! ### Destruction -/

/-- **C53** A network that was created is freed completely: afterwards exactly the blocks from before are allocated, and no
block was freed twice.  The blocks of the network are distinct from each other and from all others. -/
theorem C53_roundtrip {ok : Nat → Bool} {dl : DynLinker} {n : Nat} {sizes : List Int} {funcs : List (Option String)}
    {recs : List ActRecord} {h : Heap} (hn : 1 ≤ n) (ha : CreateArgs n sizes funcs) (hpos : ∀ s ∈ sizes, 1 ≤ s)
    (hw : h.WF) (hok : ∀ i < 2 * n + 2, ok (h.count + i) = true) :
    ∃ net recs' h' h'', createNN ok dl n sizes (some funcs) recs h = .ok (some net, recs', h') ∧
      (net.blocks ++ h.live).Nodup ∧ net.blocks.length = 2 * n + 2 ∧
      freeNN (some net) h' = .ok h'' ∧ h''.live.Perm h.live := by
  obtain ⟨net, recs', h', e, w, p, hs, hc, hb⟩ := create_ok (dl := dl) (recs := recs) hn ha hpos hw hok
  have p' : h'.live.Perm (NN.blocks net.layers ++ (net.layer :: net.nn :: h.live)) := by
    refine p.trans ?_
    simp only [CNet.blocks, List.cons_append]
    exact ((List.perm_middle.trans (List.Perm.cons _ List.perm_middle))).symm
  obtain ⟨h1, e1, p1, -⟩ := weightsFree_perm net.layers h' _ (fun l hl => by
    obtain ⟨⟨i, hi⟩, j, hj⟩ := hb l hl
    simp [hi, hj]) p'
  obtain ⟨h2, e2, p2, -⟩ := free_perm p1
  obtain ⟨h3, e3, p3, -⟩ := free_perm p2
  refine ⟨net, recs', h', h3, e, (p.nodup_iff).1 w.nodup, ?_, ?_, p3⟩
  · have hlen : net.layers.length = n := by
      have := congrArg List.length hs
      rw [List.length_map, List.length_zip, List.length_tail, ha.len] at this
      omega
    have : ∀ ls : List CLayer, (∀ l ∈ ls, (∃ i, l.weight = .blk i) ∧ ∃ i, l.bias = .blk i) →
        (NN.blocks ls).length = 2 * ls.length := by
      intro ls
      induction ls with
      | nil => intro _; rfl
      | cons l ls ih =>
        intro hls
        obtain ⟨⟨i, hi⟩, j, hj⟩ := hls l (by simp)
        rw [blocks_cons, List.length_append, List.length_append, ih (fun x hx => hls x (List.mem_cons_of_mem _ hx)), hi, hj]
        simp [BlkPtr.ids]; omega
    simp only [CNet.blocks, List.length_cons, this _ hb, hlen]
  · simp only [freeNN, e1, e2, e3, bind, Except.bind]

/-- **C53** If the first, the second or the last allocation of `neuralnet_create` is the first to fail, everything is
released and `NULL` returned.  (Missing: any other allocation, where it is false.) -/
theorem C53_failure_partial {ok : Nat → Bool} {dl : DynLinker} {n : Nat} {sizes : List Int} {funcs : List (Option String)}
    {recs : List ActRecord} {h : Heap} (hn : 1 ≤ n) (ha : CreateArgs n sizes funcs) (hpos : ∀ s ∈ sizes, 1 ≤ s)
    (hw : h.WF) (k : Nat) (hk : k = 0 ∨ k = 1 ∨ k = 2 * n + 1) (hok : ∀ i < k, ok (h.count + i) = true)
    (hfail : ok (h.count + k) = false) :
    ∃ h', createNN ok dl n sizes (some funcs) recs h = .ok (none, recs, h') ∧ h'.live.Perm h.live := by
  have hall : (sizes.all fun s => decide (1 ≤ s)) = true := by
    rw [List.all_eq_true]; intro s hs; simpa using hpos s hs
  by_cases hk0 : k = 0
  · subst hk0
    refine ⟨⟨h.count + 1, h.live⟩, ?_, List.Perm.refl _⟩
    simp only [createNN, if_neg (show ¬ (n : Int) < 1 by omega), Int.toNat_natCast, check_all ha.len, hall, bind, Except.bind,
      Bool.not_true, Bool.false_eq_true, if_false, malloc_fail (h := h) hfail]
    rfl
  by_cases hk1 : k = 1
  · subst hk1
    have h0 := hok 0 (by omega)
    have hf := free_perm (h := ⟨h.count + 1 + 1, h.count :: h.live⟩) (id := h.count) (rest := h.live) (List.Perm.refl _)
    obtain ⟨h', e, p, -⟩ := hf
    refine ⟨h', ?_, p⟩
    simp only [createNN, if_neg (show ¬ (n : Int) < 1 by omega), Int.toNat_natCast, check_all ha.len, hall, bind, Except.bind,
      Bool.not_true, Bool.false_eq_true, if_false, malloc_ok (h := h) h0,
      malloc_fail (h := ⟨h.count + 1, h.count :: h.live⟩) hfail, e]
    rfl
  · have hk2 : k = 2 * n + 1 := by omega
    subst hk2
    have hl := zipWith_fresh_length ha.len
    have hw2 : Heap.WF ⟨h.count + 2, (h.count + 1) :: h.count :: h.live⟩ := hw.cons.cons
    obtain ⟨ls, h1, e1, p1⟩ := weightsAllocate_last (ok := ok) (fresh_layers ha hpos) hw2
      (by
        intro i hi
        rw [hl] at hi
        simp only
        rw [Nat.add_assoc]
        exact hok _ (by omega))
      (by rw [hl]; omega)
      (by
        rw [hl]
        simp only
        rw [show h.count + 2 + 2 * n - 1 = h.count + (2 * n + 1) by omega]
        exact hfail)
    obtain ⟨h2, e2, p2, -⟩ := free_perm p1
    obtain ⟨h3, e3, p3, -⟩ := free_perm p2
    refine ⟨h3, ?_, p3⟩
    rw [createNN_start hn ha.len hpos (hok 0 (by omega)) (hok 1 (by omega)), e1]
    simp only [bind, Except.bind, Bool.false_eq_true, if_false, e2, e3]
    rfl

/-- **C53 is false** if any other allocation fails: pointers that were never set are passed to `free`. -/
theorem C53_failure_false {ok : Nat → Bool} {dl : DynLinker} {n : Nat} {sizes : List Int} {funcs : List (Option String)}
    {recs : List ActRecord} {h : Heap} (hn : 1 ≤ n) (ha : CreateArgs n sizes funcs) (hpos : ∀ s ∈ sizes, 1 ≤ s)
    (hw : h.WF) (k : Nat) (hk2 : 2 ≤ k) (hk : k < 2 * n + 1) (hok : ∀ i < k, ok (h.count + i) = true)
    (hfail : ok (h.count + k) = false) : createNN ok dl n sizes (some funcs) recs h = .error .uninit := by
  have hl := zipWith_fresh_length ha.len
  have hw2 : Heap.WF ⟨h.count + 2, (h.count + 1) :: h.count :: h.live⟩ := hw.cons.cons
  rw [createNN_start hn ha.len hpos (hok 0 (by omega)) (hok 1 (by omega))]
  have : weightsAllocate ok (List.zipWith freshLayer sizes sizes.tail)
      ⟨h.count + 2, (h.count + 1) :: h.count :: h.live⟩ = .error .uninit := by
    by_cases hkw : k < n + 2
    · refine weightsAllocate_weight (fresh_layers ha hpos) hw2 ⟨k - 2, by omega, ?_⟩
      simp only
      rw [show h.count + 2 + (k - 2) = h.count + k by omega]
      exact hfail
    · refine weightsAllocate_bias (fresh_layers ha hpos) hw2 ?_ ⟨k - 2 - n, by omega, ?_⟩
      · intro i hi
        rw [hl] at hi
        simp only
        rw [Nat.add_assoc]
        exact hok _ (by omega)
      · simp only
        rw [hl, show h.count + 2 + n + (k - 2 - n) = h.count + k by omega]
        exact hfail
  rw [this]
  rfl

/-! ### Examples -/

theorem exCreateArgs : CreateArgs 2 [3, 4, 2] [some "tanh", none] where
  len := rfl
  small := by simp [freshLayer]
  names := rfl
  nameOk := by
    intro s hs
    simp only [List.mem_cons, Option.some.injEq, reduceCtorEq, List.not_mem_nil, or_false] at hs
    subst hs
    intro symbol lib _ h
    have := congrArg String.toList h
    simp only [String.toList_append] at this
    have hat : '@' ∈ "tanh".toList := by rw [this]; simp
    exact absurd hat (by decide)

/-- A 3-4-2 network is created ... -/
example : ∃ net, createNN (fun _ => true) exLinker 2 [3, 4, 2] (some [some "tanh", none]) [] ⟨0, []⟩ =
    .ok (some net, [], ⟨6, [5, 4, 3, 2, 1, 0]⟩) ∧ net.layers = [⟨3, 4, .blk 2, .blk 4, some .tanh⟩,
      ⟨4, 2, .blk 3, .blk 5, some .linear⟩] := ⟨_, rfl, rfl⟩

/-- ... and freed. -/
example : ∃ net recs' h' h'', createNN (fun _ => true) exLinker 2 [3, 4, 2] (some [some "tanh", none]) [] ⟨0, []⟩ =
    .ok (some net, recs', h') ∧ (net.blocks ++ []).Nodup ∧ net.blocks.length = 6 ∧ freeNN (some net) h' = .ok h'' ∧
    h''.live.Perm [] :=
  C53_roundtrip (n := 2) (h := ⟨0, []⟩) (by decide) exCreateArgs (by decide) ⟨by simp, by simp⟩ (by simp)

/-- The allocation of the second layer's weights fails. -/
example : createNN (fun i => i != 3) exLinker 2 [3, 4, 2] (some [some "tanh", none]) [] ⟨0, []⟩ = .error .uninit :=
  C53_failure_false (n := 2) (h := ⟨0, []⟩) (by decide) exCreateArgs (by decide) ⟨by simp, by simp⟩ 3 (by decide) (by decide)
    (by decide) (by decide)

/-- The last allocation fails. -/
example : ∃ h', createNN (fun i => i != 5) exLinker 2 [3, 4, 2] (some [some "tanh", none]) [] ⟨0, []⟩ = .ok (none, [], h') ∧
    h'.live.Perm [] :=
  C53_failure_partial (n := 2) (h := ⟨0, []⟩) (by decide) exCreateArgs (by decide) ⟨by simp, by simp⟩ 5 (by decide) (by decide)
    (by decide)

/-- 65536 × 65536 weights. -/
example : createNN (fun _ => true) exLinker 1 [65536, 65536] (some [some "relu"]) [] ⟨0, []⟩ = .error .overflow :=
  C52_overflow_false (by decide) (by decide) (by decide) rfl rfl

example : createNN (fun _ => true) exLinker 2 [3, 0, 2] (some [some "tanh", none]) [] ⟨0, []⟩ = .ok (none, [], ⟨0, []⟩) :=
  C52_reject _ _ _ _ _ _ _ (fun _ => rfl) (.inr ⟨0, by simp, by norm_num⟩)

end NN
