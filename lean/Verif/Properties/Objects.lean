import Verif.Model.Objects
import Verif.Properties.Create
/-
C64: ownership of memory by networks, optimizers and callbacks.
-/
namespace NN

/-! ### Specification -/

/-- The kinds of objects a program holds, in order. -/
inductive Kind where
  | net | opt | cb
  deriving DecidableEq

/-- An operation that makes sense when the program holds objects of these kinds, and what it holds then. -/
inductive Legal : List Kind → ObjOp → List Kind → Prop
  | newNet {ks n sizes funcs} (hn : 1 ≤ n) (ha : CreateArgs n sizes funcs) (hpos : ∀ s ∈ sizes, 1 ≤ s) :
    Legal ks (.newNet n sizes funcs) (ks ++ [.net])
  | newOpt {ks} (t : OptType) : Legal ks (.newOpt t) (ks ++ [.opt])
  | newCb {ks} : Legal ks .newCb (ks ++ [.cb])
  | epoch {ks i n} (hi : ks[i]? = some .opt) : Legal ks (.epoch i n) ks
  | free {ks i} (hi : i < ks.length) : Legal ks (.free i) (ks.eraseIdx i)

/-- A program all of whose operations make sense: from holding `ks` to holding `ks'`. -/
inductive LegalProg : List Kind → List ObjOp → List Kind → Prop
  | nil {ks} : LegalProg ks [] ks
  | cons {ks op ks₁ ops ks₂} (h : Legal ks op ks₁) (t : LegalProg ks₁ ops ks₂) : LegalProg ks (op :: ops) ks₂

/-- The blocks an object owns. -/
def Handle.owned : Handle → List Nat
  | .net (some n) => n.blocks
  | .opt (some o) => o.self :: (o.vectors ++ o.pivot.toList)
  | .cb (some c) => [c]
  | _ => []

/-- An object of that kind, not NULL, its fields set. -/
def Handle.Is : Kind → Handle → Prop
  | .net, .net (some n) => ∀ l ∈ n.layers, l.weight ≠ .uninit ∧ l.bias ≠ .uninit
  | .opt, .opt (some _) => True
  | .cb, .cb (some _) => True
  | _, _ => False

/-- The state: objects of these kinds, and the live blocks are those they own and those of others (`rest`), each once. -/
structure Owning (rest : List Nat) (ks : List Kind) (w : World) : Prop where
  wf : w.heap.WF
  kinds : List.Forall₂ Handle.Is ks w.objs
  live : w.heap.live.Perm (w.objs.flatMap Handle.owned ++ rest)

/-! ### Proof -/

theorem freeVectors_perm (vs : List Nat) : ∀ (h : Heap) (rest : List Nat), h.live.Perm (vs ++ rest) →
    ∃ h', freeVectors h vs = .ok h' ∧ h'.live.Perm rest ∧ h'.count = h.count := by
  induction vs with
  | nil => intro h rest hp; exact ⟨h, rfl, hp, rfl⟩
  | cons v vs ih =>
    intro h rest hp
    obtain ⟨h1, e1, p1, c1⟩ := free_perm (h := h) (id := v) (rest := vs ++ rest) hp
    obtain ⟨h2, e2, p2, c2⟩ := ih h1 rest p1
    refine ⟨h2, ?_, p2, c2.trans c1⟩
    simp only [freeVectors, List.foldlM_cons, e1, bind, Except.bind] at e2 ⊢
    exact e2

theorem touch_ok {h : Heap} {id : Nat} (hm : id ∈ h.live) : touch h id = .ok () := by
  simp only [touch, if_pos hm]; rfl


theorem wf_of_perm {h h' : Heap} {l : List Nat} (hw : h.WF) (hp : h.live.Perm (l ++ h'.live)) (hc : h'.count = h.count) :
    h'.WF where
  lt := fun i hi => hc ▸ hw.lt i (hp.mem_iff.2 (List.mem_append_right _ hi))
  nodup := (List.nodup_append.1 ((hp.nodup_iff).1 hw.nodup)).2.1

/-- Freeing an object of the program: the blocks it owns, each once, and no other. -/
theorem freeObj_perm {k : Kind} {o : Handle} (hk : o.Is k) {h : Heap} {rest : List Nat} (hw : h.WF)
    (hp : h.live.Perm (o.owned ++ rest)) : ∃ h', freeObj o h = .ok h' ∧ h'.live.Perm rest ∧ h'.WF := by
  have key : ∀ h' : Heap, h'.live.Perm rest → h'.count = h.count → h'.WF := fun h' p c =>
    wf_of_perm hw (hp.trans (p.symm.append_left _)) c
  match k, o, hk with
  | .net, .net (some net), hb =>
    have p' : h.live.Perm (NN.blocks net.layers ++ (net.layer :: net.nn :: rest)) := by
      refine hp.trans ?_
      simp only [Handle.owned, CNet.blocks, List.cons_append]
      exact ((List.perm_middle.trans (List.Perm.cons _ List.perm_middle))).symm
    obtain ⟨h1, e1, p1, c1⟩ := weightsFree_perm net.layers h _ hb p'
    obtain ⟨h2, e2, p2, c2⟩ := free_perm p1
    obtain ⟨h3, e3, p3, c3⟩ := free_perm p2
    exact ⟨h3, by simp only [freeObj, freeNN, e1, e2, e3, bind, Except.bind], p3, key h3 p3 (by rw [c3, c2, c1])⟩
  | .opt, .opt (some o), _ =>
    simp only [Handle.owned, List.cons_append, List.append_assoc] at hp
    have p' : h.live.Perm (o.vectors ++ (o.self :: (o.pivot.toList ++ rest))) := hp.trans List.perm_middle.symm
    obtain ⟨h1, e1, p1, c1⟩ := freeVectors_perm o.vectors h _ p'
    have t0 := touch_ok (h := h) (id := o.self) (hp.mem_iff.2 (by simp))
    have t1 := touch_ok (h := h1) (id := o.self) (p1.mem_iff.2 (by simp))
    have p1' : h1.live.Perm (o.pivot.toList ++ (o.self :: rest)) := p1.trans List.perm_middle.symm
    have : ∃ h2, freeOpt h1 o.pivot = .ok h2 ∧ h2.live.Perm (o.self :: rest) ∧ h2.count = h1.count := by
      cases hv : o.pivot with
      | none => rw [hv] at p1'; exact ⟨h1, rfl, p1', rfl⟩
      | some id => rw [hv] at p1'; exact free_perm p1'
    obtain ⟨h2, e2, p2, c2⟩ := this
    obtain ⟨h3, e3, p3, c3⟩ := free_perm p2
    exact ⟨h3, by simp only [freeObj, optimizerFree, t0, e1, t1, e2, e3, bind, Except.bind], p3,
      key h3 p3 (by rw [c3, c2, c1])⟩
  | .cb, .cb (some c), _ =>
    obtain ⟨h1, e1, p1, c1⟩ := free_perm (h := h) (id := c) (rest := rest) hp
    have t0 := touch_ok (h := h) (id := c) (hp.mem_iff.2 (by simp [Handle.owned]))
    exact ⟨h1, by simp only [freeObj, callbackFree, t0, e1, bind, Except.bind], p1, key h1 p1 c1⟩

theorem mallocAssert_ok {ok : Nat → Bool} {h : Heap} (hok : ok h.count = true) :
    mallocAssert ok h = .ok (h.count, ⟨h.count + 1, h.count :: h.live⟩) := by
  simp only [mallocAssert, malloc_ok hok]; rfl

theorem newOptimizer_ok {ok : Nat → Bool} (hok : ∀ i, ok i = true) (t : OptType) {h : Heap} (hw : h.WF) :
    ∃ o h', newOptimizer ok t true h = .ok (some o, h') ∧ h'.WF ∧
      h'.live.Perm (Handle.owned (.opt (some o)) ++ h.live) := by
  cases t
  case sgd | adagrad =>
    refine ⟨⟨h.count, [h.count + 1], none⟩, ⟨h.count + 2, (h.count + 1) :: h.count :: h.live⟩, ?_, hw.cons.cons, ?_⟩
    · simp only [newOptimizer, malloc_ok (hok _), initVectors, mallocAssert_ok (hok _), bind, Except.bind, pure, Except.pure,
        if_true]
    · simpa [Handle.owned] using List.Perm.swap _ _ _
  case rmsprop =>
    refine ⟨⟨h.count, [h.count + 1, h.count + 2], none⟩,
      ⟨h.count + 3, (h.count + 2) :: (h.count + 1) :: h.count :: h.live⟩, ?_, hw.cons.cons.cons, ?_⟩
    · simp only [newOptimizer, malloc_ok (hok _), initVectors, mallocAssert_ok (hok _), bind, Except.bind, pure, Except.pure,
        if_true]
    · simp only [Handle.owned, Option.toList, List.append_nil, List.cons_append, List.nil_append]
      exact (List.reverse_perm [h.count, h.count + 1, h.count + 2]).append_right h.live
  case adam =>
    refine ⟨⟨h.count, [h.count + 1, h.count + 2], none⟩,
      ⟨h.count + 3, (h.count + 2) :: (h.count + 1) :: h.count :: h.live⟩, ?_, hw.cons.cons.cons, ?_⟩
    · simp only [newOptimizer, malloc_ok (hok _), initVectors, bind, Except.bind, pure, Except.pure, if_true]
    · simp only [Handle.owned, Option.toList, List.append_nil, List.cons_append, List.nil_append]
      exact (List.reverse_perm [h.count, h.count + 1, h.count + 2]).append_right h.live

theorem perm_set {l : List Handle} {i : Nat} {o : Handle} (hi : l[i]? = some o) (f : Handle → List Nat) :
    (l.flatMap f).Perm (f o ++ (l.eraseIdx i).flatMap f) ∧
      ∀ o', ((l.set i o').flatMap f).Perm (f o' ++ (l.eraseIdx i).flatMap f) := by
  induction l generalizing i with
  | nil => simp at hi
  | cons x l ih =>
    cases i with
    | zero => simp at hi; subst hi; simp
    | succ i =>
      obtain ⟨a, b⟩ := ih (i := i) (by simpa using hi)
      simp only [List.flatMap_cons, List.eraseIdx_cons_succ, List.set_cons_succ]
      refine ⟨?_, fun o' => ?_⟩
      · exact (a.append_left _).trans (by
          rw [← List.append_assoc, ← List.append_assoc]; exact List.perm_append_comm.append_right _)
      · exact ((b o').append_left _).trans (by
          rw [← List.append_assoc, ← List.append_assoc]; exact List.perm_append_comm.append_right _)

theorem kinds_eraseIdx {α β : Type} {R : α → β → Prop} {l : List α} {l' : List β} (h : List.Forall₂ R l l') (i : Nat) :
    List.Forall₂ R (l.eraseIdx i) (l'.eraseIdx i) := by
  induction h generalizing i with
  | nil => simp
  | cons hd tl ih => cases i with
    | zero => simpa using tl
    | succ i => simpa using ⟨hd, ih i⟩

theorem kinds_get {α β : Type} {R : α → β → Prop} {l : List α} {l' : List β} (h : List.Forall₂ R l l') {i : Nat} {a : α}
    (ha : l[i]? = some a) : ∃ b, l'[i]? = some b ∧ R a b := by
  induction h generalizing i with
  | nil => simp at ha
  | cons hd tl ih => cases i with
    | zero => simp at ha; subst ha; exact ⟨_, rfl, hd⟩
    | succ i => simpa using ih (by simpa using ha)

theorem kinds_set {α β : Type} {R : α → β → Prop} {l : List α} {l' : List β} (h : List.Forall₂ R l l') {i : Nat} {a : α}
    {b : β} (ha : l[i]? = some a) (hb : R a b) : List.Forall₂ R l (l'.set i b) := by
  induction h generalizing i with
  | nil => simp at ha
  | cons hd tl ih => cases i with
    | zero => simp at ha; subst ha; exact .cons hb tl
    | succ i => exact .cons hd (ih (by simpa using ha))

/-- One operation. -/
theorem objStep_owning {ok : Nat → Bool} (hok : ∀ i, ok i = true) (dl : DynLinker) {rest : List Nat} {ks ks' : List Kind}
    {w : World} (ho : Owning rest ks w) {op : ObjOp} (hl : Legal ks op ks') :
    ∃ w', objStep ok dl w op = .ok w' ∧ Owning rest ks' w' := by
  have add : ∀ (h' : Heap) (recs : List ActRecord) (k : Kind) (o : Handle), o.Is k → h'.WF →
      h'.live.Perm (o.owned ++ w.heap.live) →
      Owning rest (ks ++ [k]) { w with heap := h', recs := recs, objs := w.objs ++ [o] } := by
    intro h' recs k o hi hw hp
    refine ⟨hw, List.rel_append ho.kinds (.cons hi .nil), hp.trans ?_⟩
    simp only [List.flatMap_append, List.flatMap_cons, List.flatMap_nil, List.append_nil]
    exact (ho.live.append_left _).trans (by
      rw [← List.append_assoc]; exact List.perm_append_comm.append_right _)
  cases hl with
  | newNet hn ha hpos =>
    obtain ⟨net, recs', h', e, hw, p, -, -, hb⟩ := create_ok (dl := dl) (recs := w.recs) hn ha hpos ho.wf (fun i _ => hok _)
    refine ⟨_, by simp only [objStep, e, bind, Except.bind, pure, Except.pure], add h' recs' .net (.net (some net)) ?_ hw p⟩
    intro l hl
    obtain ⟨⟨i, hi⟩, j, hj⟩ := hb l hl
    simp [hi, hj]
  | newOpt t =>
    obtain ⟨o, h', e, hw, p⟩ := newOptimizer_ok hok t ho.wf
    exact ⟨_, by simp only [objStep, e, bind, Except.bind, pure, Except.pure],
      add h' w.recs .opt (.opt (some o)) trivial hw p⟩
  | newCb =>
    refine ⟨_, by simp only [objStep, newCallback, malloc_ok (hok _), pure, Except.pure],
      add _ w.recs .cb (.cb (some w.heap.count)) trivial ho.wf.cons ?_⟩
    simp [Handle.owned]
  | @epoch i n hi =>
    obtain ⟨b, hb, hR⟩ := kinds_get ho.kinds hi
    match b, hR with
    | .opt (some o), _ =>
      obtain ⟨ps, pset⟩ := perm_set hb Handle.owned
      have pl := ho.live.trans (ps.append_right rest)
      have t0 := touch_ok (h := w.heap) (id := o.self) (pl.mem_iff.2 (by simp [Handle.owned]))
      by_cases hn : n = w.nSample
      · refine ⟨⟨w.heap, w.nSample, w.recs, w.objs.set i (.opt (some o))⟩, by
          simp only [objStep, hb, t0, pivotAlloc, hn, ne_eq, not_true, if_false, bind, Except.bind, pure, Except.pure], ?_⟩
        exact ⟨ho.wf, kinds_set ho.kinds hi trivial, pl.trans ((pset _).symm.append_right _)⟩
      · have hw1 := ho.wf.cons
        have p1 : (⟨w.heap.count + 1, w.heap.count :: w.heap.live⟩ : Heap).live.Perm
            (o.pivot.toList ++ (w.heap.count :: o.self :: (o.vectors ++ ((w.objs.eraseIdx i).flatMap Handle.owned ++ rest)))) := by
          simp only [Handle.owned, List.cons_append, List.append_assoc] at pl
          refine (List.Perm.cons _ (pl.trans ?_)).trans List.perm_middle.symm
          refine List.Perm.trans ?_ List.perm_middle.symm
          refine List.Perm.cons _ ?_
          rw [← List.append_assoc, ← List.append_assoc (bs := o.vectors)]
          exact List.perm_append_comm.append_right _
        have : ∃ h2, freeOpt (⟨w.heap.count + 1, w.heap.count :: w.heap.live⟩ : Heap) o.pivot = .ok h2 ∧
            h2.live.Perm (w.heap.count :: o.self :: (o.vectors ++ ((w.objs.eraseIdx i).flatMap Handle.owned ++ rest))) ∧
            h2.count = w.heap.count + 1 := by
          cases hv : o.pivot with
          | none => rw [hv] at p1; exact ⟨_, rfl, p1, rfl⟩
          | some id => rw [hv] at p1; exact free_perm p1
        obtain ⟨h2, e2, p2, c2⟩ := this
        refine ⟨⟨h2, n, w.recs, w.objs.set i (.opt (some { o with pivot := some w.heap.count }))⟩, by
          simp only [objStep, hb, t0, pivotAlloc, hn, ne_eq, not_false_eq_true, if_true, Heap.realloc, malloc_ok (hok _), e2,
            bind, Except.bind, pure, Except.pure], ?_⟩
        refine ⟨wf_of_perm hw1 (p1.trans (p2.symm.append_left _)) c2, kinds_set ho.kinds hi trivial, p2.trans ?_⟩
        refine List.Perm.trans ?_ ((pset _).symm.append_right _)
        simp only [Handle.owned, Option.toList, List.cons_append, List.append_assoc, List.nil_append]
        exact (List.Perm.swap _ _ _).trans (List.Perm.cons _ List.perm_middle.symm)
  | @free i hi =>
    obtain ⟨b, hb, hR⟩ := kinds_get ho.kinds (List.getElem?_eq_getElem hi)
    have pl := ho.live.trans ((perm_set hb Handle.owned).1.append_right rest)
    rw [List.append_assoc] at pl
    obtain ⟨h', e, p, hw⟩ := freeObj_perm hR ho.wf pl
    exact ⟨⟨h', w.nSample, w.recs, w.objs.eraseIdx i⟩,
      by simp only [objStep, hb, e, bind, Except.bind, pure, Except.pure], hw, kinds_eraseIdx ho.kinds i, p⟩

/-! ### Theorems -/

/-- **C64** A program that creates networks, optimizers and callbacks, trains (any numbers of samples, the optimizers in any
order) and frees each object at most once, in any order, never frees or touches memory that is not its own, and at every
moment the live blocks are exactly those of the objects it still holds, each owned by one of them. -/
theorem C64_ownership {ok : Nat → Bool} (hok : ∀ i, ok i = true) (dl : DynLinker) {ops : List ObjOp} {ks ks' : List Kind}
    {rest : List Nat} {w : World} (ho : Owning rest ks w) (hl : LegalProg ks ops ks') :
    ∃ w', objRun ok dl ops w = .ok w' ∧ Owning rest ks' w' := by
  induction hl generalizing w with
  | nil => exact ⟨w, rfl, ho⟩
  | cons h _ ih =>
    obtain ⟨w1, e1, o1⟩ := objStep_owning hok dl ho h
    obtain ⟨w2, e2, o2⟩ := ih o1
    refine ⟨w2, ?_, o2⟩
    simp only [objRun, List.foldlM_cons, e1, bind, Except.bind] at e2 ⊢
    exact e2

/-- **C64** If it has freed everything in the end, all memory is returned. -/
theorem C64_no_leak {ok : Nat → Bool} (hok : ∀ i, ok i = true) (dl : DynLinker) {ops : List ObjOp} {h : Heap} (hw : h.WF)
    {nSample : Nat} {recs : List ActRecord} (hl : LegalProg [] ops []) :
    ∃ w', objRun ok dl ops ⟨h, nSample, recs, []⟩ = .ok w' ∧ w'.heap.live.Perm h.live := by
  obtain ⟨w', e, o⟩ := C64_ownership hok dl (ks := []) (rest := h.live) (w := ⟨h, nSample, recs, []⟩)
    ⟨hw, .nil, by simp⟩ hl
  refine ⟨w', e, ?_⟩
  have : w'.objs = [] := by cases w'; cases o.kinds; rfl
  simpa [this] using o.live

/-- **C64** The blocks of different objects are different, and so are those of one object. -/
theorem C64_separate {rest : List Nat} {ks : List Kind} {w : World} (ho : Owning rest ks w) :
    (w.objs.flatMap Handle.owned ++ rest).Nodup := (ho.live.nodup_iff).1 ho.wf.nodup

/-- **C64** Without memory for the structure itself, `*_new` returns NULL and nothing is lost. -/
theorem C64_new_null {ok : Nat → Bool} (t : OptType) (sane : Bool) {h : Heap} (hf : ok h.count = false) :
    newOptimizer ok t sane h = .ok (none, ⟨h.count + 1, h.live⟩) ∧ newCallback ok h = (none, ⟨h.count + 1, h.live⟩) := by
  constructor
  · simp only [newOptimizer, malloc_fail hf]; rfl
  · exact malloc_fail hf

/-- **C64 is false** for that NULL: unlike `neuralnet_free`, `optimizer_free` and `callback_free` dereference it. -/
theorem C64_null_false (h : Heap) : optimizerFree none h = .error .nullDeref ∧ callbackFree none h = .error .nullDeref ∧
    freeNN none h = .ok h := ⟨rfl, rfl, rfl⟩

/-- **C64 is false** without memory for a work vector: `*_new` aborts instead of returning NULL. -/
theorem C64_vector_false {ok : Nat → Bool} (t : OptType) (sane : Bool) {h : Heap} (h0 : ok h.count = true)
    (h1 : ok (h.count + 1) = false) : newOptimizer ok t sane h = .error .assertFail := by
  have e : mallocAssert ok (⟨h.count + 1, h.count :: h.live⟩ : Heap) = .error .assertFail := by
    simp only [mallocAssert, malloc_fail (h := (⟨h.count + 1, h.count :: h.live⟩ : Heap)) h1]
  cases t <;> simp only [newOptimizer, malloc_ok h0, initVectors, e, bind, Except.bind,
    malloc_fail (h := (⟨h.count + 1, h.count :: h.live⟩ : Heap)) h1]

/-- **C64 is false** if the pivot cannot be enlarged: the optimizer does not own the old block any longer, and freeing the
optimizer leaves it behind. -/
theorem C64_pivot_false {ok : Nat → Bool} {nSample n p : Nat} {o : OptObj} {h : Heap} {rest : List Nat} (hw : h.WF)
    (hp : h.live.Perm (Handle.owned (.opt (some o)) ++ rest)) (hv : o.pivot = some p) (hn : n ≠ nSample)
    (hf : ok h.count = false) :
    ∃ o' h' h'', pivotAlloc ok nSample n o h = .ok (n, o', h') ∧ p ∉ Handle.owned (.opt (some o')) ++ rest ∧
      optimizerFree (some o') h' = .ok h'' ∧ h''.live.Perm (p :: rest) := by
  have p1 : h.live.Perm (Handle.owned (.opt (some { o with pivot := none })) ++ (p :: rest)) := by
    refine hp.trans ?_
    simp only [Handle.owned, hv, Option.toList, List.append_nil, List.cons_append, List.append_assoc, List.nil_append]
    exact List.Perm.refl _
  have nd := (p1.nodup_iff).1 hw.nodup
  obtain ⟨h'', e, pr, -⟩ := freeObj_perm (k := .opt) (o := .opt (some { o with pivot := none }))
    (h := ⟨h.count + 1, h.live⟩) trivial hw.skip p1
  refine ⟨{ o with pivot := none }, ⟨h.count + 1, h.live⟩, h'', ?_, ?_, e, pr⟩
  · simp only [pivotAlloc, if_pos hn, Heap.realloc, malloc_fail hf, bind, Except.bind, pure, Except.pure]
  · intro hm
    rw [List.perm_middle.nodup_iff] at nd
    exact (List.nodup_cons.1 nd).1 hm

/-- **C64** The rule "at most once" is needed: the second call for the same optimizer or callback reads freed memory. -/
theorem C64_twice {k : Kind} (o : Handle) (hk : o.Is k) {h : Heap} {rest : List Nat} (hw : h.WF)
    (hp : h.live.Perm (o.owned ++ rest)) (hopt : k ≠ .net) :
    ∃ h', freeObj o h = .ok h' ∧ freeObj o h' = .error .doubleFree := by
  obtain ⟨h', e, p, hw'⟩ := freeObj_perm hk hw hp
  refine ⟨h', e, ?_⟩
  have nd := (hp.nodup_iff).1 hw.nodup
  match k, o, hk with
  | .net, _, _ => exact absurd rfl hopt
  | .opt, .opt (some o), _ =>
    have : o.self ∉ h'.live := by
      rw [p.mem_iff]
      simp only [Handle.owned, List.cons_append] at nd
      exact fun hm => (List.nodup_cons.1 nd).1 (by simp [hm])
    simp only [freeObj, optimizerFree, touch, if_neg this, bind, Except.bind]
  | .cb, .cb (some c), _ =>
    have : c ∉ h'.live := by
      rw [p.mem_iff]
      exact fun hm => (List.nodup_cons.1 nd).1 (by simp [hm])
    simp only [freeObj, callbackFree, touch, if_neg this, bind, Except.bind]

/-! ### Example -/

/-- A program with two optimizers on one network, freed in an unusual order. -/
def exObjProg : List ObjOp :=
  [.newNet 2 [3, 4, 2] [some "tanh", none], .newOpt .adam, .newCb, .epoch 1 10, .newOpt .rmsprop, .epoch 3 20, .epoch 1 10,
   .free 0, .free 0, .epoch 1 5, .free 1, .free 0]

theorem exObjProg_legal : LegalProg [] exObjProg [] :=
  .cons (.newNet (by decide) exCreateArgs (by decide)) <| .cons (.newOpt _) <| .cons .newCb <| .cons (.epoch rfl) <|
  .cons (.newOpt _) <| .cons (.epoch rfl) <| .cons (.epoch rfl) <| .cons (.free (by decide)) <| .cons (.free (by decide)) <|
  .cons (.epoch rfl) <| .cons (.free (by decide)) <| .cons (.free (by decide)) .nil

example (dl : DynLinker) : ∃ w', objRun (fun _ => true) dl exObjProg ⟨⟨7, [5, 3]⟩, 0, [], []⟩ = .ok w' ∧
    w'.heap.live.Perm [5, 3] :=
  C64_no_leak (fun _ => rfl) dl (h := ⟨7, [5, 3]⟩) ⟨by simp, by simp⟩ exObjProg_legal

end NN
