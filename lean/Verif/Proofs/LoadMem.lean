import Verif.Model.LoadMem
import Verif.Properties.Create
/-
Lemmas for C84: the temporary memory of `neuralnet_load` and `neuralnet_save`.
-/
namespace NN.LoadMem

theorem bind_ok {α β : Type} {x : M α} {f : α → M β} {r : β} (e : (x >>= f) = .ok r) : ∃ a, x = .ok a ∧ f a = .ok r := by
  cases x with
  | error e' => simp [bind, Except.bind] at e
  | ok a => exact ⟨a, rfl, e⟩

theorem malloc_none {ok : Nat → Bool} {h h1 : Heap} (e : h.malloc ok = (none, h1)) : h1.live = h.live ∧ ok h.count = false := by
  unfold Heap.malloc at e
  split_ifs at e with hk
  · simp at e
  · simp only [Prod.mk.injEq, true_and] at e
    rw [← e]; exact ⟨rfl, by simpa using hk⟩

theorem malloc_some {ok : Nat → Bool} {h h1 : Heap} {i : Nat} (e : h.malloc ok = (some i, h1)) :
    h1.live = i :: h.live ∧ i = h.count ∧ ok h.count = true := by
  unfold Heap.malloc at e
  split_ifs at e with hk
  · simp only [Prod.mk.injEq, Option.some.injEq] at e
    rw [← e.2, ← e.1]; exact ⟨rfl, rfl, hk⟩
  · simp at e

theorem free_ok {h h1 : Heap} {i : Nat} {R : List Nat} (e : h.free i = .ok h1) (p : h.live.Perm (i :: R)) : h1.live.Perm R := by
  obtain ⟨h2, e2, p2, -⟩ := free_perm p
  rw [e] at e2; cases e2; exact p2

/-! ### `neuralnet_create` -/

theorem allocWeights_perm {ok : Nat → Bool} : ∀ {ls ls' : List CLayer} {h h' : Heap} {b : Bool},
    allocWeights ok ls h = .ok (b, ls', h') → (∀ l ∈ ls, l.weight = .uninit ∧ l.bias = .uninit) →
    h'.live.Perm (blocks ls' ++ h.live) ∧ ∀ l ∈ ls', l.bias = .uninit
  | [], ls', h, h', b, e, _ => by
    simp only [allocWeights, pure, Except.pure, Except.ok.injEq, Prod.mk.injEq] at e
    obtain ⟨-, rfl, rfl⟩ := e
    exact ⟨List.Perm.refl _, by simp⟩
  | l :: ls, ls', h, h', b, e, hu => by
    obtain ⟨u1, u2⟩ := hu l (by simp)
    have hu' : ∀ x ∈ ls, x.weight = .uninit ∧ x.bias = .uninit := fun x hx => hu x (List.mem_cons_of_mem _ hx)
    rw [allocWeights] at e
    split_ifs at e
    split at e
    · rename_i h1 hm
      simp only [pure, Except.pure, Except.ok.injEq, Prod.mk.injEq] at e
      obtain ⟨-, rfl, rfl⟩ := e
      refine ⟨?_, ?_⟩
      · rw [blocks_cons, blocks_uninit ls hu', (malloc_none hm).1]
        simp only [u2, BlkPtr.ids, List.nil_append]
        exact List.Perm.refl _
      · intro x hx
        rcases List.mem_cons.1 hx with rfl | hx
        · exact u2
        · exact (hu' x hx).2
    · rename_i id h1 hm
      obtain ⟨⟨b1, ls1, h2⟩, e1, e2⟩ := bind_ok e
      simp only [pure, Except.pure, Except.ok.injEq, Prod.mk.injEq] at e2
      obtain ⟨rfl, rfl, rfl⟩ := e2
      obtain ⟨p, q⟩ := allocWeights_perm e1 hu'
      refine ⟨?_, ?_⟩
      · rw [blocks_cons]
        refine p.trans ?_
        rw [(malloc_some hm).1]
        simp only [u2, BlkPtr.ids, List.nil_append, List.cons_append]
        exact List.perm_middle
      · intro x hx
        rcases List.mem_cons.1 hx with rfl | hx
        · exact u2
        · exact q x hx

theorem allocBiases_perm {ok : Nat → Bool} : ∀ {ls ls' : List CLayer} {h h' : Heap} {b : Bool} {R : List Nat},
    allocBiases ok ls h = .ok (b, ls', h') → (∀ l ∈ ls, l.bias = .uninit) → h.live.Perm (blocks ls ++ R) →
    h'.live.Perm (blocks ls' ++ R)
  | [], ls', h, h', b, R, e, _, p => by
    simp only [allocBiases, pure, Except.pure, Except.ok.injEq, Prod.mk.injEq] at e
    obtain ⟨-, rfl, rfl⟩ := e
    exact p
  | l :: ls, ls', h, h', b, R, e, hu, p => by
    have u2 := hu l (by simp)
    have hu' : ∀ x ∈ ls, x.bias = .uninit := fun x hx => hu x (List.mem_cons_of_mem _ hx)
    rw [allocBiases] at e
    simp only [blocks_cons, u2, BlkPtr.ids, List.nil_append] at p
    split at e
    · rename_i h1 hm
      simp only [pure, Except.pure, Except.ok.injEq, Prod.mk.injEq] at e
      obtain ⟨-, rfl, rfl⟩ := e
      simp only [blocks_cons, BlkPtr.ids, List.nil_append, (malloc_none hm).1]
      exact p
    · rename_i id h1 hm
      obtain ⟨⟨b1, ls1, h2⟩, e1, e2⟩ := bind_ok e
      simp only [pure, Except.pure, Except.ok.injEq, Prod.mk.injEq] at e2
      obtain ⟨rfl, rfl, rfl⟩ := e2
      have := allocBiases_perm (R := id :: (l.weight.ids ++ R)) e1 hu' (by
        rw [(malloc_some hm).1]
        refine (List.Perm.cons _ p).trans ?_
        rw [List.append_assoc]
        refine List.Perm.trans ?_ List.perm_middle.symm
        refine List.Perm.cons _ ?_
        rw [← List.append_assoc, ← List.append_assoc]
        exact List.Perm.append_right _ List.perm_append_comm)
      refine this.trans ?_
      simp only [blocks_cons, BlkPtr.ids, List.append_assoc, List.cons_append, List.nil_append]
      refine List.perm_middle.trans ?_
      refine List.Perm.trans ?_ List.perm_middle.symm
      refine List.Perm.cons _ ?_
      rw [← List.append_assoc, ← List.append_assoc]
      exact List.Perm.append_right _ List.perm_append_comm

theorem weightsFree_ok {ls : List CLayer} {h h' : Heap} {R : List Nat} (e : weightsFree ls h = .ok h')
    (p : h.live.Perm (blocks ls ++ R)) : h'.live.Perm R := by
  by_cases hu : ∃ l ∈ ls, l.weight = .uninit ∨ l.bias = .uninit
  · rw [weightsFree_uninit ls h R hu p] at e; cases e
  · obtain ⟨h2, e2, p2, -⟩ := weightsFree_perm ls h R (fun l hl => ⟨fun e => hu ⟨l, hl, .inl e⟩, fun e => hu ⟨l, hl, .inr e⟩⟩) p
    rw [e] at e2; cases e2; exact p2

theorem weightsAllocate_perm {ok : Nat → Bool} {ls ls' : List CLayer} {h h' : Heap} {b : Bool}
    (e : weightsAllocate ok ls h = .ok (b, ls', h')) (hu : ∀ l ∈ ls, l.weight = .uninit ∧ l.bias = .uninit) :
    h'.live.Perm ((if b then blocks ls' else []) ++ h.live) := by
  unfold weightsAllocate at e
  split_ifs at e
  · simp only [pure, Except.pure, Except.ok.injEq, Prod.mk.injEq] at e
    obtain ⟨rfl, rfl, rfl⟩ := e
    simp
  · obtain ⟨⟨b1, ls1, h1⟩, e1, e⟩ := bind_ok e
    obtain ⟨p1, q1⟩ := allocWeights_perm e1 hu
    cases b1 with
    | false =>
      simp only [Bool.false_eq_true, if_false] at e
      obtain ⟨h2, e2, e⟩ := bind_ok e
      simp only [pure, Except.pure, Except.ok.injEq, Prod.mk.injEq] at e
      obtain ⟨rfl, rfl, rfl⟩ := e
      simpa using weightsFree_ok e2 p1
    | true =>
      simp only [if_true] at e
      obtain ⟨⟨b2, ls2, h2⟩, e2, e⟩ := bind_ok e
      have p2 := allocBiases_perm e2 q1 p1
      cases b2 with
      | false =>
        simp only [Bool.false_eq_true, if_false] at e
        obtain ⟨h3, e3, e⟩ := bind_ok e
        simp only [pure, Except.pure, Except.ok.injEq, Prod.mk.injEq] at e
        obtain ⟨rfl, rfl, rfl⟩ := e
        simpa using weightsFree_ok e3 p2
      | true =>
        simp only [if_true, pure, Except.pure, Except.ok.injEq, Prod.mk.injEq] at e
        obtain ⟨rfl, rfl, rfl⟩ := e
        simpa using p2

theorem layerSizes_uninit {sizes : List Int} : ∀ {k i : Nat} {ls : List CLayer}, layerSizes sizes i k = .ok ls →
    ∀ l ∈ ls, l.weight = .uninit ∧ l.bias = .uninit
  | 0, i, ls, e => by
    simp only [layerSizes, pure, Except.pure, Except.ok.injEq] at e
    subst e; simp
  | k + 1, i, ls, e => by
    rw [layerSizes] at e
    obtain ⟨a, -, e⟩ := bind_ok e
    obtain ⟨b, -, e⟩ := bind_ok e
    obtain ⟨ls1, e1, e⟩ := bind_ok e
    simp only [pure, Except.pure, Except.ok.injEq] at e
    subst e
    intro l hl
    rcases List.mem_cons.1 hl with rfl | hl
    · exact ⟨rfl, rfl⟩
    · exact layerSizes_uninit e1 l hl

theorem setActivations_blocks {dl : DynLinker} {funcs : Option (List (Option String))} : ∀ {ls ls' : List CLayer} {i : Nat}
    {recs recs' : List ActRecord}, setActivations dl funcs i ls recs = .ok (ls', recs') → blocks ls' = blocks ls
  | [], ls', i, recs, recs', e => by
    simp only [setActivations, pure, Except.pure, Except.ok.injEq, Prod.mk.injEq] at e
    rw [← e.1]
  | l :: ls, ls', i, recs, recs', e => by
    rw [setActivations] at e
    obtain ⟨name, -, e⟩ := bind_ok e
    obtain ⟨⟨a, r1⟩, -, e⟩ := bind_ok e
    cases a with
    | some a =>
      obtain ⟨⟨a2, r2⟩, -, e⟩ := bind_ok e
      obtain ⟨⟨ls1, r3⟩, e1, e⟩ := bind_ok e
      simp only [pure, Except.pure, Except.ok.injEq, Prod.mk.injEq] at e
      rw [← e.1, blocks_cons, blocks_cons, setActivations_blocks e1]
    | none =>
      obtain ⟨⟨a2, r2⟩, -, e⟩ := bind_ok e
      obtain ⟨⟨ls1, r3⟩, e1, e⟩ := bind_ok e
      simp only [pure, Except.pure, Except.ok.injEq, Prod.mk.injEq] at e
      rw [← e.1, blocks_cons, blocks_cons, setActivations_blocks e1]

/-- Whenever `neuralnet_create` returns: the blocks afterwards are those of the network (if it is not NULL) and those that
were there before. -/
theorem create_perm {ok : Nat → Bool} {dl : DynLinker} {n : Int} {sizes : List Int} {funcs : Option (List (Option String))}
    {recs recs' : List ActRecord} {h h' : Heap} {net : Option CNet} (e : createNN ok dl n sizes funcs recs h = .ok (net, recs', h')) :
    h'.live.Perm ((net.elim [] CNet.blocks) ++ h.live) := by
  unfold createNN at e
  split_ifs at e
  · simp only [pure, Except.pure, Except.ok.injEq, Prod.mk.injEq] at e
    obtain ⟨rfl, -, rfl⟩ := e; simp
  · obtain ⟨good, -, e⟩ := bind_ok e
    split_ifs at e
    · simp only [pure, Except.pure, Except.ok.injEq, Prod.mk.injEq] at e
      obtain ⟨rfl, -, rfl⟩ := e; simp
    · split at e
      · rename_i h1 hm
        simp only [pure, Except.pure, Except.ok.injEq, Prod.mk.injEq] at e
        obtain ⟨rfl, -, rfl⟩ := e
        simp [(malloc_none hm).1]
      · rename_i nn h1 hm
        split at e
        · rename_i h2 hm2
          obtain ⟨h3, e3, e⟩ := bind_ok e
          simp only [pure, Except.pure, Except.ok.injEq, Prod.mk.injEq] at e
          obtain ⟨rfl, -, rfl⟩ := e
          simpa using free_ok e3 (R := h.live) (by rw [(malloc_none hm2).1, (malloc_some hm).1])
        · rename_i layer h2 hm2
          obtain ⟨ls, e3, e⟩ := bind_ok e
          obtain ⟨⟨b, ls1, h3⟩, e4, e⟩ := bind_ok e
          have p := weightsAllocate_perm e4 (layerSizes_uninit e3)
          rw [(malloc_some hm2).1, (malloc_some hm).1] at p
          cases b with
          | true =>
            simp only [if_true] at e p
            obtain ⟨⟨ls2, r2⟩, e5, e⟩ := bind_ok e
            simp only [pure, Except.pure, Except.ok.injEq, Prod.mk.injEq] at e
            obtain ⟨rfl, -, rfl⟩ := e
            simp only [Option.elim, CNet.blocks, setActivations_blocks e5, List.cons_append]
            refine p.trans (List.perm_middle.trans (List.Perm.cons _ List.perm_middle))
          | false =>
            simp only [Bool.false_eq_true, if_false, List.nil_append] at e p
            obtain ⟨h4, e5, e⟩ := bind_ok e
            obtain ⟨h5, e6, e⟩ := bind_ok e
            simp only [pure, Except.pure, Except.ok.injEq, Prod.mk.injEq] at e
            obtain ⟨rfl, -, rfl⟩ := e
            simpa using free_ok e6 (free_ok e5 p)

/-! ### The list -/

/-- The blocks of an element. -/
def Node.ids (n : Node) : List Nat := n.node :: n.name :: n.array :: n.data.toList

/-- The blocks of the list. -/
def nb (l : List Node) : List Nat := l.flatMap Node.ids

theorem nb_cons (n : Node) (l : List Node) : nb (n :: l) = n.ids ++ nb l := rfl

theorem nb_append (l l' : List Node) : nb (l ++ l') = nb l ++ nb l' := List.flatMap_append

theorem append_ok {ok : Nat → Bool} {l l' : List Node} {t : Bytes} {m : NpyArray} {a : Nat} {d : Option Nat} {h h' : Heap}
    (e : append ok l t m a d h = .ok (l', h')) :
    (l' = l ∧ h'.live = h.live) ∨ ∃ n f, l' = l ++ [⟨n, f, a, d, t, m⟩] ∧ h'.live = f :: n :: h.live := by
  unfold append at e
  split at e
  · rename_i h1 hm
    simp only [pure, Except.pure, Except.ok.injEq, Prod.mk.injEq] at e
    obtain ⟨rfl, rfl⟩ := e
    exact .inl ⟨rfl, (malloc_none hm).1⟩
  · rename_i n h1 hm
    split_ifs at e
    split at e
    · cases e
    · rename_i f h2 hm2
      simp only [pure, Except.pure, Except.ok.injEq, Prod.mk.injEq] at e
      obtain ⟨rfl, rfl⟩ := e
      exact .inr ⟨n, f, rfl, by rw [(malloc_some hm2).1, (malloc_some hm).1]⟩

theorem readMatrix_ok {ok : Nat → Bool} {x : Entry} {h h' : Heap} {r : Option (Nat × Nat)} (e : readMatrix ok x h = .ok (r, h')) :
    (r = none ∧ h'.live.Perm h.live) ∨ ∃ a d, r = some (a, d) ∧ h'.live = d :: a :: h.live := by
  unfold readMatrix at e
  split at e
  · rename_i h1 hm
    simp only [pure, Except.pure, Except.ok.injEq, Prod.mk.injEq] at e
    obtain ⟨rfl, rfl⟩ := e
    exact .inl ⟨rfl, by rw [(malloc_none hm).1]⟩
  · rename_i a h1 hm
    split at e
    · rename_i h2 hm2
      obtain ⟨h3, e3, e⟩ := bind_ok e
      simp only [pure, Except.pure, Except.ok.injEq, Prod.mk.injEq] at e
      obtain ⟨rfl, rfl⟩ := e
      exact .inl ⟨rfl, free_ok e3 (by rw [(malloc_none hm2).1, (malloc_some hm).1])⟩
    · rename_i d h2 hm2
      split_ifs at e
      · simp only [pure, Except.pure, Except.ok.injEq, Prod.mk.injEq] at e
        obtain ⟨rfl, rfl⟩ := e
        exact .inr ⟨a, d, rfl, by rw [(malloc_some hm2).1, (malloc_some hm).1]⟩
      · obtain ⟨h3, e3, e⟩ := bind_ok e
        obtain ⟨h4, e4, e⟩ := bind_ok e
        simp only [pure, Except.pure, Except.ok.injEq, Prod.mk.injEq] at e
        obtain ⟨rfl, rfl⟩ := e
        exact .inl ⟨rfl, free_ok e4 (free_ok e3 (by rw [(malloc_some hm2).1, (malloc_some hm).1]))⟩

theorem listLoad_perm {ok : Nat → Bool} : ∀ {es : List Entry} {l l' : List Node} {w w' : Nat} {h h' : Heap} {R : List Nat},
    listLoad ok es l w h = .ok (l', w', h') → h.live.Perm (nb l ++ R) →
    ∃ L, h'.live.Perm (nb l' ++ (L ++ R)) ∧ L.length + 2 * l'.length + 2 * w' = 2 * es.length + 2 * l.length + 2 * w
  | [], l, l', w, w', h, h', R, e, p => by
    simp only [listLoad, pure, Except.pure, Except.ok.injEq, Prod.mk.injEq] at e
    obtain ⟨rfl, rfl, rfl⟩ := e
    exact ⟨[], p, by simp⟩
  | x :: es, l, l', w, w', h, h', R, e, p => by
    rw [listLoad] at e
    obtain ⟨⟨r, h1⟩, e1, e⟩ := bind_ok e
    rcases readMatrix_ok e1 with ⟨rfl, q⟩ | ⟨a, d, rfl, q⟩
    · obtain ⟨L, p2, c⟩ := listLoad_perm e (q.trans p)
      exact ⟨L, p2, by rw [c]; simp; omega⟩
    · obtain ⟨⟨l1, h2⟩, e2, e3⟩ := bind_ok e
      rcases append_ok e2 with ⟨rfl, q2⟩ | ⟨n, f, rfl, q2⟩
      · obtain ⟨L, p2, c⟩ := listLoad_perm (R := d :: a :: R) e3 (by
          rw [q2, q]
          exact ((p.cons _).cons _).trans ((List.perm_middle.symm.cons _).trans List.perm_middle.symm))
        refine ⟨L ++ [d, a], p2.trans ?_, by simp at c ⊢; omega⟩
        simp
      · obtain ⟨L, p2, c⟩ := listLoad_perm (R := R) e3 (by
          rw [q2, q, nb_append]
          have : nb [⟨n, f, a, some d, x.text, x.m⟩] = [n, f, a, d] := rfl
          rw [this, List.perm_iff_count]
          intro y
          have := List.perm_iff_count.1 p y
          simp only [List.count_append, List.count_cons, List.count_nil] at this ⊢
          omega)
        exact ⟨L, p2, by simp at c ⊢; omega⟩

theorem listFree_perm : ∀ (l : List Node) (h : Heap) (R : List Nat), h.live.Perm (nb l ++ R) →
    ∃ h', listFree l h = .ok h' ∧ h'.live.Perm R
  | [], h, R, p => ⟨h, rfl, p⟩
  | n :: l, h, R, p => by
    have p0 : h.live.Perm (n.data.toList ++ (n.array :: n.name :: (nb l ++ n.node :: R))) := by
      refine p.trans ?_
      rw [nb_cons, Node.ids, List.perm_iff_count]
      intro y
      simp only [List.count_append, List.count_cons]
      omega
    have h1 : ∃ h1, freeOpt n.data h = .ok h1 ∧ h1.live.Perm (n.array :: n.name :: (nb l ++ n.node :: R)) := by
      cases hd : n.data with
      | none => rw [hd] at p0; exact ⟨h, rfl, p0⟩
      | some d => rw [hd] at p0; obtain ⟨h1, e1, p1, -⟩ := free_perm p0; exact ⟨h1, e1, p1⟩
    obtain ⟨h1, e1, p1⟩ := h1
    obtain ⟨h2, e2, p2, -⟩ := free_perm p1
    obtain ⟨h3, e3, p3, -⟩ := free_perm p2
    obtain ⟨h4, e4, p4⟩ := listFree_perm l h3 _ p3
    obtain ⟨h5, e5, p5, -⟩ := free_perm p4
    refine ⟨h5, ?_, p5⟩
    simp only [listFree, e1, e2, e3, e4, e5, bind, Except.bind]

/-! ### Loading -/

/-- The blocks of `activation_funcs`. -/
def actIds (acts : Option (Nat × Nat × List Bytes)) : List Nat := acts.elim [] fun a => [a.2.1, a.1]

theorem names_ok {ok : Nat → Bool} {m : NpyArray} {h h' : Heap} {r : Nat × Nat × List Bytes} (e : names ok m h = .ok (r, h')) :
    h'.live = r.2.1 :: r.1 :: h.live := by
  unfold names at e
  split at e
  · cases e
  · rename_i p h1 hm
    split at e
    · cases e
    split at e
    · cases e
    · rename_i q h2 hm2
      split_ifs at e
      simp only [pure, Except.pure, Except.ok.injEq, Prod.mk.injEq] at e
      obtain ⟨rfl, rfl⟩ := e
      rw [(malloc_some hm2).1, (malloc_some hm).1]

/-- How many arrays of strings come before the first array that is neither of floats nor of strings. -/
def strings (ms : List NpyArray) : Nat :=
  ((ms.takeWhile fun m => m.typechar = 102 || m.typechar = 83).filter fun m => m.typechar = 83).length

theorem strings_float {m : NpyArray} (ms : List NpyArray) (hm : m.typechar = 102) : strings (m :: ms) = strings ms := by
  simp [strings, hm]

theorem strings_string {m : NpyArray} (ms : List NpyArray) (hm : m.typechar = 83) : strings (m :: ms) = strings ms + 1 := by
  simp [strings, hm]

theorem strings_other {m : NpyArray} (ms : List NpyArray) (h1 : m.typechar ≠ 102) (h2 : m.typechar ≠ 83) : strings (m :: ms) = 0 := by
  simp [strings, h1, h2]

theorem sort_perm {ok : Nat → Bool} : ∀ {ms wb wb' : List NpyArray} {acts acts' : Option (Nat × Nat × List Bytes)} {h h' : Heap}
    {b : Bool} {R : List Nat}, sort ok ms wb acts h = .ok (b, wb', acts', h') → h.live.Perm (actIds acts ++ R) →
    ∃ L, h'.live.Perm (actIds acts' ++ (L ++ R)) ∧ L.length + (actIds acts').length = (actIds acts).length + 2 * strings ms ∧
      (acts'.isSome ↔ acts.isSome ∨ 0 < strings ms)
  | [], wb, wb', acts, acts', h, h', b, R, e, p => by
    simp only [sort, pure, Except.pure, Except.ok.injEq, Prod.mk.injEq] at e
    obtain ⟨-, -, rfl, rfl⟩ := e
    exact ⟨[], p, by simp [strings], by simp [strings]⟩
  | m :: ms, wb, wb', acts, acts', h, h', b, R, e, p => by
    rw [sort] at e
    split_ifs at e with h1 h2
    · rw [strings_float ms h1]
      exact sort_perm e p
    · rw [strings_string ms h2]
      obtain ⟨⟨a, h3⟩, e1, e⟩ := bind_ok e
      obtain ⟨L, p2, c, s⟩ := sort_perm (R := actIds acts ++ R) e (by
        rw [names_ok e1]
        exact (p.cons _).cons _)
      refine ⟨L ++ actIds acts, by simpa using p2, ?_, by simp at s ⊢; exact s⟩
      simp only [List.length_append]
      have : (actIds (some a)).length = 2 := rfl
      omega
    · simp only [pure, Except.pure, Except.ok.injEq, Prod.mk.injEq] at e
      obtain ⟨-, -, rfl, rfl⟩ := e
      rw [strings_other ms h1 h2]
      exact ⟨[], p, by simp, by simp⟩

theorem cleanup_perm (l : List Node) (wb : Option Nat) (acts : Option (Nat × Nat × List Bytes)) (h : Heap) (R : List Nat)
    (p : h.live.Perm (nb l ++ (wb.toList ++ (actIds acts ++ R)))) : ∃ h', cleanup l wb acts h = .ok h' ∧ h'.live.Perm R := by
  obtain ⟨h1, e1, p1⟩ := listFree_perm l h _ p
  have h2 : ∃ h2, freeOpt wb h1 = .ok h2 ∧ h2.live.Perm (actIds acts ++ R) := by
    cases wb with
    | none => exact ⟨h1, rfl, p1⟩
    | some d => obtain ⟨h2, e2, p2, -⟩ := free_perm p1; exact ⟨h2, e2, p2⟩
  obtain ⟨h2, e2, p2⟩ := h2
  cases acts with
  | none => exact ⟨h2, by simp only [cleanup, e1, e2, bind, Except.bind]; rfl, p2⟩
  | some a =>
    obtain ⟨x, y, ns⟩ := a
    obtain ⟨h3, e3, p3, -⟩ := free_perm p2
    obtain ⟨h4, e4, p4, -⟩ := free_perm p3
    exact ⟨h4, by simp only [cleanup, e1, e2, e3, e4, bind, Except.bind], p4⟩

theorem leak_length {n k : Nat} {acts : Option (Nat × Nat × List Bytes)} (c : n + (actIds acts).length = 2 * k)
    (s : acts.isSome ↔ 0 < k) : n = 2 * (k - 1) := by
  cases acts with
  | none => simp [actIds] at c s; omega
  | some a => simp [actIds] at c s; omega

theorem loadRest_perm {F : Type} {bits : FloatBits F} {ok : Nat → Bool} {dl : DynLinker} {addr : Nat → Nat} {junk : Nat → Nat → F}
    {l : List Node} {recs recs' : List ActRecord} {h h' : Heap} {net : Option (CNet × Net F)} {R : List Nat}
    (e : loadRest bits ok dl addr junk l recs h = .ok (net, recs', h')) (p : h.live.Perm (nb l ++ R)) :
    ∃ L, h'.live.Perm ((net.elim [] fun n => n.1.blocks) ++ (L ++ R)) ∧
      L.length = 2 * ((if ok h.count then strings (l.map Node.m) else 0) - 1) := by
  unfold loadRest at e
  split_ifs at e with he
  · simp only [pure, Except.pure, Except.ok.injEq, Prod.mk.injEq] at e
    obtain ⟨rfl, -, rfl⟩ := e
    have : l = [] := by simpa using he
    subst this
    exact ⟨[], p, by simp [strings]⟩
  · split at e
    · rename_i h1 hm
      obtain ⟨h2, e2, e⟩ := bind_ok e
      simp only [pure, Except.pure, Except.ok.injEq, Prod.mk.injEq] at e
      obtain ⟨rfl, -, rfl⟩ := e
      obtain ⟨h3, e3, p3⟩ := cleanup_perm l none none h1 R (by rw [(malloc_none hm).1]; exact p)
      rw [e2] at e3; cases e3
      exact ⟨[], p3, by simp [(malloc_none hm).2]⟩
    · rename_i q h1 hm
      obtain ⟨⟨good, wb, acts, h2⟩, e2, e⟩ := bind_ok e
      obtain ⟨L, p2, c, s⟩ := sort_perm (R := q :: (nb l ++ R)) e2 (by
        rw [(malloc_some hm).1]; exact p.cons _)
      have hL : L.length = 2 * (strings (l.map Node.m) - 1) := leak_length (by simpa [actIds] using c) (by simpa using s)
      rw [(malloc_some hm).2.2]
      simp only [if_true]
      have fin : ∀ (B : List Nat) (h3 : Heap), h3.live.Perm (B ++ h2.live) →
          ∃ h4, cleanup l (some q) acts h3 = .ok h4 ∧ h4.live.Perm (B ++ (L ++ R)) := by
        intro B h3 p3
        refine cleanup_perm l (some q) acts h3 _ (p3.trans ?_)
        rw [List.perm_iff_count]
        intro y
        have := List.perm_iff_count.1 p2 y
        simp only [List.count_append, List.count_cons, Option.toList, List.count_nil] at this ⊢
        omega
      dsimp only at e
      split_ifs at e
      · obtain ⟨h3, e3, e⟩ := bind_ok e
        simp only [pure, Except.pure, Except.ok.injEq, Prod.mk.injEq] at e
        obtain ⟨rfl, -, rfl⟩ := e
        obtain ⟨h4, e4, p4⟩ := fin [] h2 (List.Perm.refl _)
        rw [e3] at e4; cases e4
        exact ⟨L, p4, hL⟩
      · obtain ⟨sizes, -, e⟩ := bind_ok e
        obtain ⟨⟨net1, r1, h3⟩, e3, e⟩ := bind_ok e
        have p3 := create_perm e3
        cases net1 with
        | none =>
          obtain ⟨h4, e4, e⟩ := bind_ok e
          simp only [pure, Except.pure, Except.ok.injEq, Prod.mk.injEq] at e
          obtain ⟨rfl, -, rfl⟩ := e
          obtain ⟨h5, e5, p5⟩ := fin [] h3 p3
          rw [e4] at e5; cases e5
          exact ⟨L, p5, hL⟩
        | some net1 =>
          obtain ⟨ls, -, e⟩ := bind_ok e
          obtain ⟨h4, e4, e⟩ := bind_ok e
          simp only [pure, Except.pure, Except.ok.injEq, Prod.mk.injEq] at e
          obtain ⟨rfl, -, rfl⟩ := e
          obtain ⟨h5, e5, p5⟩ := fin net1.blocks h3 p3
          rw [e4] at e5; cases e5
          exact ⟨L, p5, hL⟩

/-! ### The network -/

theorem allocWeights_blk {ok : Nat → Bool} : ∀ {ls ls' : List CLayer} {h h' : Heap}, allocWeights ok ls h = .ok (true, ls', h') →
    ∀ l ∈ ls', ∃ i, l.weight = .blk i
  | [], ls', h, h', e => by
    simp only [allocWeights, pure, Except.pure, Except.ok.injEq, Prod.mk.injEq, true_and] at e
    rw [← e.1]; simp
  | l :: ls, ls', h, h', e => by
    rw [allocWeights] at e
    split_ifs at e
    split at e
    · simp [pure, Except.pure] at e
    · rename_i id h1 hm
      obtain ⟨⟨b1, ls1, h2⟩, e1, e2⟩ := bind_ok e
      simp only [pure, Except.pure, Except.ok.injEq, Prod.mk.injEq] at e2
      obtain ⟨rfl, rfl, rfl⟩ := e2
      intro x hx
      rcases List.mem_cons.1 hx with rfl | hx
      · exact ⟨id, rfl⟩
      · exact allocWeights_blk e1 x hx

theorem allocBiases_blk {ok : Nat → Bool} : ∀ {ls ls' : List CLayer} {h h' : Heap}, allocBiases ok ls h = .ok (true, ls', h') →
    (∀ l ∈ ls, ∃ i, l.weight = .blk i) → ∀ l ∈ ls', (∃ i, l.weight = .blk i) ∧ ∃ i, l.bias = .blk i
  | [], ls', h, h', e, _ => by
    simp only [allocBiases, pure, Except.pure, Except.ok.injEq, Prod.mk.injEq, true_and] at e
    rw [← e.1]; simp
  | l :: ls, ls', h, h', e, hw => by
    rw [allocBiases] at e
    split at e
    · simp [pure, Except.pure] at e
    · rename_i id h1 hm
      obtain ⟨⟨b1, ls1, h2⟩, e1, e2⟩ := bind_ok e
      simp only [pure, Except.pure, Except.ok.injEq, Prod.mk.injEq] at e2
      obtain ⟨rfl, rfl, rfl⟩ := e2
      intro x hx
      rcases List.mem_cons.1 hx with rfl | hx
      · exact ⟨hw l (by simp), id, rfl⟩
      · exact allocBiases_blk e1 (fun y hy => hw y (List.mem_cons_of_mem _ hy)) x hx

theorem setActivations_blk {dl : DynLinker} {funcs : Option (List (Option String))} : ∀ {ls ls' : List CLayer} {i : Nat}
    {recs recs' : List ActRecord}, setActivations dl funcs i ls recs = .ok (ls', recs') →
    (∀ l ∈ ls, (∃ i, l.weight = .blk i) ∧ ∃ i, l.bias = .blk i) → ∀ l ∈ ls', (∃ i, l.weight = .blk i) ∧ ∃ i, l.bias = .blk i
  | [], ls', i, recs, recs', e, _ => by
    simp only [setActivations, pure, Except.pure, Except.ok.injEq, Prod.mk.injEq] at e
    rw [← e.1]; simp
  | l :: ls, ls', i, recs, recs', e, hb => by
    rw [setActivations] at e
    obtain ⟨name, -, e⟩ := bind_ok e
    obtain ⟨⟨a, r1⟩, -, e⟩ := bind_ok e
    have fin : ∀ (a : Option Act) (r : List ActRecord) (ls1 : List CLayer), setActivations dl funcs (i + 1) ls r = .ok (ls1, recs') →
        ls' = { l with act := a } :: ls1 → ∀ x ∈ ls', (∃ i, x.weight = .blk i) ∧ ∃ i, x.bias = .blk i := by
      rintro a r ls1 e1 rfl x hx
      rcases List.mem_cons.1 hx with rfl | hx
      · exact hb l (by simp)
      · exact setActivations_blk e1 (fun y hy => hb y (List.mem_cons_of_mem _ hy)) x hx
    cases a with
    | some a =>
      obtain ⟨⟨a2, r2⟩, -, e⟩ := bind_ok e
      obtain ⟨⟨ls1, r3⟩, e1, e⟩ := bind_ok e
      simp only [pure, Except.pure, Except.ok.injEq, Prod.mk.injEq] at e
      obtain ⟨h1, rfl⟩ := e
      exact fin _ _ ls1 e1 h1.symm
    | none =>
      obtain ⟨⟨a2, r2⟩, -, e⟩ := bind_ok e
      obtain ⟨⟨ls1, r3⟩, e1, e⟩ := bind_ok e
      simp only [pure, Except.pure, Except.ok.injEq, Prod.mk.injEq] at e
      obtain ⟨h1, rfl⟩ := e
      exact fin _ _ ls1 e1 h1.symm

theorem create_blk {ok : Nat → Bool} {dl : DynLinker} {n : Int} {sizes : List Int} {funcs : Option (List (Option String))}
    {recs recs' : List ActRecord} {h h' : Heap} {net : CNet} (e : createNN ok dl n sizes funcs recs h = .ok (some net, recs', h')) :
    ∀ l ∈ net.layers, (∃ i, l.weight = .blk i) ∧ ∃ i, l.bias = .blk i := by
  unfold createNN at e
  split_ifs at e
  · simp [pure, Except.pure] at e
  · obtain ⟨good, -, e⟩ := bind_ok e
    split_ifs at e
    · simp [pure, Except.pure] at e
    · split at e
      · simp [pure, Except.pure] at e
      · split at e
        · obtain ⟨h3, e3, e⟩ := bind_ok e
          simp [pure, Except.pure] at e
        · obtain ⟨ls, e3, e⟩ := bind_ok e
          obtain ⟨⟨b, ls1, h3⟩, e4, e⟩ := bind_ok e
          cases b with
          | false =>
            obtain ⟨h4, e5, e⟩ := bind_ok e
            obtain ⟨h5, e6, e⟩ := bind_ok e
            simp [pure, Except.pure] at e
          | true =>
            obtain ⟨⟨ls2, r2⟩, e5, e⟩ := bind_ok e
            simp only [pure, Except.pure, Except.ok.injEq, Prod.mk.injEq, Option.some.injEq] at e
            obtain ⟨rfl, -, rfl⟩ := e
            refine setActivations_blk e5 ?_
            unfold weightsAllocate at e4
            split_ifs at e4
            · simp [pure, Except.pure] at e4
            · obtain ⟨⟨b1, ls3, h6⟩, e6, e4⟩ := bind_ok e4
              cases b1 with
              | false =>
                obtain ⟨h7, e7, e4⟩ := bind_ok e4
                simp [pure, Except.pure] at e4
              | true =>
                obtain ⟨⟨b2, ls4, h8⟩, e8, e4⟩ := bind_ok e4
                cases b2 with
                | false =>
                  obtain ⟨h9, e9, e4⟩ := bind_ok e4
                  simp [pure, Except.pure] at e4
                | true =>
                  simp only [if_true, pure, Except.pure, Except.ok.injEq, Prod.mk.injEq, true_and] at e4
                  rw [← e4.1]
                  exact allocBiases_blk e8 (allocWeights_blk e6)

theorem free_net {net : CNet} {h : Heap} {R : List Nat} (hb : ∀ l ∈ net.layers, (∃ i, l.weight = .blk i) ∧ ∃ i, l.bias = .blk i)
    (p : h.live.Perm (net.blocks ++ R)) : ∃ h', freeNN (some net) h = .ok h' ∧ h'.live.Perm R := by
  have p' : h.live.Perm (NN.blocks net.layers ++ (net.layer :: net.nn :: R)) := by
    refine p.trans ?_
    simp only [CNet.blocks, List.cons_append]
    exact ((List.perm_middle.trans (List.Perm.cons _ List.perm_middle))).symm
  obtain ⟨h1, e1, p1, -⟩ := weightsFree_perm net.layers h _ (fun l hl => by
    obtain ⟨⟨i, hi⟩, j, hj⟩ := hb l hl
    simp [hi, hj]) p'
  obtain ⟨h2, e2, p2, -⟩ := free_perm p1
  obtain ⟨h3, e3, p3, -⟩ := free_perm p2
  exact ⟨h3, by simp only [freeNN, e1, e2, e3, bind, Except.bind], p3⟩

theorem load_blk {F : Type} {bits : FloatBits F} {ok : Nat → Bool} {dl : DynLinker} {addr : Nat → Nat} {junk : Nat → Nat → F}
    {es : List Entry} {recs recs' : List ActRecord} {h h' : Heap} {net : CNet} {nn : Net F}
    (e : load bits ok dl addr junk es recs h = .ok (some (net, nn), recs', h')) :
    ∀ l ∈ net.layers, (∃ i, l.weight = .blk i) ∧ ∃ i, l.bias = .blk i := by
  rw [load] at e
  obtain ⟨⟨l0, w0, h0⟩, -, e⟩ := bind_ok e
  unfold loadRest at e
  dsimp only at e
  split_ifs at e
  · simp [pure, Except.pure] at e
  · split at e
    · obtain ⟨h2, -, e⟩ := bind_ok e
      simp [pure, Except.pure] at e
    · obtain ⟨⟨good, wb, acts, h2⟩, -, e⟩ := bind_ok e
      dsimp only at e
      split_ifs at e
      · obtain ⟨h3, -, e⟩ := bind_ok e
        simp [pure, Except.pure] at e
      · obtain ⟨sizes, -, e⟩ := bind_ok e
        obtain ⟨⟨net1, r1, h3⟩, e3, e⟩ := bind_ok e
        cases net1 with
        | none =>
          obtain ⟨h4, -, e⟩ := bind_ok e
          simp [pure, Except.pure] at e
        | some net1 =>
          obtain ⟨ls, -, e⟩ := bind_ok e
          obtain ⟨h4, -, e⟩ := bind_ok e
          simp only [pure, Except.pure, Except.ok.injEq, Prod.mk.injEq, Option.some.injEq] at e
          obtain ⟨⟨rfl, -⟩, -⟩ := e
          exact create_blk e3

/-! ### Enough memory -/


/-- Every request succeeds. -/
def always : Nat → Bool := fun _ => true

theorem malloc_always (h : Heap) : h.malloc always = (some h.count, ⟨h.count + 1, h.count :: h.live⟩) := malloc_ok rfl

theorem sort_refines : ∀ (ms wb : List NpyArray) (acts : Option (Nat × Nat × List Bytes)) (h : Heap),
    (sort always ms wb acts h).map (fun r => if r.1 then some (r.2.1, r.2.2.1.map fun a => a.2.2) else none) =
      sortArrays (fun _ => true) ms wb (acts.map fun a => a.2.2)
  | [], wb, acts, h => rfl
  | m :: ms, wb, acts, h => by
    rw [sort, sortArrays]
    split_ifs with h1 h2
    · exact sort_refines ms _ acts h
    · simp only [names, malloc_always, namesFromNpy, Bool.not_true, Bool.false_eq_true, if_false]
      split_ifs
      · rfl
      · rfl
      · rfl
      · exact sort_refines ms wb (some _) _
    · rfl

theorem sort_wf {ok : Nat → Bool} : ∀ {ms wb wb' : List NpyArray} {acts acts' : Option (Nat × Nat × List Bytes)} {h h' : Heap}
    {b : Bool}, sort ok ms wb acts h = .ok (b, wb', acts', h') → h.WF → h'.WF
  | [], wb, wb', acts, acts', h, h', b, e, hw => by
    simp only [sort, pure, Except.pure, Except.ok.injEq, Prod.mk.injEq] at e
    rw [← e.2.2.2]; exact hw
  | m :: ms, wb, wb', acts, acts', h, h', b, e, hw => by
    rw [sort] at e
    split_ifs at e
    · exact sort_wf e hw
    · obtain ⟨⟨a, h3⟩, e1, e⟩ := bind_ok e
      refine sort_wf e ?_
      unfold names at e1
      split at e1
      · cases e1
      · rename_i p h4 hm
        split at e1
        · cases e1
        split at e1
        · cases e1
        · rename_i q h5 hm2
          split_ifs at e1
          simp only [pure, Except.pure, Except.ok.injEq, Prod.mk.injEq] at e1
          have k1 := (malloc_some hm).2.2
          have k2 := (malloc_some hm2).2.2
          rw [malloc_ok k1] at hm; cases hm
          rw [malloc_ok k2] at hm2; cases hm2
          rw [← e1.2]; exact hw.cons.cons
    · simp only [pure, Except.pure, Except.ok.injEq, Prod.mk.injEq] at e
      rw [← e.2.2.2]; exact hw

theorem loadRest_refines {F : Type} (bits : FloatBits F) (dl : DynLinker) (addr : Nat → Nat) (junk : Nat → Nat → F)
    (l : List Node) (recs : List ActRecord) (h : Heap) (R : List Nat) (p : h.live.Perm (nb l ++ R)) :
    ∃ h1 : Heap, (h.WF → h1.WF) ∧ (loadRest bits always dl addr junk l recs h).map (fun r => (r.1.map Prod.snd, r.2.1)) =
      (loadArrays bits (fun _ => true) always dl addr junk (l.map Node.m) recs h1).map (fun r => (r.1, r.2.1)) := by
  unfold loadRest loadArrays
  by_cases he : l = []
  · subst he; exact ⟨h, id, rfl⟩
  have he1 : l.isEmpty = false := by simpa using he
  have he2 : (l.map Node.m).isEmpty = false := by simpa using he
  simp only [he1, he2, Bool.false_eq_true, if_false, Bool.not_true, malloc_always]
  have hs := sort_refines (l.map Node.m) [] none ⟨h.count + 1, h.count :: h.live⟩
  simp only [Option.map_none] at hs
  rw [← hs]
  cases e : sort always (l.map Node.m) [] none ⟨h.count + 1, h.count :: h.live⟩ with
  | error x => exact ⟨h, id, rfl⟩
  | ok r =>
    obtain ⟨good, wb, acts, h2⟩ := r
    obtain ⟨L, p2, -⟩ := sort_perm (R := h.count :: (nb l ++ R)) e (p.cons _)
    have fin : ∀ (B : List Nat) (h3 : Heap), h3.live.Perm (B ++ h2.live) → ∃ h4, cleanup l (some h.count) acts h3 = .ok h4 := by
      intro B h3 p3
      obtain ⟨h4, e4, -⟩ := cleanup_perm l (some h.count) acts h3 (B ++ (L ++ R)) (p3.trans (by
        rw [List.perm_iff_count]
        intro y
        have := List.perm_iff_count.1 p2 y
        simp only [List.count_append, List.count_cons, Option.toList, List.count_nil] at this ⊢
        omega))
      exact ⟨h4, e4⟩
    cases good with
    | false =>
      obtain ⟨h4, e4⟩ := fin [] h2 (List.Perm.refl _)
      refine ⟨h, id, ?_⟩
      simp only [Except.map, bind, Except.bind, Bool.not_false, if_true, e4, Bool.false_eq_true, if_false]
      rfl
    | true =>
      refine ⟨h2, fun hw => sort_wf e hw.cons, ?_⟩
      simp only [Except.map, bind, Except.bind, Bool.not_true, Bool.false_eq_true, if_false, if_true]
      split_ifs
      · rfl
      · cases hz : sizeArray wb with
        | error x => rfl
        | ok sizes =>
          simp only [Option.map_map]
          have : ((fun ns : List Bytes => ns.map fun s => some (unstr s)) ∘ fun a : Nat × Nat × List Bytes => a.2.2) =
            fun a => a.2.2.map fun s => some (unstr s) := rfl
          rw [this]
          cases hc : createNN always dl (wb.length / 2 : Nat) sizes (acts.map fun a => a.2.2.map fun s => some (unstr s)) recs h2 with
          | error x => rfl
          | ok q =>
            obtain ⟨net1, r1, h3⟩ := q
            have p3 := create_perm hc
            cases net1 with
            | none =>
              obtain ⟨h4, e4⟩ := fin [] h3 p3
              simp only [e4]; rfl
            | some net1 =>
              obtain ⟨h4, e4⟩ := fin net1.blocks h3 p3
              cases hl : copyLayers bits wb (net1.toNet addr junk).layers with
              | error x => simp only [hl]
              | ok ls => simp only [hl, e4]; rfl

theorem listLoad_always : ∀ (es : List Entry) (l : List Node) (w : Nat) (h : Heap) (R : List Nat), (∀ x ∈ es, x.whole = true) →
    (∀ x ∈ es, x.text.length ≤ maxNameLen) → h.live.Perm (nb l ++ R) →
    ∃ l' h', listLoad always es l w h = .ok (l ++ l', w, h') ∧ l'.map (fun n => (n.text, n.m)) = es.map (fun x => (x.text, x.m)) ∧
      h'.live.Perm (nb (l ++ l') ++ R) ∧ h'.count = h.count + 4 * es.length ∧ (h.WF → h'.WF)
  | [], l, w, h, R, _, _, p => ⟨[], h, by simp [listLoad, pure, Except.pure], rfl, by simpa using p, rfl, id⟩
  | x :: es, l, w, h, R, h1, h2, p => by
    have hx := h1 x (by simp)
    have hn : ¬ maxNameLen < x.text.length := by have := h2 x (by simp); omega
    obtain ⟨l', h', e, q, r, c, w1⟩ := listLoad_always es
      (l ++ [⟨h.count + 2, h.count + 3, h.count, some (h.count + 1), x.text, x.m⟩]) w
      ⟨h.count + 4, (h.count + 3) :: (h.count + 2) :: (h.count + 1) :: h.count :: h.live⟩ R
      (fun y hy => h1 y (List.mem_cons_of_mem _ hy)) (fun y hy => h2 y (List.mem_cons_of_mem _ hy)) (by
        rw [nb_append]
        have : nb [⟨h.count + 2, h.count + 3, h.count, some (h.count + 1), x.text, x.m⟩] =
          [h.count + 2, h.count + 3, h.count, h.count + 1] := rfl
        rw [this, List.perm_iff_count]
        intro y
        have := List.perm_iff_count.1 p y
        simp only [List.count_append, List.count_cons, List.count_nil] at this ⊢
        omega)
    refine ⟨⟨h.count + 2, h.count + 3, h.count, some (h.count + 1), x.text, x.m⟩ :: l', h', ?_, ?_, ?_, ?_, fun hw => w1 hw.cons.cons.cons.cons⟩
    · rw [listLoad]
      simp only [readMatrix, malloc_always, hx, if_true, append, hn, if_false, bind, Except.bind, pure, Except.pure]
      rw [e, List.append_assoc]; rfl
    · simp only [List.map_cons, q]
    · rw [List.append_assoc] at r; exact r
    · rw [c]; simp only [List.length_cons]; omega

/-! ### Saving -/

/-- The blocks of an element of the list to be saved; the data is the network's. -/
def Node.ids3 (n : Node) : List Nat := [n.name, n.array, n.node]

def nb3 (l : List Node) : List Nat := l.flatMap Node.ids3

theorem saveList_perm {ok : Nat → Bool} : ∀ {ps : List (Bytes × NpyArray)} {l l' : List Node} {h h' : Heap} {R : List Nat},
    saveList ok ps l h = .ok (l', h') → h.live.Perm (nb3 l ++ R) →
    ∃ L, h'.live.Perm (nb3 l' ++ (L ++ R)) ∧ L.length + l'.length = ps.length + l.length
  | [], l, l', h, h', R, e, p => by
    simp only [saveList, pure, Except.pure, Except.ok.injEq, Prod.mk.injEq] at e
    obtain ⟨rfl, rfl⟩ := e
    exact ⟨[], p, by simp⟩
  | x :: ps, l, l', h, h', R, e, p => by
    rw [saveList] at e
    split at e
    · cases e
    · rename_i a h1 hm
      obtain ⟨⟨l1, h2⟩, e2, e3⟩ := bind_ok e
      rcases append_ok e2 with ⟨rfl, q⟩ | ⟨n, f, rfl, q⟩
      · obtain ⟨L, p2, c⟩ := saveList_perm (R := a :: R) e3 (by
          rw [q, (malloc_some hm).1]
          exact (p.cons _).trans List.perm_middle.symm)
        exact ⟨L ++ [a], by simpa using p2, by simp at c ⊢; omega⟩
      · obtain ⟨L, p2, c⟩ := saveList_perm (R := R) e3 (by
          rw [q, (malloc_some hm).1, nb3, List.flatMap_append, ← nb3]
          have : List.flatMap Node.ids3 [⟨n, f, a, none, x.1, x.2⟩] = [f, a, n] := rfl
          rw [this, List.perm_iff_count]
          intro y
          have := List.perm_iff_count.1 p y
          simp only [List.count_append, List.count_cons, List.count_nil] at this ⊢
          omega)
        exact ⟨L, p2, by simp at c ⊢; omega⟩

theorem buffers_perm {ok : Nat → Bool} : ∀ {l : List Node} {bs : List Nat} {h h' : Heap}, buffers ok l h = .ok (bs, h') →
    h'.live.Perm (bs ++ h.live) ∧ bs.length = l.length
  | [], bs, h, h', e => by
    simp only [buffers, pure, Except.pure, Except.ok.injEq, Prod.mk.injEq] at e
    obtain ⟨rfl, rfl⟩ := e
    exact ⟨List.Perm.refl _, rfl⟩
  | n :: l, bs, h, h', e => by
    rw [buffers] at e
    split at e
    · cases e
    · rename_i b h1 hm
      obtain ⟨⟨bs1, h2⟩, e2, e⟩ := bind_ok e
      simp only [pure, Except.pure, Except.ok.injEq, Prod.mk.injEq] at e
      obtain ⟨rfl, rfl⟩ := e
      obtain ⟨p, c⟩ := buffers_perm e2
      rw [(malloc_some hm).1] at p
      exact ⟨p.trans List.perm_middle, by simp [c]⟩

theorem zipClose_perm (closed : Bool) : ∀ (bs : List Nat) (h : Heap) (R : List Nat), h.live.Perm (bs ++ R) →
    ∃ h', zipClose closed bs h = .ok h' ∧ h'.live.Perm ((if closed then [] else bs) ++ R)
  | [], h, R, p => ⟨h, rfl, by simpa using p⟩
  | b :: bs, h, R, p => by
    cases closed with
    | false => exact ⟨h, rfl, by simpa using p⟩
    | true =>
      obtain ⟨h1, e1, p1, -⟩ := free_perm p
      obtain ⟨h2, e2, p2⟩ := zipClose_perm true bs h1 R p1
      exact ⟨h2, by simp only [zipClose, if_true, e1, e2, bind, Except.bind], by simpa using p2⟩

theorem saveFree_perm : ∀ (l : List Node) (h : Heap) (R : List Nat), h.live.Perm (nb3 l ++ R) →
    ∃ h', saveFree l h = .ok h' ∧ h'.live.Perm R
  | [], h, R, p => ⟨h, rfl, p⟩
  | n :: l, h, R, p => by
    obtain ⟨h1, e1, p1, -⟩ := free_perm p
    obtain ⟨h2, e2, p2, -⟩ := free_perm p1
    obtain ⟨h3, e3, p3, -⟩ := free_perm p2
    obtain ⟨h4, e4, p4⟩ := saveFree_perm l h3 R p3
    exact ⟨h4, by simp only [saveFree, e1, e2, e3, e4, bind, Except.bind], p4⟩

theorem saveList_always : ∀ (ps : List (Bytes × NpyArray)) (l : List Node) (h : Heap), (∀ x ∈ ps, x.1.length ≤ maxNameLen) →
    ∃ l' h', saveList always ps l h = .ok (l ++ l', h') ∧ l'.map (fun n => (n.text, n.m)) = ps
  | [], l, h, _ => ⟨[], h, by simp [saveList, pure, Except.pure], rfl⟩
  | x :: ps, l, h, h2 => by
    have hn : ¬ maxNameLen < x.1.length := by have := h2 x (by simp); omega
    obtain ⟨l', h', e, q⟩ := saveList_always ps (l ++ [⟨h.count + 1, h.count + 2, h.count, none, x.1, x.2⟩])
      ⟨h.count + 3, (h.count + 2) :: (h.count + 1) :: h.count :: h.live⟩ (fun y hy => h2 y (List.mem_cons_of_mem _ hy))
    refine ⟨⟨h.count + 1, h.count + 2, h.count, none, x.1, x.2⟩ :: l', h', ?_, ?_⟩
    · rw [saveList]
      simp only [malloc_always, append, hn, if_false, bind, Except.bind, pure, Except.pure]
      rw [e, List.append_assoc]; rfl
    · simp only [List.map_cons, q]

theorem buffers_always : ∀ (l : List Node) (h : Heap), ∃ bs h', buffers always l h = .ok (bs, h')
  | [], h => ⟨[], h, rfl⟩
  | n :: l, h => by
    obtain ⟨bs, h', e⟩ := buffers_always l ⟨h.count + 1, h.count :: h.live⟩
    exact ⟨_, h', by simp only [buffers, malloc_always, e, bind, Except.bind]; rfl⟩

end NN.LoadMem
