import Verif.Model.Create
import Mathlib.Data.List.Perm.Basic
import Mathlib.Data.List.Basic
import Mathlib.Tactic.Ring
/-
Lemmas about the allocator, creation and destruction of networks.
-/
namespace NN

/-- The block a pointer owns. -/
def BlkPtr.ids : BlkPtr → List Nat
  | .blk id => [id]
  | _ => []

/-- The blocks of the layers. -/
def blocks (ls : List CLayer) : List Nat := ls.flatMap fun l => l.weight.ids ++ l.bias.ids

/-- Blocks are numbered by their request; none is listed twice. -/
structure Heap.WF (h : Heap) : Prop where
  lt : ∀ i ∈ h.live, i < h.count
  nodup : h.live.Nodup

theorem malloc_ok {ok : Nat → Bool} {h : Heap} (hk : ok h.count = true) :
    h.malloc ok = (some h.count, ⟨h.count + 1, h.count :: h.live⟩) := by simp [Heap.malloc, hk]

theorem malloc_fail {ok : Nat → Bool} {h : Heap} (hk : ok h.count = false) :
    h.malloc ok = (none, ⟨h.count + 1, h.live⟩) := by simp [Heap.malloc, hk]

theorem Heap.WF.cons {h : Heap} (hw : h.WF) : Heap.WF ⟨h.count + 1, h.count :: h.live⟩ where
  lt := by
    intro i hi
    rcases List.mem_cons.1 hi with rfl | hi
    · exact Nat.lt_succ_self _
    · exact Nat.lt_succ_of_lt (hw.lt i hi)
  nodup := List.nodup_cons.2 ⟨fun hm => absurd (hw.lt _ hm) (lt_irrefl _), hw.nodup⟩

theorem Heap.WF.skip {h : Heap} (hw : h.WF) : Heap.WF ⟨h.count + 1, h.live⟩ where
  lt := fun i hi => Nat.lt_succ_of_lt (hw.lt i hi)
  nodup := hw.nodup

theorem free_perm {h : Heap} {id : Nat} {rest : List Nat} (hp : h.live.Perm (id :: rest)) :
    ∃ h', h.free id = .ok h' ∧ h'.live.Perm rest ∧ h'.count = h.count := by
  have hm : id ∈ h.live := hp.mem_iff.2 (by simp)
  refine ⟨{ h with live := h.live.erase id }, by rw [Heap.free, if_pos hm]; rfl, ?_, rfl⟩
  have := hp.erase id
  rwa [List.erase_cons_head] at this

theorem freeIf_perm {h : Heap} {p : BlkPtr} {rest : List Nat} (hi : p ≠ .uninit) (hp : h.live.Perm (p.ids ++ rest)) :
    ∃ h', freeIf p h = .ok h' ∧ h'.live.Perm rest ∧ h'.count = h.count := by
  cases p with
  | uninit => exact absurd rfl hi
  | null => exact ⟨h, rfl, hp, rfl⟩
  | blk id => exact free_perm hp

theorem weightsFree_perm (ls : List CLayer) : ∀ (h : Heap) (rest : List Nat),
    (∀ l ∈ ls, l.weight ≠ .uninit ∧ l.bias ≠ .uninit) → h.live.Perm (blocks ls ++ rest) →
    ∃ h', weightsFree ls h = .ok h' ∧ h'.live.Perm rest ∧ h'.count = h.count := by
  induction ls with
  | nil => intro h rest _ hp; exact ⟨h, rfl, hp, rfl⟩
  | cons l ls ih =>
    intro h rest hi hp
    obtain ⟨i1, i2⟩ := hi l (by simp)
    simp only [blocks, List.flatMap_cons, List.append_assoc] at hp
    obtain ⟨h1, e1, p1, c1⟩ := freeIf_perm i1 hp
    obtain ⟨h2, e2, p2, c2⟩ := freeIf_perm i2 p1
    obtain ⟨h3, e3, p3, c3⟩ := ih h2 rest (fun x hx => hi x (List.mem_cons_of_mem _ hx)) p2
    refine ⟨h3, ?_, p3, by rw [c3, c2, c1]⟩
    simp only [weightsFree, e1, e2, e3, bind, Except.bind]

/-- An uninitialised pointer among the layers is passed to `free`. -/
theorem weightsFree_uninit (ls : List CLayer) : ∀ (h : Heap) (rest : List Nat),
    (∃ l ∈ ls, l.weight = .uninit ∨ l.bias = .uninit) → h.live.Perm (blocks ls ++ rest) →
    weightsFree ls h = .error .uninit := by
  induction ls with
  | nil => rintro h rest ⟨l, hl, -⟩; cases hl
  | cons l ls ih =>
    rintro h rest ⟨x, hx, hu⟩ hp
    simp only [blocks, List.flatMap_cons, List.append_assoc] at hp
    by_cases i1 : l.weight = .uninit
    · simp only [weightsFree, i1, freeIf, bind, Except.bind]
    · obtain ⟨h1, e1, p1, -⟩ := freeIf_perm i1 hp
      by_cases i2 : l.bias = .uninit
      · simp only [weightsFree, e1, i2, bind, Except.bind]; rfl
      · obtain ⟨h2, e2, p2, -⟩ := freeIf_perm i2 p1
        have hx' : x ∈ ls := by
          rcases List.mem_cons.1 hx with rfl | hx
          · rcases hu with hu | hu
            · exact absurd hu i1
            · exact absurd hu i2
          · exact hx
        simp only [weightsFree, e1, e2, bind, Except.bind]
        exact ih h2 rest ⟨x, hx', hu⟩ p2

/-- What does not change while memory is allocated. -/
def CLayer.sizes (l : CLayer) : Int × Int × Option Act := (l.nIn, l.nOut, l.act)

theorem blocks_cons (l : CLayer) (ls : List CLayer) : blocks (l :: ls) = l.weight.ids ++ (l.bias.ids ++ blocks ls) := by
  simp only [blocks, List.flatMap_cons, List.append_assoc]

theorem blocks_uninit (ls : List CLayer) (h : ∀ l ∈ ls, l.weight = .uninit ∧ l.bias = .uninit) : blocks ls = [] := by
  rw [blocks, List.flatMap_eq_nil_iff]
  intro l hl
  obtain ⟨h1, h2⟩ := h l hl
  rw [h1, h2]; rfl

theorem allocWeights_spec (ok : Nat → Bool) (ls : List CLayer) : ∀ h : Heap, h.WF →
    (∀ l ∈ ls, l.nIn * l.nOut < 2 ^ 31) → (∀ l ∈ ls, l.weight = .uninit ∧ l.bias = .uninit) →
    ∃ b ls' h', allocWeights ok ls h = .ok (b, ls', h') ∧ h'.WF ∧ h'.live.Perm (blocks ls' ++ h.live) ∧
      ls'.map CLayer.sizes = ls.map CLayer.sizes ∧ (∀ l ∈ ls', l.bias = .uninit) ∧
      (b = true ↔ ∀ i < ls.length, ok (h.count + i) = true) ∧
      (b = true → h'.count = h.count + ls.length ∧ ∀ l ∈ ls', ∃ id, l.weight = .blk id) := by
  induction ls with
  | nil =>
    intro h hw _ _
    exact ⟨true, [], h, rfl, hw, List.Perm.refl _, rfl, by simp, by simp, by simp⟩
  | cons l ls ih =>
    intro h hw hs hu
    have hl := hs l (by simp)
    obtain ⟨u1, u2⟩ := hu l (by simp)
    by_cases hk : ok h.count = true
    · obtain ⟨b, ls', h', e, w, p, z, bu, bi, bt⟩ := ih ⟨h.count + 1, h.count :: h.live⟩ hw.cons
        (fun x hx => hs x (List.mem_cons_of_mem _ hx)) (fun x hx => hu x (List.mem_cons_of_mem _ hx))
      refine ⟨b, { l with weight := .blk h.count } :: ls', h', ?_, w, ?_, ?_, ?_, ?_, ?_⟩
      · simp only [allocWeights, if_pos hl, malloc_ok hk, e, bind, Except.bind]; rfl
      · rw [blocks_cons]
        refine p.trans ?_
        simp only [u2, BlkPtr.ids, List.nil_append, List.cons_append]
        exact List.perm_middle
      · simp only [List.map_cons, z]; rfl
      · intro x hx
        rcases List.mem_cons.1 hx with rfl | hx
        · exact u2
        · exact bu x hx
      · rw [bi]
        constructor
        · intro h1 i hi
          cases i with
          | zero => exact hk
          | succ i =>
            have := h1 i (by simpa using hi)
            rw [show h.count + (i + 1) = h.count + 1 + i by ring]; exact this
        · intro h1 i hi
          have := h1 (i + 1) (by simpa using hi)
          rw [show h.count + (i + 1) = h.count + 1 + i by ring] at this; exact this
      · intro hb
        obtain ⟨c, a⟩ := bt hb
        refine ⟨by rw [c]; simp; omega, ?_⟩
        intro x hx
        rcases List.mem_cons.1 hx with rfl | hx
        · exact ⟨_, rfl⟩
        · exact a x hx
    · have hk' : ok h.count = false := by simpa using hk
      refine ⟨false, { l with weight := .null } :: ls, ⟨h.count + 1, h.live⟩, ?_, hw.skip, ?_, rfl, ?_, ?_, by simp⟩
      · simp only [allocWeights, if_pos hl, malloc_fail hk']; rfl
      · rw [blocks_cons, blocks_uninit ls (fun x hx => hu x (List.mem_cons_of_mem _ hx))]
        simp only [u2, BlkPtr.ids, List.nil_append]
        exact List.Perm.refl _
      · intro x hx
        rcases List.mem_cons.1 hx with rfl | hx
        · exact u2
        · exact (hu x (List.mem_cons_of_mem _ hx)).2
      · simp only [Bool.false_eq_true, false_iff, not_forall]
        exact ⟨0, by simp, by simpa using hk'⟩

theorem allocBiases_spec (ok : Nat → Bool) (ls : List CLayer) : ∀ h : Heap, h.WF →
    (∀ l ∈ ls, ∃ id, l.weight = .blk id) → (∀ l ∈ ls, l.bias = .uninit) → ∀ old : List Nat,
    h.live.Perm (blocks ls ++ old) →
    ∃ b ls' h', allocBiases ok ls h = .ok (b, ls', h') ∧ h'.WF ∧ h'.live.Perm (blocks ls' ++ old) ∧
      ls'.map CLayer.sizes = ls.map CLayer.sizes ∧ (∀ l ∈ ls', ∃ id, l.weight = .blk id) ∧
      (b = true ↔ ∀ i < ls.length, ok (h.count + i) = true) ∧
      (b = true → h'.count = h.count + ls.length ∧ ∀ l ∈ ls', ∃ id, l.bias = .blk id) ∧
      (b = false → (∀ i, i + 1 < ls.length → ok (h.count + i) = true) → ∀ l ∈ ls', l.bias ≠ .uninit) ∧
      (∀ i, i + 1 < ls.length → ok (h.count + i) = false → ∃ l ∈ ls', l.bias = .uninit) := by
  induction ls with
  | nil =>
    intro h hw _ _ old hp
    exact ⟨true, [], h, rfl, hw, hp, rfl, by simp, by simp, by simp, by simp, by simp⟩
  | cons l ls ih =>
    intro h hw hwt hu old hp
    have u2 := hu l (by simp)
    by_cases hk : ok h.count = true
    · rw [blocks_cons, u2] at hp
      simp only [BlkPtr.ids, List.nil_append, List.append_assoc] at hp
      obtain ⟨b, ls', h', e, w, p, z, wu, bi, bt, bf, bx⟩ := ih ⟨h.count + 1, h.count :: h.live⟩ hw.cons
        (fun x hx => hwt x (List.mem_cons_of_mem _ hx)) (fun x hx => hu x (List.mem_cons_of_mem _ hx))
        (h.count :: (l.weight.ids ++ old)) (by
          refine (List.Perm.cons _ (hp.trans ?_)).trans List.perm_middle.symm
          rw [← List.append_assoc, ← List.append_assoc]
          exact List.Perm.append_right _ List.perm_append_comm)
      refine ⟨b, { l with bias := .blk h.count } :: ls', h', ?_, w, ?_, ?_, ?_, ?_, ?_, ?_, ?_⟩
      · simp only [allocBiases, malloc_ok hk, e, bind, Except.bind]; rfl
      · rw [blocks_cons]
        refine p.trans ?_
        simp only [show (BlkPtr.blk h.count).ids = [h.count] from rfl, List.append_assoc]
        refine List.perm_middle.trans ?_
        refine List.Perm.trans ?_ List.perm_middle.symm
        refine List.Perm.cons _ ?_
        show (blocks ls' ++ (l.weight.ids ++ old)).Perm (l.weight.ids ++ (blocks ls' ++ old))
        rw [← List.append_assoc, ← List.append_assoc]
        exact List.Perm.append_right _ List.perm_append_comm
      · simp only [List.map_cons, z]; rfl
      · intro x hx
        rcases List.mem_cons.1 hx with rfl | hx
        · exact hwt l (by simp)
        · exact wu x hx
      · rw [bi]
        constructor
        · intro h1 i hi
          cases i with
          | zero => exact hk
          | succ i =>
            have := h1 i (by simpa using hi)
            rw [show h.count + (i + 1) = h.count + 1 + i by ring]; exact this
        · intro h1 i hi
          have := h1 (i + 1) (by simpa using hi)
          rw [show h.count + (i + 1) = h.count + 1 + i by ring] at this; exact this
      · intro hb
        obtain ⟨c, a⟩ := bt hb
        refine ⟨by rw [c]; simp; omega, ?_⟩
        intro x hx
        rcases List.mem_cons.1 hx with rfl | hx
        · exact ⟨_, rfl⟩
        · exact a x hx
      · intro hb hi x hx
        rcases List.mem_cons.1 hx with rfl | hx
        · simp
        · refine bf hb (fun i hi' => ?_) x hx
          have := hi (i + 1) (by simpa using hi')
          rw [show h.count + (i + 1) = h.count + 1 + i by ring] at this; exact this
      · intro i hi hf
        cases i with
        | zero => rw [Nat.add_zero, hk] at hf; cases hf
        | succ i =>
          rw [show h.count + (i + 1) = h.count + 1 + i by ring] at hf
          obtain ⟨x, hx, hxu⟩ := bx i (by simpa using hi) hf
          exact ⟨x, List.mem_cons_of_mem _ hx, hxu⟩
    · have hk' : ok h.count = false := by simpa using hk
      refine ⟨false, { l with bias := .null } :: ls, ⟨h.count + 1, h.live⟩, ?_, hw.skip, ?_, rfl, ?_, ?_, by simp, ?_, ?_⟩
      · simp only [allocBiases, malloc_fail hk']; rfl
      · rw [blocks_cons, u2] at hp
        rw [blocks_cons]
        exact hp
      · intro x hx
        rcases List.mem_cons.1 hx with rfl | hx
        · exact hwt l (by simp)
        · exact hwt x (List.mem_cons_of_mem _ hx)
      · simp only [Bool.false_eq_true, false_iff, not_forall]
        exact ⟨0, by simp, by simpa using hk'⟩
      · intro _ hi x hx
        rcases List.mem_cons.1 hx with rfl | hx
        · simp
        · have := hi 0 (by have := List.length_pos_of_mem hx; simp; omega)
          rw [Nat.add_zero, hk'] at this; cases this
      · intro i hi _
        have : 0 < ls.length := by simp at hi; omega
        obtain ⟨x, hx⟩ := List.exists_mem_of_length_pos this
        exact ⟨x, List.mem_cons_of_mem _ hx, hu x (List.mem_cons_of_mem _ hx)⟩

theorem readSize_at (pre xs : List Int) (x : Int) : readSize (pre ++ x :: xs) pre.length = .ok x := by
  simp [readSize, pure, Except.pure]

theorem checkSizes_eq (xs : List Int) : ∀ (pre : List Int) (k : Nat), xs.length = k + 1 →
    checkSizes (pre ++ xs) pre.length k = .ok (xs.all fun s => decide (1 ≤ s)) := by
  induction xs with
  | nil => intro pre k h; simp at h
  | cons x xs ih =>
    intro pre k h
    cases k with
    | zero =>
      have : xs = [] := by simpa using h
      subst this
      simp only [checkSizes, readSize_at, bind, Except.bind, pure, Except.pure, List.all_cons, List.all_nil, Bool.and_true,
        Except.ok.injEq]
      by_cases hx : x < 1
      · simp [hx]
      · simp [hx]; omega
    | succ k =>
      simp only [checkSizes, readSize_at, bind, Except.bind, List.all_cons]
      by_cases hx : x < 1
      · rw [if_pos hx]
        have : ¬ 1 ≤ x := by omega
        simp [this, pure, Except.pure]
      · rw [if_neg hx]
        have h1 : 1 ≤ x := by omega
        have := ih (pre ++ [x]) k (by simpa using h)
        simp only [List.append_assoc, List.singleton_append, List.length_append, List.length_singleton] at this
        rw [this]
        simp [h1]

/-- A fresh layer. -/
def freshLayer (a b : Int) : CLayer := ⟨a, b, .uninit, .uninit, none⟩

theorem layerSizes_eq (k : Nat) : ∀ (pre xs : List Int), xs.length = k + 1 →
    layerSizes (pre ++ xs) pre.length k = .ok (List.zipWith freshLayer xs xs.tail) := by
  induction k with
  | zero =>
    intro pre xs h
    match xs, h with
    | [x], _ => rfl
  | succ k ih =>
    intro pre xs h
    match xs, h with
    | x :: y :: xs, h =>
      have h2 := ih (pre ++ [x]) (y :: xs) (by simpa using h)
      have h3 := readSize_at (pre ++ [x]) xs y
      simp only [List.append_assoc, List.singleton_append, List.length_append, List.length_singleton] at h2 h3
      simp only [layerSizes, readSize_at, h2, h3, bind, Except.bind]
      rfl

end NN
