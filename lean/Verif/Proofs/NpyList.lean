import Verif.Model.NpyList
import Mathlib.Data.List.Basic
/-
The linked list of arrays as a Lean list: representation predicate and frame lemmas.
-/
namespace NN

/-- One element of a list: the blocks of the node, the array and the name. -/
structure Item where
  node : Nat
  array : Option Nat
  name : Nat

/-- `p` is a list with the nodes of `items`, ending in NULL. -/
def IsList (h : LHeap) : Option Nat → List Item → Prop
  | none, [] => True
  | some p, it :: its => it.node = p ∧ ∃ next, h.obj p = some (.node it.array (some it.name) next) ∧ IsList h next its
  | _, _ => False

/-- The blocks `npy_array_free` has to free. -/
def arrayIds (h : LHeap) : Option Nat → List Nat
  | none => []
  | some a => a :: match h.obj a with
    | some (.array m d) => if m.mapped then [] else d.toList
    | _ => []

/-- NULL, or an array whose data (unless mapped, or NULL) is in a block of its own. -/
def ArrayOk (h : LHeap) : Option Nat → Prop
  | none => True
  | some a => ∃ m d, h.obj a = some (.array m d) ∧ (m.mapped = false → ∀ x, d = some x → ∃ b, h.obj x = some (.bytes b))

/-- The blocks of an element. -/
def owned (h : LHeap) (it : Item) : List Nat := it.node :: it.name :: arrayIds h it.array

structure ItemOk (h : LHeap) (it : Item) : Prop where
  name : ∃ b, h.obj it.name = some (.bytes b)
  array : ArrayOk h it.array

/-- A proper list: all blocks are allocated, and no two of them are the same. -/
structure ListOk (h : LHeap) (p : Option Nat) (items : List Item) : Prop where
  list : IsList h p items
  each : ∀ it ∈ items, ItemOk h it
  nodup : (items.flatMap (owned h)).Nodup

/-- Blocks are numbered in the order of the requests. -/
def LHeap.WF (h : LHeap) : Prop := ∀ p, h.count ≤ p → h.obj p = none

theorem lt_count {h : LHeap} (hw : h.WF) {p : Nat} {o : Obj} (e : h.obj p = some o) : p < h.count := by
  by_contra hc
  rw [hw p (by omega)] at e
  cases e

theorem isList_congr {h h' : LHeap} : ∀ (items : List Item) (p : Option Nat),
    (∀ it ∈ items, h'.obj it.node = h.obj it.node) → IsList h p items → IsList h' p items
  | [], none, _, _ => trivial
  | [], some _, _, hl => hl
  | _ :: _, none, _, hl => hl
  | it :: its, some p, he, ⟨e, next, hn, hl⟩ =>
    ⟨e, next, by rw [← e, he it (by simp), e]; exact hn, isList_congr its next (fun x hx => he x (List.mem_cons_of_mem _ hx)) hl⟩

theorem arrayIds_congr {h h' : LHeap} {a : Option Nat} (he : ∀ q ∈ arrayIds h a, h'.obj q = h.obj q) :
    arrayIds h' a = arrayIds h a := by
  cases a with
  | none => rfl
  | some a => simp only [arrayIds, he a (by simp [arrayIds])]

theorem arrayOk_congr {h h' : LHeap} {a : Option Nat} (he : ∀ q ∈ arrayIds h a, h'.obj q = h.obj q) (ha : ArrayOk h a) :
    ArrayOk h' a := by
  cases a with
  | none => trivial
  | some a =>
    obtain ⟨m, d, e, hd⟩ := ha
    refine ⟨m, d, by rw [he a (by simp [arrayIds])]; exact e, fun hm x hx => ?_⟩
    obtain ⟨b, hb⟩ := hd hm x hx
    exact ⟨b, by rw [he x (by simp [arrayIds, e, hm, hx])]; exact hb⟩

theorem owned_congr {h h' : LHeap} {it : Item} (he : ∀ q ∈ owned h it, h'.obj q = h.obj q) : owned h' it = owned h it := by
  rw [owned, owned, arrayIds_congr fun q hq => he q (by simp [owned, hq])]

theorem itemOk_congr {h h' : LHeap} {it : Item} (he : ∀ q ∈ owned h it, h'.obj q = h.obj q) (hi : ItemOk h it) :
    ItemOk h' it where
  name := by
    obtain ⟨b, hb⟩ := hi.name
    exact ⟨b, by rw [he _ (by simp [owned])]; exact hb⟩
  array := arrayOk_congr (fun q hq => he q (by simp [owned, hq])) hi.array

theorem flatMap_owned_congr {h h' : LHeap} {items : List Item}
    (he : ∀ q ∈ items.flatMap (owned h), h'.obj q = h.obj q) : items.flatMap (owned h') = items.flatMap (owned h) := by
  induction items with
  | nil => rfl
  | cons it its ih =>
    simp only [List.flatMap_cons, List.mem_append] at he ⊢
    rw [owned_congr fun q hq => he q (.inl hq), ih fun q hq => he q (.inr hq)]

/-- A list does not change if its blocks do not. -/
theorem listOk_congr {h h' : LHeap} {p : Option Nat} {items : List Item}
    (he : ∀ q ∈ items.flatMap (owned h), h'.obj q = h.obj q) (hl : ListOk h p items) : ListOk h' p items where
  list := isList_congr items p (fun it hit => he _ (List.mem_flatMap.2 ⟨it, hit, by simp [owned]⟩)) hl.list
  each := fun it hit => itemOk_congr (fun q hq => he q (List.mem_flatMap.2 ⟨it, hit, hq⟩)) (hl.each it hit)
  nodup := by rw [flatMap_owned_congr he]; exact hl.nodup

/-- Blocks that are not nodes keep their contents. -/
def Ext (h h' : LHeap) : Prop := ∀ q o, h.obj q = some o → (∀ a f n, o ≠ .node a f n) → h'.obj q = some o

theorem arrayOk_ext {h h' : LHeap} (he : Ext h h') {a : Option Nat} (ha : ArrayOk h a) :
    ArrayOk h' a ∧ arrayIds h' a = arrayIds h a := by
  cases a with
  | none => exact ⟨trivial, rfl⟩
  | some a =>
    obtain ⟨m, d, e, hd⟩ := ha
    have e' := he a _ e (by intros; simp)
    refine ⟨⟨m, d, e', fun hm x hx => ?_⟩, by simp only [arrayIds, e, e']⟩
    obtain ⟨b, hb⟩ := hd hm x hx
    exact ⟨b, he x _ hb (by intros; simp)⟩

theorem itemOk_ext {h h' : LHeap} (he : Ext h h') {it : Item} (hi : ItemOk h it) : ItemOk h' it ∧ owned h' it = owned h it := by
  obtain ⟨b, hb⟩ := hi.name
  obtain ⟨h1, h2⟩ := arrayOk_ext he hi.array
  exact ⟨⟨⟨b, he _ _ hb (by intros; simp)⟩, h1⟩, by rw [owned, owned, h2]⟩

theorem flatMap_owned_ext {h h' : LHeap} (he : Ext h h') {items : List Item} (hi : ∀ it ∈ items, ItemOk h it) :
    items.flatMap (owned h') = items.flatMap (owned h) := by
  induction items with
  | nil => rfl
  | cons it its ih =>
    simp only [List.flatMap_cons]
    rw [(itemOk_ext he (hi it (by simp))).2, ih fun x hx => hi x (List.mem_cons_of_mem _ hx)]

/-! ### Walking -/

theorem node_eq {h : LHeap} {p : Nat} {a f n : Option Nat} (e : h.obj p = some (.node a f n)) : h.node p = .ok (a, f, n) := by
  simp only [LHeap.node, e]
  rfl

theorem lastNode_eq {h : LHeap} (items : List Item) : ∀ (it : Item) (fuel : Nat), IsList h (some it.node) (it :: items) →
    items.length < fuel →
    ∃ last, lastNode h fuel it.node = .ok last.node ∧ (it :: items).getLast? = some last ∧
      h.obj last.node = some (.node last.array (some last.name) none) := by
  induction items with
  | nil =>
    intro it fuel hl hf
    obtain ⟨-, next, hn, hl⟩ := hl
    cases fuel with
    | zero => simp at hf
    | succ fuel =>
      cases next with
      | some q => exact absurd hl (by simp [IsList])
      | none =>
        refine ⟨it, ?_, rfl, hn⟩
        rw [lastNode, node_eq hn]
        rfl
  | cons it2 its ih =>
    intro it fuel hl hf
    obtain ⟨-, next, hn, hl⟩ := hl
    cases fuel with
    | zero => simp at hf
    | succ fuel =>
      cases next with
      | none => exact absurd hl (by simp [IsList])
      | some q =>
        obtain ⟨e, hl'⟩ := hl
        subst e
        obtain ⟨last, h1, h2, h3⟩ := ih it2 fuel ⟨rfl, hl'⟩ (by simpa using hf)
        refine ⟨last, ?_, by rw [List.getLast?_cons_cons]; exact h2, h3⟩
        rw [lastNode, node_eq hn]
        exact h1

/-- Linking a node behind the last one. -/
theorem isList_snoc {h h' : LHeap} (new : Item) (hnew : h'.obj new.node = some (.node new.array (some new.name) none))
    (items : List Item) : ∀ (it last : Item), IsList h (some it.node) (it :: items) → ((it :: items).map Item.node).Nodup →
    (it :: items).getLast? = some last →
    h'.obj last.node = some (.node last.array (some last.name) (some new.node)) →
    (∀ x ∈ it :: items, x.node ≠ last.node → h'.obj x.node = h.obj x.node) →
    IsList h' (some it.node) (it :: items ++ [new]) := by
  induction items with
  | nil =>
    intro it last _ _ hlast hl' _
    simp only [List.getLast?_singleton, Option.some.injEq] at hlast
    subst hlast
    exact ⟨rfl, some new.node, hl', rfl, none, hnew, trivial⟩
  | cons it2 its ih =>
    intro it last hl hnd hlast hl' hfr
    obtain ⟨-, next, hn, hl⟩ := hl
    cases next with
    | none => exact absurd hl (by simp [IsList])
    | some q =>
      obtain ⟨e, hl2⟩ := hl
      subst e
      rw [List.getLast?_cons_cons] at hlast
      have hmem : last ∈ it2 :: its := List.mem_of_getLast? hlast
      have hne : it.node ≠ last.node := by
        intro e
        rw [List.map_cons, List.nodup_cons] at hnd
        exact hnd.1 (e ▸ List.mem_map_of_mem hmem)
      rw [List.map_cons, List.nodup_cons] at hnd
      refine ⟨rfl, some it2.node, by rw [hfr it (by simp) hne]; exact hn, ?_⟩
      exact ih it2 last ⟨rfl, hl2⟩ hnd.2 hlast hl' (fun x hx => hfr x (List.mem_cons_of_mem _ hx))

theorem nodes_nodup {h : LHeap} {items : List Item} (hn : (items.flatMap (owned h)).Nodup) : (items.map Item.node).Nodup := by
  induction items with
  | nil => simp
  | cons it its ih =>
    rw [List.flatMap_cons, List.nodup_append] at hn
    rw [List.map_cons, List.nodup_cons]
    refine ⟨fun hm => ?_, ih hn.2.1⟩
    obtain ⟨x, hx, e⟩ := List.mem_map.1 hm
    exact hn.2.2 it.node (by simp [owned]) it.node (List.mem_flatMap.2 ⟨x, hx, by simp [owned, e]⟩) rfl

theorem owned_lt {h : LHeap} (hw : h.WF) {p : Option Nat} {items : List Item} (hl : ListOk h p items) :
    ∀ q ∈ items.flatMap (owned h), q < h.count := by
  have hnode : ∀ (items : List Item) (p : Option Nat), IsList h p items → ∀ it ∈ items, it.node < h.count := by
    intro items
    induction items with
    | nil => intro p _ it hit; cases hit
    | cons it its ih =>
      intro p hl x hx
      cases p with
      | none => exact absurd hl (by simp [IsList])
      | some p =>
        obtain ⟨e, next, hn, hl⟩ := hl
        rcases List.mem_cons.1 hx with rfl | hx
        · rw [e]; exact lt_count hw hn
        · exact ih next hl x hx
  intro q hq
  obtain ⟨it, hit, hq⟩ := List.mem_flatMap.1 hq
  simp only [owned, List.mem_cons] at hq
  rcases hq with rfl | rfl | hq
  · exact hnode items p hl.list it hit
  · obtain ⟨b, hb⟩ := (hl.each it hit).name
    exact lt_count hw hb
  · have ha := (hl.each it hit).array
    cases hc : it.array with
    | none => rw [hc] at hq; cases hq
    | some a =>
      rw [hc] at hq ha
      obtain ⟨m, d, e, hd⟩ := ha
      simp only [arrayIds, e, List.mem_cons] at hq
      rcases hq with rfl | hq
      · exact lt_count hw e
      · split_ifs at hq with hm
        · cases hq
        · obtain ⟨b, hb⟩ := hd (by simpa using hm) q (by simpa using hq)
          exact lt_count hw hb

theorem arrayIds_lt {h : LHeap} (hw : h.WF) {a : Option Nat} (ha : ArrayOk h a) : ∀ q ∈ arrayIds h a, q < h.count := by
  intro q hq
  cases a with
  | none => cases hq
  | some a =>
    obtain ⟨m, d, e, hd⟩ := ha
    simp only [arrayIds, e, List.mem_cons] at hq
    rcases hq with rfl | hq
    · exact lt_count hw e
    · split_ifs at hq with hm
      · cases hq
      · obtain ⟨b, hb⟩ := hd (by simpa using hm) q (by simpa using hq)
        exact lt_count hw hb

/-! ### A new node -/

/-- The heap after `listNew` succeeded. -/
def newHeap (h : LHeap) (array : Option Nat) (text : Bytes) : LHeap :=
  ⟨h.count + 2, fun q => if q = h.count then some (.node array (some (h.count + 1)) none)
    else if q = h.count + 1 then some (.bytes text) else h.obj q⟩

theorem listNew_eq {ok : Nat → Bool} {h : LHeap} {array : Option Nat} {text : Bytes} (h1 : ok h.count = true)
    (h2 : ok (h.count + 1) = true) (ht : text.length ≤ 80) :
    listNew ok h array text = .ok (some h.count, newHeap h array text) := by
  simp only [listNew, LHeap.malloc, h1, if_true, vaArgsFilename, maxNameLen, if_neg (Nat.not_lt.2 ht), h2, bind, Except.bind,
    pure, Except.pure, newHeap]
  congr 4
  funext q
  by_cases hq : q = h.count
  · simp [hq]
  · simp [hq]

/-! ### Freeing -/

/-- The heap without some blocks. -/
def LHeap.without (h : LHeap) (ids : List Nat) : LHeap := { h with obj := fun q => if q ∈ ids then none else h.obj q }

theorem without_nil (h : LHeap) : h.without [] = h := by
  simp [LHeap.without]

theorem without_without (h : LHeap) (a b : List Nat) : (h.without a).without b = h.without (a ++ b) := by
  simp only [LHeap.without, List.mem_append]
  congr 1
  funext q
  by_cases h1 : q ∈ b <;> by_cases h2 : q ∈ a <;> simp [h1, h2]

theorem without_obj {h : LHeap} {ids : List Nat} {q : Nat} (hq : q ∉ ids) : (h.without ids).obj q = h.obj q := if_neg hq

theorem free_eq {h : LHeap} {p : Nat} {o : Obj} (e : h.obj p = some o) : h.free (some p) = .ok (h.without [p]) := by
  simp only [LHeap.free, e, LHeap.without, List.mem_singleton]
  rfl

theorem arrayFree_eq {h : LHeap} {a : Nat} (ha : ArrayOk h (some a)) (hnd : (arrayIds h (some a)).Nodup) :
    arrayFree h a = .ok (h.without (arrayIds h (some a))) := by
  obtain ⟨m, d, e, hd⟩ := ha
  simp only [arrayFree, e]
  simp only [arrayIds, e] at hnd ⊢
  cases hm : m.mapped with
  | true =>
    simp only [if_true, bind, Except.bind, pure, Except.pure]
    rw [free_eq e]
  | false =>
    rw [hm] at hnd
    simp only [Bool.false_eq_true, if_false] at hnd ⊢
    cases d with
    | none =>
      show h.free (some a) = _
      rw [free_eq e]; rfl
    | some x =>
      obtain ⟨b, hb⟩ := hd hm x rfl
      have hne : a ≠ x := by
        intro h
        simp [h] at hnd
      have e2 : (h.without [x]).obj a = some (.array m (some x)) := by
        rw [without_obj (by simpa using hne)]; exact e
      simp only [bind, Except.bind, free_eq hb, free_eq e2, without_without]
      congr 1
      simp only [LHeap.without]
      congr 1
      funext q
      simp only [List.cons_append, List.nil_append, List.mem_cons, List.not_mem_nil, or_false, Option.toList_some]
      by_cases h1 : q = x <;> by_cases h2 : q = a <;> simp [h1, h2]

/-- `npy_array_list_free` frees the blocks of the list. -/
theorem listFree_eq (items : List Item) : ∀ (fuel : Nat) (h : LHeap) (p : Option Nat), ListOk h p items →
    items.length ≤ fuel → listFree fuel h p = .ok (h.without (items.flatMap (owned h))) := by
  induction items with
  | nil =>
    intro fuel h p hl _
    cases p with
    | some p => exact absurd hl.list (by simp [IsList])
    | none => cases fuel <;> simp [listFree, without_nil, pure, Except.pure]
  | cons it its ih =>
    intro fuel h p hl hf
    cases p with
    | none => exact absurd hl.list (by simp [IsList])
    | some p =>
      obtain ⟨e, next, hn, hlist⟩ := hl.list
      subst e
      cases fuel with
      | zero => simp at hf
      | succ fuel =>
        have hnd := hl.nodup
        rw [List.flatMap_cons, List.nodup_append] at hnd
        obtain ⟨n1, n2, n3⟩ := hnd
        have n3' : ∀ q ∈ owned h it, q ∉ its.flatMap (owned h) := fun q h1 h2 => n3 q h1 q h2 rfl
        obtain ⟨b, hb⟩ := (hl.each it (by simp)).name
        have ha := (hl.each it (by simp)).array
        simp only [owned, List.nodup_cons, List.mem_cons, not_or] at n1
        obtain ⟨⟨c1, c2⟩, c3, c4⟩ := n1
        -- the array
        have hfa : arrayFreeIf h it.array = .ok (h.without (arrayIds h it.array)) := by
          cases hc : it.array with
          | none => simp [arrayFreeIf, arrayIds, without_nil, pure, Except.pure]
          | some a =>
            rw [hc] at ha c4
            exact arrayFree_eq ha c4
        -- the name
        have hb1 : (h.without (arrayIds h it.array)).obj it.name = some (.bytes b) := by
          rw [without_obj c3]; exact hb
        -- the rest
        set ids := arrayIds h it.array ++ [it.name] with hids
        have hsub : ∀ q ∈ ids, q ∈ owned h it := by
          intro q hq
          simp only [hids, List.mem_append, List.mem_singleton] at hq
          simp only [owned, List.mem_cons]
          tauto
        have hagree : ∀ q ∈ its.flatMap (owned h), (h.without ids).obj q = h.obj q := by
          intro q hq
          exact without_obj fun hc => n3' q (hsub q hc) hq
        have hl2 : ListOk (h.without ids) next its := listOk_congr hagree
          ⟨hlist, fun x hx => hl.each x (List.mem_cons_of_mem _ hx), n2⟩
        have hrest := ih fuel (h.without ids) next hl2 (by simpa using hf)
        rw [flatMap_owned_congr hagree, without_without] at hrest
        have hnode : (h.without (ids ++ its.flatMap (owned h))).obj it.node = some (.node it.array (some it.name) next) := by
          rw [without_obj]
          · exact hn
          · simp only [hids, List.mem_append, List.mem_singleton, not_or]
            exact ⟨⟨c2, c1⟩, n3' it.node (by simp [owned])⟩
        rw [listFree, node_eq hn]
        simp only [bind, Except.bind]
        rw [hfa]
        simp only [free_eq hb1, without_without]
        rw [← hids, hrest]
        simp only [free_eq hnode, without_without]
        congr 1
        simp only [LHeap.without, List.flatMap_cons, owned, hids]
        congr 1
        funext q
        simp only [List.mem_append, List.mem_singleton, List.mem_cons]
        congr 1
        apply propext
        simp only [List.not_mem_nil, or_false]
        tauto

end NN
