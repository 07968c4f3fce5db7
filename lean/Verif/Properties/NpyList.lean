import Verif.Proofs.NpyList
import Verif.Properties.Npy
import Mathlib.Data.Countable.Basic
import Mathlib.Logic.Equiv.List
/-
C48: the linked list of arrays.  C47: archives.  C60: compression.
-/
namespace NN

/-! ### C48 -/

/-- The name and the array of an element. -/
def itemOf (h : LHeap) (it : Item) : Option Bytes × Option NpyArray :=
  (match h.obj it.name with
    | some (.bytes b) => some b
    | _ => none,
   match it.array with
    | none => none
    | some a => match h.obj a with
      | some (.array m _) => some m
      | _ => none)

/-- The list as a value. -/
def contents (h : LHeap) (items : List Item) : List (Option Bytes × Option NpyArray) := items.map (itemOf h)

theorem itemOf_ext {h h' : LHeap} (he : Ext h h') {it : Item} (hi : ItemOk h it) : itemOf h' it = itemOf h it := by
  obtain ⟨b, hb⟩ := hi.name
  have h1 := he _ _ hb (by intros; simp)
  have ha := hi.array
  simp only [itemOf, hb, h1]
  cases hc : it.array with
  | none => rfl
  | some a =>
    rw [hc] at ha
    obtain ⟨m, d, e, -⟩ := ha
    simp only [e, he _ _ e (by intros; simp)]

theorem contents_ext {h h' : LHeap} (he : Ext h h') {items : List Item} (hi : ∀ it ∈ items, ItemOk h it) :
    contents h' items = contents h items :=
  List.map_congr_left fun it hit => itemOf_ext he (hi it hit)

/-- The array to be added: an array of its own, not yet part of the list. -/
structure NewArray (h : LHeap) (items : List Item) (array : Option Nat) : Prop where
  ok : ArrayOk h array
  nodup : (arrayIds h array).Nodup
  fresh : ∀ q ∈ arrayIds h array, q ∉ items.flatMap (owned h)

theorem newHeap_wf {h : LHeap} (hw : h.WF) (array : Option Nat) (text : Bytes) : (newHeap h array text).WF := by
  intro p hp
  simp only [newHeap] at hp ⊢
  rw [if_neg (by omega), if_neg (by omega)]
  exact hw p (by omega)

theorem newHeap_old {h : LHeap} (array : Option Nat) (text : Bytes) {q : Nat} (hq : q < h.count) :
    (newHeap h array text).obj q = h.obj q := by
  simp only [newHeap]
  rw [if_neg (by omega), if_neg (by omega)]

theorem newHeap_ext {h : LHeap} (hw : h.WF) (array : Option Nat) (text : Bytes) : Ext h (newHeap h array text) := by
  intro q o e _
  rw [newHeap_old array text (lt_count hw e)]
  exact e

/-- The parts of `ListOk` for the new element, whatever happened to the `next` fields. -/
theorem new_parts {h h' : LHeap} (hw : h.WF) {list : Option Nat} {items : List Item} {array : Option Nat} {text : Bytes}
    (hl : ListOk h list items) (ha : NewArray h items array) (he : Ext (newHeap h array text) h') :
    (∀ it ∈ items, ItemOk h' it) ∧ ItemOk h' ⟨h.count, array, h.count + 1⟩ ∧
    items.flatMap (owned h') = items.flatMap (owned h) ∧
    owned h' ⟨h.count, array, h.count + 1⟩ = h.count :: (h.count + 1) :: arrayIds h array ∧
    contents h' items = contents h items ∧
    itemOf h' ⟨h.count, array, h.count + 1⟩ = (some text, (itemOf h ⟨0, array, 0⟩).2) := by
  have hext : Ext h h' := fun q o e hn => he q o (newHeap_ext hw array text q o e hn) hn
  have hname : h'.obj (h.count + 1) = some (.bytes text) := he _ _ (by simp [newHeap]) (by intros; simp)
  obtain ⟨a1, a2⟩ := arrayOk_ext hext ha.ok
  refine ⟨fun it hit => (itemOk_ext hext (hl.each it hit)).1, ⟨⟨text, hname⟩, a1⟩, flatMap_owned_ext hext hl.each, ?_,
    contents_ext hext hl.each, ?_⟩
  · simp only [owned, a2]
  · simp only [itemOf, hname]
    have hok := ha.ok
    cases array with
    | none => rfl
    | some a =>
      obtain ⟨m, d, e, -⟩ := hok
      simp only [e, hext _ _ e (by intros; simp)]

theorem new_nodup {h : LHeap} (hw : h.WF) {list : Option Nat} {items : List Item} {array : Option Nat}
    (hl : ListOk h list items) (ha : NewArray h items array) :
    (items.flatMap (owned h) ++ (h.count :: (h.count + 1) :: arrayIds h array)).Nodup := by
  have h1 := owned_lt hw hl
  have h2 := arrayIds_lt hw ha.ok
  rw [List.nodup_append]
  refine ⟨hl.nodup, ?_, ?_⟩
  · simp only [List.nodup_cons, List.mem_cons, not_or]
    refine ⟨⟨by omega, fun hc => ?_⟩, fun hc => ?_, ha.nodup⟩
    · exact absurd (h2 _ hc) (by omega)
    · exact absurd (h2 _ hc) (by omega)
  · rintro a ha' b hb rfl
    simp only [List.mem_cons] at hb
    rcases hb with rfl | rfl | hb
    · exact absurd (h1 _ ha') (by omega)
    · exact absurd (h1 _ ha') (by omega)
    · exact ha.fresh a hb ha'

/-- **C48** `npy_array_list_append` adds the array with its name at the end; the other blocks of the heap are unchanged
(of the list itself, only the last node). -/
theorem C48_append {ok : Nat → Bool} {fuel : Nat} {h : LHeap} {list array : Option Nat} {text : Bytes} {items : List Item}
    (hw : h.WF) (hl : ListOk h list items) (ha : NewArray h items array) (hfuel : items.length ≤ fuel)
    (h1 : ok h.count = true) (h2 : ok (h.count + 1) = true) (ht : text.length ≤ 80) :
    ∃ list' h', listAppend ok fuel h list array text = .ok (list', h') ∧ h'.WF ∧
      ListOk h' list' (items ++ [⟨h.count, array, h.count + 1⟩]) ∧
      contents h' (items ++ [⟨h.count, array, h.count + 1⟩]) = contents h items ++ [(some text, (itemOf h ⟨0, array, 0⟩).2)] ∧
      (∀ q < h.count, (∀ it ∈ items, q ≠ it.node) → h'.obj q = h.obj q) := by
  have hnewobj : (newHeap h array text).obj h.count = some (.node array (some (h.count + 1)) none) := by simp [newHeap]
  cases items with
  | nil =>
    cases list with
    | some p => exact absurd hl.list (by simp [IsList])
    | none =>
      have hset : (newHeap h array text).setNext h.count none = .ok (newHeap h array text) := by
        simp only [LHeap.setNext, node_eq hnewobj, bind, Except.bind, pure, Except.pure]
        congr 1
        show LHeap.mk _ _ = LHeap.mk _ _
        congr 1
        funext q
        by_cases hq : q = h.count
        · simp only [hq, if_true]
        · simp only [if_neg hq, newHeap]
      obtain ⟨p1, p2, p3, p4, p5, p6⟩ := new_parts (h' := newHeap h array text) hw hl ha (fun q o e _ => e)
      refine ⟨some h.count, newHeap h array text, ?_, newHeap_wf hw array text, ⟨?_, ?_, ?_⟩, ?_, fun q hq _ => newHeap_old array text hq⟩
      · simp only [listAppend, listNew_eq h1 h2 ht, bind, Except.bind, listLink, hset]
        rfl
      · exact ⟨rfl, none, hnewobj, trivial⟩
      · intro it hit
        simp only [List.nil_append, List.mem_singleton] at hit
        subst hit; exact p2
      · simpa only [List.nil_append, List.flatMap_cons, List.flatMap_nil, List.append_nil, p4] using new_nodup hw hl ha
      · simp only [contents, List.nil_append, List.map_cons, List.map_nil, p6]
  | cons it its =>
    cases list with
    | none => exact absurd hl.list (by simp [IsList])
    | some p =>
      have hp : it.node = p := hl.list.1
      subst hp
      have hltn : ∀ x ∈ it :: its, x.node < h.count := fun x hx =>
        owned_lt hw hl _ (List.mem_flatMap.2 ⟨x, hx, by simp [owned]⟩)
      have hl2 : IsList (newHeap h array text) (some it.node) (it :: its) :=
        isList_congr _ _ (fun x hx => newHeap_old array text (hltn x hx)) hl.list
      obtain ⟨last, e1, e2, e3⟩ := lastNode_eq its it fuel hl2 (by simpa [Nat.lt_iff_add_one_le] using hfuel)
      have hlast : last ∈ it :: its := List.mem_of_getLast? e2
      set h' : LHeap := { newHeap h array text with
        obj := fun q =>
          if q = last.node then some (.node last.array (some last.name) (some h.count))
          else (newHeap h array text).obj q } with hh'
      have hset : (newHeap h array text).setNext last.node (some h.count) = .ok h' := by
        simp only [LHeap.setNext, node_eq e3, bind, Except.bind, pure, Except.pure, hh']
      have hother : ∀ q, q ≠ last.node → h'.obj q = (newHeap h array text).obj q := fun q hq => by simp only [hh', if_neg hq]
      have hext : Ext (newHeap h array text) h' := by
        intro q o e hn
        rw [hother q]
        · exact e
        · rintro rfl
          rw [e3] at e
          cases e
          exact hn _ _ _ rfl
      obtain ⟨p1, p2, p3, p4, p5, p6⟩ := new_parts hw hl ha hext
      have hne : h.count ≠ last.node := by have := hltn last hlast; omega
      refine ⟨some it.node, h', ?_, ?_, ⟨?_, ?_, ?_⟩, ?_, ?_⟩
      · simp only [listAppend, listNew_eq h1 h2 ht, bind, Except.bind, listLink, e1, hset]
        rfl
      · intro q hq
        have hc : h'.count = h.count + 2 := rfl
        rw [hc] at hq
        have := hltn last hlast
        rw [hother q (by omega)]
        exact newHeap_wf hw array text q hq
      · refine isList_snoc ⟨h.count, array, h.count + 1⟩ (by rw [hother _ hne]; exact hnewobj) its it last hl2
          (nodes_nodup hl.nodup) e2 (by simp [hh']) (fun x _ hx => hother _ hx)
      · intro x hx
        rcases List.mem_append.1 hx with hx | hx
        · exact p1 x hx
        · simp only [List.mem_singleton] at hx
          subst hx; exact p2
      · rw [List.flatMap_append, p3, List.flatMap_singleton, p4]
        exact new_nodup hw hl ha
      · have : contents h' (it :: its ++ [⟨h.count, array, h.count + 1⟩]) =
            contents h' (it :: its) ++ [itemOf h' ⟨h.count, array, h.count + 1⟩] := by simp [contents]
        rw [this, p5, p6]
      · intro q hq hn
        rw [hother q (hn last hlast), newHeap_old array text hq]

/-- **C48** `npy_array_list_prepend` adds it at the front. -/
theorem C48_prepend {ok : Nat → Bool} {h : LHeap} {list array : Option Nat} {text : Bytes} {items : List Item}
    (hw : h.WF) (hl : ListOk h list items) (ha : NewArray h items array)
    (h1 : ok h.count = true) (h2 : ok (h.count + 1) = true) (ht : text.length ≤ 80) :
    ∃ h', listPrepend ok h list array text = .ok (some h.count, h') ∧ h'.WF ∧
      ListOk h' (some h.count) (⟨h.count, array, h.count + 1⟩ :: items) ∧
      contents h' (⟨h.count, array, h.count + 1⟩ :: items) = (some text, (itemOf h ⟨0, array, 0⟩).2) :: contents h items ∧
      (∀ q < h.count, h'.obj q = h.obj q) := by
  have hnewobj : (newHeap h array text).obj h.count = some (.node array (some (h.count + 1)) none) := by simp [newHeap]
  set h' : LHeap := { newHeap h array text with
    obj := fun q =>
      if q = h.count then some (.node array (some (h.count + 1)) list)
      else (newHeap h array text).obj q } with hh'
  have hset : (newHeap h array text).setNext h.count list = .ok h' := by
    simp only [LHeap.setNext, node_eq hnewobj, bind, Except.bind, pure, Except.pure, hh']
  have hother : ∀ q, q ≠ h.count → h'.obj q = (newHeap h array text).obj q := fun q hq => by simp only [hh', if_neg hq]
  have hext : Ext (newHeap h array text) h' := by
    intro q o e hn
    rw [hother q]
    · exact e
    · rintro rfl
      rw [hnewobj] at e
      cases e
      exact hn _ _ _ rfl
  obtain ⟨p1, p2, p3, p4, p5, p6⟩ := new_parts hw hl ha hext
  have hold : ∀ q < h.count, h'.obj q = h.obj q := fun q hq => by
    rw [hother q (by omega), newHeap_old array text hq]
  refine ⟨h', ?_, ?_, ⟨?_, ?_, ?_⟩, ?_, hold⟩
  · simp only [listPrepend, listNew_eq h1 h2 ht, bind, Except.bind, listPush, hset]
    rfl
  · intro q hq
    have hc : h'.count = h.count + 2 := rfl
    rw [hc] at hq
    rw [hother q (by omega)]
    exact newHeap_wf hw array text q hq
  · refine ⟨rfl, list, by simp [hh'], isList_congr items list (fun x hx => hold _ ?_) hl.list⟩
    exact owned_lt hw hl _ (List.mem_flatMap.2 ⟨x, hx, by simp [owned]⟩)
  · intro x hx
    rcases List.mem_cons.1 hx with rfl | hx
    · exact p2
    · exact p1 x hx
  · rw [List.flatMap_cons, p3, p4]
    exact (List.perm_append_comm.nodup_iff).1 (new_nodup hw hl ha)
  · simp only [contents, List.map_cons, p6] at p5 ⊢
    rw [p5]

/-- **C48** If there is no memory for a node, both return the list as it was. -/
theorem C48_no_memory {ok : Nat → Bool} {fuel : Nat} {h : LHeap} {list array : Option Nat} {text : Bytes}
    (h1 : ok h.count = false) :
    listAppend ok fuel h list array text = .ok (list, { h with count := h.count + 1 }) ∧
    listPrepend ok h list array text = .ok (list, { h with count := h.count + 1 }) := by
  simp only [listAppend, listPrepend, listNew, LHeap.malloc, h1, Bool.false_eq_true, if_false]
  exact ⟨rfl, rfl⟩

/-- **C48, limit** A name of more than 80 characters ends the program. -/
theorem C48_long_name {ok : Nat → Bool} {fuel : Nat} {h : LHeap} {list array : Option Nat} {text : Bytes}
    (h1 : ok h.count = true) (ht : 80 < text.length) :
    listAppend ok fuel h list array text = .error .assertFail ∧ listPrepend ok h list array text = .error .assertFail := by
  simp only [listAppend, listPrepend, listNew, LHeap.malloc, h1, if_true, vaArgsFilename, maxNameLen, if_pos ht]
  exact ⟨rfl, rfl⟩

/-- **C48** `npy_array_list_length` counts the elements. -/
theorem C48_length {h : LHeap} {list : Option Nat} {items : List Item} (hl : ListOk h list items) {fuel : Nat}
    (hf : items.length ≤ fuel) : listLength h fuel list 0 = .ok items.length := by
  have key : ∀ (items : List Item) (p : Option Nat) (fuel n : Nat), IsList h p items → items.length ≤ fuel →
      listLength h fuel p n = .ok (n + items.length) := by
    intro items
    induction items with
    | nil =>
      intro p fuel n hl _
      cases p with
      | some p => exact absurd hl (by simp [IsList])
      | none => cases fuel <;> rfl
    | cons it its ih =>
      intro p fuel n hl hf
      cases p with
      | none => exact absurd hl (by simp [IsList])
      | some p =>
        obtain ⟨e, next, hn, hl⟩ := hl
        cases fuel with
        | zero => simp at hf
        | succ fuel =>
          rw [listLength, node_eq hn]
          simp only [bind, Except.bind]
          rw [ih next fuel (n + 1) hl (by simpa using hf), List.length_cons]
          congr 1; omega
  simpa using key items list fuel 0 hl.list hf

/-- **C48** `npy_array_list_free` frees every node, name, array and data block of the list, each exactly once (a second
`free` of the same block would be a fault), and nothing else. -/
theorem C48_free {h : LHeap} {list : Option Nat} {items : List Item} (hl : ListOk h list items) {fuel : Nat}
    (hf : items.length ≤ fuel) :
    ∃ h', listFree fuel h list = .ok h' ∧ (∀ q ∈ items.flatMap (owned h), (h.obj q).isSome ∧ h'.obj q = none) ∧
      ∀ q ∉ items.flatMap (owned h), h'.obj q = h.obj q := by
  refine ⟨_, listFree_eq items fuel h list hl hf, fun q hq => ⟨?_, if_pos hq⟩, fun q hq => if_neg hq⟩
  by_contra hc
  have hnone : h.obj q = none := by simpa using hc
  -- freeing would have faulted: every owned block is allocated
  have hnode : ∀ (items : List Item) (p : Option Nat), IsList h p items → ∀ it ∈ items, h.obj it.node ≠ none := by
    intro items
    induction items with
    | nil => intro p _ it hit; cases hit
    | cons it its ih =>
      intro p hl x hx
      cases p with
      | none => exact absurd hl (by simp [IsList])
      | some p =>
        obtain ⟨e, next, hn, hl⟩ := hl
        rcases List.mem_cons.1 hx with rfl | hx
        · rw [e, hn]; simp
        · exact ih next hl x hx
  obtain ⟨it, hit, hq⟩ := List.mem_flatMap.1 hq
  simp only [owned, List.mem_cons] at hq
  rcases hq with rfl | rfl | hq
  · exact hnode items list hl.list it hit hnone
  · obtain ⟨b, hb⟩ := (hl.each it hit).name
    rw [hb] at hnone; cases hnone
  · have ha := (hl.each it hit).array
    cases hc : it.array with
    | none => rw [hc] at hq; cases hq
    | some a =>
      rw [hc] at hq ha
      obtain ⟨m, d, e, hd⟩ := ha
      simp only [arrayIds, e, List.mem_cons] at hq
      rcases hq with rfl | hq
      · rw [e] at hnone; cases hnone
      · split_ifs at hq with hm
        · cases hq
        · obtain ⟨b, hb⟩ := hd (by simpa using hm) q (by simpa using hq)
          rw [hb] at hnone; cases hnone

/-- Example: a heap with two arrays (blocks 0 and 2, data in blocks 1 and 3). -/
def exHeap : LHeap := ⟨4, fun q => match q with
  | 0 => some (.array exNpy (some 1))
  | 1 => some (.bytes exNpy.data)
  | 2 => some (.array exNpy (some 3))
  | 3 => some (.bytes exNpy.data)
  | _ => none⟩

theorem exHeap_wf : exHeap.WF := by
  intro p hp
  match p, hp with
  | n + 4, _ => rfl

theorem exHeap_empty : ListOk exHeap none [] := ⟨trivial, by simp, by simp⟩

theorem exHeap_new : NewArray exHeap [] (some 0) where
  ok := ⟨exNpy, some 1, rfl, fun _ x hx => ⟨exNpy.data, by cases hx; rfl⟩⟩
  nodup := by simp [arrayIds, exHeap, exNpy]
  fresh := by simp

/-- Append an array to the empty list, then free the list: four blocks disappear, the other array stays. -/
example : ∃ list' h' h'', listAppend (fun _ => true) 5 exHeap none (some 0) (str "weight_0") = .ok (list', h') ∧
    listFree 5 h' list' = .ok h'' ∧ h''.obj 0 = none ∧ h''.obj 1 = none ∧ h''.obj 2 = exHeap.obj 2 := by
  obtain ⟨list', h', e, w, l, c, fr⟩ := C48_append (fuel := 5) (ok := fun _ => true) (text := str "weight_0") exHeap_wf
    exHeap_empty exHeap_new (by simp) rfl rfl (by decide)
  obtain ⟨h'', e2, f1, f2⟩ := C48_free l (fuel := 5) (by simp)
  have ho : [(⟨4, some 0, 5⟩ : Item)].flatMap (owned h') = [4, 5, 0, 1] := by
    simp [owned, arrayIds, fr 0 (by decide) (by simp)]
    simp [exHeap, exNpy]
  rw [show [] ++ [(⟨exHeap.count, some 0, exHeap.count + 1⟩ : Item)] = [⟨4, some 0, 5⟩] from rfl, ho] at f1 f2
  refine ⟨list', h', h'', e, e2, (f1 0 (by simp)).2, (f1 1 (by simp)).2, ?_⟩
  rw [f2 2 (by simp), fr 2 (by decide) (by simp)]

/-! ### C47: archives -/

/-- What is assumed of libzip: an archive of readable members with distinct acceptable names is read back as it was
written, and names of printable ASCII characters are acceptable. -/
structure ZipLib.Lawful (lib : ZipLib) : Prop where
  roundtrip : ∀ es : List ZipEntry, es ≠ [] → (es.map ZipEntry.name).Nodup →
    (∀ e ∈ es, lib.nameOk e.name = true ∧ e.data.isSome ∧ e.comp = none) → lib.open' (lib.close es) = some es
  ascii : ∀ name : Bytes, name ≠ [] → (∀ c ∈ name, 32 ≤ c ∧ c < 127) → lib.nameOk name = true

/-- Such a library exists. -/
theorem exists_lawful : ∃ lib : ZipLib, lib.Lawful := by
  have hu : Countable UInt8 := Function.Injective.countable (f := UInt8.toNat) fun a b h => UInt8.toNat_inj.1 h
  have hb : Countable Bytes := inferInstanceAs (Countable (List UInt8))
  have hc : Countable ZipEntry := by
    refine Function.Injective.countable (f := fun e : ZipEntry => (e.name, e.data, e.comp)) ?_
    rintro ⟨_, _, _⟩ ⟨_, _, _⟩ h
    simpa using h
  obtain ⟨f, hf⟩ := exists_injective_nat (List ZipEntry)
  classical
  have hinj : Function.Injective fun es => List.replicate (f es) (0 : UInt8) := by
    intro a b h
    exact hf (by simpa using congrArg List.length h)
  refine ⟨⟨fun es => List.replicate (f es) 0, fun b => if h : ∃ es, List.replicate (f es) 0 = b then some h.choose else none,
    fun _ => true⟩, ⟨fun es _ _ _ => ?_, fun _ _ _ => rfl⟩⟩
  have h : ∃ es', List.replicate (f es') (0 : UInt8) = List.replicate (f es) 0 := ⟨es, rfl⟩
  simp only [h, dif_pos, Option.some.injEq]
  exact hinj h.choose_spec

/-- A name that survives: acceptable to libzip, at most 80 characters, a C string, no percent sign. -/
structure GoodName (lib : ZipLib) (name : Bytes) : Prop where
  ok : lib.nameOk name = true
  len : name.length ≤ 80
  nul : 0 ∉ name
  pct : 37 ∉ name

theorem printf_plain {s : Bytes} (h : 37 ∉ s) : printfNoArgs s = .ok s := by
  induction s with
  | nil => rfl
  | cons c s ih =>
    simp only [List.mem_cons, not_or] at h
    unfold printfNoArgs
    simp only [if_neg (fun e : c = 37 => h.1 e.symm), ih h.2]
    rfl

theorem cstr_plain {s : Bytes} (h : 0 ∉ s) : cstr s = s := by
  rw [cstr]
  induction s with
  | nil => rfl
  | cons c s ih =>
    simp only [List.mem_cons, not_or] at h
    have : (c != 0) = true := by simp only [bne_iff_ne, ne_eq]; exact fun e => h.1 e.symm
    rw [List.takeWhile_cons, if_pos this, ih h.2]

/-- The member an array becomes. -/
def entryOf (p : Bytes × NpyArray) : ZipEntry :=
  ⟨p.1, some (p.2.meaning.file 0 (117 - p.2.meaning.dict.length)), none⟩

theorem saveLoop_eq {lib : ZipLib} (comp : Int × Nat) (l : List (Bytes × NpyArray)) : ∀ (es : List ZipEntry),
    (∀ p ∈ l, lib.nameOk p.1 = true ∧ p.2.Savable) → (es.map ZipEntry.name ++ l.map Prod.fst).Nodup →
    saveLoop lib comp es.length (l.map fun p => (some p.1, p.2)) es = .ok (es.length + l.length, es ++ l.map entryOf) := by
  induction l with
  | nil => intro es _ _; simp [saveLoop, pure, Except.pure]
  | cons p l ih =>
    intro es hl hnd
    obtain ⟨hok, hs⟩ := hl p (by simp)
    have h1 : zipSetCompression es es.length comp = es := by simp [zipSetCompression]
    have hfree : ∀ e ∈ es, e.name ≠ p.1 := by
      intro e he heq
      rw [List.nodup_append] at hnd
      exact hnd.2.2 _ (List.mem_map_of_mem he) p.1 (by simp) heq
    have h2 : zipFileAdd lib es p.1 (p.2.meaning.file 0 (117 - p.2.meaning.dict.length)) = es ++ [entryOf p] := by
      rw [zipFileAdd, if_pos ⟨hok, hfree⟩]; rfl
    simp only [List.map_cons, saveLoop, h1, C44_file hs, bind, Except.bind, Option.getD_some, h2]
    have := ih (es ++ [entryOf p]) (fun q hq => hl q (List.mem_cons_of_mem _ hq)) (by
      simpa [entryOf] using hnd)
    rw [List.length_append, List.length_singleton] at this
    rw [this, List.length_cons]
    simp only [List.append_assoc, List.singleton_append]
    congr 2
    omega

theorem dict_pad {m : NpyArray} (hm : m.Savable) : m.meaning.dict.length + (117 - m.meaning.dict.length) + 1 = 118 := by
  have := hm.fits; omega

theorem loadLoop_append {mem : Nat → Bool} {es1 : List ZipEntry} : ∀ (l : List (Bytes × NpyArray)) (es2 : List ZipEntry),
    loadLoop mem (es1 ++ es2) l = (do
      let l ← loadLoop mem es1 l
      loadLoop mem es2 l) := by
  induction es1 with
  | nil => intro l es2; rfl
  | cons e es ih =>
    intro l es2
    rw [List.cons_append, loadLoop, loadLoop]
    cases e.data with
    | none => exact ih l es2
    | some b =>
      simp only [bind, Except.bind] at ih ⊢
      cases readMatrix false mem b with
      | error x => rfl
      | ok r =>
        cases r with
        | none => exact ih l es2
        | some m =>
          simp only
          cases loadAppend mem l m e.name with
          | error x => rfl
          | ok l' => exact ih l' es2

/-- What is kept of an array: everything but the allocation. -/
def Same (r m : NpyArray) : Prop :=
  r.meaning = m.meaning ∧ r.ndim = m.ndim ∧ r.mapped = false ∧ r.data = m.meaning.data

theorem loadLoop_entries {lib : ZipLib} {mem : Nat → Bool} (hm : ∀ n, mem n = true) (l : List (Bytes × NpyArray)) :
    ∀ (acc : List (Bytes × NpyArray)), (∀ p ∈ l, GoodName lib p.1 ∧ p.2.Savable) →
    ∃ r, loadLoop mem (l.map entryOf) acc = .ok (acc ++ r) ∧
      List.Forall₂ (fun q p => q.1 = p.1 ∧ Same q.2 p.2) r l := by
  induction l with
  | nil => intro acc _; exact ⟨[], by simp [loadLoop, pure, Except.pure], .nil⟩
  | cons p l ih =>
    intro acc hl
    obtain ⟨hn, hs⟩ := hl p (by simp)
    have hpad := dict_pad hs
    obtain ⟨m, e1, e2, e3, e4, e5⟩ := C45_partial hs mem (hm _) (hm _) 0 (117 - p.2.meaning.dict.length)
      (by rw [hpad]; norm_num) (by rw [hpad]; norm_num) []
    rw [List.append_nil] at e1
    obtain ⟨r, f1, f2⟩ := ih (acc ++ [(p.1, m)]) (fun q hq => hl q (List.mem_cons_of_mem _ hq))
    have ha : loadAppend mem acc m p.1 = .ok (acc ++ [(p.1, m)]) := by
      simp only [loadAppend, hm, if_true, cstr_plain hn.nul, printf_plain hn.pct, bind, Except.bind, maxNameLen,
        if_neg (Nat.not_lt.2 hn.len)]
      rfl
    refine ⟨(p.1, m) :: r, ?_, .cons ⟨rfl, e2, e3, e4, e5⟩ f2⟩
    simp only [List.map_cons, loadLoop, entryOf, e1, bind, Except.bind, ha]
    have f1' := f1
    simp only [List.append_assoc, List.singleton_append] at f1'
    exact f1'

/-- **C47** An archive written by `npy_array_list_save` is read back by `npy_array_list_load` with the same arrays and names
in the same order, and the number of arrays is returned. -/
theorem C47_roundtrip {lib : ZipLib} (hlib : lib.Lawful) {d : Disk} {f : String} (hw : d.writable f = true)
    (hr : d.readable f = true) {mem : Nat → Bool} (hm : ∀ n, mem n = true) {l : List (Bytes × NpyArray)} (hne : l ≠ [])
    (hnd : (l.map Prod.fst).Nodup) (hl : ∀ p ∈ l, GoodName lib p.1 ∧ p.2.Savable) :
    ∃ d' r, listSave lib d f (l.map fun p => (some p.1, p.2)) = .ok (l.length, d') ∧ (∀ g, g ≠ f → d'.content g = d.content g) ∧
      listLoad lib d' mem f = .ok r ∧ List.Forall₂ (fun q p => q.1 = p.1 ∧ Same q.2 p.2) r l := by
  have hs := saveLoop_eq (lib := lib) (0, 0) l [] (fun p hp => ⟨(hl p hp).1.ok, (hl p hp).2⟩) (by simpa using hnd)
  simp only [List.length_nil, Nat.zero_add, List.nil_append] at hs
  obtain ⟨r, e1, e2⟩ := loadLoop_entries (lib := lib) hm l [] hl
  rw [List.nil_append] at e1
  refine ⟨{ d with content := fun g => if g = f then some (lib.close (l.map entryOf)) else d.content g }, r, ?_,
    fun g hg => if_neg hg, ?_, e2⟩
  · simp only [listSave, listSaveCompressed]
    rw [if_neg (by cases l <;> simp_all), if_pos hw, hs]
    rfl
  · have ho : lib.open' (lib.close (l.map entryOf)) = some (l.map entryOf) := by
      refine hlib.roundtrip _ (by simpa using hne) (by simpa [entryOf, Function.comp_def] using hnd) ?_
      intro e he
      obtain ⟨p, hp, rfl⟩ := List.mem_map.1 he
      exact ⟨(hl p hp).1.ok, rfl, rfl⟩
    simp only [listLoad, if_true, hr, ho]
    exact e1

/-- **C47** Saving the empty list does nothing and returns 0. -/
theorem C47_empty (lib : ZipLib) (d : Disk) (f : String) : listSave lib d f [] = .ok (0, d) := rfl

/-- **C47 is false** for equal names: the second array is lost, but counted. -/
theorem C47_duplicate_false {lib : ZipLib} (hlib : lib.Lawful) {d : Disk} {f : String} (hw : d.writable f = true)
    (hr : d.readable f = true) {mem : Nat → Bool} (hm : ∀ n, mem n = true) {name : Bytes} {a b : NpyArray}
    (hn : GoodName lib name) (ha : a.Savable) (hb : b.Savable) :
    ∃ d' r, listSave lib d f [(some name, a), (some name, b)] = .ok (2, d') ∧ listLoad lib d' mem f = .ok [(name, r)] ∧
      Same r a := by
  obtain ⟨r, e1, e2⟩ := loadLoop_entries (lib := lib) hm [(name, a)] [] (by simpa using ⟨hn, ha⟩)
  cases e2 with
  | cons h1 h2 =>
    cases h2
    rename_i q
    obtain ⟨qn, qm⟩ := q
    obtain ⟨hqn, hqs⟩ := h1
    simp only at hqn hqs
    subst hqn
    refine ⟨{ d with content := fun g => if g = f then some (lib.close [entryOf (qn, a)]) else d.content g }, qm, ?_, ?_, hqs⟩
    · have h1 : zipFileAdd lib [] qn (a.meaning.file 0 (117 - a.meaning.dict.length)) = [entryOf (qn, a)] := by
        rw [zipFileAdd, if_pos ⟨hn.ok, by simp⟩]; rfl
      have h2 : zipFileAdd lib [entryOf (qn, a)] qn (b.meaning.file 0 (117 - b.meaning.dict.length)) = [entryOf (qn, a)] := by
        rw [zipFileAdd, if_neg]; simp [entryOf]
      simp only [listSave, listSaveCompressed, List.isEmpty_cons, Bool.false_eq_true, if_false, hw, if_true, saveLoop,
        C44_file ha, C44_file hb, bind, Except.bind, Option.getD_some]
      rw [show zipSetCompression [] 0 (0, 0) = [] from rfl, h1, show zipSetCompression [entryOf (qn, a)] (0 + 1) (0, 0) =
        [entryOf (qn, a)] from rfl, h2]
      rfl
    · have ho : lib.open' (lib.close [entryOf (qn, a)]) = some [entryOf (qn, a)] := by
        refine hlib.roundtrip _ (by simp) (by simp) ?_
        intro e he
        simp only [List.mem_singleton] at he
        subst he
        exact ⟨hn.ok, rfl, rfl⟩
      simp only [listLoad, if_true, hr, ho]
      exact e1

theorem printf_percent {a b : Bytes} (ha : 37 ∉ a) (hb : b.head? ≠ some 37) : printfNoArgs (a ++ 37 :: b) = .error .uninit := by
  induction a with
  | nil =>
    rw [List.nil_append]
    unfold printfNoArgs
    rw [if_pos rfl]
    cases b with
    | nil => rfl
    | cons c b =>
      have : c ≠ 37 := by simpa using hb
      simp only [if_neg this]
  | cons c a ih =>
    simp only [List.mem_cons, not_or] at ha
    rw [List.cons_append]
    unfold printfNoArgs
    simp only [if_neg (fun e : c = 37 => ha.1 e.symm), ih ha.2]
    rfl

/-- **C47 is false** for names with a percent sign: `npy_array_list_load` uses the name as a format, and reads arguments that
do not exist. -/
theorem C47_percent_false {lib : ZipLib} (hlib : lib.Lawful) {d : Disk} {f : String} (hw : d.writable f = true)
    (hr : d.readable f = true) {mem : Nat → Bool} (hm : ∀ n, mem n = true) {pre post : Bytes} {a : NpyArray} (ha : a.Savable)
    (hok : lib.nameOk (pre ++ 37 :: post) = true) (hp : 37 ∉ pre) (hq : post.head? ≠ some 37) (hz : 0 ∉ pre ++ 37 :: post) :
    ∃ d', listSave lib d f [(some (pre ++ 37 :: post), a)] = .ok (1, d') ∧ listLoad lib d' mem f = .error .uninit := by
  refine ⟨{ d with content := fun g => if g = f then some (lib.close [entryOf (pre ++ 37 :: post, a)]) else d.content g }, ?_, ?_⟩
  · have h1 := saveLoop_eq (lib := lib) (0, 0) [(pre ++ 37 :: post, a)] [] (by simpa using ⟨hok, ha⟩) (by simp)
    simp only [List.length_nil, Nat.zero_add, List.nil_append, List.map_cons, List.map_nil, List.length_singleton] at h1
    simp only [listSave, listSaveCompressed, List.isEmpty_cons, Bool.false_eq_true, if_false, hw, if_true, h1]
    rfl
  · have ho : lib.open' (lib.close [entryOf (pre ++ 37 :: post, a)]) = some [entryOf (pre ++ 37 :: post, a)] := by
      refine hlib.roundtrip _ (by simp) (by simp) ?_
      intro e he
      simp only [List.mem_singleton] at he
      subst he
      exact ⟨hok, rfl, rfl⟩
    have hpad := dict_pad ha
    obtain ⟨m, e1, -⟩ := C45_partial ha mem (hm _) (hm _) 0 (117 - a.meaning.dict.length)
      (by rw [hpad]; norm_num) (by rw [hpad]; norm_num) []
    rw [List.append_nil] at e1
    simp only [listLoad, if_true, hr, ho]
    simp only [loadLoop, entryOf, e1, bind, Except.bind, loadAppend, hm, if_true, cstr_plain hz, printf_percent hp hq]

/-! ### C60: compression -/

/-- **C60 is false**: the compression passed to `npy_array_list_save_compressed` has no effect, for any list and any
compression: it is set before the member exists. -/
theorem C60_false (lib : ZipLib) (d : Disk) (f : String) (l : List (Option Bytes × NpyArray)) (comp : Int × Nat) :
    listSaveCompressed lib d f l comp = listSave lib d f l := by
  have hadd : ∀ (es : List ZipEntry) (n : Nat) (name b : Bytes), es.length ≤ n → (zipFileAdd lib es name b).length ≤ n + 1 := by
    intro es n name b h
    rw [zipFileAdd]
    split_ifs
    · simpa using h
    · omega
  have key : ∀ (l : List (Option Bytes × NpyArray)) (n : Nat) (es : List ZipEntry), es.length ≤ n →
      saveLoop lib comp n l es = saveLoop lib (0, 0) n l es := by
    intro l
    induction l with
    | nil => intro n es _; rfl
    | cons p l ih =>
      intro n es h
      have hset : ∀ c, zipSetCompression es n c = es := by
        intro c
        rw [zipSetCompression, List.getElem?_eq_none h]
      obtain ⟨name, m⟩ := p
      simp only [saveLoop, hset]
      cases npyBytes m with
      | error e => rfl
      | ok b => exact ih (n + 1) _ (hadd es n _ b h)
  simp only [listSave, listSaveCompressed, key l 0 [] (Nat.le_refl _)]

/-- **C60** Every member written has the default compression of libzip. -/
theorem C60_default {lib : ZipLib} (comp : Int × Nat) (l : List (Option Bytes × NpyArray)) : ∀ (n : Nat) (es es' : List ZipEntry)
    (k : Nat), es.length ≤ n → (∀ e ∈ es, e.comp = none) → saveLoop lib comp n l es = .ok (k, es') → ∀ e ∈ es', e.comp = none := by
  induction l with
  | nil =>
    intro n es es' k _ h1 h
    simp only [saveLoop, pure, Except.pure, Except.ok.injEq, Prod.mk.injEq] at h
    rw [← h.2]; exact h1
  | cons p l ih =>
    intro n es es' k hn h1 h
    obtain ⟨name, m⟩ := p
    have hset : zipSetCompression es n comp = es := by rw [zipSetCompression, List.getElem?_eq_none hn]
    simp only [saveLoop, hset] at h
    cases hb : npyBytes m with
    | error e => simp [hb, bind, Except.bind] at h
    | ok b =>
      simp only [hb, bind, Except.bind] at h
      refine ih (n + 1) _ es' k ?_ ?_ h
      · rw [zipFileAdd]
        split_ifs
        · simpa using hn
        · omega
      · intro e he
        rw [zipFileAdd] at he
        split_ifs at he
        · rcases List.mem_append.1 he with he | he
          · exact h1 e he
          · simp only [List.mem_singleton] at he
            rw [he]
        · exact h1 e he

/-! ### Examples -/

theorem exName {lib : ZipLib} (hlib : lib.Lawful) : GoodName lib (str "weight_0") ∧ GoodName lib (str "bias_0") :=
  ⟨⟨hlib.ascii _ (by decide) (by decide), by decide, by decide, by decide⟩,
   ⟨hlib.ascii _ (by decide) (by decide), by decide, by decide, by decide⟩⟩

/-- Two arrays in an archive. -/
example : ∃ (lib : ZipLib) (d d' : Disk) (r : List (Bytes × NpyArray)),
    listSave lib d "net.npz" [(some (str "weight_0"), exNpy), (some (str "bias_0"), exNpy)] = .ok (2, d') ∧
    listLoad lib d' (fun _ => true) "net.npz" = .ok r ∧ r.map Prod.fst = [str "weight_0", str "bias_0"] ∧
    ∀ q ∈ r, q.2.meaning = exNpy.meaning := by
  obtain ⟨lib, hlib⟩ := exists_lawful
  obtain ⟨n1, n2⟩ := exName hlib
  obtain ⟨d', r, e1, -, e2, e3⟩ := C47_roundtrip (mem := fun _ => true) hlib (d := ⟨fun _ => none, fun _ => true, fun _ => true⟩)
    (f := "net.npz") rfl rfl (fun _ => rfl) (l := [(str "weight_0", exNpy), (str "bias_0", exNpy)]) (by simp)
    (by decide) (by
      intro p hp
      simp only [List.mem_cons, List.not_mem_nil, or_false] at hp
      rcases hp with rfl | rfl
      · exact ⟨n1, exNpy_savable⟩
      · exact ⟨n2, exNpy_savable⟩)
  refine ⟨lib, _, d', r, e1, e2, ?_, ?_⟩
  · cases e3 with
    | cons h1 h2 => cases h2 with
      | cons h3 h4 => cases h4; simp [h1.1, h3.1]
  · cases e3 with
    | cons h1 h2 => cases h2 with
      | cons h3 h4 =>
        cases h4
        intro q hq
        simp only [List.mem_cons, List.not_mem_nil, or_false] at hq
        rcases hq with rfl | rfl
        · exact h1.2.1
        · exact h3.2.1

end NN
