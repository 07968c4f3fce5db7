import Verif.Proofs.LoadMem
import Verif.Properties.SaveLoad
/-
C84: the temporary memory of `neuralnet_load` and `neuralnet_save`.  C53: `neuralnet_create` leaks nothing when it returns.
-/
namespace NN

/-- **C53** Whenever `neuralnet_create` returns, whatever its arguments are and whichever requests fail: the blocks in use are
those of the network (none if it is NULL) and those that were in use before. -/
theorem C53_returns {ok : Nat → Bool} {dl : DynLinker} {n : Int} {sizes : List Int} {funcs : Option (List (Option String))}
    {recs recs' : List ActRecord} {h h' : Heap} {net : Option CNet} (e : createNN ok dl n sizes funcs recs h = .ok (net, recs', h')) :
    h'.live.Perm ((net.elim [] CNet.blocks) ++ h.live) := LoadMem.create_perm e

namespace LoadMem

/-- **C84** Whenever `neuralnet_load` returns, whichever requests fail: the blocks in use are those of the network (none if it
is NULL), those in use before, and exactly this many leaked ones: two for every array that was read but did not get into the
list (`w` were not read), and two for every array of strings after the first. -/
theorem C84_load {F : Type} {bits : FloatBits F} {ok : Nat → Bool} {dl : DynLinker} {addr : Nat → Nat} {junk : Nat → Nat → F}
    {es : List Entry} {l : List Node} {w : Nat} {recs recs' : List ActRecord} {h h1 h' : Heap} {net : Option (CNet × Net F)}
    (e1 : listLoad ok es [] 0 h = .ok (l, w, h1)) (e : load bits ok dl addr junk es recs h = .ok (net, recs', h')) :
    ∃ L, h'.live.Perm ((net.elim [] fun n => n.1.blocks) ++ (L ++ h.live)) ∧ l.length + w ≤ es.length ∧
      L.length = 2 * (es.length - w - l.length) + 2 * ((if ok h1.count then strings (l.map Node.m) else 0) - 1) := by
  rw [load] at e
  obtain ⟨⟨l0, w0, h0⟩, e0, e⟩ := bind_ok e
  rw [e1] at e0; cases e0
  obtain ⟨L1, p1, c1⟩ := listLoad_perm (R := h.live) e1 (List.Perm.refl _)
  obtain ⟨L2, p2, c2⟩ := loadRest_perm e p1
  refine ⟨L2 ++ L1, by simpa using p2, by simp at c1; omega, ?_⟩
  simp only [List.length_append, c2]
  simp at c1
  omega

/-- **C84** With memory for every request, names of at most 80 characters, complete files and at most one array of strings,
`neuralnet_load` leaves no temporary memory behind: the blocks in use are those of the network and those in use before. -/
theorem C84_no_leak {F : Type} {bits : FloatBits F} {dl : DynLinker} {addr : Nat → Nat} {junk : Nat → Nat → F} {es : List Entry}
    {recs recs' : List ActRecord} {h h' : Heap} {net : Option (CNet × Net F)} (h1 : ∀ x ∈ es, x.whole = true)
    (h2 : ∀ x ∈ es, x.text.length ≤ 80) (hk : strings (es.map Entry.m) ≤ 1)
    (e : load bits always dl addr junk es recs h = .ok (net, recs', h')) :
    h'.live.Perm ((net.elim [] fun n => n.1.blocks) ++ h.live) := by
  obtain ⟨l, h3, e1, q, -⟩ := listLoad_always es [] 0 h h.live h1 h2 (List.Perm.refl _)
  obtain ⟨L, p, -, c⟩ := C84_load e1 e
  have hq : l.map Node.m = es.map Entry.m := by simpa [Function.comp_def] using congrArg (List.map Prod.snd) q
  have hl : l.length = es.length := by simpa using congrArg List.length q
  simp only [List.nil_append, hq, hl, always, if_true] at c
  have : L = [] := List.length_eq_zero_iff.1 (by omega)
  rw [this] at p
  exact p

/-- **C84** A loaded network can be freed, and then (for a file as in `C84_no_leak`) the blocks in use are those before the load. -/
theorem C84_freed {F : Type} {bits : FloatBits F} {dl : DynLinker} {addr : Nat → Nat} {junk : Nat → Nat → F} {es : List Entry}
    {recs recs' : List ActRecord} {h h' : Heap} {net : CNet} {nn : Net F} (h1 : ∀ x ∈ es, x.whole = true)
    (h2 : ∀ x ∈ es, x.text.length ≤ 80) (hk : strings (es.map Entry.m) ≤ 1)
    (e : load bits always dl addr junk es recs h = .ok (some (net, nn), recs', h')) :
    ∃ h'', freeNN (some net) h' = .ok h'' ∧ h''.live.Perm h.live :=
  free_net (load_blk e) (C84_no_leak h1 h2 hk e)

/-- **C84** A second array of strings in the file: the names of the first are lost (src/neuralnet.c:146), two blocks for each array
of strings but the last. -/
theorem C84_strings_false {F : Type} {bits : FloatBits F} {dl : DynLinker} {addr : Nat → Nat} {junk : Nat → Nat → F} {es : List Entry}
    {recs recs' : List ActRecord} {h h' : Heap} {net : Option (CNet × Net F)} (h1 : ∀ x ∈ es, x.whole = true)
    (h2 : ∀ x ∈ es, x.text.length ≤ 80) (hk : 2 ≤ strings (es.map Entry.m))
    (e : load bits always dl addr junk es recs h = .ok (net, recs', h')) :
    ∃ L, L.length = 2 * (strings (es.map Entry.m) - 1) ∧ L ≠ [] ∧
      h'.live.Perm ((net.elim [] fun n => n.1.blocks) ++ (L ++ h.live)) := by
  obtain ⟨l, h3, e1, q, -⟩ := listLoad_always es [] 0 h h.live h1 h2 (List.Perm.refl _)
  obtain ⟨L, p, -, c⟩ := C84_load e1 e
  have hq : l.map Node.m = es.map Entry.m := by simpa [Function.comp_def] using congrArg (List.map Prod.snd) q
  have hl : l.length = es.length := by simpa using congrArg List.length q
  simp only [List.nil_append, hq, hl, always, if_true] at c
  refine ⟨L, by omega, ?_, p⟩
  rintro rfl
  simp only [List.length_nil] at c
  omega

/-- **C84** No memory for an element of the list: `npy_array_list_append` returns the old list and the array is lost
(npy_array/npy_array_list.c:121).  For a file with one array the load gives NULL and leaks two blocks. -/
theorem C84_append_false {F : Type} (bits : FloatBits F) {ok : Nat → Bool} (dl : DynLinker) (addr : Nat → Nat) (junk : Nat → Nat → F)
    (x : Entry) (hx : x.whole = true) (recs : List ActRecord) (h : Heap) (h0 : ok h.count = true) (h1 : ok (h.count + 1) = true)
    (h2 : ok (h.count + 2) = false) :
    load bits ok dl addr junk [x] recs h = .ok (none, recs, ⟨h.count + 3, (h.count + 1) :: h.count :: h.live⟩) := by
  simp only [load, listLoad, readMatrix, malloc_ok h0]
  rw [malloc_ok (h := ⟨h.count + 1, h.count :: h.live⟩) h1]
  simp only [hx, if_true, append, bind, Except.bind, pure, Except.pure]
  rw [malloc_fail (h := ⟨h.count + 1 + 1, (h.count + 1) :: h.count :: h.live⟩) h2]
  rfl

/-- **C84** The account with all the temporary objects gives the same network, NULL or error as the account without them
(`loadArrays`, about which C49, C50 and C51 speak), run in some state of the heap. -/
theorem C84_refines {F : Type} (bits : FloatBits F) (dl : DynLinker) (addr : Nat → Nat) (junk : Nat → Nat → F) (es : List Entry)
    (recs : List ActRecord) (h : Heap) (h1 : ∀ x ∈ es, x.whole = true) (h2 : ∀ x ∈ es, x.text.length ≤ 80) :
    ∃ h0 : Heap, (h.WF → h0.WF) ∧ (load bits always dl addr junk es recs h).map (fun r => (r.1.map Prod.snd, r.2.1)) =
      (loadArrays bits (fun _ => true) always dl addr junk (es.map Entry.m) recs h0).map (fun r => (r.1, r.2.1)) := by
  obtain ⟨l, h3, e1, q, p, -, w⟩ := listLoad_always es [] 0 h h.live h1 h2 (List.Perm.refl _)
  have hq : l.map Node.m = es.map Entry.m := by simpa [Function.comp_def] using congrArg (List.map Prod.snd) q
  simp only [List.nil_append] at e1 p
  obtain ⟨h0, w0, e⟩ := loadRest_refines bits dl addr junk l recs h3 h.live p
  rw [hq] at e
  refine ⟨h0, fun hw => w0 (w hw), ?_⟩
  rw [← e, load, e1]
  rfl

/-- **C84** Whenever `neuralnet_save` comes to its end, whichever requests fail: exactly this many blocks leak: one for every array
that did not get into the list, and, if `zip_close` fails, one buffer for every array that did. -/
theorem C84_save {ok : Nat → Bool} {closed : Bool} {ps out : List (Bytes × NpyArray)} {n : Nat} {h h' : Heap}
    (e : save ok closed ps h = .ok (out, n, h')) :
    ∃ L, h'.live.Perm (L ++ h.live) ∧ n ≤ ps.length ∧ L.length = (ps.length - n) + if closed then 0 else n := by
  rw [save] at e
  obtain ⟨⟨l, h1⟩, e1, e⟩ := bind_ok e
  obtain ⟨⟨bs, h2⟩, e2, e⟩ := bind_ok e
  obtain ⟨h3, e3, e⟩ := bind_ok e
  obtain ⟨h4, e4, e⟩ := bind_ok e
  simp only [pure, Except.pure, Except.ok.injEq, Prod.mk.injEq] at e
  obtain ⟨-, rfl, rfl⟩ := e
  obtain ⟨L, p1, c1⟩ := saveList_perm (R := h.live) e1 (List.Perm.refl _)
  obtain ⟨p2, c2⟩ := buffers_perm e2
  obtain ⟨h3', e3', p3⟩ := zipClose_perm closed bs h2 _ p2
  rw [e3] at e3'; cases e3'
  obtain ⟨h4', e4', p4⟩ := saveFree_perm l h3 ((if closed then [] else bs) ++ (L ++ h.live)) (by
    refine p3.trans ?_
    rw [List.perm_iff_count]
    intro y
    have := List.perm_iff_count.1 p1 y
    simp only [List.count_append] at this ⊢
    omega)
  rw [e4] at e4'; cases e4'
  simp only [List.length_nil, Nat.add_zero] at c1
  refine ⟨(if closed then [] else bs) ++ L, by simpa using p4, by omega, ?_⟩
  simp only [List.length_append]
  cases closed <;> simp [c2] <;> omega

/-- **C84** With memory for every request and names of at most 80 characters, `neuralnet_save` hands all arrays to libzip, in order,
and, if `zip_close` succeeds, leaves no memory behind. -/
theorem C84_save_all (ps : List (Bytes × NpyArray)) (h : Heap) (h2 : ∀ x ∈ ps, x.1.length ≤ 80) :
    ∃ h', save always true ps h = .ok (ps, ps.length, h') ∧ h'.live.Perm h.live := by
  obtain ⟨l, h1, e1, q⟩ := saveList_always ps [] h h2
  rw [List.nil_append] at e1
  obtain ⟨bs, h3, e2⟩ := buffers_always l h1
  obtain ⟨L, p1, c1⟩ := saveList_perm (R := h.live) e1 (List.Perm.refl _)
  obtain ⟨p2, c2⟩ := buffers_perm e2
  obtain ⟨h4, e3, p3⟩ := zipClose_perm true bs h3 _ p2
  obtain ⟨h5, e4, p4⟩ := saveFree_perm l h4 (L ++ h.live) (p3.trans p1)
  have hl : l.length = ps.length := by simpa using congrArg List.length q
  have : L = [] := List.length_eq_zero_iff.1 (by simp at c1; omega)
  refine ⟨h5, ?_, by simpa [this] using p4⟩
  rw [save, e1]
  simp only [bind, Except.bind, e2, e3, e4, q, hl]
  rfl

theorem saveLayers_short {F : Type} (bits : FloatBits F) : ∀ (ls : List (Layer F)) (i : Nat), i + ls.length < 2 ^ 31 →
    (saveLayers bits i ls).length = 2 * ls.length ∧ ∀ p ∈ saveLayers bits i ls, p.1.length ≤ 80
  | [], i, _ => ⟨rfl, by simp [saveLayers]⟩
  | l :: ls, i, h => by
    rw [List.length_cons] at h
    obtain ⟨h1, h2⟩ := saveLayers_short bits ls (i + 1) (by omega)
    have hd := dec_length (n := i) (k := 10) (by norm_num) (by omega)
    refine ⟨by simp [saveLayers, h1]; omega, ?_⟩
    intro p hp
    simp only [saveLayers, List.mem_cons] at hp
    rcases hp with rfl | rfl | hp
    · have : (str "weight_").length = 7 := by decide
      simp only [List.length_append]; omega
    · have : (str "bias_").length = 5 := by decide
      simp only [List.length_append]; omega
    · exact h2 p hp

/-- **C84** In particular for every network of fewer than 2^31 layers whose names fit in an `int`: 2n + 1 arrays are handed to
libzip (those of `saveNN`), no warning is printed, and nothing leaks. -/
theorem C84_save_network {F : Type} (bits : FloatBits F) (recs : List ActRecord) (nn : Net F) (hn : nn.layers.length < 2 ^ 31)
    {ps : List (Bytes × NpyArray)} (e : saveArrays bits recs nn = .ok ps) (h : Heap) :
    ∃ h', save always true ps h = .ok (ps, 2 * nn.layers.length + 1, h') ∧ h'.live.Perm h.live := by
  rw [saveArrays] at e
  obtain ⟨a, -, e⟩ := bind_ok e
  simp only [pure, Except.pure, Except.ok.injEq] at e
  obtain ⟨h1, h2⟩ := saveLayers_short bits nn.layers 0 (by omega)
  obtain ⟨h', e1, p⟩ := C84_save_all ps h (by
    rw [← e]
    intro x hx
    rcases List.mem_append.1 hx with hx | hx
    · exact h2 x hx
    · rw [List.mem_singleton] at hx
      subst hx; show (str "activations").length ≤ 80; decide)
  have hl : ps.length = 2 * nn.layers.length + 1 := by rw [← e]; simp [h1]
  exact ⟨h', hl ▸ e1, p⟩

/-- **C84** The disk is full: `zip_close` fails, the program does not call `zip_discard`, and every save leaks a copy of all the
arrays. -/
theorem C84_close_false (ps : List (Bytes × NpyArray)) (h : Heap) (h2 : ∀ x ∈ ps, x.1.length ≤ 80) :
    ∃ h' L, save always false ps h = .ok (ps, ps.length, h') ∧ h'.live.Perm (L ++ h.live) ∧ L.length = ps.length := by
  obtain ⟨l, h1, e1, q⟩ := saveList_always ps [] h h2
  rw [List.nil_append] at e1
  obtain ⟨bs, h3, e2⟩ := buffers_always l h1
  obtain ⟨L, p1, c1⟩ := saveList_perm (R := h.live) e1 (List.Perm.refl _)
  obtain ⟨p2, c2⟩ := buffers_perm e2
  obtain ⟨h4, e3, p3⟩ := zipClose_perm false bs h3 _ p2
  obtain ⟨h5, e4, p4⟩ := saveFree_perm l h4 (bs ++ (L ++ h.live)) (by
    refine p3.trans ?_
    rw [List.perm_iff_count]
    intro y
    have := List.perm_iff_count.1 p1 y
    simp only [List.count_append, Bool.false_eq_true, if_false] at this ⊢
    omega)
  have hl : l.length = ps.length := by simpa using congrArg List.length q
  have : L = [] := List.length_eq_zero_iff.1 (by simp at c1; omega)
  refine ⟨h5, bs, ?_, by simpa [this] using p4, by omega⟩
  rw [save, e1]
  simp only [bind, Except.bind, e2, e3, e4, q, hl]
  rfl

/-! ### Examples -/

/-- A network with one layer of two inputs and one output. -/
def exEntries : List Entry :=
  [⟨str "weight_0", floatArray (List.replicate 8 0) [2, 1], true⟩, ⟨str "bias_0", floatArray (List.replicate 4 0) [1], true⟩,
   ⟨str "activations", namesArr [str "relu"], true⟩]

example (dl : DynLinker) : ∃ net nn recs' h', load exBits always dl (fun i => 64 * i) (fun _ _ => 0) exEntries [] ⟨0, []⟩ =
    .ok (some (net, nn), recs', h') ∧ h'.live.Perm net.blocks := by
  have e : ∃ net nn recs' h', load exBits always dl (fun i => 64 * i) (fun _ _ => 0) exEntries [] ⟨0, []⟩ =
    .ok (some (net, nn), recs', h') := ⟨_, _, _, _, rfl⟩
  obtain ⟨net, nn, recs', h', e⟩ := e
  exact ⟨net, nn, recs', h', e, by
    simpa using C84_no_leak (by simp [exEntries]) (by simp [exEntries]; decide) (by decide) e⟩

/-- The same file with the names twice: two blocks leak. -/
example (dl : DynLinker) : ∃ net nn recs' h' L, load exBits always dl (fun i => 64 * i) (fun _ _ => 0)
    (exEntries ++ [⟨str "names", namesArr [str "tanh"], true⟩]) [] ⟨0, []⟩ = .ok (some (net, nn), recs', h') ∧
    h'.live.Perm (net.blocks ++ L) ∧ L.length = 2 := by
  have e : ∃ net nn recs' h', load exBits always dl (fun i => 64 * i) (fun _ _ => 0)
    (exEntries ++ [⟨str "names", namesArr [str "tanh"], true⟩]) [] ⟨0, []⟩ = .ok (some (net, nn), recs', h') := ⟨_, _, _, _, rfl⟩
  obtain ⟨net, nn, recs', h', e⟩ := e
  obtain ⟨L, c, -, p⟩ := C84_strings_false (by simp [exEntries]) (by simp [exEntries]; decide) (by decide) e
  exact ⟨net, nn, recs', h', L, e, by simpa using p, c⟩

/-- No memory for the data of the second array: a warning, an odd number of arrays, and the assertion of src/neuralnet.c:153.  No
memory for the network: NULL, and nothing leaks. -/
example (dl : DynLinker) : load exBits (fun i => i != 5) dl (fun i => 64 * i) (fun _ _ => 0) exEntries [] ⟨0, []⟩ =
    .error .assertFail ∧ load exBits (fun i => i != 15) dl (fun i => 64 * i) (fun _ _ => 0) exEntries [] ⟨0, []⟩ =
    .ok (none, [], ⟨16, []⟩) := ⟨rfl, rfl⟩

/-- A network with two layers. -/
example : ∃ ps, saveArrays exBits [] exSaveNet = .ok ps ∧ ∃ h', save always true ps ⟨7, [3]⟩ = .ok (ps, 5, h') ∧ h'.live = [3] := by
  have e : ∃ ps, saveArrays exBits [] exSaveNet = .ok ps := ⟨_, rfl⟩
  obtain ⟨ps, e⟩ := e
  obtain ⟨h', e1, p⟩ := C84_save_network exBits [] exSaveNet (by simp [exSaveNet]) e ⟨7, [3]⟩
  exact ⟨ps, e, h', e1, List.perm_singleton.1 p⟩

/-- `zip_close` fails: two buffers leak. -/
example : save always false [(str "a", floatArray [] [1]), (str "b", floatArray [] [1])] ⟨0, []⟩ =
    .ok ([(str "a", floatArray [] [1]), (str "b", floatArray [] [1])], 2, ⟨8, [7, 6]⟩) := rfl

end LoadMem
end NN
