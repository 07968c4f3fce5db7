import Verif.Model.SaveLoad
/-
Model of the temporary memory of `neuralnet_load` and `neuralnet_save` (src/neuralnet.c) and of the list functions they call
(npy_array/npy_array_list.c, npy_array/npy_array.c).  Every request of memory may fail.  Not modelled: memory that libzip and
`fprintf` keep for themselves, except the buffers handed over to libzip by `npy_array_list_save`.
-/
namespace NN.LoadMem

/-- An element of the list: the blocks of the `npy_array_list_t`, of its filename, of its array and of the array's data
(`none`: data that is not the list's), with what they hold. -/
structure Node where
  node : Nat
  name : Nat
  array : Nat
  data : Option Nat
  text : Bytes
  m : NpyArray

/-- A file of the archive whose header `_read_matrix` accepts.  `whole`: the file holds all the data the header announces.
Files it rejects before asking for memory are left out. -/
structure Entry where
  text : Bytes
  m : NpyArray
  whole : Bool

/-- The requests of `_read_matrix`, npy_array/npy_array.c:196-276: the structure and the data; `none` is NULL. -/
def readMatrix (ok : Nat → Bool) (e : Entry) (h : Heap) : M (Option (Nat × Nat) × Heap) :=
  match h.malloc ok with
  | (none, h) => pure (none, h)
  | (some a, h) =>
    match h.malloc ok with
    | (none, h) => do
      let h ← h.free a
      pure (none, h)
    | (some d, h) =>
      if e.whole then pure (some (a, d), h)
      else do
        let h ← h.free d
        let h ← h.free a
        pure (none, h)

/-- `npy_array_list_append`, npy_array/npy_array_list.c:117-131: without memory for the node, the list as it was.  The
filename is 80 characters or less and there is memory for it, or the assertion fails. -/
def append (ok : Nat → Bool) (l : List Node) (text : Bytes) (m : NpyArray) (a : Nat) (d : Option Nat) (h : Heap) :
    M (List Node × Heap) :=
  match h.malloc ok with
  | (none, h) => pure (l, h)
  | (some n, h) =>
    if maxNameLen < text.length then .error .assertFail
    else
      match h.malloc ok with
      | (none, _) => .error .assertFail
      | (some f, h) => pure (l ++ [⟨n, f, a, d, text, m⟩], h)

/-- The loop of `npy_array_list_load`, npy_array/npy_array_list.c:211-224: the list, and how often "Cannot read matrix" is
printed.  (`text` is what the name gives as a format.) -/
def listLoad (ok : Nat → Bool) : List Entry → List Node → Nat → Heap → M (List Node × Nat × Heap)
  | [], l, w, h => pure (l, w, h)
  | e :: es, l, w, h => do
    match ← readMatrix ok e h with
    | (none, h) => listLoad ok es l (w + 1) h
    | (some (a, d), h) =>
      let (l, h) ← append ok l e.text e.m a (some d) h
      listLoad ok es l w h

/-- `free( p )`; `none` is NULL. -/
def freeOpt : Option Nat → Heap → M Heap
  | none, h => pure h
  | some p, h => h.free p

/-- `npy_array_list_free`, npy_array/npy_array_list.c:59-70, with `npy_array_free` (npy_array/npy_array.c:378-399) of arrays that
are not mapped. -/
def listFree : List Node → Heap → M Heap
  | [], h => pure h
  | n :: ns, h => do
    let h ← freeOpt n.data h
    let h ← h.free n.array
    let h ← h.free n.name
    let h ← listFree ns h
    h.free n.node

/-- `_activation_names_from_npy`, src/neuralnet.c:94-108: the two blocks and the names.  Bounds as in `namesFromNpy`. -/
def names (ok : Nat → Bool) (m : NpyArray) (h : Heap) : M ((Nat × Nat × List Bytes) × Heap) :=
  match h.malloc ok with
  | (none, _) => .error .assertFail
  | (some p, h) =>
    if dim m 0 = 0 then .error .oob
    else
      match h.malloc ok with
      | (none, _) => .error .assertFail
      | (some q, h) =>
        if 2 ^ 32 ≤ dim m 0 then .error .oob
        else if m.data.length < dim m 0 * m.elemSize then .error .oob
        else pure ((p, q, (List.range (dim m 0)).map fun i => cstr ((m.data.drop (i * m.elemSize)).take m.elemSize)), h)

/-- The loop of src/neuralnet.c:141-151: the float arrays so far and `activation_funcs`; `false`: load_error. -/
def sort (ok : Nat → Bool) : List NpyArray → List NpyArray → Option (Nat × Nat × List Bytes) → Heap →
    M (Bool × List NpyArray × Option (Nat × Nat × List Bytes) × Heap)
  | [], wb, acts, h => pure (true, wb, acts, h)
  | m :: ms, wb, acts, h =>
    if m.typechar = 102 then sort ok ms (wb ++ [m]) acts h                    -- 'f'
    else if m.typechar = 83 then do                                           -- 'S'
      let (a, h) ← names ok m h
      sort ok ms wb (some a) h
    else pure (false, wb, acts, h)

/-- `load_error`, src/neuralnet.c:205-214. -/
def cleanup (l : List Node) (wb : Option Nat) (acts : Option (Nat × Nat × List Bytes)) (h : Heap) : M Heap := do
  let h ← listFree l h
  let h ← freeOpt wb h
  match acts with
  | none => pure h
  | some (p, q, _) => do
    let h ← h.free q
    h.free p

/-- `neuralnet_load` after `npy_array_list_load`, src/neuralnet.c:125-215. -/
def loadRest {F : Type} (bits : FloatBits F) (ok : Nat → Bool) (dl : DynLinker) (addr : Nat → Nat) (junk : Nat → Nat → F)
    (l : List Node) (recs : List ActRecord) (h : Heap) : M (Option (CNet × Net F) × List ActRecord × Heap) :=
  if l.isEmpty then pure (none, recs, h)
  else
    match h.malloc ok with
    | (none, h) => do
      let h ← cleanup l none none h
      pure (none, recs, h)
    | (some p, h) => do
      let (good, wb, acts, h) ← sort ok (l.map Node.m) [] none h
      if !good then do
        let h ← cleanup l (some p) acts h
        pure (none, recs, h)
      else if wb.length % 2 ≠ 0 then .error .assertFail
      else do
        let sizes ← sizeArray wb
        let (net, recs, h) ← createNN ok dl (wb.length / 2 : Nat) sizes
          (acts.map fun a => a.2.2.map fun s => some (unstr s)) recs h
        match net with
        | none => do
          let h ← cleanup l (some p) acts h
          pure (none, recs, h)
        | some net => do
          let ls ← copyLayers bits wb (net.toNet addr junk).layers
          let h ← cleanup l (some p) acts h
          pure (some (net, ⟨ls, none⟩), recs, h)

/-- `neuralnet_load`, src/neuralnet.c:116-215, for an archive that can be opened. -/
def load {F : Type} (bits : FloatBits F) (ok : Nat → Bool) (dl : DynLinker) (addr : Nat → Nat) (junk : Nat → Nat → F)
    (es : List Entry) (recs : List ActRecord) (h : Heap) : M (Option (CNet × Net F) × List ActRecord × Heap) := do
  let (l, _, h) ← listLoad ok es [] 0 h
  loadRest bits ok dl addr junk l recs h

/-! ### Saving -/

/-- The requests for the arrays, src/neuralnet.c:347-395: a structure, which an assertion requires, and the element of the
list. -/
def saveList (ok : Nat → Bool) : List (Bytes × NpyArray) → List Node → Heap → M (List Node × Heap)
  | [], l, h => pure (l, h)
  | p :: ps, l, h =>
    match h.malloc ok with
    | (none, _) => .error .assertFail
    | (some a, h) => do
      let (l, h) ← append ok l p.1 p.2 a none h
      saveList ok ps l h

/-- The buffers `matrix_npy_format`, npy_array/npy_array_list.c:175-178, one for each array; they belong to libzip from then on. -/
def buffers (ok : Nat → Bool) : List Node → Heap → M (List Nat × Heap)
  | [], h => pure ([], h)
  | _ :: ns, h =>
    match h.malloc ok with
    | (none, _) => .error .assertFail
    | (some b, h) => do
      let (bs, h) ← buffers ok ns h
      pure (b :: bs, h)

/-- `zip_close`: libzip frees the buffers.  If it fails the archive stays open with all it owns until `zip_discard`, which
the program never calls. -/
def zipClose (closed : Bool) : List Nat → Heap → M Heap
  | [], h => pure h
  | b :: bs, h => if closed then do
      let h ← h.free b
      zipClose closed bs h
    else pure h

/-- The loop of src/neuralnet.c:403-409. -/
def saveFree : List Node → Heap → M Heap
  | [], h => pure h
  | n :: ns, h => do
    let h ← h.free n.name
    let h ← h.free n.array
    let h ← h.free n.node
    saveFree ns h

/-- `neuralnet_save`, src/neuralnet.c:345-410, for a file that can be written: the arrays handed to libzip, `n_saved`, and the
heap.  `ps` is what `saveArrays` computes; `closed`: does `zip_close` succeed? -/
def save (ok : Nat → Bool) (closed : Bool) (ps : List (Bytes × NpyArray)) (h : Heap) :
    M (List (Bytes × NpyArray) × Nat × Heap) := do
  let (l, h) ← saveList ok ps [] h
  let (bs, h) ← buffers ok l h
  let h ← zipClose closed bs h
  let h ← saveFree l h
  pure (l.map fun n => (n.text, n.m), l.length, h)

end NN.LoadMem
