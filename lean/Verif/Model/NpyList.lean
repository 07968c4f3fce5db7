import Verif.Model.Npy
/-
Model of npy_array/npy_array_list.c: linked lists of arrays on a heap, and .npz archives through libzip.
-/
namespace NN

/-! ### The linked list -/

/-- What a block of the heap holds.  Pointers are block numbers, `none` is NULL. -/
inductive Obj where
  /-- `npy_array_list_t`, npy_array/npy_array_list.h:44-48. -/
  | node (array filename next : Option Nat)
  /-- `npy_array_t`; the contents of `m->data` are kept in `m`, `data` is the block holding them. -/
  | array (m : NpyArray) (data : Option Nat)
  /-- A string or the data of an array. -/
  | bytes (b : Bytes)

/-- The heap: number of requests so far; block `i` is the answer to request `i`. -/
structure LHeap where
  count : Nat
  obj : Nat → Option Obj

/-- `malloc`: request `i` succeeds iff `ok i`. -/
def LHeap.malloc (ok : Nat → Bool) (h : LHeap) (o : Obj) : Option Nat × LHeap :=
  if ok h.count then (some h.count, ⟨h.count + 1, fun p => if p = h.count then some o else h.obj p⟩)
  else (none, { h with count := h.count + 1 })

/-- `free`; `free(NULL)` does nothing. -/
def LHeap.free (h : LHeap) : Option Nat → M LHeap
  | none => pure h
  | some p => match h.obj p with
    | none => .error .doubleFree
    | some _ => pure { h with obj := fun q => if q = p then none else h.obj q }

/-- Read the node `p` points to. -/
def LHeap.node (h : LHeap) (p : Nat) : M (Option Nat × Option Nat × Option Nat) :=
  match h.obj p with
  | some (.node a f n) => pure (a, f, n)
  | _ => .error .oob

/-- `p->next = next` -/
def LHeap.setNext (h : LHeap) (p : Nat) (next : Option Nat) : M LHeap := do
  let (a, f, _) ← h.node p
  pure { h with obj := fun q => if q = p then some (.node a f next) else h.obj q }

/-- `MAX_FILENAME_LEN`, npy_array/npy_array_list.c:46. -/
def maxNameLen : Nat := 80

/-- `_va_args_filename`, npy_array/npy_array_list.c:72-96, where `text` is what the format and its arguments give. -/
def vaArgsFilename (ok : Nat → Bool) (h : LHeap) (text : Bytes) : M (Option Nat × LHeap) :=
  if maxNameLen < text.length then pure (none, h)
  else
    match h.malloc ok (.bytes text) with
    | (none, _) => .error .assertFail
    | (some p, h) => pure (some p, h)

/-- The loop of `_list_append`, npy_array/npy_array_list.c:101-103: the last node.  `fuel` bounds the number of steps. -/
def lastNode (h : LHeap) : Nat → Nat → M Nat
  | 0, _ => .error .diverge
  | fuel + 1, p => do
    let (_, _, next) ← h.node p
    match next with
    | none => pure p
    | some q => lastNode h fuel q

/-- `_list_append`, npy_array/npy_array_list.c:98-109. -/
def listLink (fuel : Nat) (h : LHeap) (list : Option Nat) (new : Nat) : M (Option Nat × LHeap) :=
  match list with
  | some p => do
    let last ← lastNode h fuel p
    let h ← h.setNext last (some new)
    pure (some p, h)
  | none => do
    let h ← h.setNext new none
    pure (some new, h)

/-- `_list_prepend`, npy_array/npy_array_list.c:111-115. -/
def listPush (h : LHeap) (list : Option Nat) (new : Nat) : M (Option Nat × LHeap) := do
  let h ← h.setNext new list
  pure (some new, h)

/-- Lines 120-128 of npy_array/npy_array_list.c, common to append and prepend: the new node, or NULL.  The node is complete
when it is linked; it is created here with `array` and `filename` already set. -/
def listNew (ok : Nat → Bool) (h : LHeap) (array : Option Nat) (text : Bytes) : M (Option Nat × LHeap) :=
  match h.malloc ok (.node none none none) with
  | (none, h) => pure (none, h)
  | (some p, h) => do
    let (f, h) ← vaArgsFilename ok h text
    match f with
    | none => .error .assertFail
    | some f => pure (some p, { h with obj := fun q => if q = p then some (.node array (some f) none) else h.obj q })

/-- `npy_array_list_append`, npy_array/npy_array_list.c:117-133. -/
def listAppend (ok : Nat → Bool) (fuel : Nat) (h : LHeap) (list array : Option Nat) (text : Bytes) :
    M (Option Nat × LHeap) := do
  let (new, h) ← listNew ok h array text
  match new with
  | none => pure (list, h)
  | some p => listLink fuel h list p

/-- `npy_array_list_prepend`, npy_array/npy_array_list.c:117-134. -/
def listPrepend (ok : Nat → Bool) (h : LHeap) (list array : Option Nat) (text : Bytes) : M (Option Nat × LHeap) := do
  let (new, h) ← listNew ok h array text
  match new with
  | none => pure (list, h)
  | some p => listPush h list p

/-- `npy_array_list_length`, npy_array/npy_array_list.c:231-243, continuing at `p` with `len` nodes counted. -/
def listLength (h : LHeap) : Nat → Option Nat → Nat → M Nat
  | _, none, len => pure len
  | 0, some _, _ => .error .diverge
  | fuel + 1, some p, len => do
    let (_, _, next) ← h.node p
    listLength h fuel next (len + 1)

/-- `npy_array_free`, npy_array/npy_array.c:378-399, for an array that is not mapped.  (A mapped array is unmapped instead;
arrays in lists come from `_read_matrix` with `read_zip` or from the user.) -/
def arrayFree (h : LHeap) (p : Nat) : M LHeap :=
  match h.obj p with
  | some (.array m data) => do
    let h ← if m.mapped then pure h else h.free data
    h.free (some p)
  | _ => .error .oob

/-- Lines 63-64 of npy_array/npy_array_list.c. -/
def arrayFreeIf (h : LHeap) : Option Nat → M LHeap
  | none => pure h
  | some a => arrayFree h a

/-- `npy_array_list_free`, npy_array/npy_array_list.c:59-70. -/
def listFree : Nat → LHeap → Option Nat → M LHeap
  | _, h, none => pure h
  | 0, _, some _ => .error .diverge
  | fuel + 1, h, some p => do
    let (a, f, next) ← h.node p
    let h ← arrayFreeIf h a
    let h ← h.free f
    let h ← listFree fuel h next
    h.free (some p)

/-! ### Archives

From here on a list of arrays is a Lean list of names and arrays; C48 relates the two. -/

/-- A member of an archive.  `data = none`: `zip_fopen_index` fails.  `comp` is the compression method, `none` the default. -/
structure ZipEntry where
  name : Bytes
  data : Option Bytes
  comp : Option (Int × Nat)

/-- libzip: the bytes of an archive, reading an archive, and which names `zip_file_add` accepts. -/
structure ZipLib where
  close : List ZipEntry → Bytes
  open' : Bytes → Option (List ZipEntry)
  nameOk : Bytes → Bool

/-- `zip_set_file_compression`: fails if there is no member `i`. -/
def zipSetCompression (es : List ZipEntry) (i : Nat) (comp : Int × Nat) : List ZipEntry :=
  match es[i]? with
  | none => es
  | some e => es.set i { e with comp := some comp }

/-- `zip_file_add` without ZIP_FL_OVERWRITE: fails if the name is taken or not acceptable. -/
def zipFileAdd (lib : ZipLib) (es : List ZipEntry) (name data : Bytes) : List ZipEntry :=
  if lib.nameOk name ∧ ∀ e ∈ es, e.name ≠ name then es ++ [⟨name, some data, none⟩] else es

/-- The loop of `npy_array_list_save_compressed`, npy_array/npy_array_list.c:161-193, at index `n`.  A name of `none` is
replaced by `_new_internal_filename` (npy_array/npy_array_list.c:137-143); allocations succeed. -/
def saveLoop (lib : ZipLib) (comp : Int × Nat) : Nat → List (Option Bytes × NpyArray) → List ZipEntry → M (Nat × List ZipEntry)
  | n, [], es => pure (n, es)
  | n, (name, m) :: l, es => do
    let es := zipSetCompression es n comp
    let b ← npyBytes m
    let es := zipFileAdd lib es (name.getD (str "arr_" ++ dec n ++ str ".npy")) b
    saveLoop lib comp (n + 1) l es

/-- `npy_array_list_save_compressed`, npy_array/npy_array_list.c:151-199. -/
def listSaveCompressed (lib : ZipLib) (d : Disk) (filename : String) (l : List (Option Bytes × NpyArray)) (comp : Int × Nat) :
    M (Nat × Disk) :=
  if l.isEmpty then pure (0, d)
  else if d.writable filename then do
    let (n, es) ← saveLoop lib comp 0 l []
    pure (n, { d with content := fun g => if g = filename then some (lib.close es) else d.content g })
  else .error .assertFail

/-- `npy_array_list_save`, npy_array/npy_array_list.c:145-148 (ZIP_CM_STORE is 0). -/
def listSave (lib : ZipLib) (d : Disk) (filename : String) (l : List (Option Bytes × NpyArray)) : M (Nat × Disk) :=
  listSaveCompressed lib d filename l (0, 0)

/-- `printf` of a format without arguments: "%%" is a percent sign, any other conversion reads an argument that is not
there (or is undefined itself). -/
def printfNoArgs : Bytes → M Bytes
  | [] => pure []
  | c :: s =>
    if c = 37 then
      match s with
      | d :: s => if d = 37 then do
          let t ← printfNoArgs s
          pure (37 :: t)
        else .error .uninit
      | [] => .error .uninit
    else do
      let t ← printfNoArgs s
      pure (c :: t)

/-- `npy_array_list_append` of a loaded array, where the name in the archive is the format.  `mem n`: an allocation of `n`
bytes succeeds. -/
def loadAppend (mem : Nat → Bool) (l : List (Bytes × NpyArray)) (m : NpyArray) (name : Bytes) : M (List (Bytes × NpyArray)) :=
  if mem 24 then do
    let text ← printfNoArgs (cstr name)
    if maxNameLen < text.length then .error .assertFail
    else if mem (text.length + 1) then pure (l ++ [(text, m)])
    else .error .assertFail
  else pure l

/-- The loop of `npy_array_list_load`, npy_array/npy_array_list.c:211-224. -/
def loadLoop (mem : Nat → Bool) : List ZipEntry → List (Bytes × NpyArray) → M (List (Bytes × NpyArray))
  | [], l => pure l
  | e :: es, l =>
    match e.data with
    | none => loadLoop mem es l
    | some b => do
      match ← readMatrix false mem b with
      | none => loadLoop mem es l
      | some m => do
        let l ← loadAppend mem l m e.name
        loadLoop mem es l

/-- `npy_array_list_load`, npy_array/npy_array_list.c:201-229; the empty list is NULL. -/
def listLoad (lib : ZipLib) (d : Disk) (mem : Nat → Bool) (filename : String) : M (List (Bytes × NpyArray)) :=
  match d.content filename with
  | none => pure []
  | some s =>
    if d.readable filename then
      match lib.open' s with
      | none => pure []
      | some es => loadLoop mem es []
    else pure []

end NN
