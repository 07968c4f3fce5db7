/-
Foundations of the model: faults, abstract floats, memory views, build configurations and the loop
combinators used by the kernels.
-/
namespace NN

/-- Outcomes of an execution that the C standard leaves undefined (or that abort the program).
Every memory access of the model is checked; an access that C does not define ends in one of these
values instead of a result. -/
inductive Fault where
  /-- access outside the object -/
  | oob
  /-- aligned vector instruction (`_mm256_load_ps`, ...) on a misaligned address -/
  | misaligned
  /-- NULL pointer dereference -/
  | nullDeref
  /-- `assert` failed (abort) -/
  | assertFail
  /-- slices the model treats as separate overlap -/
  | overlap
  /-- use (e.g. `free`) of an uninitialised pointer -/
  | uninit
  /-- block freed twice, or not obtained from the allocator -/
  | doubleFree
  /-- recursion / loop without end (fuel of the model exhausted) -/
  | diverge
  /-- signed integer overflow or conversion out of range -/
  | overflow
  deriving DecidableEq, Repr

/-- Executions either fault or deliver a value. -/
abbrev M (α : Type) := Except Fault α

/-- The operations the C code performs on `float`.  There are **no laws**: whatever is proved for an
arbitrary instance holds for IEEE-754 arithmetic, including rounding and NaN.

* `lit p q` is the literal `p/q` (`0.2f` is `lit 1 5`), `ofNat` the conversion `(float) n`.
* `fmax`/`fmin` are libm's `fmaxf`/`fminf` (also used for the `double` versions `fmax`/`fmin`),
  `maxps` is `_mm256_max_ps` (they differ on NaN).
* `exp8` is one lane of `exp256_ps` (src/activation.c:358-412), see `Verif/Model/Exp256.lean`.
* `lt`, `le`, `eq` are the C comparisons; `a > b` is `lt b a` and `a >= b` is `le b a`. -/
class FloatOps (F : Type) where
  zero : F
  one : F
  lit : Int → Nat → F
  ofNat : Nat → F
  add : F → F → F
  sub : F → F → F
  mul : F → F → F
  div : F → F → F
  /-- `fma a b c = a*b+c` with a single rounding -/
  fma : F → F → F → F
  neg : F → F
  abs : F → F
  sqrt : F → F
  exp : F → F
  log : F → F
  tanh : F → F
  round : F → F
  fmax : F → F → F
  fmin : F → F → F
  maxps : F → F → F
  exp8 : F → F
  eq : F → F → Bool
  lt : F → F → Bool
  le : F → F → Bool

/-- `__SSE__` only, `__AVX__`, or `__AVX512F__` (which implies `__AVX__`). -/
inductive Simd where
  | sse | avx | avx512
  deriving DecidableEq, Repr

/-- Compile-time configuration selecting the `#ifdef` branches. -/
structure Cfg where
  simd : Simd
  /-- `__FMA__` -/
  fma : Bool
  /-- `__AVX2__` -/
  avx2 : Bool
  deriving DecidableEq, Repr

/-- `__AVX__` -/
def Cfg.avx (c : Cfg) : Bool := c.simd != .sse
/-- `__AVX512F__` -/
def Cfg.avx512 (c : Cfg) : Bool := c.simd == .avx512
/-- `__AVX2__`; AVX2 implies AVX. -/
def Cfg.hasAvx2 (c : Cfg) : Bool := c.avx && c.avx2

/-- `ALIGN_SIZE`, src/simd.h:20-26. -/
def Cfg.alignSize (c : Cfg) : Nat :=
  match c.simd with
  | .sse => 16
  | .avx => 32
  | .avx512 => 64

/-- `floats_per_simd_register`, src/simd.h:28. -/
def Cfg.lanes (c : Cfg) : Nat := c.alignSize / 4

/-- A `float *` together with the object it points into: its byte address and the floats from there
to the end of the object. -/
structure View (F : Type) where
  addr : Nat
  data : List F

/-- `is_aligned(p)`, src/simd.h:38-39. -/
def isAligned (c : Cfg) (addr : Nat) : Bool := addr % c.alignSize == 0

/-- Replace the elements of `l` from index `i` on by `xs`. -/
def setSlice {α : Type} (l : List α) (i : Nat) (xs : List α) : List α :=
  l.take i ++ xs ++ l.drop (i + xs.length)

/-- The `w` elements of `l` from index `i`. -/
def slice {α : Type} (l : List α) (i w : Nat) : List α := (l.drop i).take w

namespace View
variable {F : Type}

/-- `p[i]` as a value. -/
def load (v : View F) (i : Nat) : M F :=
  match v.data[i]? with
  | some x => .ok x
  | none => .error .oob

/-- `p[i] = x`. -/
def store (v : View F) (i : Nat) (x : F) : M (View F) :=
  if i < v.data.length then .ok { v with data := v.data.set i x } else .error .oob

/-- `_mm256_loadu_ps(p+i)` / `_mm512_loadu_ps(p+i)` with `w` lanes. -/
def loadu (w : Nat) (v : View F) (i : Nat) : M (List F) :=
  if i + w ≤ v.data.length then .ok (slice v.data i w) else .error .oob

/-- `_mm256_load_ps(p+i)` / `_mm512_load_ps(p+i)`: faults unless the address is a multiple of the
register size. -/
def loada (w : Nat) (v : View F) (i : Nat) : M (List F) :=
  if (v.addr + 4 * i) % (4 * w) = 0 then v.loadu w i else .error .misaligned

/-- `_mm256_storeu_ps(p+i, xs)`. -/
def storeu (v : View F) (i : Nat) (xs : List F) : M (View F) :=
  if i + xs.length ≤ v.data.length then .ok { v with data := setSlice v.data i xs }
  else .error .oob

/-- `_mm256_store_ps(p+i, xs)` (register of `w` lanes). -/
def storea (w : Nat) (v : View F) (i : Nat) (xs : List F) : M (View F) :=
  if (v.addr + 4 * i) % (4 * w) = 0 then v.storeu i xs else .error .misaligned

/-- Pointer arithmetic `p + i` (within the object or one past its end). -/
def offset (v : View F) (i : Nat) : View F := { addr := v.addr + 4 * i, data := v.data.drop i }

end View

/-- `for( ; j <= n-W; j += W) body`: strip of width `W`.  With `W = 1` this is the scalar loop
`for( ; j < n; j++ )`. -/
def stripLe {σ : Type} (W n : Nat) (body : Nat → σ → M σ) (j : Nat) (s : σ) : M (Nat × σ) :=
  if 0 < W ∧ j + W ≤ n then
    match body j s with
    | .ok s' => stripLe W n body (j + W) s'
    | .error e => .error e
  else .ok (j, s)
termination_by n - j

/-- `for( ; j < n-W; j += W) body` (strict bound, src/matrix_operations.c:163,173). -/
def stripLt {σ : Type} (W n : Nat) (body : Nat → σ → M σ) (j : Nat) (s : σ) : M (Nat × σ) :=
  if 0 < W ∧ j + W < n then
    match body j s with
    | .ok s' => stripLt W n body (j + W) s'
    | .error e => .error e
  else .ok (j, s)
termination_by n - j

/-- `for( ; p(j) && j < n; j++) body`: the unaligned head of an activation function. -/
def headLoop {σ : Type} (p : Nat → Bool) (n : Nat) (body : Nat → σ → M σ) (j : Nat) (s : σ) :
    M (Nat × σ) :=
  if p j ∧ j < n then
    match body j s with
    | .ok s' => headLoop p n body (j + 1) s'
    | .error e => .error e
  else .ok (j, s)
termination_by n - j

/-- `for( i = 0; i < n; i++ ) body`. -/
def forN {σ : Type} (n : Nat) (body : Nat → σ → M σ) (s : σ) : M σ := do
  let (_, s) ← stripLe 1 n body 0 s
  pure s

/-- The `#ifdef __AVX512F__ ... #endif #ifdef __AVX__ ... #endif  scalar tail` ladder shared by the
kernels of src/matrix_operations.c.  The 512 and 256 bit loops differ only in their width `w`;
`vec w` is their body. -/
def ladder {σ : Type} (c : Cfg) (n : Nat) (vec : Nat → Nat → σ → M σ) (b1 : Nat → σ → M σ) (s : σ) :
    M σ := do
  let (j, s) ← if c.avx512 then stripLe 16 n (vec 16) 0 s else pure (0, s)
  let (j, s) ← if c.avx then stripLe 8 n (vec 8) j s else pure (j, s)
  let (_, s) ← stripLe 1 n b1 j s
  pure s

/-- The same ladder with strict bounds on the vector loops. -/
def ladderLt {σ : Type} (c : Cfg) (n : Nat) (vec : Nat → Nat → σ → M σ) (b1 : Nat → σ → M σ) (s : σ) :
    M σ := do
  let (j, s) ← if c.avx512 then stripLt 16 n (vec 16) 0 s else pure (0, s)
  let (j, s) ← if c.avx then stripLt 8 n (vec 8) j s else pure (j, s)
  let (_, s) ← stripLe 1 n b1 j s
  pure s

/-- `_mm256_set1_ps(x)`. -/
def set1 {F : Type} (w : Nat) (x : F) : List F := List.replicate w x

/-- Lane-wise binary instruction. -/
def vop2 {F : Type} (f : F → F → F) (a b : List F) : List F := List.zipWith f a b

/-- Lane-wise fused multiply-add `a*b+c`. -/
def vfma {F : Type} [FloatOps F] (a b c : List F) : List F :=
  List.zipWith (fun ab c => FloatOps.fma ab.1 ab.2 c) (List.zip a b) c

end NN
