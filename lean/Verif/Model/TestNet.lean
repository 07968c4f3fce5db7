import Verif.Model.Create
import Verif.Model.Params
import Verif.Model.SaveLoad
/-
Model of tests/test.h and of tests/test_neuralnet.c.  Simplified: instead of the coloured text on stderr the state keeps, for every check,
whether it printed (OK) and whether it was counted as a failure; the other text is left out, and so is the NULL that `STR_ARRAY` puts behind the
last string.
-/
namespace NN.TestNet
open FloatOps
variable {F : Type}

/-! ### tests/test.h -/

/-- `test_count`, `fail_count`, and for every check whether it printed (OK) and whether it added to `fail_count`. -/
structure Tally where
  tests : Nat
  fails : Nat
  log : List (Bool × Bool)

/-- The three lines of every macro of tests/test.h:20-43. -/
def Tally.check (t : Tally) (shown counted : Bool) : Tally :=
  ⟨t.tests + 1, if counted then t.fails + 1 else t.fails, t.log ++ [(shown, counted)]⟩

/-- `CHECK_INT_EQUALS_MSG`, tests/test.h:20-23. -/
def Tally.checkInt (t : Tally) (a b : Int) : Tally := t.check (a == b) (a != b)

/-- `CHECK_NOT_NULL_MSG`, tests/test.h:25-28. -/
def Tally.checkNotNull {α : Type} (t : Tally) (p : Option α) : Tally := t.check p.isSome p.isNone

/-- `CHECK_STR_EQUALS_MSG`, tests/test.h:30-33. -/
def Tally.checkStr (t : Tally) (a b : String) : Tally := t.check (a == b) (a == b)

/-- `CHECK_CONDITION_MSG`, tests/test.h:40-43. -/
def Tally.checkCond (t : Tally) (b : Bool) : Tally := t.check b (!b)

section
variable [FloatOps F]

/-- `CHECK_FLOAT_EQUALS_MSG`, tests/test.h:35-38.  (`eps` is a `float`; with a `double` the comparison is one of `double`s.) -/
def Tally.checkFloat (t : Tally) (a b eps : F) : Tally := t.check (le (abs (sub a b)) eps) (lt eps (abs (sub a b)))

/-- The loop of `test_calculate_mean`, tests/test.h:52-54: `n` more values, from `i` on. -/
def meanLoop (v : View F) : Nat → Nat → F → M F
  | 0, _, sum => pure sum
  | n + 1, i, sum => do
    let x ← v.load i
    meanLoop v n (i + 1) (add sum x)

/-- `test_calculate_mean`, tests/test.h:47-56. -/
def calcMean (n : Nat) (v : View F) : M F := do
  let sum ← meanLoop v n 0 zero
  pure (div sum (ofNat n))

/-- The loop of `test_calculate_stddev`, tests/test.h:65-69. -/
def stddevLoop (v : View F) : Nat → Nat → F → F → M (F × F)
  | 0, _, sum, sq => pure (sum, sq)
  | n + 1, i, sum, sq => do
    let x ← v.load i
    stddevLoop v n (i + 1) (add sum x) (add sq (mul x x))

/-- `test_calculate_stddev`, tests/test.h:58-75.  The counter is an `unsigned int`, so with 2^32 values or more the loop does not end. -/
def calcStddev (n : Nat) (v : View F) : M F :=
  if n < 2 then pure zero
  else do
    let (sum, sq) ← stddevLoop v (min n (2 ^ 32)) 0 zero zero
    if 2 ^ 32 ≤ n then .error .diverge
    else
      let mean := div sum (ofNat n)
      let var := sub (div sq (ofNat n)) (mul mean mean)
      pure (sqrt var)

/-- The loop of `test_calculate_max`, tests/test.h:82-85. -/
def maxLoop (v : View F) : Nat → Nat → F → M F
  | 0, _, m => pure m
  | n + 1, i, m => do
    let x ← v.load i
    maxLoop v n (i + 1) (if lt m x then x else m)

/-- `test_calculate_max`, tests/test.h:77-87. -/
def calcMax (n : Nat) (v : View F) : M F := do
  let m ← v.load 0
  maxLoop v n 0 m

/-- The loop of `test_calculate_min`, tests/test.h:94-97. -/
def minLoop (v : View F) : Nat → Nat → F → M F
  | 0, _, m => pure m
  | n + 1, i, m => do
    let x ← v.load i
    minLoop v n (i + 1) (if lt x m then x else m)

/-- `test_calculate_min`, tests/test.h:89-99. -/
def calcMin (n : Nat) (v : View F) : M F := do
  let m ← v.load 0
  minLoop v n 0 m

/-! ### tests/test_neuralnet.c -/

/-- Lines 95-105 of tests/test_neuralnet.c. -/
def kaimingChecks (nInp nOut : Nat) (params : View F) (t : Tally) : M Tally := do
  let mean ← calcMean (nInp * nOut) (params.offset nOut)
  let stddev ← calcStddev (nInp * nOut) (params.offset nOut)
  let t := t.checkFloat mean zero (lit 1 10000)
  pure (t.checkFloat stddev (sqrt (div (lit 2 1) (ofNat nInp))) (lit 1 10000))

/-- Lines 122-151 of tests/test_neuralnet.c.  `6.0/(n_inp+n_out)` is a `double` there that is rounded to a `float`, here a quotient of
`float`s (the same number). -/
def xavierChecks (nInp nOut : Nat) (params : View F) (t : Tally) : M Tally := do
  let mean ← calcMean (nInp * nOut) (params.offset nOut)
  let stddev ← calcStddev (nInp * nOut) (params.offset nOut)
  let t := t.checkFloat mean zero (lit 1 10000)
  let a : F := neg (sqrt (div (lit 6 1) (ofNat (nInp + nOut))))
  let b : F := neg a
  let t := t.checkFloat stddev (div (sub b a) (sqrt (ofNat 12))) (lit 1 10000)
  let minval ← calcMin (nInp * nOut) (params.offset nOut)
  let maxval ← calcMax (nInp * nOut) (params.offset nOut)
  let t := t.checkCond (le a minval)
  let t := t.checkCond (le maxval b)
  let t := t.checkFloat minval a (lit 1 10000)
  pure (t.checkFloat maxval b (lit 1 10000))

/-- The loop of tests/test_neuralnet.c:194-198: `k` comparisons, from `i` on. -/
def compareLoop (result new : View F) : Nat → Nat → Tally → M Tally
  | 0, _, t => pure t
  | k + 1, i, t => do
    let a ← result.load i
    let b ← new.load i
    compareLoop result new k (i + 1) (t.checkFloat a b (lit 1 10000000))

end

/-- What the system gives the program: memory, random numbers, files, the arrays on the stack and the work areas of `neuralnet_predict`. -/
structure Sys (F : Type) where
  ok : Nat → Bool
  addr : Nat → Nat
  junk : Nat → Nat → F
  dl : DynLinker
  rnd : Rand
  fuel : Nat
  lib : ZipLib
  bits : FloatBits F
  mem : Nat → Bool
  result : Nat
  resultNew : Nat
  stack : Nat → F
  work : Nat
  workJunk : Nat → F
  workNew : Nat
  workNewJunk : Nat → F

/-- What the program leaves.  Both predictions are missing if it jumps to `end_of_tests`. -/
structure Outcome (F : Type) where
  tally : Tally
  results : Option (View F × View F)
  heap : Heap
  disk : Disk

/-- Lines 19-45 and 48-61 of tests/test_neuralnet.c: a network with layers of 3, 4 and 2 units. -/
def smallNet (sys : Sys F) (sizes : List Int) (funcs : List (Option String)) (t : Tally) (recs : List ActRecord) (h : Heap) :
    M (Tally × List ActRecord × Heap) := do
  let (net, recs, h) ← createNN sys.ok sys.dl 2 sizes (some funcs) recs h
  let t := t.checkNotNull net
  match net with
  | none => .error .nullDeref
  | some net => do
    let nn : Net F := net.toNet sys.addr sys.junk
    let n ← totalNParameters nn
    let t := t.checkInt 26 n
    let t := t.checkInt 2 nn.layers.length
    let h ← freeNN (some net) h
    pure (t, recs, h)

variable [FloatOps F]

/-- Lines 158-203 of tests/test_neuralnet.c: predict, save, load and predict again.  The block of `inp` is filled with 0.5 in lines 167-168.
(What `neuralnet_free` does with the loaded network is left out, as the blocks of that network are not kept by `loadNN`.) -/
def predictAgain (env : CustomEnv F) (c : Cfg) (sys : Sys F) (net : CNet) (nn : Net F) (t : Tally) (recs : List ActRecord) (h : Heap)
    (d : Disk) : M (Outcome F) :=
  match h.malloc sys.ok with
  | (none, _) => .error .assertFail
  | (some q, h) => do
    let inp : View F := ⟨sys.addr q, List.replicate 1000 (lit 1 2)⟩
    let result ← predict env c sys.work sys.workJunk nn inp (stackArray sys.result 10 sys.stack)
    let d ← saveNN sys.lib sys.bits recs d (some nn) (some "tmp_store_12.npz")
    let t := t.checkCond (d.content "tmp_store_12.npz").isSome
    let h ← freeNN (some net) h
    let (nn', _, h) ← loadNN sys.lib sys.bits d sys.mem sys.ok sys.dl sys.addr sys.junk "tmp_store_12.npz" recs h
    let t := t.checkNotNull nn'
    match nn' with
    | none => .error .nullDeref
    | some nn' => do
      let new ← predict env c sys.workNew sys.workNewJunk nn' inp (stackArray sys.resultNew 10 sys.stack)
      let t ← compareLoop result new 10 0 t
      let h ← h.free q
      pure ⟨t, some (result, new), h, d⟩

/-- Lines 79-156 of tests/test_neuralnet.c, then the rest.  `net` holds the blocks of the big network. -/
def initChecks (env : CustomEnv F) (c : Cfg) (sys : Sys F) (net : CNet) (t : Tally) (recs : List ActRecord) (h : Heap) (rs : RandState F)
    (d : Disk) : M (Outcome F) := do
  let (nn, rs) ← initializeNN sys.rnd sys.fuel recs (some [some "kaiming", some "kaiming"]) (some (net.toNet sys.addr sys.junk)) rs
  match nn with
  | none => .error .nullDeref
  | some nn => do
    let n ← totalNParameters nn
    let t := t.checkInt (1000 * 1000 + 1000 * 10 + 1000 + 10) n
    match h.malloc sys.ok with
    | (none, h) => do
      let h ← freeNN (some net) h
      pure ⟨t, none, h, d⟩
    | (some p, h) => do
      let params ← getParameters nn (blockView sys.addr sys.junk n (.blk p))
      let t ← kaimingChecks 1000 1000 params t
      let (nn, rs) ← initializeNN sys.rnd sys.fuel recs (some [some "xavier", some "xavier"]) (some nn) rs
      match nn with
      | none => .error .nullDeref
      | some nn => do
        let params ← getParameters nn params
        let t ← xavierChecks 1000 1000 params t
        let h ← h.free p
        let (nn, _) ← initializeNN sys.rnd sys.fuel recs none (some nn) rs
        let t := t.checkNotNull nn
        match nn with
        | none => .error .nullDeref
        | some nn => predictAgain env c sys net nn t recs h d

/-- `main`, tests/test_neuralnet.c:11-209.  `rs` is the state of the generator after `srand(time(0))` in line 76 (no random numbers are used
before). -/
def main (env : CustomEnv F) (c : Cfg) (sys : Sys F) (recs : List ActRecord) (h : Heap) (rs : RandState F) (d : Disk) : M (Outcome F) := do
  let (t, recs, h) ← smallNet sys [3, 4, 2] [some "tanh", some "sigmoid"] ⟨0, 0, []⟩ recs h
  let (t, recs, h) ← smallNet sys [3, 4, 2, -1] [none, some "sigmoid", some "blah"] t recs h
  let (net, recs, h) ← createNN sys.ok sys.dl 2 [1000, 1000, 10] (some [some "tanh", some "sigmoid"]) recs h
  let t := t.checkNotNull net
  match net with
  | none => .error .assertFail
  | some net => initChecks env c sys net t recs h rs d

end NN.TestNet
