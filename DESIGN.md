# Formal model of simd_neuralnet – design

Everything is Lean 4 (4.33.0) with Mathlib.  `lean/Verif/` has three kinds of files

* `Verif/Model/*`  – the model of the C code, function by function.  Every definition cites file and
  lines in `/repo` and states its simplifications.
* `Verif/Spec/*`   – small specifications written independently of the model (lists, sums, reals).
* `Verif/Proofs/*` – helper lemmas (loop invariants, refinements).
* `Verif/Properties/*` – the property theorems of `properties.jsonl`, with a concrete non-trivial
  example beside each.

## 1. Modelling decisions

### Floats
`FloatOps F` is a *lawless* class of the operations the C code performs on `float`
(`add mul fma exp max lt ...`).  There are four ways to use it.

* Every `[FloatOps F]`: memory safety, "vector code = scalar code", independence of buffer contents, save/load, control
  flow.  These hold for IEEE-754 floats, including NaN and rounding.
* `ℝ` ("exact arithmetic", `Model/RealOps`): forward pass = formula, gradient, reassociated sums, optimizer formulas.
  `Model/Exp256` replaces the vector exponential by the polynomial the code evaluates (`ops256`).
* `NanReal = Option ℝ` (`Model/NanOps`): witnesses in which a value is not a number.
* `B32` (`Model/B32`): IEEE-754 binary32 on the 32 bits; each operation is the exact result rounded to nearest, ties to
  even, with subnormals, infinities, signed zeros and NaN.  `B32.ops L` is the arithmetic of the compiled program; `L` is
  the C library, which the theorems assume accurate to 2^-22 relative (`Spec/Libm`, satisfied by correctly rounded
  functions: `exactLibm_accurate`).  Used for C54, C61, C62 and the float theorems of C20.

GCC with `-std=c99` (both Makefiles) does not contract `a*b+c`, and `-ffast-math` is not given, so the operations
are the ones in the source.  Integers of type `int` in size computations are `Nat`; where wrap-around matters
(parameter counts, header lengths, shapes, offsets) it is modelled explicitly.

### Memory
A pointer with its object is a `View F`: a byte address and the list of floats from there to the end
of the object.  Loads and stores are checked: out of range gives `Fault.oob`, an aligned vector
access to an address that is not a multiple of the vector size gives `Fault.misaligned`; failing
asserts, NULL dereference, uninitialised pointers and so on are other `Fault`s.  (The intrinsics require the alignment; a
compiler may fold an aligned load into an arithmetic instruction that does not check it, so a program with
`Fault.misaligned` need not crash in every build, but nothing promises that it works.)  Undefined behaviour is thus
a distinct outcome (`Except Fault`).  Addresses of stack arrays and `simd_malloc` blocks are
arbitrary, subject to the alignment the attribute/allocator guarantees.  Uninitialised memory is an
arbitrary list (universally quantified); a theorem whose right hand side does not mention it proves
independence.  Functions with several pointers into one buffer slice the buffer and write back; the
model raises `Fault.overlap` if an input and output slice overlap, so value-result is sound.

### Build configurations
`Cfg` records `__AVX__`, `__AVX2__`, `__AVX512F__`, `__FMA__` (and BLAS / OpenMP as separate functions or flags);
all theorems quantify over it unless stated.

### Parallelism
`#pragma omp parallel for` with reductions: a schedule is an arbitrary distribution of the iterations over
threads, arbitrary execution order inside a thread is not needed (OpenMP runs chunks in order, but we
allow any order), partial results combined in an arbitrary order.  Theorems quantify over all schedules.

### Optimizers and process-wide state
The `static` variables (`_n_sample`, `static_metrics`, Adam's correction factors, the callbacks' best scores) are explicit
state (`Statics`) passed from call to call, so several optimizers in a process can be described.  The counters of
iterations and samples are C `unsigned int`/`int`; the history theorems assume fewer than 2^32 batches and 2^31 samples,
and products `pivot * n_input` wrap as in C (C58).  The progress callback argument of `optimizer_run_epoch` is not
modelled (it cannot change the optimizer), nor failure of the `malloc` of the optimizer struct.  `batchgrad` is a C array
of `n_parameters` floats, but the OpenMP reduction clause covers up to 16 more in AVX builds: that is C30.  To be able
to say anything about training in AVX builds, the model has a parameter `slack` (accessible floats behind the array);
theorems other than C30 assume at least 16 in AVX builds.

### External world
* `rand()` is an arbitrary stream with an arbitrary RAND_MAX (`Rand`); the static variables of `random_normal` are `RandState`.
  The rejection loop has fuel; termination needs `Accepting` (a pair inside the circle within `fuel` pairs).
* Files are byte lists; a `Disk` says which names can be read and written.  libzip is an abstract `ZipLib` with laws (`Lawful`:
  reading back what was added, compression methods); `exists_lawful` shows that the laws are consistent.
* `FloatBits F` is the memory representation of a float (4 bytes, injective).  It exists for `BitVec 32` and `B32`, not for ℝ.
* `malloc` is an oracle that may fail at any call; a `Heap` records the live blocks, so leaks and double frees are visible.
* libc `strstr`, `strtol`, `sprintf("%d")`, `snprintf` are modelled on NUL-terminated byte strings; the formatting of a
  float is an arbitrary string of bounded length (logger, progress, model checkpoint).
* `dlopen`/`dlsym` are an oracle (`DynLinker`); custom activations are arbitrary functions of a layer (`CustomEnv`).
* BLAS routines are specified by their mathematical definition.

### Whole programs
`Model/Lifecycle` composes the functions: create, initialise, set the loss, make any optimizer, any sequence of
`optimizer_run_epoch`, save.  C63 states absence of faults for all such programs.

### Not modelled
Callback dispatch inside `optimizer_run_epoch`'s variadic progress argument; printing to stdout/stderr; the argument parsing (except of general-trainer.c) and
CSV reading of the example programs; `neuralnet_dump` and the other debug printers; the Python tests; `examples/test_adagrad.c` and `examples/test_rmsprop.c`, which use
functions that the library no longer has (`c_npy.h`, `neuralnet_new`, `optimizer_new`); weak memory
(the function-level models take the iterations of parallel loops as atomic; C72 justifies this for interleaved loads and stores).

## 2. Properties: what is modelled and how it is proved

| id | modelled | proof |
|----|----------|-------|
| C01 | `vector_matrix_multiply`, activations, `neuralnet_predict` at memory level | refinement: kernel loops by strip invariant to list functions (any floats); those equal the spec over ℝ; induction on layers |
| C02 | same, lawless | refinement gives `ok` and exact write set; layout disjointness by induction |
| C03 | same | positive for narrow outputs, negation by general witness |
| C04 | `neuralnet_predict_batch` (OpenMP) | any permutation of row writes gives the map; disjoint row writes |
| C05 | BLAS batch | strong induction on n_samples over the split, rows independent |
| C06 | BLAS batch recursion with fuel | terminates iff one sample fits; negation for wide nets |
| C07 | `neuralnet_backpropagation`, losses, derivatives | memory level → list level refinement; list level = chain rule, `HasDerivAt` by induction on layers |
| C08 | same | negation by witness; `_partial` positive = C07 |
| C09 | same with alignment | positive for aligned sizes (`_partial`), negation for odd sizes, exact condition on the sizes (`Spec/Widths`) |
| C10 | same | refinement result does not mention prior contents |
| C11 | `neuralnet_set_loss` | state-machine induction on call history |
| C12, C13 | `neuralnet_update`, `get_parameters`, `total_n_parameters` | list induction |
| C14, C15 | lookup tables, dynamic table | table facts + induction over load histories |
| C16, C17, C19 | activations over ℝ | real analysis |
| C18 | activations with head/body/tail | strip invariants, lawless |
| C20 | `exp256_ps` polynomial over ℝ | range reduction + Taylor bounds |
| C21–C23 | losses, metrics over ℝ | HasDerivAt, order lemmas |
| C24 | `evaluate` with schedules | permutation invariance of sums |
| C25, C26 | pivot preparation, Fisher–Yates, batch loop | permutation invariant; bijection by induction; outcomes of `rand()` counted as a product over the draws |
| C27 | static `_n_sample` | negation by witness; positive for one optimizer |
| C28–C30 | batch loop, OpenMP reduction | arithmetic; schedule invariance; negation for AVX builds |
| C31–C36 | SGD, Adam, Adagrad, RMSprop steps | closed forms by induction on the number of steps; `Properties/TrainCode.lean` states them about the code, for every sequence of `optimizer_run_epoch` calls |
| C37, C38 | `optimizer_run_epoch`, `optimizer_check_sanity` | case analysis; negation by witness |
| C39–C42 | callbacks | history induction; negations for shared statics and boundary files |
| C43–C46 | npy header codec, loader, mmap | parser/printer round trip on bytes; the header lengths read correctly, exactly; negations by witness |
| C47, C48 | archive, linked list | list induction |
| C49–C51 | `neuralnet_save`, `neuralnet_load` | composition of C43/C47; the arrays accepted (`Fits`) exactly; negations for malformed archives |
| C52, C53 | `neuralnet_create`, `_weights_memory_allocate`, `neuralnet_free` with failing allocator | allocation-trace invariants; negation |
| C54 | `neuralnet_initialize` | induction over layers and stream |
| C55 | `progress_ascii` | binary32 rounding of the ratio; full exactly at the end up to n = 2^24 |
| C56, C57 | kernels | strip invariants |
| C58 | `optimizer_calc_batch_gradient` | negation: offsets wrap modulo 2^32 |
| C59 | `logger.c` line buffer | exact outcome for every line length; negation for long lines |
| C60 | `npy_array_list_save_compressed` | list induction; negation (the request is ignored) |
| C61 | kernels in B32 | backward error analysis: error ≤ γ·Σ\|a\|\|b\| by induction over the strips, every build |
| C62 | `neuralnet_predict` in B32 | error recursion over the layers, kernels by C61, activations one by one |
| C63 | whole programs (`Model/Lifecycle`) | invariants between calls, composition of C52, C54, C28–C37, C49; for sizes outside `Spec/Widths` the fault of C09 is followed through the reduction and the loops |
| C64 | constructors and destructors on the heap (`Model/Objects`) | invariant: live blocks = blocks of the objects, by induction on the program; negations for NULL and failing allocations |
| C65 | `neuralnet_predict` in B32 with NaN inputs | NaN through kernels and activations, induction on layers; negations for `relu` and the vector exponential |
| C66 | `set_loss`, `run_epoch` of the four optimizers, `evaluate` on ℝ | C07 along the line of the step, continuity of the predictions, first step from C31–C36; negation for a large rate |
| C67 | `read_idx_features`, `read_idx_labels`, data part of `main` (examples/example_03.c) | decoder inverts the format's encoder; loop invariants; binary32 rounding for grey values; negations for damaged files |
| C68 | `evaluate`, `categorical_accuracy` in binary32 | reduction tree as a fold; standard rounding model along the tree; counting is exact up to 2^24; saturation witness |
| C69 | optimizer loop bodies in binary32 | exact evaluation of each operation with rounding bounds; `Properties/OptFloat.lean` states it about `sgdStep`, `adagradStep`, `rmspropStep`, `adamStep` |
| C70 | `backpropagation` in binary32 | running error bounds layer by layer (`Spec/BackFloat.lean`), on top of C61/C62 and C07; closed form by induction over the layers |
| C71 | `calcBatchGradient`, `sgdStep` in binary32 | entries of the reduction are sums in tree order (`sumF_tree`); the error analysis of such sums (C68) applied to the per-sample bounds of C70 |
| C72 | OpenMP regions as threads of loads and stores | invariant: every thread sees on its footprint the memory it would have if it ran alone; footprints from the row addresses and the private copies |
| C73 | training, test and `local_evaluate` of examples/example_01.c and example_02b.c | both trainings are folds of the same step; `0 + x` and `x / 1` in binary32, up to the sign of zero; means as in C24; C09 for the sizes |
| C74 | command line, set-up and main loop of examples/general-trainer.c | the loop is an induction with the invariants of C63; the callbacks see the results through C39, C41, C59; the file is read back by C49; inversion of the whole program for the false parts |
| C75 | `get_activation_func_dynamic`, `cleanup_dynamic_symbols` with heap, open libraries and the state of `dlerror` | ownership invariant (blocks and handles are those of the records plus the rest), induction on the lookups; forward simulation of the model of C14 |
| C76 | examples/custom_activation/gnubg_activation.c; custom functions in `backpropagation` | loop invariants; the chain rule argument of C07 with an abstract elementwise function (`gradient_core`); induction on the layers for the null pointer |
| C77 | npy_array_dump; the programs in npy_array/example | induction over the shape and the rows; the round trips of C43 and C47; negations for 0 dimensions, vectors and Fortran order |
| C78 | examples/test_sgd.c | reduction to the jobs of C63 (so the widths of C09 decide which builds work); the options by induction over the command line; negations for AVX, momentum, accuracy |
| C79 | examples/example_02.c, example_02b.c | one epoch (C63) and save/load (C49); a network with one sigmoid output answers the same at every address, so evaluate (C68) and local_evaluate average the same values; counting is exact up to 2^24 |
| C80 | tests/test_sgd.c | the gradient of a batch with one sample has the values of the gradient of the sample (adding zero and dividing by one are exact); one step of SGD (C05); rounding errors of step and test add up to less than the tolerance; weights bounded by C54 |
| C81 | tests/test_oddsizes.c | each case is a job of C63 with one more name than layers, and the arrays in memory of their own; exact condition on the widths from C09; memory as in C53 |
| C82 | tests/test_backpropagation.c | the loss along a line in the parameters as a function of one variable; bounds of its second derivative from those of tanh and the logistic function; slopes by backpropagation from C07; mean value theorem; weights from C54; the loop by an invariant |
| C83 | tests/test.h, tests/test_neuralnet.c | loops as folds; each check appends what it printed and what it counted to a log; the program by the theorems on create, initialize, save, load and predict (C49, C52, C54); range of the xavier weights by monotone rounding |
| C84 | src/neuralnet.c (load, save), npy_array/npy_array_list.c, npy_array/npy_array.c | blocks as numbers on the heap of C52; every function changes the multiset of live blocks in a known way (permutation of lists); counting by `List.count` |
| C85 | npy_array/npy_array.c (mmap, free) | address space as a set of pages; inversion of `readMatrix` for any accepted file; `countElements` is total on parsed shapes |
| C86 | npy_array/npy_array.c (_read_matrix) | the set of possible faults as a predicate on runs, closed under bind; `strstr` by decompositions of the text |

Where a property is false of the code, the negation is proved with a concrete witness and a positive
theorem with the missing hypothesis is kept with suffix `_partial`.

## 3. Trusted base

* Lean kernel; theorems depend at most on `propext`, `Classical.choice`, `Quot.sound`.
* The hand translation C → Lean (each definition cites its lines), the `Cfg`/memory/OpenMP/libc/libzip/BLAS
  abstractions above.
* Compiler: no floating-point contraction or reassociation beyond what the source says (`-ffast-math`
  off) for the bit-exact theorems; the intrinsics do lane-wise what their names say.

## 4. Testing the theorems against wrong programs

In a scratch copy of `lean/` one definition of the model is edited the way a bug would change the program (boundary, missed
case, swapped argument, dropped update, wrong constant), and the library is built.  A build that still succeeds
means that the theorems are too weak.  `seeded/LOG.jsonl` has one line per attempt.  Theorems that were added because of this:
C17_no_overflow, C54_stream, C59_exact, C23_clip_float, C23_binary_float, C39_none, C43_failures, C86_no_key, C86_magic.
