# id|status|note
+C25|NN.C31_history NN.C32_steps NN.C34_steps NN.C36_adagrad_steps NN.C36_rmsprop_steps
+C28|NN.C31_history NN.C32_steps NN.C34_steps NN.C36_adagrad_steps NN.C36_rmsprop_steps
C01|proved|predict = textbook network function over the reals for every well-formed network, configuration, work memory content and address.
C02|proved|No fault under the stated preconditions (aligned or narrow output) and only the output vector changes; no float law used.
C03|proved|Narrow outputs need no alignment; from one register on the misaligned output pointer faults in every build.
C04|partial|The claim is false in AVX/AVX512 builds: row i of the output starts at i*n_output floats, so predict faults on a misaligned row (C04_false, C04_misaligned). C04_rows_partial proves the claim bit for bit under the exact alignment condition for every order of the rows, C04_real_partial relates it to the network function.
C05|partial|Proved in exact arithmetic for every sample count, split pattern, stack limit, stack address and content, except tanh layers in AVX2 builds (C05_rows_partial, C05_predict_partial). There the claim is false: workmem is a plain float array and tanh_act uses aligned loads (C05_false, for every network whose first hidden layer is tanh).
C06|partial|The claim is false: if the layers together are wider than N_STACK_ALLOC_FLOATS every non-empty batch recurses forever (C06_false). Otherwise the recursion terminates (C06_terminates_partial, C06_ok_partial). C06_overflow: the size is computed in int.
C07|proved|For every depth, size, parameters, input, target and direction, in exact arithmetic: whatever the call returns is the gradient of the objective belonging to the loss (C07_any_result), and it returns whenever no misaligned access happens (C07_gradient with BackAligned, see C09). Categorical crossentropy is the sum over the classes and needs targets summing to 1; mae/mape need prediction != target; the crossentropy objectives are the unclipped ones.
C08|partial|The claim is false: four refutations (softmax hidden, softmax with mse, bce with linear output, cce with sigmoid output). C08_everywhere_partial gives combinations that are right on every sample.
C09|partial|The claim is false in AVX/AVX512 builds. C09_exact: the layer sizes and activation functions for which the call succeeds, exactly (VectorWidths), for all others it is a misaligned access; at the level of addresses: C09_safe_partial, C09_misaligned (BackAligned). Whole classes of networks fail (C09_false_rows, C09_false_deriv). Safe sizes: C09_safe_sizes.
C10|proved|Bit for bit for any float operations.
C11|proved|Induction over call histories; predict is unaffected by any history.
C12|proved|Parameter order, one addition per entry for any float type, sums and inverse over the reals.
C13|proved|Exact while it fits unsigned int and no layer overflows int; C13_overflow gives the limit.
C14|proved|Every built-in name, all histories of dynamic loads by induction; the overlong symbol limit is proved too.
C15|proved|Characterises exactly which strings are accepted and that losses and metrics agree.
C16|proved|Ranges, monotonicity and softmax sum for every built-in activation over the reals, on the value the memory-level code leaves in the buffer.
C17|proved|Softmax equals the textbook quotient for every length and address, is shift invariant and order preserving (exact arithmetic). C17_no_overflow: the subtracted number is the maximum itself, so every argument of exp is at most zero.
C18|partial|Head/body/tail versions equal the elementwise scalar function for every length, address and build without any float law. False for tanh_act on misaligned buffers with n>=16 under AVX2 (C18_tanh_misaligned) and for relu on NaN, whose result depends on the address (C18_relu_nan_depends_on_address).
C19|proved|Every derivative function multiplies by the true derivative written in terms of the activation value, where the activation is differentiable.
C20|partial|In exact real arithmetic (with the constants, floor, integer shift and clamp of the code): relative error at most 1e-7 on [-87.683, 88.376]. In IEEE binary32 arithmetic with every operation rounded: at most 5e-7 there, and every bit pattern gives a finite nonnegative result. False below -87.6832, inside the clamped range, where the result is 0. NaN gives a large finite number. All elementwise activations in every build and at every address stay within 6e-7 (relative above 1) of the textbook functions in float arithmetic, the C library functions assumed accurate to 2 units in the last place (Spec/Libm.lean); softmax has a relative error of at most 1.3e-5 + 7.2e-8 n and stays within [0, 1].
C21|proved|On the value the loss function writes and the value the metric function returns, for every direction; exact arithmetic. C21_bce_clipped shows that the clipping range cannot be dropped.
C22|partial|The claim is false (C22_false): the loss gradient lacks the factor 1/n of the metric. C22_scaled_partial proves that it is n times the gradient of the metric for targets summing to 1.
C23|proved|Non-negativity, zero set, bounds, never NaN (reals with NaN), accuracies as fractions and first maxima. C23_binary_false: the restriction on the targets is needed. In single precision: C23_clip_float for every bit pattern, C23_float (crossentropies are numbers whatever the predictions are, for a logf whose results on [2^-24, 1] are from -17 to 0), C23_binary_float (the exact count, rounded once, for any predictions).
C24|proved|Build without BLAS: mean over the samples for every schedule and every stack content in exact arithmetic (C24_mean, C24_schedule_independent); for any float operations the call succeeds and writes only results[0..n_metrics) (C24_safe). BLAS build: C24_mean_blas, with the same tanh restriction as C05.
C25|proved|C25_history: any sequence of calls of prepare_shuffle_pivot and fisher_yates_shuffle, with changing sample counts, gives a permutation each time. C31_history, C32_steps, C34_steps, C36_*_steps: in any sequence of optimizer_run_epoch calls the batches whose mean gradients are applied contain, in every epoch, every sample exactly once (EpochBatches.once).
C26|proved|C26_unique_draws: bijection between draw sequences and permutations. C26_counts, C26_uniform, C26_biased: for how many sequences of values of rand() the code gives each permutation; uniform if all numbers up to n divide RAND_MAX+1, and not uniform whenever n itself does not (the draws are rand() % k).
C27|partial|False: the static _n_sample makes the first epoch of a second optimizer dereference NULL for the same sample count (C27_false_same_count) and go out of bounds in another case (C27_false_larger_count). C27_partial: works if the count differs from the last one used in the process.
C28|proved|For all four optimizers and any float operations: exactly ceil(n/batchsize) iterations, no fewer. C31_history, C32_steps, C34_steps, C36_*_steps: the same for any sequence of optimizer_run_epoch calls, with the sizes of the batches and the mean over the actual size (EpochBatches). In AVX builds under the assumption that the 16 floats behind the caller's gradient array are accessible (C30_false: without it the call is undefined); SSE builds need no assumption.
C29|proved|For every schedule tree and every stack content, exact arithmetic (C29_mean, C29_schedule_independent). In AVX builds under the assumption that the 16 floats behind the caller's gradient array are accessible (C30_false: without it the call is undefined); SSE builds need no assumption.
C30|partial|False in every AVX build (C30_false: the reduction accesses n_param_padding > n_param floats). C30_sse_partial: true for SSE builds; C30_room_partial: what happens if the memory behind is accessible.
C31|proved|C31_history: from SGD_new with momentum 0 through any sequence of optimizer_run_epoch calls, every batch does w - lr_t * (mean gradient of the batch at w), and the velocity stays 0. In AVX builds under the assumption that the 16 floats behind the caller's gradient array are accessible (C30_false: without it the call is undefined); SSE builds need no assumption.
C32|proved|C32_steps: from SGD_new with momentum m > 0 through any sequence of optimizer_run_epoch calls, n_iterations below 2^32, the classic or Nesterov recurrence for every batch; C32_history: the same as a fold of the specification. In AVX builds under the assumption that the 16 floats behind the caller's gradient array are accessible (C30_false: without it the call is undefined); SSE builds need no assumption.
C33|proved|For SGD, RMSprop and Adagrad, from the constructor through any sequence of optimizer_run_epoch calls: the closed form of the learning rate left in the optimizer, its bounds, and that it lies strictly below the time-based rule from the third batch on. In AVX builds under the assumption that the 16 floats behind the caller's gradient array are accessible (C30_false: without it the call is undefined); SSE builds need no assumption.
C34|proved|C34_steps: from adam_new through any sequence of optimizer_run_epoch calls, closed form of both moments as sums over the batches, the update of every batch, and the moments left in the optimizer; C34_history: the same as a fold of the specification. In AVX builds under the assumption that the 16 floats behind the caller's gradient array are accessible (C30_false: without it the call is undefined); SSE builds need no assumption.
C35|partial|False (C35_false): the correction factors are static; after one batch of another Adam a new one computes different parameters. C35_partial: true as long as no Adam has run before.
C36|proved|C36_adagrad_steps, C36_rmsprop_steps: from the constructors through any sequence of optimizer_run_epoch calls, accumulators, steps and step bound for every batch; C36_*_history: the same as folds of the specification. In AVX builds under the assumption that the 16 floats behind the caller's gradient array are accessible (C30_false: without it the call is undefined); SSE builds need no assumption.
C37|proved|C37_layout: values and layout in exact arithmetic; C37_safe: any float operations; C37_after_epoch: evaluated with the parameters after the epoch, for every optimizer type.
C38|partial|False (C38_false): static_metrics is shared, and overwritten by every constructor. C38_partial: true until another optimizer is created.
C39|partial|C39_less: the default direction, every score history including NaN and infinities; C39_sticky. Greater-is-better: C39_greater_partial when the first score is a number and no score equals FLT_MAX; false otherwise (C39_greater_false: a NaN first score is kept as best for ever).
C40|partial|False (C40_false): best_so_far and epochs_since_improvement are static variables of the function, shared by all callbacks. C40_partial: true when the first score of the new callback beats the scores of the others.
C41|partial|C41_less_partial / C41_greater_partial: the first checkpoint callback of a process, every history (greater: first score a number, none equal to FLT_MAX); saving is a parameter that makes the network readable (C49). False for further callbacks (C41_false).
C42|partial|C42_resume_partial, C42_sessions_partial: true for any history whose first session logs at least two epochs. False for a log of one line (C42_false, C42_sessions_false), an empty file (C42_empty_false: reads buf[-1]) and a last line without "Epoch" (C42_foreign_false: NULL).
C43|proved|All arrays of at most 7 dimensions, each positive and below 2^31, with the data present and a dictionary below 108 bytes; any sink and any memory oracle that grants the two requests. Outside these bounds it is false: C43_ndim8_false, C43_empty_false, C43_wrap_false. C43_mmap: mapping the saved file gives the same array; C43_mmap_null: when it gives NULL. C43_failures: NULL, files that cannot be written or read.
C44|proved|Exact bytes of the header and of the file, against an independently written description of the format.
C45|partial|C45_exact: exactly the header lengths whose low byte is below 128 or whose high byte is 255 are read correctly, any other is refused. C45_partial: any padding, minor version and trailing bytes. False for the other lengths (C45_false): the length byte is sign extended. If the file goes on (C45_shift_false) or is mapped (C45_mmap_false) the array is accepted with its data shifted.
C46|proved|All truncation points of all savable arrays; mmap agrees with load on complete files. C46_mmap_false shows that mmap does not detect truncation.
C47|proved|C47_roundtrip for names acceptable to libzip; libzip is modelled by ZipLib with the assumption ZipLib.Lawful (exists_lawful shows it is satisfiable). Limits: C47_duplicate_false (equal names: array lost but counted), C47_percent_false (name with a percent sign is used as a format on loading).
C48|proved|Heap model with blocks: C48_append, C48_prepend, C48_length, C48_free (each block freed once, nothing else), C48_no_memory. C48_long_name: names over 80 characters end the program.
C49|proved|All networks with built-in activation functions and int-sized arrays, any lawful zip library and float encoding; predictions identical for any floating point semantics. Names longer than 128 bytes: nothing is written.
C50|proved|Archive level requires that the members can be read (as arrays) and that there is one array of names.
C51|partial|False of the code: C51_archive_false (heap overflow), C51_bias_false, C51_odd_false, C51_no_weights_false, C51_no_names_false, C51_double_false (double precision arrays are read as halves of their elements), C51_junk_false (weights left uninitialised). C51_exact says exactly which arrays are accepted and with what result; C51_shapes_partial covers archives whose shapes fit; C51_empty and C51_other_type are the clean failures.
C52|partial|C52_reject (bad dimensions: NULL, nothing allocated), C52_create_partial and C52_null_partial: true when every product of consecutive sizes is below 2^31 and the array of names is not NULL. C52_overflow_false: from 2^31 on the int product overflows. C52_names_false: a NULL array of names is dereferenced.
C53|partial|C53_roundtrip: create then free releases every block exactly once. C53_failure_partial: failure of the first, second or last allocation. C53_failure_false: any other failure makes _weights_memory_free pass uninitialised pointers to free. C53_returns: whenever the call returns, for any arguments and any failing requests, nothing leaks.
C54|proved|C54_defined, C54_values, C54_fresh for every float model; C54_xavier (bounds) and C54_normal (polar method, scale sqrt(2/n_in) or 1) in exact arithmetic. C54_zero_false records that S == 0 is not rejected (NaN weights when the generator hits the centre twice). C54_stream: the exact chain of generator states through all layers and the weights drawn from it. In IEEE binary32 arithmetic: C54_float_uniform (range and distance from the exact value), C54_float_weights (all weights finite and bounded), C54_float_terminates, and C54_float_nan_false (NaN weight with RAND_MAX 2^31-1 when rand() gives 2^30 twice). C54_names_false: a NULL name or too few names.
C55|partial|All in the binary32 arithmetic of the code. C55_width, C55_monotone: exactly w cells, line exactly as wide as the terminal, bar and percentage monotone, full at x = n. C55_partial: for n <= 2^24 full only at x = n, and x*w/n cells up to 0.02 and truncation. False: full only at x = n for n > 2^24 (C55_full_false); exactly floor(x*w/n) cells (C55_floor_false: 12 of 22 cells at 13 of 22). Outside of 0 <= x <= n: C55_zero_false (n = 0 is undefined behaviour), C55_negative_false (the exact line, too long). C55_terminal: the width asked from the terminal.
C56|proved|Elementwise kernels: same list for every build without any float law (theorems C57_* give the build-independent result); matrix kernels over the reals for every SIMD build and for BLAS, on zeroed outputs where the code requires it.
C57|partial|In-bounds, write set and success proved for every kernel and length. False for matrix_vector_multiply: it needs every row aligned (C57_matrixVectorMultiply_misaligned proves the fault for all matrices with n_cols >= 8 not a multiple of 8).
C58|partial|False for data sets with 2^32 or more values (C58_false: products wrap). C58_partial: true below.
C59|partial|False: four metrics with a validation set overflow the buffer (C59_false). C59_partial: up to four printed values fit. C59_exact: the exact line length and the outcome for every length (fits, assertion, overflow).
C60|partial|False: C60_false proves the compression argument has no effect for any list (zip_set_file_compression is called before the member exists). C60_default: all members have the default compression.
C61|proved|IEEE binary32 arithmetic modelled bit by bit (B32): finite result and classical error bound for the three matrix kernels in every build; number of roundings n+1 for vector_matrix_multiply, rowDepth for matrix_vector_multiply, 1 for the outer product. C61_builds: distance of two builds in plain numbers. C61_ieee: every operation of the arithmetic gives a nearest float or the right infinity.
C62|proved|IEEE binary32 arithmetic, C library assumed accurate to 2 ulp (Spec/Libm.lean). General bound netError by recursion over the layers (Spec/NetError.lean, Spec/NetFloat.lean), closed form for squashing activations (C62_bounded), distance of two builds (C62_builds).
C63|proved|C63_training: any optimizer, any sequence of epochs. C63_new: what a new optimizer contains. C63_call: one call. C63_program: creation, initialisation, training, saving, loading, prediction. C63_exact: the condition on the layer sizes (VectorWidths) is exact, for other sizes the first epoch faults. For every float model; the example is in IEEE arithmetic. Left out of the program: data files, callbacks, printing, freeing.
C64|partial|C64_ownership, C64_no_leak, C64_separate: if allocation succeeds, for all programs. C64_twice: the rule 'at most once' is needed. C64_new_null: without memory for the structure NULL is returned. False otherwise: optimizer_free and callback_free dereference NULL (C64_null_false), without memory for a work vector the constructor aborts (C64_vector_false), a failing realloc of the pivot loses the old block (C64_pivot_false).
C65|partial|C65_nan_partial: true for networks whose layers are transparent in the given build (linear, exponential, softplus, softsign, hard_sigmoid; sigmoid, tanh, softmax where no vector code runs). False: relu without AVX hides NaN, the rest of the network computes from zeros (C65_relu_false); vector sigmoid and tanh answer about 0 and -1 (C65_sigmoid_false, C65_tanh_false).
C66|proved|C66_sgd, C66_adagrad, C66_rmsprop, C66_adam, C66_stationary. C66_large_rate: the bound is needed, with rate 1 a one-weight network goes from 4 to 36.
C67|partial|C67_features_partial, C67_labels_partial, C67_data_partial: true for well-formed files that belong together, below 2^32 values, labels below the number of classes. C67_pixel: the grey values in binary32. C67_labels_exact: the exact outcome for any labels. C67_magic: other types are refused. False otherwise: label out of range in the last row written behind the array (C67_label_false), in an earlier row an all-zero target (C67_row_false), more labels than images (C67_count_false), products from 2^32 on (C67_wrap_false), truncated files (C67_short_false). Without memory a NULL pointer is used (C67_memory_false, C67_labels_memory_false).
C68|partial|C68_sum: the reported values for any float operations and any schedule. C68_error: distance to the true mean in binary32. C68_accuracy_partial: the accuracy is the correctly rounded quotient for up to 2^24 samples, for every schedule. False above: C68_saturate_false (2^25 samples, one thread, every sample right, 1/2 reported).
C69|partial|C69_grows: accumulators of Adagrad over an epoch, unconditional. C69_adagrad, C69_rmsprop (with and without momentum), C69_adam: one step of the code. False: SGD always moves (C69_stall_false: a step below 2^-27 of the parameter is lost entirely). Not covered: Adam with betas between 1 - 2^-12 and 1 or gradients above 2^40, a rate of RMSprop outside (0,1), size of the velocity with momentum.
C70|proved|C70_gradient: distance to the exact gradient (IsGradient, C07). C70_builds: any two builds. C70_bounded: closed form; overflow excluded by the hypotheses on the weights. mean_absolute_percentage_error is not covered.
C71|proved|C71_mean: distance to the mean of the exact gradients. C71_runs: any two schedules and builds. C71_bounded: closed form, overflow excluded. C71_sgd: a step of SGD without momentum. Loss functions as in C70.
C72|proved|C72_alone, C72_ends, C72_jobs: programs with separate footprints. C72_predict_batch, C72_adam: the loop without reduction, the sections. C72_reduction, C72_evaluate, C72_batch_gradient, C72_covers: the loops with reduction. C72_shared_false: why the reduction is needed. Memory is sequentially consistent, which C11 guarantees for programs without data races.
C73|proved|C73_training, C73_training_float: the two ways of training agree. C73_count, C73_accuracy: what the accuracy is; C73_accuracy_false: it differs from binary_accuracy for an answer of exactly 1/2. C73_local_evaluate. C73_sizes_safe, C73_sizes_fault: sizes in the programs.
C74|partial|C74_run: a run with good files (Good), all of the above; C74_score_real: the score in exact arithmetic; b32_compares: IEEE comparisons meet the hypothesis. C74_options_partial: of every option except -s the last value counts, with the defaults. C74_epochs: whatever the options and results are, a run without fault trains exactly ten epochs. False, with proofs for every run: C74_e_false (-e has no effect), C74_s_false (-s), C74_m_false (-m), C74_missing_false (no --metrics or no --loss), C74_optimizer_false. Excluded: -q checkpoint.npz. C74_getopt: exactly which arguments are accepted; C74_usage: all others end the program.
C75|partial|C75_load_partial: one lookup, refinement to the model used by C14, C49, C52; C75_history_partial: all histories with memory; C75_exit: any number of cleanups. False: C75_dangling_false (pointer into a closed library), C75_leak_false (record never freed), C75_sticky_false (pending error of dlopen refuses the next good name with POSIX-like linkers).
C76|proved|C76_library: loops of the example library, any arithmetic (double precision subexpressions are parameters); C76_formula, C76_gradient, C76_gnubg: exact arithmetic; C76_null: no call returns without a derivative function.
C77|partial|C77_dump, C77_load_partial (C order), C77_hint (other element types), C77_save, C77_npz, C77_save_npz. False in four cases: C77_scalar_false and C77_zero_false (0 dimensions: shape[-1] is read), C77_vector_false (`ndim = 2` assigns: empty lines instead of the hint), C77_dims_false (3 or more dimensions: the first elements are printed as a matrix instead of the hint), C77_fortran_false (Fortran order is ignored). load_text gives the exact text in either order.
C78|partial|C78_bool and C78_options (the options, complete), C78_order (Fortran order: assertion), C78_run_partial (SSE builds: training, file, table). False in four ways: C78_avx_false (every AVX build faults in the first epoch, for all data: 28 outputs are not a multiple of 8), C78_momentum_false (--momentum and --nesterov do not reach the optimizer), C78_accuracy_false (with one output categorical_accuracy is always 1), C78_file_false (fewer than four arrays: NULL pointer).
C79|proved|C79_same (any arithmetic: the training, and both programs average the same values), C79_exact, C79_single, C79_float. Outside the quantifier: C79_missing (no file) and C79_order (an array in Fortran order): failed assertion in both; C79_file_false (one to three arrays: both follow a NULL pointer). C79_float assumes that the losses of the samples are finite.
C80|proved|C80_exact, C80_float, C80_detects; C80_nan_false: a NaN is never counted. The bound on the gradients in C80_float is a hypothesis. Without a bound the claim is false: C80_large_false (parameter 2^20, gradient 1: the test counts a failure although the step is rounded as well as possible).
C81|partial|C81_case covers any test case; C81_program_partial: the program runs to the end without AVX. With AVX that is false: C81_avx_false. C81_null_false: a failed allocation ends in a NULL dereference.
C82|proved|C82_runs in any arithmetic; C82_direction, C82_exact and C82_detects in exact arithmetic; C82_nan_false and C82_drift_false are about single precision. That no test fails in single precision is not claimed.
C83|proved|C83_statistics, C83_checks and C83_init_checks in exact arithmetic, C83_runs and C83_no_memory in any, C83_float in single precision; C83_statistics_false, C83_strings_false, C83_nan_false and C83_upper_false show what is wrong with the test. That the six checks of statistics pass with high probability is not claimed: there is no model of chance.
C84|partial|C84_load and C84_save count the leaked blocks exactly, for every pattern of failing requests; C84_no_leak, C84_freed, C84_refines, C84_save_all and C84_save_network: no leaks in the usual cases. That nothing ever leaks is false: C84_strings_false (two arrays of strings), C84_append_false (no memory for an element of the list), C84_close_false (zip_close fails). Memory that libzip keeps for itself is not modelled, except the buffers handed over.
C85|partial|C85_any for every accepted file, C85_rejected, C85_exact for a saved header followed by any bytes, C85_saved. That the mapping is always removed exactly is false: C85_trailing_false, C85_truncated_false. Pages have 4096 bytes.
C86|partial|C86_outcomes for every byte string; C86_safe_partial: nothing is read outside under two conditions on the header; C86_no_key, C86_magic (other files and versions are refused). That no file makes the reader leave the header is false: C86_descr_false, C86_shape_false.
