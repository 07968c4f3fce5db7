{
 "claims": [
  {
   "property": "C01",
   "status": "proved",
   "theorems": [
    "NN.C01_predict"
   ],
   "note": "predict = textbook network function over the reals for every well-formed network, configuration, work memory content and address."
  },
  {
   "property": "C02",
   "status": "proved",
   "theorems": [
    "NN.C02_predict_safe"
   ],
   "note": "No fault under the stated preconditions (aligned or narrow output) and only the output vector changes; no float law used."
  },
  {
   "property": "C03",
   "status": "proved",
   "theorems": [
    "NN.C03_alignment",
    "NN.C03_narrow",
    "NN.C03_wide"
   ],
   "note": "Narrow outputs need no alignment; from one register on the misaligned output pointer faults in every build."
  },
  {
   "property": "C04",
   "status": "partial",
   "theorems": [
    "NN.C04_rows_partial",
    "NN.C04_row_frame",
    "NN.C04_misaligned",
    "NN.C04_false",
    "NN.C04_real_partial"
   ],
   "note": "The claim is false in AVX/AVX512 builds: row i of the output starts at i*n_output floats, so predict faults on a misaligned row (C04_false, C04_misaligned). C04_rows_partial proves the claim bit for bit under the exact alignment condition for every order of the rows, C04_real_partial relates it to the network function."
  },
  {
   "property": "C05",
   "status": "partial",
   "theorems": [
    "NN.C05_rows_partial",
    "NN.C05_predict_partial",
    "NN.C05_false"
   ],
   "note": "Proved in exact arithmetic for every sample count, split pattern, stack limit, stack address and content, except tanh layers in AVX2 builds (C05_rows_partial, C05_predict_partial). There the claim is false: workmem is a plain float array and tanh_act uses aligned loads (C05_false, for every network whose first hidden layer is tanh)."
  },
  {
   "property": "C06",
   "status": "partial",
   "theorems": [
    "NN.C06_terminates_partial",
    "NN.C06_ok_partial",
    "NN.C06_false",
    "NN.C06_overflow"
   ],
   "note": "The claim is false: if the layers together are wider than N_STACK_ALLOC_FLOATS every non-empty batch recurses forever (C06_false). Otherwise the recursion terminates (C06_terminates_partial, C06_ok_partial). C06_overflow: the size is computed in int."
  },
  {
   "property": "C07",
   "status": "proved",
   "theorems": [
    "NN.C07_gradient",
    "NN.C07_any_result"
   ],
   "note": "For every depth, size, parameters, input, target and direction, in exact arithmetic: whatever the call returns is the gradient of the objective belonging to the loss (C07_any_result), and it returns whenever no misaligned access happens (C07_gradient with BackAligned, see C09). Categorical crossentropy is the sum over the classes and needs targets summing to 1; mae/mape need prediction != target; the crossentropy objectives are the unclipped ones."
  },
  {
   "property": "C08",
   "status": "partial",
   "theorems": [
    "NN.C08_false_bce_linear",
    "NN.C08_false_cce_sigmoid",
    "NN.C08_false_softmax_mse",
    "NN.C08_false_softmax_hidden",
    "NN.C08_everywhere_partial"
   ],
   "note": "The claim is false: four refutations (softmax hidden, softmax with mse, bce with linear output, cce with sigmoid output). C08_everywhere_partial gives combinations that are right on every sample."
  },
  {
   "property": "C09",
   "status": "partial",
   "theorems": [
    "NN.C09_safe_partial",
    "NN.C09_misaligned",
    "NN.C09_safe_sizes",
    "NN.C09_false_rows",
    "NN.C09_false_deriv",
    "NN.C09_exact"
   ],
   "note": "The claim is false in AVX/AVX512 builds. C09_exact: the layer sizes and activation functions for which the call succeeds, exactly (VectorWidths), for all others it is a misaligned access; at the level of addresses: C09_safe_partial, C09_misaligned (BackAligned). Whole classes of networks fail (C09_false_rows, C09_false_deriv). Safe sizes: C09_safe_sizes."
  },
  {
   "property": "C10",
   "status": "proved",
   "theorems": [
    "NN.C10_deterministic"
   ],
   "note": "Bit for bit for any float operations."
  },
  {
   "property": "C11",
   "status": "proved",
   "theorems": [
    "NN.C11_unknown_asserts",
    "NN.C11_last_wins",
    "NN.C11_sets",
    "NN.C11_unknown",
    "NN.C11_predict_unaffected"
   ],
   "note": "Induction over call histories; predict is unaffected by any history."
  },
  {
   "property": "C12",
   "status": "proved",
   "theorems": [
    "NN.C12_get",
    "NN.C12_update",
    "NN.C12_sequence",
    "NN.C12_inverse"
   ],
   "note": "Parameter order, one addition per entry for any float type, sums and inverse over the reals."
  },
  {
   "property": "C13",
   "status": "proved",
   "theorems": [
    "NN.C13_count",
    "NN.C13_exact",
    "NN.C13_buffer",
    "NN.C13_overflow"
   ],
   "note": "Exact while it fits unsigned int and no layer overflows int; C13_overflow gives the limit."
  },
  {
   "property": "C14",
   "status": "proved",
   "theorems": [
    "NN.C14_builtin",
    "NN.C14_builtin_unique",
    "NN.C14_unknown",
    "NN.C14_custom_history",
    "NN.C14_long_symbol"
   ],
   "note": "Every built-in name, all histories of dynamic loads by induction; the overlong symbol limit is proved too."
  },
  {
   "property": "C15",
   "status": "proved",
   "theorems": [
    "NN.C15_loss_accepts",
    "NN.C15_loss_roundtrip",
    "NN.C15_loss_is_metric",
    "NN.C15_metric_accepts",
    "NN.C15_metric_roundtrip"
   ],
   "note": "Characterises exactly which strings are accepted and that losses and metrics agree."
  },
  {
   "property": "C16",
   "status": "proved",
   "theorems": [
    "NN.C16_range",
    "NN.C16_softmax_sum",
    "NN.C16_monotone"
   ],
   "note": "Ranges, monotonicity and softmax sum for every built-in activation over the reals, on the value the memory-level code leaves in the buffer."
  },
  {
   "property": "C17",
   "status": "proved",
   "theorems": [
    "NN.C17_softmax_textbook",
    "NN.C17_alignment_independent",
    "NN.C17_shift",
    "NN.C17_order",
    "NN.C17_no_overflow"
   ],
   "note": "Softmax equals the textbook quotient for every length and address, is shift invariant and order preserving (exact arithmetic). C17_no_overflow: the subtracted number is the maximum itself, so every argument of exp is at most zero."
  },
  {
   "property": "C18",
   "status": "partial",
   "theorems": [
    "NN.C18_elementwise",
    "NN.C18_map",
    "NN.C18_map_noavx",
    "NN.C18_tanh_misaligned",
    "NN.C18_derivative",
    "NN.C18_textbook",
    "NN.C18_relu_nan_depends_on_address"
   ],
   "note": "Head/body/tail versions equal the elementwise scalar function for every length, address and build without any float law. False for tanh_act on misaligned buffers with n>=16 under AVX2 (C18_tanh_misaligned) and for relu on NaN, whose result depends on the address (C18_relu_nan_depends_on_address)."
  },
  {
   "property": "C19",
   "status": "proved",
   "theorems": [
    "NN.C19_derivative"
   ],
   "note": "Every derivative function multiplies by the true derivative written in terms of the activation value, where the activation is differentiable."
  },
  {
   "property": "C20",
   "status": "partial",
   "theorems": [
    "NN.C20_relative_partial",
    "NN.C20_above",
    "NN.C20_flush_false",
    "NN.C20_absolute",
    "NN.C20_activation",
    "NN.C20_softmax",
    "NN.C20_float",
    "NN.C20_float_total",
    "NN.C20_float_flush_false",
    "NN.C20_float_nan",
    "NN.C20_float_activation",
    "NN.C20_float_softmax",
    "NN.C20_float_range"
   ],
   "note": "In exact real arithmetic (with the constants, floor, integer shift and clamp of the code): relative error at most 1e-7 on [-87.683, 88.376]. In IEEE binary32 arithmetic with every operation rounded: at most 5e-7 there, and every bit pattern gives a finite nonnegative result. False below -87.6832, inside the clamped range, where the result is 0. NaN gives a large finite number. All elementwise activations in every build and at every address stay within 6e-7 (relative above 1) of the textbook functions in float arithmetic, the C library functions assumed accurate to 2 units in the last place (Spec/Libm.lean); softmax has a relative error of at most 1.3e-5 + 7.2e-8 n and stays within [0, 1]."
  },
  {
   "property": "C21",
   "status": "proved",
   "theorems": [
    "NN.C21_gradient",
    "NN.C21_bce",
    "NN.C21_bce_clipped"
   ],
   "note": "On the value the loss function writes and the value the metric function returns, for every direction; exact arithmetic. C21_bce_clipped shows that the clipping range cannot be dropped."
  },
  {
   "property": "C22",
   "status": "partial",
   "theorems": [
    "NN.C22_scaled_partial",
    "NN.C22_false"
   ],
   "note": "The claim is false (C22_false): the loss gradient lacks the factor 1/n of the metric. C22_scaled_partial proves that it is n times the gradient of the metric for targets summing to 1."
  },
  {
   "property": "C23",
   "status": "proved",
   "theorems": [
    "NN.C23_error_metrics",
    "NN.C23_crossentropy",
    "NN.C23_never_nan",
    "NN.C23_accuracy",
    "NN.C23_binary_false",
    "NN.C23_binary_fraction",
    "NN.C23_categorical",
    "NN.C23_clip_float",
    "NN.C23_float",
    "NN.C23_binary_float"
   ],
   "note": "Non-negativity, zero set, bounds, never NaN (reals with NaN), accuracies as fractions and first maxima. C23_binary_false: the restriction on the targets is needed. In single precision: C23_clip_float for every bit pattern, C23_float (crossentropies are numbers whatever the predictions are, for a logf whose results on [2^-24, 1] are from -17 to 0), C23_binary_float (the exact count, rounded once, for any predictions)."
  },
  {
   "property": "C24",
   "status": "proved",
   "theorems": [
    "NN.C24_mean_blas",
    "NN.C24_safe",
    "NN.C24_mean",
    "NN.C24_schedule_independent"
   ],
   "note": "Build without BLAS: mean over the samples for every schedule and every stack content in exact arithmetic (C24_mean, C24_schedule_independent); for any float operations the call succeeds and writes only results[0..n_metrics) (C24_safe). BLAS build: C24_mean_blas, with the same tanh restriction as C05."
  },
  {
   "property": "C25",
   "status": "proved",
   "theorems": [
    "NN.C25_order",
    "NN.C25_no_shuffle",
    "NN.C25_history",
    "NN.C31_history",
    "NN.C32_steps",
    "NN.C34_steps",
    "NN.C36_adagrad_steps",
    "NN.C36_rmsprop_steps"
   ],
   "note": "C25_history: any sequence of calls of prepare_shuffle_pivot and fisher_yates_shuffle, with changing sample counts, gives a permutation each time. C31_history, C32_steps, C34_steps, C36_*_steps: in any sequence of optimizer_run_epoch calls the batches whose mean gradients are applied contain, in every epoch, every sample exactly once (EpochBatches.once)."
  },
  {
   "property": "C26",
   "status": "proved",
   "theorems": [
    "NN.C26_permutation",
    "NN.C26_unique_draws",
    "NN.C26_counts",
    "NN.C26_uniform",
    "NN.C26_biased"
   ],
   "note": "C26_unique_draws: bijection between draw sequences and permutations. C26_counts, C26_uniform, C26_biased: for how many sequences of values of rand() the code gives each permutation; uniform if all numbers up to n divide RAND_MAX+1, and not uniform whenever n itself does not (the draws are rand() % k)."
  },
  {
   "property": "C27",
   "status": "partial",
   "theorems": [
    "NN.C27_false_same_count",
    "NN.C27_false_larger_count",
    "NN.C27_partial"
   ],
   "note": "False: the static _n_sample makes the first epoch of a second optimizer dereference NULL for the same sample count (C27_false_same_count) and go out of bounds in another case (C27_false_larger_count). C27_partial: works if the count differs from the last one used in the process."
  },
  {
   "property": "C28",
   "status": "proved",
   "theorems": [
    "NN.C28_sgd",
    "NN.C28_adagrad",
    "NN.C28_rmsprop",
    "NN.C28_adam",
    "NN.C31_history",
    "NN.C32_steps",
    "NN.C34_steps",
    "NN.C36_adagrad_steps",
    "NN.C36_rmsprop_steps"
   ],
   "note": "For all four optimizers and any float operations: exactly ceil(n/batchsize) iterations, no fewer. C31_history, C32_steps, C34_steps, C36_*_steps: the same for any sequence of optimizer_run_epoch calls, with the sizes of the batches and the mean over the actual size (EpochBatches). In AVX builds under the assumption that the 16 floats behind the caller's gradient array are accessible (C30_false: without it the call is undefined); SSE builds need no assumption."
  },
  {
   "property": "C29",
   "status": "proved",
   "theorems": [
    "NN.C29_mean",
    "NN.C29_schedule_independent"
   ],
   "note": "For every schedule tree and every stack content, exact arithmetic (C29_mean, C29_schedule_independent). In AVX builds under the assumption that the 16 floats behind the caller's gradient array are accessible (C30_false: without it the call is undefined); SSE builds need no assumption."
  },
  {
   "property": "C30",
   "status": "partial",
   "theorems": [
    "NN.C30_false",
    "NN.C30_sse_partial",
    "NN.C30_room_partial"
   ],
   "note": "False in every AVX build (C30_false: the reduction accesses n_param_padding > n_param floats). C30_sse_partial: true for SSE builds; C30_room_partial: what happens if the memory behind is accessible."
  },
  {
   "property": "C31",
   "status": "proved",
   "theorems": [
    "NN.C31_history"
   ],
   "note": "C31_history: from SGD_new with momentum 0 through any sequence of optimizer_run_epoch calls, every batch does w - lr_t * (mean gradient of the batch at w), and the velocity stays 0. In AVX builds under the assumption that the 16 floats behind the caller's gradient array are accessible (C30_false: without it the call is undefined); SSE builds need no assumption."
  },
  {
   "property": "C32",
   "status": "proved",
   "theorems": [
    "NN.C32_history",
    "NN.C32_steps"
   ],
   "note": "C32_steps: from SGD_new with momentum m > 0 through any sequence of optimizer_run_epoch calls, n_iterations below 2^32, the classic or Nesterov recurrence for every batch; C32_history: the same as a fold of the specification. In AVX builds under the assumption that the 16 floats behind the caller's gradient array are accessible (C30_false: without it the call is undefined); SSE builds need no assumption."
  },
  {
   "property": "C33",
   "status": "proved",
   "theorems": [
    "NN.C33_sgd",
    "NN.C33_adagrad",
    "NN.C33_rmsprop"
   ],
   "note": "For SGD, RMSprop and Adagrad, from the constructor through any sequence of optimizer_run_epoch calls: the closed form of the learning rate left in the optimizer, its bounds, and that it lies strictly below the time-based rule from the third batch on. In AVX builds under the assumption that the 16 floats behind the caller's gradient array are accessible (C30_false: without it the call is undefined); SSE builds need no assumption."
  },
  {
   "property": "C34",
   "status": "proved",
   "theorems": [
    "NN.C34_history",
    "NN.C34_steps"
   ],
   "note": "C34_steps: from adam_new through any sequence of optimizer_run_epoch calls, closed form of both moments as sums over the batches, the update of every batch, and the moments left in the optimizer; C34_history: the same as a fold of the specification. In AVX builds under the assumption that the 16 floats behind the caller's gradient array are accessible (C30_false: without it the call is undefined); SSE builds need no assumption."
  },
  {
   "property": "C35",
   "status": "partial",
   "theorems": [
    "NN.C35_false",
    "NN.C35_partial"
   ],
   "note": "False (C35_false): the correction factors are static; after one batch of another Adam a new one computes different parameters. C35_partial: true as long as no Adam has run before."
  },
  {
   "property": "C36",
   "status": "proved",
   "theorems": [
    "NN.C36_adagrad_history",
    "NN.C36_rmsprop_history",
    "NN.C36_adagrad_steps",
    "NN.C36_rmsprop_steps"
   ],
   "note": "C36_adagrad_steps, C36_rmsprop_steps: from the constructors through any sequence of optimizer_run_epoch calls, accumulators, steps and step bound for every batch; C36_*_history: the same as folds of the specification. In AVX builds under the assumption that the 16 floats behind the caller's gradient array are accessible (C30_false: without it the call is undefined); SSE builds need no assumption."
  },
  {
   "property": "C37",
   "status": "proved",
   "theorems": [
    "NN.C37_layout",
    "NN.C37_after_epoch",
    "NN.C37_safe"
   ],
   "note": "C37_layout: values and layout in exact arithmetic; C37_safe: any float operations; C37_after_epoch: evaluated with the parameters after the epoch, for every optimizer type."
  },
  {
   "property": "C38",
   "status": "partial",
   "theorems": [
    "NN.C38_partial",
    "NN.C38_false"
   ],
   "note": "False (C38_false): static_metrics is shared, and overwritten by every constructor. C38_partial: true until another optimizer is created."
  },
  {
   "property": "C39",
   "status": "partial",
   "theorems": [
    "NN.C39_score",
    "NN.C39_less",
    "NN.C39_greater_partial",
    "NN.C39_greater_false",
    "NN.C39_none",
    "NN.C39_sticky"
   ],
   "note": "C39_less: the default direction, every score history including NaN and infinities; C39_sticky. Greater-is-better: C39_greater_partial when the first score is a number and no score equals FLT_MAX; false otherwise (C39_greater_false: a NaN first score is kept as best for ever)."
  },
  {
   "property": "C40",
   "status": "partial",
   "theorems": [
    "NN.C40_false",
    "NN.C40_partial"
   ],
   "note": "False (C40_false): best_so_far and epochs_since_improvement are static variables of the function, shared by all callbacks. C40_partial: true when the first score of the new callback beats the scores of the others."
  },
  {
   "property": "C41",
   "status": "partial",
   "theorems": [
    "NN.C41_less_partial",
    "NN.C41_greater_partial",
    "NN.C41_false"
   ],
   "note": "C41_less_partial / C41_greater_partial: the first checkpoint callback of a process, every history (greater: first score a number, none equal to FLT_MAX); saving is a parameter that makes the network readable (C49). False for further callbacks (C41_false)."
  },
  {
   "property": "C42",
   "status": "partial",
   "theorems": [
    "NN.C42_resume_partial",
    "NN.C42_false",
    "NN.C42_empty_false",
    "NN.C42_foreign_false",
    "NN.C42_explicit",
    "NN.C42_sessions_partial",
    "NN.C42_sessions_false"
   ],
   "note": "C42_resume_partial, C42_sessions_partial: true for any history whose first session logs at least two epochs. False for a log of one line (C42_false, C42_sessions_false), an empty file (C42_empty_false: reads buf[-1]) and a last line without \"Epoch\" (C42_foreign_false: NULL)."
  },
  {
   "property": "C43",
   "status": "proved",
   "theorems": [
    "NN.C43_roundtrip",
    "NN.C43_ndim8_false",
    "NN.C43_empty_false",
    "NN.C43_wrap_false",
    "NN.C43_mmap",
    "NN.C43_mmap_null",
    "NN.C43_failures"
   ],
   "note": "All arrays of at most 7 dimensions, each positive and below 2^31, with the data present and a dictionary below 108 bytes; any sink and any memory oracle that grants the two requests. Outside these bounds it is false: C43_ndim8_false, C43_empty_false, C43_wrap_false. C43_mmap: mapping the saved file gives the same array; C43_mmap_null: when it gives NULL. C43_failures: NULL, files that cannot be written or read."
  },
  {
   "property": "C44",
   "status": "proved",
   "theorems": [
    "NN.C44_header",
    "NN.C44_file"
   ],
   "note": "Exact bytes of the header and of the file, against an independently written description of the format."
  },
  {
   "property": "C45",
   "status": "partial",
   "theorems": [
    "NN.C45_partial",
    "NN.C45_false",
    "NN.C45_exact",
    "NN.C45_shift_false",
    "NN.C45_mmap_false"
   ],
   "note": "C45_exact: exactly the header lengths whose low byte is below 128 or whose high byte is 255 are read correctly, any other is refused. C45_partial: any padding, minor version and trailing bytes. False for the other lengths (C45_false): the length byte is sign extended. If the file goes on (C45_shift_false) or is mapped (C45_mmap_false) the array is accepted with its data shifted."
  },
  {
   "property": "C46",
   "status": "proved",
   "theorems": [
    "NN.C46_truncated",
    "NN.C46_mmap",
    "NN.C46_mmap_false"
   ],
   "note": "All truncation points of all savable arrays; mmap agrees with load on complete files. C46_mmap_false shows that mmap does not detect truncation."
  },
  {
   "property": "C47",
   "status": "proved",
   "theorems": [
    "NN.C47_roundtrip",
    "NN.C47_empty",
    "NN.C47_duplicate_false",
    "NN.C47_percent_false"
   ],
   "note": "C47_roundtrip for names acceptable to libzip; libzip is modelled by ZipLib with the assumption ZipLib.Lawful (exists_lawful shows it is satisfiable). Limits: C47_duplicate_false (equal names: array lost but counted), C47_percent_false (name with a percent sign is used as a format on loading)."
  },
  {
   "property": "C48",
   "status": "proved",
   "theorems": [
    "NN.C48_append",
    "NN.C48_prepend",
    "NN.C48_no_memory",
    "NN.C48_long_name",
    "NN.C48_length",
    "NN.C48_free"
   ],
   "note": "Heap model with blocks: C48_append, C48_prepend, C48_length, C48_free (each block freed once, nothing else), C48_no_memory. C48_long_name: names over 80 characters end the program."
  },
  {
   "property": "C49",
   "status": "proved",
   "theorems": [
    "NN.C49_roundtrip",
    "NN.C49_predict",
    "NN.C49_long_name",
    "NN.C49_null"
   ],
   "note": "All networks with built-in activation functions and int-sized arrays, any lawful zip library and float encoding; predictions identical for any floating point semantics. Names longer than 128 bytes: nothing is written."
  },
  {
   "property": "C50",
   "status": "proved",
   "theorems": [
    "NN.C50_list",
    "NN.C50_archive"
   ],
   "note": "Archive level requires that the members can be read (as arrays) and that there is one array of names."
  },
  {
   "property": "C51",
   "status": "partial",
   "theorems": [
    "NN.C51_exact",
    "NN.C51_double_false",
    "NN.C51_junk_false",
    "NN.C51_shapes_partial",
    "NN.C51_empty",
    "NN.C51_other_type",
    "NN.C51_odd_false",
    "NN.C51_no_weights_false",
    "NN.C51_no_names_false",
    "NN.C51_bias_false",
    "NN.C51_archive_false"
   ],
   "note": "False of the code: C51_archive_false (heap overflow), C51_bias_false, C51_odd_false, C51_no_weights_false, C51_no_names_false, C51_double_false (double precision arrays are read as halves of their elements), C51_junk_false (weights left uninitialised). C51_exact says exactly which arrays are accepted and with what result; C51_shapes_partial covers archives whose shapes fit; C51_empty and C51_other_type are the clean failures."
  },
  {
   "property": "C52",
   "status": "partial",
   "theorems": [
    "NN.C52_reject",
    "NN.C52_create_partial",
    "NN.C52_null_partial",
    "NN.C52_overflow_false",
    "NN.C52_names_false"
   ],
   "note": "C52_reject (bad dimensions: NULL, nothing allocated), C52_create_partial and C52_null_partial: true when every product of consecutive sizes is below 2^31 and the array of names is not NULL. C52_overflow_false: from 2^31 on the int product overflows. C52_names_false: a NULL array of names is dereferenced."
  },
  {
   "property": "C53",
   "status": "partial",
   "theorems": [
    "NN.C53_roundtrip",
    "NN.C53_failure_partial",
    "NN.C53_failure_false",
    "NN.C53_returns"
   ],
   "note": "C53_roundtrip: create then free releases every block exactly once. C53_failure_partial: failure of the first, second or last allocation. C53_failure_false: any other failure makes _weights_memory_free pass uninitialised pointers to free. C53_returns: whenever the call returns, for any arguments and any failing requests, nothing leaks."
  },
  {
   "property": "C54",
   "status": "proved",
   "theorems": [
    "NN.B32.C54_float_uniform",
    "NN.B32.C54_float_weights",
    "NN.B32.C54_float_nan_false",
    "NN.B32.C54_float_terminates",
    "NN.C54_names_false",
    "NN.C54_stream",
    "NN.C54_values",
    "NN.C54_fresh",
    "NN.C54_defined",
    "NN.C54_xavier",
    "NN.C54_normal",
    "NN.C54_zero_false"
   ],
   "note": "C54_defined, C54_values, C54_fresh for every float model; C54_xavier (bounds) and C54_normal (polar method, scale sqrt(2/n_in) or 1) in exact arithmetic. C54_zero_false records that S == 0 is not rejected (NaN weights when the generator hits the centre twice). C54_stream: the exact chain of generator states through all layers and the weights drawn from it. In IEEE binary32 arithmetic: C54_float_uniform (range and distance from the exact value), C54_float_weights (all weights finite and bounded), C54_float_terminates, and C54_float_nan_false (NaN weight with RAND_MAX 2^31-1 when rand() gives 2^30 twice). C54_names_false: a NULL name or too few names."
  },
  {
   "property": "C55",
   "status": "partial",
   "theorems": [
    "NN.C55_width",
    "NN.C55_narrow",
    "NN.C55_monotone",
    "NN.C55_partial",
    "NN.C55_full_false",
    "NN.C55_floor_false",
    "NN.C55_terminal",
    "NN.C55_zero_false",
    "NN.C55_negative_false"
   ],
   "note": "All in the binary32 arithmetic of the code. C55_width, C55_monotone: exactly w cells, line exactly as wide as the terminal, bar and percentage monotone, full at x = n. C55_partial: for n <= 2^24 full only at x = n, and x*w/n cells up to 0.02 and truncation. False: full only at x = n for n > 2^24 (C55_full_false); exactly floor(x*w/n) cells (C55_floor_false: 12 of 22 cells at 13 of 22). Outside of 0 <= x <= n: C55_zero_false (n = 0 is undefined behaviour), C55_negative_false (the exact line, too long). C55_terminal: the width asked from the terminal."
  },
  {
   "property": "C56",
   "status": "proved",
   "theorems": [
    "NN.C56_vectorMatrixMultiply",
    "NN.C56_vectorMatrixMultiply_blas",
    "NN.C56_matrixVectorMultiply",
    "NN.C56_matrixVectorMultiply_blas",
    "NN.C56_matrixVectorMultiply_accumulates",
    "NN.C56_vectorVectorOuter",
    "NN.C56_vectorVectorOuter_blas",
    "NN.C56_vectorAccumulate_blas",
    "NN.C56_vectorSaxpy_blas",
    "NN.C56_vectorSaxpby_blas"
   ],
   "note": "Elementwise kernels: same list for every build without any float law (theorems C57_* give the build-independent result); matrix kernels over the reals for every SIMD build and for BLAS, on zeroed outputs where the code requires it."
  },
  {
   "property": "C57",
   "status": "partial",
   "theorems": [
    "NN.C57_vectorAccumulate",
    "NN.C57_vectorAccumulateUnaligned",
    "NN.C57_vectorScale",
    "NN.C57_vectorDivideByScalar",
    "NN.C57_vectorSaxpy",
    "NN.C57_vectorSquareElements",
    "NN.C57_vectorSaxpby",
    "NN.C57_vectorVectorOuter",
    "NN.C57_vectorMatrixMultiply",
    "NN.C57_matrixVectorMultiply_partial",
    "NN.C57_matrixVectorMultiply_misaligned"
   ],
   "note": "In-bounds, write set and success proved for every kernel and length. False for matrix_vector_multiply: it needs every row aligned (C57_matrixVectorMultiply_misaligned proves the fault for all matrices with n_cols >= 8 not a multiple of 8)."
  },
  {
   "property": "C58",
   "status": "partial",
   "theorems": [
    "NN.C58_false",
    "NN.C58_partial"
   ],
   "note": "False for data sets with 2^32 or more values (C58_false: products wrap). C58_partial: true below."
  },
  {
   "property": "C59",
   "status": "partial",
   "theorems": [
    "NN.C59_partial",
    "NN.C59_false",
    "NN.C59_exact"
   ],
   "note": "False: four metrics with a validation set overflow the buffer (C59_false). C59_partial: up to four printed values fit. C59_exact: the exact line length and the outcome for every length (fits, assertion, overflow)."
  },
  {
   "property": "C60",
   "status": "partial",
   "theorems": [
    "NN.C60_false",
    "NN.C60_default"
   ],
   "note": "False: C60_false proves the compression argument has no effect for any list (zip_set_file_compression is called before the member exists). C60_default: all members have the default compression."
  },
  {
   "property": "C61",
   "status": "proved",
   "theorems": [
    "NN.C61_vectorMatrixMultiply",
    "NN.C61_matrixVectorMultiply",
    "NN.C61_builds",
    "NN.C61_vectorVectorOuter",
    "NN.C61_ieee"
   ],
   "note": "IEEE binary32 arithmetic modelled bit by bit (B32): finite result and classical error bound for the three matrix kernels in every build; number of roundings n+1 for vector_matrix_multiply, rowDepth for matrix_vector_multiply, 1 for the outer product. C61_builds: distance of two builds in plain numbers. C61_ieee: every operation of the arithmetic gives a nearest float or the right infinity."
  },
  {
   "property": "C62",
   "status": "proved",
   "theorems": [
    "NN.C62_predict",
    "NN.C62_builds",
    "NN.C62_bounded"
   ],
   "note": "IEEE binary32 arithmetic, C library assumed accurate to 2 ulp (Spec/Libm.lean). General bound netError by recursion over the layers (Spec/NetError.lean, Spec/NetFloat.lean), closed form for squashing activations (C62_bounded), distance of two builds (C62_builds)."
  },
  {
   "property": "C63",
   "status": "proved",
   "theorems": [
    "NN.C63_new",
    "NN.C63_training",
    "NN.C63_call",
    "NN.C63_program",
    "NN.C63_exact"
   ],
   "note": "C63_training: any optimizer, any sequence of epochs. C63_new: what a new optimizer contains. C63_call: one call. C63_program: creation, initialisation, training, saving, loading, prediction. C63_exact: the condition on the layer sizes (VectorWidths) is exact, for other sizes the first epoch faults. For every float model; the example is in IEEE arithmetic. Left out of the program: data files, callbacks, printing, freeing."
  },
  {
   "property": "C64",
   "status": "partial",
   "theorems": [
    "NN.C64_ownership",
    "NN.C64_no_leak",
    "NN.C64_separate",
    "NN.C64_new_null",
    "NN.C64_null_false",
    "NN.C64_vector_false",
    "NN.C64_pivot_false",
    "NN.C64_twice"
   ],
   "note": "C64_ownership, C64_no_leak, C64_separate: if allocation succeeds, for all programs. C64_twice: the rule 'at most once' is needed. C64_new_null: without memory for the structure NULL is returned. False otherwise: optimizer_free and callback_free dereference NULL (C64_null_false), without memory for a work vector the constructor aborts (C64_vector_false), a failing realloc of the pivot loses the old block (C64_pivot_false)."
  },
  {
   "property": "C65",
   "status": "partial",
   "theorems": [
    "NN.C65_nan_partial",
    "NN.C65_relu_false",
    "NN.C65_sigmoid_false",
    "NN.C65_tanh_false",
    "NN.C65_inf"
   ],
   "note": "C65_nan_partial: true for networks whose layers are transparent in the given build (linear, exponential, softplus, softsign, hard_sigmoid; sigmoid, tanh, softmax where no vector code runs). False: relu without AVX hides NaN, the rest of the network computes from zeros (C65_relu_false); vector sigmoid and tanh answer about 0 and -1 (C65_sigmoid_false, C65_tanh_false)."
  },
  {
   "property": "C66",
   "status": "proved",
   "theorems": [
    "NN.C66_sgd",
    "NN.C66_adagrad",
    "NN.C66_rmsprop",
    "NN.C66_adam",
    "NN.C66_stationary",
    "NN.C66_large_rate"
   ],
   "note": "C66_sgd, C66_adagrad, C66_rmsprop, C66_adam, C66_stationary. C66_large_rate: the bound is needed, with rate 1 a one-weight network goes from 4 to 36."
  },
  {
   "property": "C67",
   "status": "partial",
   "theorems": [
    "NN.C67_features_partial",
    "NN.C67_labels_partial",
    "NN.C67_labels_exact",
    "NN.C67_label_false",
    "NN.C67_row_false",
    "NN.C67_wrap_false",
    "NN.C67_short_false",
    "NN.C67_magic",
    "NN.C67_pixel",
    "NN.C67_data_partial",
    "NN.C67_count_false",
    "NN.C67_memory_false",
    "NN.C67_labels_memory_false"
   ],
   "note": "C67_features_partial, C67_labels_partial, C67_data_partial: true for well-formed files that belong together, below 2^32 values, labels below the number of classes. C67_pixel: the grey values in binary32. C67_labels_exact: the exact outcome for any labels. C67_magic: other types are refused. False otherwise: label out of range in the last row written behind the array (C67_label_false), in an earlier row an all-zero target (C67_row_false), more labels than images (C67_count_false), products from 2^32 on (C67_wrap_false), truncated files (C67_short_false). Without memory a NULL pointer is used (C67_memory_false, C67_labels_memory_false)."
  },
  {
   "property": "C68",
   "status": "partial",
   "theorems": [
    "NN.C68_sum",
    "NN.C68_error",
    "NN.C68_accuracy_partial",
    "NN.C68_saturate_false"
   ],
   "note": "C68_sum: the reported values for any float operations and any schedule. C68_error: distance to the true mean in binary32. C68_accuracy_partial: the accuracy is the correctly rounded quotient for up to 2^24 samples, for every schedule. False above: C68_saturate_false (2^25 samples, one thread, every sample right, 1/2 reported)."
  },
  {
   "property": "C69",
   "status": "partial",
   "theorems": [
    "NN.C69_grows",
    "NN.C69_adagrad",
    "NN.C69_rmsprop",
    "NN.C69_adam",
    "NN.C69_stall_false"
   ],
   "note": "C69_grows: accumulators of Adagrad over an epoch, unconditional. C69_adagrad, C69_rmsprop (with and without momentum), C69_adam: one step of the code. False: SGD always moves (C69_stall_false: a step below 2^-27 of the parameter is lost entirely). Not covered: Adam with betas between 1 - 2^-12 and 1 or gradients above 2^40, a rate of RMSprop outside (0,1), size of the velocity with momentum."
  },
  {
   "property": "C70",
   "status": "proved",
   "theorems": [
    "NN.C70_gradient",
    "NN.C70_builds",
    "NN.C70_bounded"
   ],
   "note": "C70_gradient: distance to the exact gradient (IsGradient, C07). C70_builds: any two builds. C70_bounded: closed form; overflow excluded by the hypotheses on the weights. mean_absolute_percentage_error is not covered."
  },
  {
   "property": "C71",
   "status": "proved",
   "theorems": [
    "NN.C71_mean",
    "NN.C71_runs",
    "NN.C71_bounded",
    "NN.C71_sgd"
   ],
   "note": "C71_mean: distance to the mean of the exact gradients. C71_runs: any two schedules and builds. C71_bounded: closed form, overflow excluded. C71_sgd: a step of SGD without momentum. Loss functions as in C70."
  },
  {
   "property": "C72",
   "status": "proved",
   "theorems": [
    "NN.C72_alone",
    "NN.C72_ends",
    "NN.C72_jobs",
    "NN.C72_predict_batch",
    "NN.C72_reduction",
    "NN.C72_covers",
    "NN.C72_evaluate",
    "NN.C72_batch_gradient",
    "NN.C72_adam",
    "NN.C72_shared_false"
   ],
   "note": "C72_alone, C72_ends, C72_jobs: programs with separate footprints. C72_predict_batch, C72_adam: the loop without reduction, the sections. C72_reduction, C72_evaluate, C72_batch_gradient, C72_covers: the loops with reduction. C72_shared_false: why the reduction is needed. Memory is sequentially consistent, which C11 guarantees for programs without data races."
  },
  {
   "property": "C73",
   "status": "proved",
   "theorems": [
    "NN.C73_training",
    "NN.C73_training_float",
    "NN.C73_count",
    "NN.C73_accuracy",
    "NN.C73_local_evaluate",
    "NN.C73_sizes_safe",
    "NN.C73_sizes_fault",
    "NN.C73_accuracy_false"
   ],
   "note": "C73_training, C73_training_float: the two ways of training agree. C73_count, C73_accuracy: what the accuracy is; C73_accuracy_false: it differs from binary_accuracy for an answer of exactly 1/2. C73_local_evaluate. C73_sizes_safe, C73_sizes_fault: sizes in the programs."
  },
  {
   "property": "C74",
   "status": "partial",
   "theorems": [
    "NN.Trainer.C74_m_false",
    "NN.Trainer.C74_s_false",
    "NN.Trainer.C74_e_false",
    "NN.Trainer.C74_missing_false",
    "NN.Trainer.C74_optimizer_false",
    "NN.Trainer.C74_options_partial",
    "NN.Trainer.C74_epochs",
    "NN.Trainer.C74_run",
    "NN.Trainer.C74_score_real",
    "NN.Trainer.C74_getopt",
    "NN.Trainer.C74_usage"
   ],
   "note": "C74_run: a run with good files (Good), all of the above; C74_score_real: the score in exact arithmetic; b32_compares: IEEE comparisons meet the hypothesis. C74_options_partial: of every option except -s the last value counts, with the defaults. C74_epochs: whatever the options and results are, a run without fault trains exactly ten epochs. False, with proofs for every run: C74_e_false (-e has no effect), C74_s_false (-s), C74_m_false (-m), C74_missing_false (no --metrics or no --loss), C74_optimizer_false. Excluded: -q checkpoint.npz. C74_getopt: exactly which arguments are accepted; C74_usage: all others end the program."
  },
  {
   "property": "C75",
   "status": "partial",
   "theorems": [
    "NN.Dyn.C75_load_partial",
    "NN.Dyn.C75_exit",
    "NN.Dyn.C75_history_partial",
    "NN.Dyn.C75_dangling_false",
    "NN.Dyn.C75_leak_false",
    "NN.Dyn.C75_sticky_false"
   ],
   "note": "C75_load_partial: one lookup, refinement to the model used by C14, C49, C52; C75_history_partial: all histories with memory; C75_exit: any number of cleanups. False: C75_dangling_false (pointer into a closed library), C75_leak_false (record never freed), C75_sticky_false (pending error of dlopen refuses the next good name with POSIX-like linkers)."
  },
  {
   "property": "C76",
   "status": "proved",
   "theorems": [
    "NN.C76_library",
    "NN.C76_formula",
    "NN.C76_gradient",
    "NN.C76_gnubg",
    "NN.C76_null"
   ],
   "note": "C76_library: loops of the example library, any arithmetic (double precision subexpressions are parameters); C76_formula, C76_gradient, C76_gnubg: exact arithmetic; C76_null: no call returns without a derivative function."
  },
  {
   "property": "C77",
   "status": "partial",
   "theorems": [
    "NN.C77_dump",
    "NN.C77_scalar_false",
    "NN.C77_load_partial",
    "NN.C77_hint",
    "NN.C77_vector_false",
    "NN.C77_dims_false",
    "NN.C77_zero_false",
    "NN.C77_fortran_false",
    "NN.C77_save",
    "NN.C77_npz",
    "NN.C77_save_npz"
   ],
   "note": "C77_dump, C77_load_partial (C order), C77_hint (other element types), C77_save, C77_npz, C77_save_npz. False in four cases: C77_scalar_false and C77_zero_false (0 dimensions: shape[-1] is read), C77_vector_false (`ndim = 2` assigns: empty lines instead of the hint), C77_dims_false (3 or more dimensions: the first elements are printed as a matrix instead of the hint), C77_fortran_false (Fortran order is ignored). load_text gives the exact text in either order."
  },
  {
   "property": "C78",
   "status": "partial",
   "theorems": [
    "NN.TestSgd.C78_bool",
    "NN.TestSgd.C78_options",
    "NN.TestSgd.C78_momentum_false",
    "NN.TestSgd.C78_file_false",
    "NN.TestSgd.C78_order",
    "NN.TestSgd.C78_avx_false",
    "NN.TestSgd.C78_run_partial",
    "NN.TestSgd.C78_accuracy_false"
   ],
   "note": "C78_bool and C78_options (the options, complete), C78_order (Fortran order: assertion), C78_run_partial (SSE builds: training, file, table). False in four ways: C78_avx_false (every AVX build faults in the first epoch, for all data: 28 outputs are not a multiple of 8), C78_momentum_false (--momentum and --nesterov do not reach the optimizer), C78_accuracy_false (with one output categorical_accuracy is always 1), C78_file_false (fewer than four arrays: NULL pointer)."
  },
  {
   "property": "C79",
   "status": "proved",
   "theorems": [
    "NN.Example02.C79_missing",
    "NN.Example02.C79_file_false",
    "NN.Example02.C79_order",
    "NN.Example02.C79_same",
    "NN.Example02.C79_exact",
    "NN.Example02.C79_single",
    "NN.Example02.C79_float"
   ],
   "note": "C79_same (any arithmetic: the training, and both programs average the same values), C79_exact, C79_single, C79_float. Outside the quantifier: C79_missing (no file) and C79_order (an array in Fortran order): failed assertion in both; C79_file_false (one to three arrays: both follow a NULL pointer). C79_float assumes that the losses of the samples are finite."
  },
  {
   "property": "C80",
   "status": "proved",
   "theorems": [
    "NN.UnitSgd.C80_detects",
    "NN.UnitSgd.C80_exact",
    "NN.UnitSgd.C80_float",
    "NN.UnitSgd.C80_nan_false",
    "NN.UnitSgd.C80_large_false"
   ],
   "note": "C80_exact, C80_float, C80_detects; C80_nan_false: a NaN is never counted. The bound on the gradients in C80_float is a hypothesis. Without a bound the claim is false: C80_large_false (parameter 2^20, gradient 1: the test counts a failure although the step is rounded as well as possible)."
  },
  {
   "property": "C81",
   "status": "partial",
   "theorems": [
    "NN.OddSizes.C81_case",
    "NN.OddSizes.C81_program_partial",
    "NN.OddSizes.C81_avx_false",
    "NN.OddSizes.C81_null_false"
   ],
   "note": "C81_case covers any test case; C81_program_partial: the program runs to the end without AVX. With AVX that is false: C81_avx_false. C81_null_false: a failed allocation ends in a NULL dereference."
  },
  {
   "property": "C82",
   "status": "proved",
   "theorems": [
    "NN.GradCheck.C82_runs",
    "NN.GradCheck.C82_direction",
    "NN.GradCheck.C82_exact",
    "NN.GradCheck.C82_detects",
    "NN.GradCheck.C82_nan_false",
    "NN.GradCheck.C82_drift_false"
   ],
   "note": "C82_runs in any arithmetic; C82_direction, C82_exact and C82_detects in exact arithmetic; C82_nan_false and C82_drift_false are about single precision. That no test fails in single precision is not claimed."
  },
  {
   "property": "C83",
   "status": "proved",
   "theorems": [
    "NN.TestNet.C83_statistics",
    "NN.TestNet.C83_statistics_false",
    "NN.TestNet.C83_checks",
    "NN.TestNet.C83_init_checks",
    "NN.TestNet.C83_strings_false",
    "NN.TestNet.C83_runs",
    "NN.TestNet.C83_no_memory",
    "NN.TestNet.C83_float",
    "NN.TestNet.C83_nan_false",
    "NN.TestNet.C83_upper_false"
   ],
   "note": "C83_statistics, C83_checks and C83_init_checks in exact arithmetic, C83_runs and C83_no_memory in any, C83_float in single precision; C83_statistics_false, C83_strings_false, C83_nan_false and C83_upper_false show what is wrong with the test. That the six checks of statistics pass with high probability is not claimed: there is no model of chance."
  },
  {
   "property": "C84",
   "status": "partial",
   "theorems": [
    "NN.LoadMem.C84_load",
    "NN.LoadMem.C84_no_leak",
    "NN.LoadMem.C84_freed",
    "NN.LoadMem.C84_strings_false",
    "NN.LoadMem.C84_append_false",
    "NN.LoadMem.C84_refines",
    "NN.LoadMem.C84_save",
    "NN.LoadMem.C84_save_all",
    "NN.LoadMem.C84_save_network",
    "NN.LoadMem.C84_close_false"
   ],
   "note": "C84_load and C84_save count the leaked blocks exactly, for every pattern of failing requests; C84_no_leak, C84_freed, C84_refines, C84_save_all and C84_save_network: no leaks in the usual cases. That nothing ever leaks is false: C84_strings_false (two arrays of strings), C84_append_false (no memory for an element of the list), C84_close_false (zip_close fails). Memory that libzip keeps for itself is not modelled, except the buffers handed over."
  },
  {
   "property": "C85",
   "status": "partial",
   "theorems": [
    "NN.C85_any",
    "NN.C85_rejected",
    "NN.C85_exact",
    "NN.C85_saved",
    "NN.C85_trailing_false",
    "NN.C85_truncated_false"
   ],
   "note": "C85_any for every accepted file, C85_rejected, C85_exact for a saved header followed by any bytes, C85_saved. That the mapping is always removed exactly is false: C85_trailing_false, C85_truncated_false. Pages have 4096 bytes."
  },
  {
   "property": "C86",
   "status": "partial",
   "theorems": [
    "NN.C86_outcomes",
    "NN.C86_safe_partial",
    "NN.C86_magic",
    "NN.C86_no_key",
    "NN.C86_descr_false",
    "NN.C86_shape_false"
   ],
   "note": "C86_outcomes for every byte string; C86_safe_partial: nothing is read outside under two conditions on the header; C86_no_key, C86_magic (other files and versions are refused). That no file makes the reader leave the header is false: C86_descr_false, C86_shape_false."
  }
 ]
}