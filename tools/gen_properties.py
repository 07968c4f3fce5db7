# Generates /verif/properties.jsonl (source of truth for the property list).
import json
P=[]
def p(title, statement, quantifier, why, anchors):
    P.append(dict(id="C%02d"%(len(P)+1), title=title, statement=statement, quantifier=quantifier, why_tests_cant=why, anchors=anchors))

# --- forward
p("neuralnet_predict computes the network function",
  "For every network made by neuralnet_create and every input vector, neuralnet_predict writes into out[0..n_output) exactly act_L(W_L^T ... act_1(W_1^T x + b_1) ... + b_L) in exact arithmetic; the shortcuts for inputs equal to 0 and 1, the vector width, FMA use and unaligned tails never change the value.",
  "all layer counts, layer sizes, parameters, inputs, stack/heap addresses, and the builds SSE / AVX / AVX2 / AVX512 with or without FMA",
  "sizes, depths and the positions of vector/tail boundaries are unbounded; tests compare a few fixed nets",
  ["src/neuralnet.c:neuralnet_predict","src/matrix_operations.c:vector_matrix_multiply","src/activation.c"])
p("neuralnet_predict is memory safe and only writes the output vector",
  "When input has n_input floats and out has n_output floats and is SIMD aligned (or narrower than one vector register), neuralnet_predict performs no out-of-bounds or misaligned access, never trips its internal assertions, its layer buffers never overlap, and it changes nothing but out[0..n_output).",
  "all well-formed networks, all addresses of the work memory allowed by the alignment attribute, all uninitialised stack contents",
  "a memory error may need a particular size/address combination; out-of-bounds reads are invisible to value tests",
  ["src/neuralnet.c:neuralnet_predict","src/simd.h"])
p("Output pointer alignment is a real precondition of neuralnet_predict",
  "neuralnet_predict accepts any float-aligned output pointer when n_output is smaller than one vector register; from one register on, a misaligned output pointer makes it execute an aligned vector access on a misaligned address.",
  "all networks, all float-aligned output addresses, AVX and AVX512 builds",
  "the failing addresses depend on the allocator; on most addresses the test passes",
  ["src/neuralnet.c:neuralnet_predict","src/matrix_operations.c:vector_matrix_multiply","src/simd.h:is_aligned"])
p("neuralnet_predict_batch equals neuralnet_predict row by row (OpenMP build)",
  "In the build without BLAS, row i of the output of neuralnet_predict_batch is exactly what neuralnet_predict gives for row i of the input, for every distribution and interleaving of the rows over threads.",
  "all networks, sample counts, inputs, OpenMP schedules",
  "schedules are nondeterministic and unbounded",
  ["src/neuralnet_predict_batch.c:neuralnet_predict_batch (#ifndef USE_CBLAS)"])
p("neuralnet_predict_batch equals neuralnet_predict row by row (BLAS build)",
  "In the BLAS build, row i of the output is what neuralnet_predict gives for row i of the input, whatever the divide-and-conquer splitting, provided every activation is softmax or acts elementwise; the layer buffers stay inside the fixed stack buffer.",
  "all networks with built-in activations, all sample counts, inputs, stack limits",
  "needs every split pattern and every size relative to the stack limit",
  ["src/neuralnet_predict_batch.c:neuralnet_predict_batch (#ifdef USE_CBLAS)"])
p("neuralnet_predict_batch terminates (BLAS build)",
  "The divide-and-conquer recursion of neuralnet_predict_batch terminates for every network and sample count.",
  "all networks, sample counts, stack limits",
  "non-termination only shows for networks wider than the stack limit (then a single sample recurses forever)",
  ["src/neuralnet_predict_batch.c:neuralnet_predict_batch (#ifdef USE_CBLAS)"])
# --- backprop
p("neuralnet_backpropagation returns the gradient of the loss",
  "For every network whose activations are linear, sigmoid, tanh, exponential, softplus, softsign (relu and hard_sigmoid away from their kinks), or softmax at the output with categorical_crossentropy, the vector written to grad is the exact gradient of the training loss with respect to the parameters: for every direction d, the derivative at t=0 of loss(predict(update(nn, t*d), x), y) equals the dot product grad.d, in the parameter order used by neuralnet_update.",
  "all depths, sizes, parameters, inputs, targets and directions",
  "a numeric gradient test samples finitely many points with a loose tolerance",
  ["src/neuralnet.c:neuralnet_backpropagation","src/loss.c","src/activation.c:*_derivative","src/neuralnet.c:neuralnet_set_loss"])
p("Backpropagation is correct for every activation in every position",
  "The gradient returned by neuralnet_backpropagation is correct also when softmax is used in a hidden layer or with a loss other than categorical_crossentropy, and when a crossentropy loss is used with a non-matching output activation.",
  "all activation/loss combinations accepted by neuralnet_set_loss",
  "claims about all combinations; a wrong gradient still trains on many data sets",
  ["src/activation.c:softmax_derivative","src/neuralnet.c:neuralnet_set_loss","src/loss.c"])
p("neuralnet_backpropagation is memory safe",
  "Given an aligned grad buffer of neuralnet_total_n_parameters floats, neuralnet_backpropagation performs no out-of-bounds and no misaligned vector access, for every network.",
  "all layer sizes, all aligned addresses, builds SSE / AVX / AVX512",
  "misalignment depends on divisibility of layer sizes; tests try a handful",
  ["src/neuralnet.c:neuralnet_backpropagation","src/matrix_operations.c:matrix_vector_multiply","src/activation.c:relu_derivative","src/activation.c:sigmoid_derivative","src/activation.c:tanh_act_derivative"])
p("The gradient does not depend on what was in the grad buffer",
  "The result of neuralnet_backpropagation is a function of network, input and target only: previous contents of grad and of the stack work memory have no influence, although the kernels accumulate into it.",
  "all prior buffer contents, all networks and samples",
  "stale contents are typically zero in tests",
  ["src/neuralnet.c:neuralnet_backpropagation","src/matrix_operations.c:matrix_vector_multiply"])
p("neuralnet_set_loss depends only on the last accepted name",
  "After any sequence of neuralnet_set_loss calls ending in a known loss name, loss and all activation derivatives are the same as if only the last call had been made on the fresh network; after an unknown name no loss is set and backpropagation stops at its assertion. neuralnet_predict is unaffected by neuralnet_set_loss.",
  "all call histories, all networks, all names",
  "histories are unbounded",
  ["src/neuralnet.c:neuralnet_set_loss","src/loss.c:get_loss_func"])
p("neuralnet_update adds, neuralnet_get_parameters reads back",
  "neuralnet_get_parameters after neuralnet_update(nn,d) returns the previous parameters plus d elementwise, in the same order (bias then row-major weights, input to output layer); a sequence of updates adds up and an update followed by its negation restores the parameters.",
  "all networks and all update histories",
  "histories and sizes are unbounded",
  ["src/neuralnet.c:neuralnet_update","src/neuralnet.c:neuralnet_get_parameters"])
p("neuralnet_total_n_parameters is the exact buffer size",
  "neuralnet_total_n_parameters equals the number of floats neuralnet_get_parameters writes, neuralnet_update reads and neuralnet_backpropagation clears and writes, as long as it fits in unsigned int.",
  "all networks",
  "buffer size mismatches only corrupt memory silently",
  ["src/neuralnet.h:neuralnet_total_n_parameters","src/neuralnet.c"])
# --- tables / activations
p("Activation names resolve and print back",
  "get_activation_name(get_activation_func(name)) is name for every built-in name, distinct names give distinct functions; every built-in function has a derivative; an unresolvable name gives NULL from the lookup and 'linear' in neuralnet_create. After any history of dynamic loads a loaded symbol prints back a name under which it was loaded.",
  "all strings, all histories of dynamic lookups",
  "the string domain and load histories are unbounded",
  ["src/activation.c:get_activation_func","src/activation.c:get_activation_name","src/activation.c:get_activation_derivative","src/activation.c:get_activation_func_dynamic"])
p("Loss and metric names correspond",
  "get_loss_name inverts get_loss_func up to the documented aliases; the metric obtained from any loss with get_metric_func(get_loss_name(loss)) exists and has the same name.",
  "all strings",
  "unbounded string domain",
  ["src/loss.c:get_loss_func","src/loss.c:get_loss_name","src/metrics.c:get_metric_func","src/metrics.c:get_metric_name"])
p("Activation functions stay in their documented range",
  "sigmoid in (0,1), tanh in (-1,1), softsign in (-1,1), hard_sigmoid in [0,1], relu >= 0, exponential and softplus > 0, softmax entries in (0,1] summing to 1; all are monotone.",
  "all vector lengths, all real inputs, all alignments and builds",
  "real-valued domain",
  ["src/activation.c"])
p("Softmax is shift invariant, order preserving and independent of alignment",
  "Adding a constant to all inputs does not change softmax; larger inputs get larger outputs (so arg max is preserved); the split of the vector into unaligned head, vector body and tail does not affect the result.",
  "all lengths, inputs, addresses",
  "real-valued domain and all alignments",
  ["src/activation.c:softmax"])
p("Vectorised activations equal their scalar definition",
  "For every length and every address, each activation function applies the same scalar function to each of the n elements and leaves the rest of memory alone; derivatives likewise multiply each element by the scalar derivative.",
  "all lengths n, addresses, vector contents, builds",
  "head/body/tail boundaries are unbounded in number",
  ["src/activation.c"])
p("Activation derivatives are the derivatives, expressed in the activation value",
  "For each elementwise activation f and every x (outside the kinks of relu and hard_sigmoid), the factor computed by the derivative function from f(x) equals f'(x).",
  "all real x",
  "real-valued domain",
  ["src/activation.c:*_derivative"])
p("The vector exponential approximates exp",
  "The AVX2 replacement for expf has relative error below 1e-6 against the exact exponential on its whole clamped range, in exact arithmetic and in float arithmetic, so the SIMD and scalar versions of sigmoid, tanh and softmax agree to that accuracy.",
  "all real x and all floats x in the clamp range",
  "continuous domain",
  ["src/activation.c:exp256_ps"])
# --- losses/metrics
p("Loss functions are the gradients of the metrics",
  "For mean_squared_error, mean_absolute_error, mean_absolute_percentage_error and binary_crossentropy, what the loss function writes (combined with the matching output activation) is the gradient of the metric of the same name with respect to the prediction; for binary_crossentropy, as long as the prediction lies inside the clipping range of the metric.",
  "all output sizes, predictions (off the kinks) and targets",
  "real-valued domain",
  ["src/loss.c","src/metrics.c"])
p("categorical_crossentropy loss and metric agree",
  "The gradient used for categorical_crossentropy is the gradient of the metric reported under the same name.",
  "all output sizes, predictions and targets",
  "a constant factor is invisible to convergence tests",
  ["src/loss.c:categorical_crossentropy","src/metrics.c:categorical_crossentropy"])
p("Metrics are well behaved",
  "The error metrics are non-negative, zero exactly on perfect predictions (mse, mae, mape), crossentropies are non-negative for targets in [0,1] and always finite thanks to clipping; accuracies lie in [0,1] and are 1 on perfect predictions (binary_accuracy: for targets in [0,1]); categorical_accuracy is 1 exactly when the first maximal index agrees.",
  "all vector lengths n >= 1, predictions and targets",
  "real-valued domain",
  ["src/metrics.c"])
p("evaluate returns the mean of every metric",
  "evaluate stores, for each metric of the NULL terminated list, the mean over all samples of metric(predict(x_i), y_i); the value does not depend on the OpenMP schedule; nothing beyond results[0..n_metrics) is written.",
  "all networks, datasets, metric lists, schedules",
  "schedules and dataset sizes unbounded",
  ["src/evaluate.c:evaluate"])
# --- optimizer
p("Every epoch visits every training sample exactly once",
  "In each optimizer_run_epoch call of an optimizer that is the only one in the process, the training loop uses each of the n_train_samples samples exactly once, with shuffling on or off, for every random stream, and also if the number of samples changes between epochs.",
  "all sample counts >= 1, batch sizes >= 1, all outputs of rand(), all epoch histories",
  "random streams and histories are unbounded",
  ["src/optimizer.c:prepare_shuffle_pivot","src/optimizer.c:fisher_yates_shuffle","src/optimizer.c:optimizer_calc_batch_gradient","src/optimizer.c:optimizer_run_epoch"])
p("The shuffle is unbiased",
  "Every permutation of the samples is produced by exactly one sequence of the random draws made by the shuffle, so uniform independent draws give a uniform permutation.",
  "all sample counts and permutations",
  "n! permutations",
  ["src/optimizer.c:fisher_yates_shuffle"])
p("Optimizers are independent of each other",
  "Running an epoch on one optimizer works and gives the same result whether or not other optimizers have been used before in the same process.",
  "all histories of creating, running and freeing several optimizers",
  "needs particular multi-optimizer histories (same sample count twice)",
  ["src/optimizer.c:prepare_shuffle_pivot (static _n_sample)"])
p("An epoch is split in ceil(n/batchsize) batches",
  "The training loop performs exactly ceil(n/batchsize) parameter updates, all batches have batchsize samples except possibly the last, which has the remainder, and the loop terminates.",
  "all n, all batch sizes >= 1",
  "unbounded sizes",
  ["src/optimizer.c:optimizer_calc_batch_gradient","src/SGD.c:SGD_run_epoch"])
p("The batch gradient is the mean of the sample gradients for every schedule",
  "optimizer_calc_batch_gradient leaves in batchgrad the arithmetic mean of the gradients of the samples of the batch, whatever the assignment of samples to threads and the order in which partial sums are combined, and whatever was in the buffer before.",
  "all networks, batches, schedules, buffer contents, data sets with fewer than 2^31 samples and at most 2^32 values",
  "nondeterministic schedules",
  ["src/optimizer.c:optimizer_calc_batch_gradient"])
p("The batch gradient reduction stays inside the gradient buffer",
  "optimizer_calc_batch_gradient only accesses the neuralnet_total_n_parameters floats of batchgrad.",
  "all networks, all builds",
  "out-of-bounds accesses into neighbouring stack memory rarely change test results",
  ["src/optimizer.c:optimizer_calc_batch_gradient (n_param_padding)","src/SGD.c:SGD_run_epoch"])
p("Plain SGD takes the gradient step",
  "With momentum 0 each batch changes the parameters by exactly -learning_rate times the mean batch gradient at the current parameters (nesterov is ignored).",
  "all networks, data, batches, epoch histories",
  "unbounded histories",
  ["src/SGD.c:SGD_run_epoch"])
p("SGD momentum and Nesterov momentum follow their textbook recurrences",
  "With momentum m > 0: v' = m v - lr g and w' = w + v', where g is the gradient at w (classic) or at w + m v (Nesterov), for every step of every history.",
  "all histories",
  "unbounded histories",
  ["src/SGD.c:SGD_run_epoch"])
p("Learning rate decay",
  "With decay d >= 0 and lr0 > 0, after k batches the learning rate used by SGD, RMSprop and Adagrad is lr0 / prod_{j<k}(1 + d j): it stays positive and never increases; with decay 0 it is constant. With the documented time-based rule lr0/(1+d k) it agrees only for the first two batches.",
  "all decay values, histories across epochs",
  "unbounded histories",
  ["src/SGD.c:SGD_run_epoch","src/RMSprop.c:RMSprop_run_epoch","src/adagrad.c:adagrad_run_epoch"])
p("Adam follows the published algorithm",
  "For the first Adam optimizer of a process, at its t-th batch the parameters change by -lr * mhat/(sqrt(vhat)+eps) - weight_decay * w, where mhat, vhat are the exponentially weighted sums of the gradients and squared gradients corrected by 1 - beta^t.",
  "all histories, all data",
  "unbounded histories",
  ["src/adam.c:adam_run_epoch"])
p("Every Adam optimizer starts with fresh bias correction",
  "A newly created Adam optimizer behaves like the first one, whatever Adam optimizers ran before in the process.",
  "all histories with several Adam optimizers",
  "needs two optimizers in one process",
  ["src/adam.c:adam_run_epoch (static beta_1_corrected)"])
p("Adagrad and RMSprop accumulators and steps",
  "Adagrad's accumulator is the sum of all squared batch gradients, never decreases, and each parameter step is at most lr in absolute value; RMSprop's accumulator is the exponentially weighted mean of squared gradients and stays non-negative; the step is -lr*g/(eps+sqrt(r)).",
  "all histories, all data",
  "unbounded histories",
  ["src/adagrad.c","src/RMSprop.c"])
p("optimizer_run_epoch result layout",
  "optimizer_run_epoch writes the training metrics to results[0..m) and, exactly when validation inputs, targets and a positive count are given, the validation metrics to results[m..2m); otherwise the second half is untouched. Metrics are evaluated with the parameters after the epoch.",
  "all optimizers, datasets, metric lists",
  "unbounded inputs",
  ["src/optimizer.c:optimizer_run_epoch","src/optimizer.h:optimizer_get_n_metrics"])
p("Default metric follows the optimizer's own loss",
  "An optimizer created without metrics reports the metric of its own network's loss, for as long as it lives.",
  "all histories creating several optimizers",
  "needs two optimizers with different losses",
  ["src/optimizer.c:optimizer_check_sanity (static_metrics)"])
# --- callbacks
p("Early stopping fires exactly after more than `patience` epochs without improvement",
  "For the first early stopping callback of a process: earlystopping_do_stop becomes true exactly when there has been a run of more than patience consecutive epochs none of which improved on the best score before it, and stays true afterwards; scores that are NaN or not below FLT_MAX never count as improvement.",
  "all score histories, patience values, both directions",
  "unbounded histories",
  ["src/earlystopping.c"])
p("Early stopping callbacks are independent",
  "A new early stopping callback decides from its own scores only.",
  "all histories with several callbacks",
  "needs two callbacks in a process",
  ["src/earlystopping.c (static best_so_far)"])
p("The checkpoint file always holds the best model so far",
  "For the first model checkpoint callback of a process, after any history the checkpoint file contains the parameters of the first epoch with the best monitored score so far; later callbacks are independent of earlier ones.",
  "all score histories, both directions, several callbacks",
  "unbounded histories",
  ["src/modelcheckpoint.c"])
p("The logger resumes the epoch counter",
  "A logger created on an existing log file written by this logger continues with the epoch number after the last one logged.",
  "all log histories, metric lists, file lengths",
  "unbounded file contents; boundary cases (empty file, one-line file)",
  ["src/logger.c:find_last_epoch_from_logfile","src/logger.c:logger_callback_run"])
# --- npy
p("npy_array_save / npy_array_load round trip",
  "npy_array_load of a file written by npy_array_save gives back data, shape, ndim, type, element size and order, for every array whose header fits.",
  "all arrays with up to 7 dimensions of positive size below 2^31",
  "unbounded shapes and contents",
  ["npy_array/npy_array.c:npy_array_save","npy_array/npy_array.c:_read_matrix","npy_array/npy_array.c:npy_array_get_header"])
p("The npy header is a valid, 64-byte aligned NumPy v1 header",
  "npy_array_get_header always produces exactly 128 bytes: magic, version 1.0, little endian length 118, the dictionary, space padding and a final newline.",
  "all arrays whose dictionary is shorter than 108 characters",
  "unbounded arrays",
  ["npy_array/npy_array.c:npy_array_get_header"])
p("npy_array_load accepts every valid version 1 header length",
  "A version 1 .npy file is read correctly whatever its (16 bit) header length.",
  "all header lengths below 65536",
  "only header lengths with low byte >= 128 fail (sign extension)",
  ["npy_array/npy_array.c:_read_matrix (header_length)"])
p("Truncated files are detected",
  "npy_array_load returns NULL for every proper prefix of a file written by npy_array_save, and npy_array_mmap agrees with npy_array_load on complete files.",
  "all arrays, all truncation points (crash during write)",
  "all crash points",
  ["npy_array/npy_array.c:_read_matrix","npy_array/npy_array.c:read_mapped","npy_array/npy_array.c:npy_array_mmap"])
p("npz list save / load keeps order, names and contents",
  "npy_array_list_load of an archive written by npy_array_list_save returns the same arrays in the same order with the same names, and npy_array_list_save returns the number of arrays.",
  "all lists of arrays with distinct names of at most 80 characters without '%'",
  "unbounded lists",
  ["npy_array/npy_array_list.c"])
p("npy_array_list operations are list operations",
  "append adds at the end, prepend at the front, length counts, and free releases every node, array and name exactly once.",
  "all lists, all patterns of allocation failure, names of at most 80 characters",
  "unbounded lists",
  ["npy_array/npy_array_list.c"])
# --- save/load network
p("neuralnet_save / neuralnet_load round trip",
  "neuralnet_load of a file written by neuralnet_save yields a network with the same sizes, bit-identical weights and biases, and the same activation functions, hence identical predictions.",
  "all networks with built-in activations and file names up to 128 characters",
  "unbounded networks",
  ["src/neuralnet.c:neuralnet_save","src/neuralnet.c:neuralnet_load"])
p("The activation array may be stored anywhere in the archive",
  "neuralnet_load gives the same network wherever the array of activation names is stored among the other arrays.",
  "all archives, all positions",
  "unbounded archives",
  ["src/neuralnet.c:neuralnet_load","README.md"])
p("neuralnet_load never writes outside the network it allocates",
  "For every archive that libzip can open, neuralnet_load either fails cleanly or returns a network, without out-of-bounds access.",
  "all archives",
  "adversarial files",
  ["src/neuralnet.c:neuralnet_load"])
# --- lifecycle
p("neuralnet_create validates its arguments",
  "neuralnet_create returns NULL iff n_layers < 1 or some size < 1 (or memory is exhausted); otherwise the network has the requested sizes, the requested activations (linear for NULL or unknown names) and no loss.",
  "all argument lists",
  "unbounded argument lists",
  ["src/neuralnet.c:neuralnet_create"])
p("Creation and destruction do not leak or double free",
  "neuralnet_create followed by neuralnet_free releases every allocation exactly once, and if any allocation inside neuralnet_create fails it releases everything it allocated and returns NULL.",
  "all sizes, all patterns of allocation failure",
  "every allocation failure point",
  ["src/neuralnet.c:neuralnet_create","src/neuralnet.c:_weights_memory_allocate","src/neuralnet.c:neuralnet_free"])
p("neuralnet_initialize sets every parameter",
  "After neuralnet_initialize every bias is 0, every weight has been assigned from the random generator (no dependence on previous contents), and with xavier initialisation every weight of a layer lies in [-sqrt(6/(n_in+n_out)), sqrt(6/(n_in+n_out))].",
  "all networks, random streams, initializer lists",
  "random streams",
  ["src/neuralnet.c:neuralnet_initialize"])
p("The progress bar has constant width",
  "For 0 <= x <= n, n > 0, progress_ascii prints a bar of exactly w cells between the brackets, filled proportionally to x/n, full exactly at x = n.",
  "all x, n, terminal widths",
  "unbounded inputs",
  ["src/progress.c:progress_ascii"])
p("All builds of the matrix kernels agree",
  "matrix_vector_multiply, vector_vector_outer, vector_matrix_multiply, vector_accumulate(_unaligned), vector_scale, vector_divide_by_scalar, vector_saxpy, vector_saxpby and vector_square_elements compute the same result in the SSE, AVX, AVX512 and BLAS builds in exact arithmetic when, where required, the output starts zeroed; elementwise kernels agree bit for bit without any arithmetic law.",
  "all sizes, inputs, builds",
  "unbounded sizes and all vector/tail boundaries",
  ["src/matrix_operations.c"])
p("Vector kernels never leave their arrays",
  "Each vector kernel called with length n reads and writes only the first n elements (rows*cols for matrices) of its arguments, and needs no alignment beyond that of the base pointers it documents.",
  "all n, addresses",
  "out-of-bounds accesses are invisible to value tests",
  ["src/matrix_operations.c"])
p("Training addresses the right sample for data sets of any size",
  "optimizer_calc_batch_gradient feeds row pivot[idx] of the inputs and of the targets to neuralnet_backpropagation.",
  "all data sets, including those with 2^32 or more values",
  "needs tens of gigabytes of training data",
  ["src/optimizer.c:optimizer_calc_batch_gradient"])
p("The logger never writes outside its line buffer",
  "logger_callback_run builds its line within the 256 bytes of its buffer, for every list of metrics.",
  "all metric lists, epoch numbers, with and without validation set",
  "only long metric lists overflow",
  ["src/logger.c:logger_callback_run"])
p("npy_array_list_save_compressed honours the requested compression",
  "Every member of an archive written by npy_array_list_save_compressed is stored with the compression method and level passed to it.",
  "all lists, all compression arguments",
  "the archive is readable either way, so round-trip tests pass",
  ["npy_array/npy_array_list.c:npy_array_list_save_compressed"])
p("Matrix kernels in float arithmetic stay within the classical rounding bound in every build",
  "Run in IEEE-754 binary32 arithmetic (round to nearest even, subnormals, infinities, NaN, signed zeros), vector_matrix_multiply, matrix_vector_multiply and vector_vector_outer return finite floats that differ from the exact real result by at most the classical bound ((1+2^-24)^k - 1) times the sum of absolute values plus an underflow term, where k is the number of roundings on the longest path of the selected instruction set; hence two builds (SSE, AVX, AVX512, with or without FMA) differ by at most twice that bound. The only hypotheses are finite inputs, no overflow of the sum of absolute values, and alignment.",
  "All builds, all sizes, all finite float inputs whose sums of absolute values stay below FLT_MAX.",
  "The test compares a few random vectors with a tolerance of its own choosing; the worst case over roundings and summation orders is never exercised.",
  ["src/matrix_operations.c:32-74", "src/matrix_operations.c:76-108", "src/matrix_operations.c:113-187"])
p("neuralnet_predict in float arithmetic: finite output within an explicit distance of the exact network",
  "Run in IEEE-754 binary32 arithmetic with every operation rounded, in every build (SSE, AVX, AVX512, with or without FMA, vector exponential) and with any C library accurate to 2 units in the last place, neuralnet_predict succeeds, all outputs are finite, and each output differs from the exact real network function by at most a bound computed layer by layer from the weights, the input and the activation functions (all built-in ones), provided the same recursion shows no overflow. The bound does not depend on the build, so two builds differ by at most twice the bound. For networks with squashing activation functions (sigmoid, tanh, softsign, hard sigmoid), inputs in [-1,1], and weights of each neuron adding up to at most R, overflow is impossible and after D layers with at most N inputs the error is at most ((N+1) R 2^-22 + 1e-6)(1 + 2R + ... + (2R)^(D-1)) whenever that is at most 1.",
  "All well formed networks of finite floats with built-in activation functions, all finite inputs, all builds and buffer addresses, all accurate C libraries.",
  "Tests compare a few outputs with a tolerance chosen by hand; how rounding errors accumulate over layers for the worst weights and inputs, and in the builds not run, is not observable.",
  ["src/neuralnet.c:242-292", "src/matrix_operations.c:16-196", "src/activation.c:305-596"])
p("A whole training program is free of faults and what it saves computes the same outputs",
  "A program that creates a network, initialises it, sets a loss, makes an optimizer (SGD, AdaGrad, RMSprop or Adam with any settings), runs any number of epochs with any data, batch sizes, metrics and optional validation sets, and saves the result runs without any undefined behaviour or failed assertion in every build, provided the sizes are positive and fit an int, the aligned accesses of the AVX builds are right (C09), allocation succeeds, the arrays have the documented lengths, and rand() does not produce rejected pairs forever. The trained network has the requested sizes, activations and loss; no other file changes; and loading the saved file gives a network that computes bit for bit the same outputs.",
  "All layer sizes, activation names, initialisers, losses, optimizers and settings, sequences of epochs, data, random streams, thread schedules and builds, in any float arithmetic.",
  "The examples run one program each; interactions between the phases (static variables, random stream, pivot, metrics array shared by optimizers) for all choices and schedules are not covered by runs.",
  ["examples/example_03.c:161-210", "src/neuralnet.c:116-219", "src/optimizer.c:60-134", "src/SGD.c:1-97", "src/adam.c:1-190", "src/neuralnet.c:310-560", "src/neuralnet.c:624-775"])
p("Networks, optimizers and callbacks own their memory exclusively and return all of it when freed",
  "In any program that creates networks, optimizers (SGD, AdaGrad, RMSprop, Adam) and callbacks, runs epochs with any numbers of samples and frees each object at most once, in any order (the network before or after its optimizers), no call frees or touches memory that is not live, every live block belongs to exactly one object, and when everything is freed no memory is left allocated. A failing constructor returns NULL and keeps nothing, and the destructors accept NULL.",
  "All programs over these operations, all sizes, names and initial heaps.",
  "Leaks, double frees and freeing order show up only in particular sequences of calls; no test frees an optimizer, and failing allocations cannot be provoked by the tests.",
  ["src/optimizer.h:48-75", "src/optimizer.h:126-132", "src/callback.h:51-54", "src/callback.h:68-81", "src/SGD.c:24-46", "src/adagrad.c:27-47", "src/RMSprop.c:32-60", "src/adam.c:30-54", "src/optimizer.c:16-31", "src/neuralnet.c:221-227"])
p("A NaN among the inputs is visible in the outputs",
  "If one of the inputs of a network is NaN, every output of neuralnet_predict is NaN, whatever the weights, so that corrupt input data cannot pass for a valid answer.",
  "All networks, inputs, builds and C libraries whose expf, logf, tanhf return NaN for NaN; IEEE binary32 arithmetic.",
  "No test feeds NaN; whether it survives depends on the build and on the position of the neuron in the vector loops.",
  ["src/matrix_operations.c:113-195", "src/activation.c:305-326", "src/activation.c:358-410", "src/activation.c:497-528", "src/activation.c:539-567"])
p("Training with a small learning rate lowers the reported loss",
  "After neuralnet_set_loss, with a batch size of at least the number of samples and a mean gradient that is not zero, there is a positive bound such that for every smaller learning rate the first call of optimizer_run_epoch succeeds and evaluate, with the metric of the same name as the loss, reports a smaller value on the training data than before. This holds for SGD (with and without momentum, classic and Nesterov), Adagrad, RMSprop and Adam without weight decay. Where the mean gradient is zero SGD leaves the network unchanged.",
  "All networks, data sets, losses, thread schedules, builds and optimizer settings, at points where the loss is differentiable and the crossentropy metrics do not clip; exact arithmetic.",
  "Joins backpropagation, batch averaging, optimizer steps, loss/metric pairing and evaluation; a test can only look at single runs.",
  ["src/optimizer.c:101-123", "src/evaluate.c:12-51", "src/neuralnet.c:480", "src/SGD.c:SGD_run_epoch", "src/adagrad.c", "src/RMSprop.c", "src/adam.c"])
p("The MNIST reader delivers the images and one-hot labels of the files",
  "For every pair of IDX files, read_idx_features returns the counts of the file and the grey values in file order, each the float nearest to b/255 (in [0,1], black 0, white 1, no two grey values equal), read_idx_labels returns one unit vector per label, and main hands buffers of n_samples * n_features and n_samples * n_targets floats to the training; files of another type are refused, and damaged or mismatched files do not make the program read or write outside its buffers.",
  "All file contents, numbers and sizes of images, labels, numbers of classes; all 256 grey values in IEEE binary32 arithmetic.",
  "Malformed headers, labels out of range, truncated files and products above 2^32 are not in the MNIST files the example is run with.",
  ["examples/example_03.c:18-32", "examples/example_03.c:34-90", "examples/example_03.c:92-141", "examples/example_03.c:143-158"])
p("The reported metrics in float arithmetic, for every number of threads",
  "evaluate in IEEE binary32 arithmetic: for every distribution of the samples over threads each reported value is the division by the number of samples of a sum taken in the order of the schedule; it deviates from the true mean of the metric values by no more than the rounding of (longest chain of additions + 1) operations; and the reported categorical accuracy is the float nearest to (number of samples whose first largest prediction is at the place of the first largest target) / (number of samples), independently of the schedule.",
  "All networks, samples, metric lists, schedules, builds; all binary32 values whose metrics are finite.",
  "The order of the additions depends on the number of threads and the runtime's reduction; saturation of a float counter starts at 2^24 samples.",
  ["src/evaluate.c:12-51", "src/metrics.c:136-154"])
p("Optimizer steps in float arithmetic: bounded, finite, downhill",
  "In IEEE binary32 arithmetic: an epoch of Adagrad never lowers an accumulator, whatever the data; a step of Adagrad with a finite batch gradient changes every parameter by a finite amount of at most about the learning rate, never along its gradient, and not at all once the accumulator has overflowed to infinity; RMSprop likewise with the bound lr/sqrt(1-rho); the learning rate never rises; a step of Adam with batch gradients up to 2^40 is a finite number, never along the first moment, and the moments stay bounded. A step of SGD with a nonzero gradient changes the parameters.",
  "All networks, samples, batch gradients (finite where stated), accumulators, builds, threads; all binary32 learning rates and decay rates in the stated ranges.",
  "Overflow, underflow and division by a rounded square root occur for values no test contains; the bounds hold for all bit patterns.",
  ["src/adagrad.c:30-119", "src/RMSprop.c:30-130", "src/adam.c:64-189", "src/SGD.c:54-96"])
p("Backpropagation in float arithmetic",
  "In IEEE binary32 arithmetic, every operation rounded, with any C library accurate to 2 units in the last place: if parameters, input and target are finite, nothing overflows and no pre-activation or residual is within rounding error of a kink, neuralnet_backpropagation succeeds, every entry of the gradient is finite, and it differs from the exact gradient of the training objective by at most a bound computed layer by layer, the same for every build; so two builds agree up to twice that bound. For networks of D layers with smooth squashing activation functions, weights adding up to at most R into and out of each neuron, and inputs and targets in [-1,1], the error is at most 4 R^(D-1) ((1+k)^(2D+1) - 1) with k = 2E + (N+7) 2^-23 + 2^-19, E the bound for the prediction, and nothing can overflow.",
  "All networks, inputs, targets, addresses, builds, contents of the work memory; all loss functions but the percentage error (computed in double).",
  "A test compares with one reference at some tolerance for some networks; the bound holds for every finite network, depth and build, and says how the error grows with depth.",
  ["src/neuralnet.c:480-553", "src/loss.c:64-117", "src/activation.c:597-733", "src/matrix_operations.c:32-195"])
p("Batch gradient and gradient descent in float arithmetic",
  "In IEEE binary32 arithmetic, every operation rounded, with any C library accurate to 2 units in the last place, and for every distribution of the samples over threads: if nothing overflows and no kink is within rounding error, optimizer_calc_batch_gradient succeeds, and every entry of its result is finite and within an explicit bound of the mean of the exact gradients of the samples of the batch. The bound is the mean of the bounds for the single samples (C70), plus a relative error of depth+2 roundings, where depth is the largest number of additions a sample takes part in; so the results of different thread counts, schedules and builds differ by at most two such bounds. One step of SGD without momentum changes each parameter by minus the decayed learning rate times this mean, up to the learning rate times the bound and two roundings. For smooth squashing networks and data in [-1,1] there is a closed form, no overflow is possible, and the bound does not depend on the number of samples except through depth.",
  "All networks, data, sample orders, batch sizes, positions of the batch, schedules, builds, addresses and contents of the work memory.",
  "Adding the gradients in another order gives other floats, so two runs with several threads are not reproducible; a test with a tolerance sees the schedules that happen to occur. The theorem bounds all of them.",
  ["src/optimizer.c:61-103", "src/SGD.c:54-96"])
p("OpenMP regions under every interleaving of their threads",
  "Executions interleave single loads and stores of any number of threads. For whatever code is generated for an iteration, as long as it loads and stores where the source does: neuralnet_predict_batch (distinct rows), evaluate and optimizer_calc_batch_gradient (private reduction copies) and the two parallel sections of Adam have no data race, every execution comes to an end after a fixed number of steps, and the memory it leaves is what the sequential model computes for the corresponding distribution of the iterations; a thread faults exactly if the model does. Every distribution of the iterations over threads is one of the schedules which the other theorems (C04, C24, C29, C68, C71) quantify over. Without the reduction clause this fails: there is a race, and updates are lost.",
  "All thread counts, distributions of iterations or sections, interleavings of loads and stores, code for an iteration, networks, data, addresses of buffers and stacks that do not overlap, combination trees.",
  "A race shows up only in rare interleavings, and a test sees few of the (exponentially many) ones; a thread sanitizer only reports races in executions that occurred.",
  ["src/neuralnet_predict_batch.c:24-26", "src/evaluate.c:33-46", "src/optimizer.c:88-97", "src/adam.c:171-177"])
p("The example programs do by hand what the library does",
  "The training loop written out in example_01 (backpropagation, scaling by the negative learning rate, update) leaves the same network as one optimizer_run_epoch of a new SGD optimizer with batch size 1, no shuffling, no momentum and no decay: in exact arithmetic always, in float arithmetic bit for bit when no parameter is a negative zero or an unusual NaN. The accuracy it prints is the fraction of samples whose answer and target are on the same side of one half, and equals the binary_accuracy of evaluate when no answer or target is exactly one half (otherwise it can differ). local_evaluate of example_02b reports what evaluate reports when the network has fewer than 8 outputs (as in the example) or the build has no AVX. The layer sizes of example_01/02 are safe in every build; those of test_sgd and example_03 make the first backpropagation of an AVX build fault.",
  "All networks (weights, sizes, activations), data sets, numbers of samples, learning rates, builds, schedules of the threads, stack addresses and contents.",
  "The two training programs differ in roundings, in an addition to zero and a division by 1 that could change bits; a test compares printed accuracies of one data set.",
  ["examples/example_01.c:38-75", "examples/example_02b.c:13-40", "examples/test_sgd.c:124-126", "examples/example_03.c:161-163", "src/optimizer.c:29-67", "src/SGD.c:53-96", "src/evaluate.c:12-51"])
p("The general trainer runs as its options say and keeps the best network",
  "Given a command line with a training set, a verification set, a network, a loss, a metric and one of the five optimizers, and files that load with matching sizes, general-trainer trains the network without a fault; afterwards checkpoint.npz loads as the network of the first epoch with the best loss on the verification set (or is unchanged if no loss was a number below FLT_MAX), the log has got one line per epoch with consecutive numbers, and no other file has changed. Every option of the usage text has its effect. (False for -e, which never has any effect: all ten epochs always run; for -s, which stores through a NULL pointer; for -m, which is rejected; leaving out --metrics or --loss, or another name of an optimizer, ends in a fault.)",
  "All files, networks with built-in activation functions and safe sizes, data sets, optimizers, learning rates, batch sizes, random numbers, schedules of the threads, clocks, float operations (IEEE-754 included), results (NaN and infinities included).",
  "The program is not run by any test; the outcome depends on the interplay of option parsing, file formats, training, three callbacks with static state, and rewriting a file during the run.",
  ["examples/general-trainer.c:22-134", "examples/general-trainer.c:136-298", "src/modelcheckpoint.c:32-66", "src/earlystopping.c:27-70", "src/logger.c:37-108", "src/optimizer.c:101-133"])
p("Functions from shared libraries stay in memory until exit and leave nothing behind",
  "Every activation function found by a name symbol@library, and its derivative, is code of a library that stays open until the program ends; a lookup that fails leaves no open library and no memory block; at exit every library is closed as often as it was opened and every block is freed once, however often the cleanup is registered; a name is found whenever its library has the symbol, whatever was looked up before. (False when memory ends within a lookup: the library is closed and a pointer into it is returned, and a record is lost; and for dynamic linkers that keep an error until dlerror is called: after a missing library the next good name is refused.)",
  "All sequences of lookups of any names (symbols up to 244 bytes), all libraries and symbol tables, all states of the heap and of the linker; every allocation may fail.",
  "No test loads a shared library; use after dlclose usually works by accident, and running out of memory within the function cannot be provoked by the tests.",
  ["src/activation.c:77-177", "src/activation.c:195-224", "src/activation.c:229-246"])
p("Backpropagation through custom activation functions",
  "The functions of the example library change exactly the n elements they are given and compute 1/(1+exp(-kx)) and its derivative expressed by the activation; with a custom function that acts on each element and has such a derivative function in its library, backpropagation computes the exact gradient of the objective, whichever layers use it; with a library that has no derivative function, backpropagation never completes.",
  "All networks mixing built-in and custom functions, all losses, inputs, targets and buffers (exact arithmetic for the gradient, at points where it exists; any arithmetic for the memory accesses and for the missing derivative); every value of the scaling constant.",
  "No test loads a custom function; the gradient test compares finite differences for built-in functions on one network at random points.",
  ["examples/custom_activation/gnubg_activation.c:1-16", "examples/custom_activation/README.md", "src/activation.c:195-205", "src/neuralnet.c:427-466", "src/neuralnet.c:480-553"])
p("The npy example programs",
  "npy_array_dump describes every array it is given (dimensions, shape, type, order); how_to_load prints that description and the matrix in the file, or asks for a matrix of 'float32' elements; the two files of how_to_save are equal and print as the numbers 0 to 11 in four rows; how_to_load_npz prints the number of arrays of an archive and the name and description of each.",
  "All arrays the library can save, all shapes with r*c < 2^31, all number formats, all header paddings the loader accepts, all lawful zip libraries; memory does not run out.",
  "The programs are not run by any test; a 0-dimensional array, a vector and a Fortran-ordered matrix, for which the property is false, are not among their example files.",
  ["npy_array/npy_array.c:332-346", "npy_array/example/how_to_load.c:1-35", "npy_array/example/how_to_load_npz.c", "npy_array/example/how_to_save.c", "npy_array/example/how_to_save_npz.c"])
p("The program test_sgd",
  "examples/test_sgd.c reads its options (of every option the last value counts, the defaults are 0.01, 0 and false), trains a network k-61-28-1 for ten epochs of SGD on the four arrays of mushroom_train.npz with these options, reports loss and accuracy on both sets in an aligned table, and saves the network, which a later program loads and finds unchanged.",
  "All command lines; all archives with four C-ordered float arrays of matching sizes (k*61 < 2^31, n*k <= 2^32); any float arithmetic (the accuracy: IEEE binary32 with any libm, up to 2^24 samples); all schedules of the threads, all random numbers, all number formats; SSE, AVX and AVX512 builds.",
  "The program is not run by any test, it is built with -march=native on one machine, and on data where most samples are classified correctly an accuracy of 1 looks plausible.",
  ["examples/test_sgd.c:25-41", "examples/test_sgd.c:43-98", "examples/test_sgd.c:100-184"])
p("A saved network reproduces the reported results",
  "examples/example_02.c trains a network k-64-32-1 for one epoch, prints loss, absolute error and accuracy on both data sets and saves the network; examples/example_02b.c, started on the disk it left, loads the network and prints the same loss and accuracy: equal in exact arithmetic whatever the threads did; in float, bit for bit with one thread, and with any threads the same accuracies bit for bit and losses that differ by no more than the rounding of the two sums. Neither program faults.",
  "All archives with four C-ordered float arrays of matching sizes (n, nV >= 1, k*64 < 2^31, n*k <= 2^32; the float statements: up to 2^24 samples); all schedules of the threads in both programs, all random numbers, all addresses, all number formats; IEEE binary32 with any libm, or exact reals; SSE, AVX and AVX512 builds.",
  "Comparing the two outputs by eye on one machine and one data set, to five digits, cannot show that the networks and the sums are the same; the order of the threads changes from run to run.",
  ["examples/example_02.c:14-89", "examples/example_02b.c:11-41", "examples/example_02b.c:43-84"])
p("The unit test of the SGD optimizer passes on a correct step",
  "tests/test_sgd.c trains a new 64-32-16-8-4 network on one sample for one epoch and compares every parameter before and after with the gradient that neuralnet_backpropagation returns. In every build the program runs to the end and makes 2780 tests. In exact arithmetic none fails: the epoch moves every parameter by -0.01 times its gradient, whatever the threads do. In float the test of a parameter w with gradient g passes if |w| + |g|/50 <= 16; the initial weights are at most 4.1, so no test fails if the gradients are at most 590.",
  "All builds, schedules of the threads, addresses, old memory contents, random numbers that the rejection loop accepts; exact reals, and IEEE binary32 with any libm (the bound on the weights: with an accurate libm and random numbers that are not in the middle twice in a row).",
  "Running the test shows the result for one sequence of random numbers and one schedule on one machine; it cannot tell a bad tolerance from a bad optimizer.",
  ["tests/test_sgd.c:14-106", "src/optimizer.c:61-99", "src/SGD.c:54-96"])
p("The test of odd layer sizes runs to the end only without AVX",
  "tests/test_oddsizes.c creates networks with sizes that are no multiples of a vector, predicts and computes a gradient. For any list of sizes: if the widths suit the build, what is printed is what neuralnet_predict and neuralnet_backpropagation compute for the initialised network, the test is counted as passed, and all memory is returned; otherwise there is a misaligned access in neuralnet_backpropagation. The program itself makes three tests without failure in a build without AVX; in every build with AVX it does not get beyond the second network (53-19-13-7). A network that could not be created is dereferenced before the failed test can be reported.",
  "Any arithmetic, all builds, addresses that malloc may return, old memory contents, random numbers that the rejection loop accepts; C81_case for all test cases that name built-in functions.",
  "The test is meant to find this, but a misaligned load faults only if the compiler emits the aligned instruction, and only on the machine it runs on; without AVX it passes.",
  ["tests/test_oddsizes.c:11-87", "src/neuralnet.c:neuralnet_backpropagation", "src/matrix_operations.c:matrix_vector_multiply"])
p("The gradient test passes on a correct gradient, finds wrong ones, and misses NaN",
  "tests/test_backpropagation.c compares, for each of the 14085 parameters of a 214-64-5 network, the mean of two gradients with a quotient of differences. In exact arithmetic the two numbers differ by at most 5/10000 (the limit is 1/100), so that no test fails, whatever the random weights and in every build, and the network is restored. More generally, for any network with a tanh and a sigmoid layer, second weights, inputs and targets at most 1, any direction of length at most 1 and any step d up to 1/10 the difference is at most 5d; hence a value that is off by more than epsilon + 5d is reported. In any arithmetic the program runs to the end, makes 14085 tests and reports exactly those that exceed the limit. Not found is NaN: with an expf that always answers NaN no test fails. In single precision the step back does not restore parameters below 2^-38.",
  "All builds, random numbers, addresses and old memory contents; C82_direction for all sizes that suit the build, all weights within the bounds, all directions and steps; C82_runs for any arithmetic.",
  "The test itself looks at one random network; that the tolerance is wide enough for every one is a statement about second derivatives.",
  ["tests/test_backpropagation.c:12-115", "src/neuralnet.c:neuralnet_backpropagation", "src/neuralnet.c:neuralnet_update"])
p("The general test program and the checks of tests/test.h: what they count, and what they cannot see",
  "tests/test_neuralnet.c runs to its end in any arithmetic and in every build whenever memory, files and random numbers are there: 29 checks, both counters agree with what was printed, the three networks have the right numbers of layers and parameters (also the one whose lists are too long and whose first name is NULL), the file is written and read, and the predictions before saving and after loading are the same numbers. Without memory for the copy of the parameters it stops early and gives all memory back. In exact arithmetic the four functions of tests/test.h are the mean, the standard deviation, the maximum and the minimum (not for 0 values, for 1, or from 2^32 on), and a check prints (OK) exactly if it is not counted. In single precision the weights of xavier are never outside the bounds and no comparison after loading is counted, so only the six checks of statistics can fail, and they do fail for a rand() in the upper 30 per cent of its range, although the library is right. NaN prints FAIL and is not counted; CHECK_STR_EQUALS_MSG counts equal strings as failures.",
  "All builds, addresses, old memory contents, random numbers, file systems with a readable and writable file, lawful zip libraries; C83_runs in any arithmetic; C83_float in IEEE single precision for every libm.",
  "The test is itself a test: whether it can miss an error or report one where there is none is not visible from running it.",
  ["tests/test.h:20-107", "tests/test_neuralnet.c:11-209"])
p("The temporary memory of neuralnet_load and neuralnet_save",
  "neuralnet_load builds a list of arrays, an array of pointers and the names of the activation functions, and frees them at its end; neuralnet_save builds a list and hands one buffer per array to libzip. Whenever neuralnet_load returns, whichever requests for memory fail, the blocks in use are those of the network (none if the result is NULL), those in use before, and exactly the leaked ones: two for every array that was read but for which there was no memory for an element of the list, and two for every array of strings after the first. With enough memory and one array of strings nothing leaks, the network is the one of the account without temporary objects, and freeing it gives back all memory. neuralnet_save leaks exactly one block for every array that did not get into the list and, if zip_close fails, one buffer for every array that did; otherwise none.",
  "All lists of arrays (any number, types, shapes, contents), all patterns of failing requests, all states of the heap, all networks of fewer than 2^31 layers.",
  "A leak changes no result. Failing requests and a full disk do not occur in tests, and files with two arrays of strings are not written by the library.",
  ["src/neuralnet.c:94-215", "src/neuralnet.c:310-410", "npy_array/npy_array_list.c:47-131", "npy_array/npy_array_list.c:145-225", "npy_array/npy_array.c:157-276", "npy_array/npy_array.c:378-399"])
p("What npy_array_free unmaps",
  "npy_array_mmap maps the whole file and does not keep its length; npy_array_free computes the length again from the header and the shape. For every file that npy_array_mmap accepts, npy_array_free does not fault and unmaps exactly the pages of the computed number of bytes. For files written by npy_array_save the address space is then as before, and a rejected file leaves nothing mapped. If the file is longer than the array by another page, that page stays mapped; if it is truncated by a page, a page behind the mapping, which belongs to something else, is unmapped.",
  "All files (all byte strings), all arrays that can be saved, all addresses and states of the address space.",
  "The effect is on memory that the array does not own and depends on what happens to be mapped behind it.",
  ["npy_array/npy_array.c:293-330", "npy_array/npy_array.c:378-399"])
p("Reading arbitrary bytes as an array",
  "For every byte string, npy_array_load (and the reading of a member of an archive) ends with an array, NULL, a failed assertion or a read outside the header buffer, never with anything else; npy_array_mmap can also use an uninitialised buffer. If at least two characters follow the key of the type and a closing parenthesis follows the key of the shape, nothing is read outside the header, and only an assertion can fail. A header without the type key fails the assertion; a header that ends with it, and a description without closing parenthesis, are read beyond their end.",
  "All byte strings, every outcome of the requests for memory, both readers.",
  "Malformed files are unlimited; a read slightly beyond a buffer on the stack usually has no visible effect.",
  ["npy_array/npy_array.c:145-276", "npy_array/npy_array.c:293-303"])
with open("/verif/properties.jsonl","w") as f:
    for x in P: f.write(json.dumps(x, ensure_ascii=False)+"\n")
print(len(P))
for x in P: print(x['id'],x['title'])
