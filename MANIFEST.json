{
 "claims": [
  {
   "property": "C01",
   "status": "proved",
   "theorems": [
    "Verif.Props.C01_concatenate_places",
    "Verif.Props.C01_concatenate_throws_iff"
   ],
   "note": "Cell-by-cell placement for every axis, shapes and source lengths; throws exactly when the two other extents differ."
  },
  {
   "property": "C02",
   "status": "proved",
   "theorems": [
    "Verif.Props.C02_separate_concatenate",
    "Verif.Props.C02_concatenate_separate"
   ],
   "note": "Both directions of the two-way round trip on every axis."
  },
  {
   "property": "C03",
   "status": "proved",
   "theorems": [
    "Verif.Props.C03_concatenateN_places",
    "Verif.Props.C03_concatenateN_throws_iff",
    "Verif.Props.C03_concatenateN_empty_ub",
    "Verif.Props.C03_separateN_concatenateN",
    "Verif.Props.C03_concatenateN_separateN"
   ],
   "note": "N-way placement and both round trips by induction over the list of pieces; empty list is undefined behaviour in the code."
  },
  {
   "property": "C04",
   "status": "proved",
   "theorems": [
    "Verif.Props.C04_dense_forward",
    "Verif.Props.C04_layer_forward",
    "Verif.Props.C04_forward_frame",
    "Verif.Props.C04_short_input_misaligned",
    "Verif.Props.C04_long_input_ub",
    "Verif.Props.C04_matarr_mul"
   ],
   "note": "Exact operation order for any number type and W x + b over commutative semirings. Vectors of the wrong length are accepted by the code: shorter ones misalign the weights, longer ones read behind them (both shown)."
  },
  {
   "property": "C05",
   "status": "proved",
   "theorems": [
    "Verif.Props.C05_dense_backward",
    "Verif.Props.C05_backward_is_gradient",
    "Verif.Props.C05_backward_accumulates"
   ],
   "note": "Values in program order, partial derivatives over the reals, accumulation over any number of calls."
  },
  {
   "property": "C06",
   "status": "proved",
   "theorems": [
    "Verif.Props.C06_threaded_forward",
    "Verif.Props.C06_threaded_forward_frame"
   ],
   "note": "Every finishing schedule of the interleaving model yields the sequential result."
  },
  {
   "property": "C07",
   "status": "partial",
   "theorems": [
    "Verif.Props.C07_threaded_backward_refuted",
    "Verif.Props.C07_threaded_backward_partial",
    "Verif.Props.C07_threaded_backward_noOverlap_partial"
   ],
   "note": "Refuted for the input gradients: `input_gradients[j] +=` is a race between tasks and a schedule loses an update. Proved: bias and weight gradients on every schedule; all gradients on schedules that do not interrupt a +=."
  },
  {
   "property": "C08",
   "status": "proved",
   "theorems": [
    "Verif.Props.C08_cross_correlation",
    "Verif.Props.C08_conv_layer_constructed",
    "Verif.Props.C08_conv_layer_forward"
   ],
   "note": "Every geometry that fits; also through ConvolutionalLayer construction and forward."
  },
  {
   "property": "C09",
   "status": "partial",
   "theorems": [
    "Verif.Props.C09_output_side_partial",
    "Verif.Props.C09_placements_closed_form",
    "Verif.Props.C09_output_side_refuted",
    "Verif.Props.C09_too_large_wraps",
    "Verif.Props.C09_zero_stride"
   ],
   "note": "Proved for kernels that fit. Refuted for kernels larger than the padded input: the unsigned subtraction wraps. A zero stride divides by zero in the layer constructors."
  },
  {
   "property": "C10",
   "status": "proved",
   "theorems": [
    "Verif.Props.C10_max_pool",
    "Verif.Props.C10_avg_pool",
    "Verif.Props.C10_pool_layer_constructed"
   ],
   "note": "Max: a window value not exceeded by any window value. Average: exact mean over a semifield."
  },
  {
   "property": "C11",
   "status": "proved",
   "theorems": [
    "Verif.Props.C11_conv_backward_is_gradient",
    "Verif.Props.C11_conv_backward_accumulates"
   ],
   "note": "HasDerivAt for every input cell and every kernel weight, one call and any number of calls."
  },
  {
   "property": "C12",
   "status": "partial",
   "theorems": [
    "Verif.Props.C12_conv_bias_refuted",
    "Verif.Props.C12_forward_ignores_bias",
    "Verif.Props.C12_conv_bias_partial"
   ],
   "note": "Refuted: the forward pass never adds the biases, and backward overwrites the bias gradients. Proved: bias gradients of a single call."
  },
  {
   "property": "C13",
   "status": "partial",
   "theorems": [
    "Verif.Props.C13_max_pool_backward_actual",
    "Verif.Props.C13_max_pool_backward_partial",
    "Verif.Props.C13_max_pool_backward_refuted"
   ],
   "note": "Refuted: a gradient whose window maximum is in the window corner goes to cell 0 of the whole input. Proved: exact behaviour for all inputs and the full claim when no corner is a maximum."
  },
  {
   "property": "C14",
   "status": "partial",
   "theorems": [
    "Verif.Props.C14_avg_pool_backward_partial",
    "Verif.Props.C14_avg_pool_backward_refuted",
    "Verif.Props.C14_avg_pool_backward_sum"
   ],
   "note": "Refuted: the corner cell of each window gets nothing. Proved: exact behaviour, and the sum of input gradients is (k-1)/k of the output gradients."
  },
  {
   "property": "C15",
   "status": "proved",
   "theorems": [
    "Verif.Props.C15_relu_derivative",
    "Verif.Props.C15_elu_derivative",
    "Verif.Props.C15_tanh_derivative",
    "Verif.Props.C15_sigmoid_derivative",
    "Verif.Props.C15_values",
    "Verif.Props.C15_arrays",
    "Verif.Props.C15_relu_at_zero"
   ],
   "note": "Over the reals; relu excluded at 0 (no derivative there, shown), elu at 0 unless alpha = 1."
  },
  {
   "property": "C16",
   "status": "partial",
   "theorems": [
    "Verif.Props.C16_relu",
    "Verif.Props.C16_tanh",
    "Verif.Props.C16_sigmoid",
    "Verif.Props.C16_elu_partial",
    "Verif.Props.C16_elu_refuted",
    "Verif.Props.C16_linear"
   ],
   "note": "Proved for ReLU, tanh, sigmoid, linear and for ELU with alpha >= 0. Refuted for ELU with negative alpha: the sign of the output no longer tells the sign of the input."
  },
  {
   "property": "C17",
   "status": "proved",
   "theorems": [
    "Verif.Props.C17_softmax_values",
    "Verif.Props.C17_softmax_laws",
    "Verif.Props.C17_softmax_lt_one",
    "Verif.Props.C17_layer",
    "Verif.Props.C17_degenerate"
   ],
   "note": "Exact arithmetic: overflow of exp in the unshifted version is not modelled. Empty input is undefined behaviour in the stable version."
  },
  {
   "property": "C18",
   "status": "proved",
   "theorems": [
    "Verif.Props.C18_softmax_gradient",
    "Verif.Props.C18_layer_gradient"
   ],
   "note": "HasDerivAt for every component, for softmax_1 and for the layer which uses only its stored output."
  },
  {
   "property": "C19",
   "status": "partial",
   "theorems": [
    "Verif.Props.C19_mse_value",
    "Verif.Props.C19_gradient_partial",
    "Verif.Props.C19_gradient_refuted",
    "Verif.Props.C19_gradient_actual",
    "Verif.Props.C19_gradient_scaled_partial",
    "Verif.Props.C19_layer_backward"
   ],
   "note": "Value part proved. Gradient part refuted for every length above 1 (factor 1/n missing); proved for length 1, with norm = 1/n, and as gradient of the sum of squares."
  },
  {
   "property": "C20",
   "status": "partial",
   "theorems": [
    "Verif.Props.C20_cross_entropy_value",
    "Verif.Props.C20_cross_entropy_bounded",
    "Verif.Props.C20_gradient_partial",
    "Verif.Props.C20_gradient_unclamped",
    "Verif.Props.C20_gradient_refuted",
    "Verif.Props.C20_layer_backward_partial"
   ],
   "note": "Value part proved. Gradient refuted at every positive prediction below the machine epsilon with non-zero target (forward clamps at epsilon, backward at numeric_limits::min); proved above epsilon."
  },
  {
   "property": "C21",
   "status": "proved",
   "theorems": [
    "Verif.Props.C21_argmax",
    "Verif.Props.C21_unique",
    "Verif.Props.C21_empty"
   ],
   "note": "Least index of a maximal element; behaviour on empty arrays shown separately."
  },
  {
   "property": "C22",
   "status": "proved",
   "theorems": [
    "Verif.Props.C22_mse_statistics",
    "Verif.Props.C22_cce_statistics",
    "Verif.Props.C22_no_target",
    "Verif.Props.C22_backward_frame"
   ],
   "note": "Induction over all histories of set_target, forward, training_forward and reset_score, exceptions included. Ratios without any evaluation (NaN in C++) are excluded."
  },
  {
   "property": "C23",
   "status": "proved",
   "theorems": [
    "Verif.Props.C23_cce_decision",
    "Verif.Props.C23_cce_zero_target",
    "Verif.Props.C23_mse_decision"
   ],
   "note": "Decision and exceptional case for both loss layers."
  },
  {
   "property": "C24",
   "status": "proved",
   "theorems": [
    "Verif.Props.C24_gd_train",
    "Verif.Props.C24_gd_train_pair",
    "Verif.Props.C24_gd_history",
    "Verif.Props.C24_gd_history_untrained"
   ],
   "note": "Single step, pair of layers, and all histories of accumulations and train calls, for dense, convolutional, recurrent and parameterless layers. Numbers are reals."
  },
  {
   "property": "C25",
   "status": "partial",
   "theorems": [
    "Verif.Props.C25_adam_actual",
    "Verif.Props.C25_adam_partial",
    "Verif.Props.C25_adam_per_parameter_refuted",
    "Verif.Props.C25_reset"
   ],
   "note": "False of the code (C25_adam_per_parameter_refuted): one pair of moments and one counter are shared by all parameters. Proved: the documented algorithm for layers with exactly one parameter over every history, the exact behaviour for every layer (C25_adam_actual), and reset."
  },
  {
   "property": "C26",
   "status": "proved",
   "theorems": [
    "Verif.Props.C26_train_check",
    "Verif.Props.C26_unchecked_train_is_not_atomic"
   ],
   "note": "For every optimizer step function; also a theorem that plain train on layers of different size throws after a partial update."
  },
  {
   "property": "C27",
   "status": "proved",
   "theorems": [
    "Verif.Props.C27_enumeration",
    "Verif.Props.C27_count"
   ],
   "note": "Bijection between indices and stored cells, same address for parameter and gradient, write effect, and the exception."
  },
  {
   "property": "C28",
   "status": "proved",
   "theorems": [
    "Verif.Props.C28_probability_one",
    "Verif.Props.C28_probability_zero",
    "Verif.Props.C28_dropout",
    "Verif.Props.C28_inference",
    "Verif.Props.C28_shrink_keeps_mask",
    "Verif.Props.C28_resized"
   ],
   "note": "All histories of inference, training and backward passes on a layer of fixed size, any random stream, and a change of size followed by a training pass (C28_resized). A further theorem records that resizing to a smaller shape keeps the old mask (out-of-range write in backward)."
  },
  {
   "property": "C29",
   "status": "partial",
   "theorems": [
    "Verif.Props.C29_new_sized",
    "Verif.Props.C29_time_steps_sized",
    "Verif.Props.C29_time_steps_keeps_state",
    "Verif.Props.C29_set_hidden",
    "Verif.Props.C29_forward_partial",
    "Verif.Props.C29_forward_refuted",
    "Verif.Props.C29_one_step_actual",
    "Verif.Props.C29_calls_partial"
   ],
   "note": "Proved for every T except 1, for one call and any number of successive calls. False for T = 1 (C29_forward_refuted): the state is overwritten by W_ih x before W_hh uses it; C29_one_step_actual gives what is computed."
  },
  {
   "property": "C30",
   "status": "partial",
   "theorems": [
    "Verif.Props.C30_backward_actual",
    "Verif.Props.C30_output_partial",
    "Verif.Props.C30_opt_derivative_partial",
    "Verif.Props.C30_backward_refuted"
   ],
   "note": "False of the code (C30_backward_refuted): tanh_1 is applied to the activated state, and the W_hh gradient of step 0 uses the last state. Proved: the exact accumulated values (C30_backward_actual), exactness of the W_ho and b_o gradients, and exactness of all others (W_hh up to the step 0 term) if tanh_1_opt is used instead."
  },
  {
   "property": "C31",
   "status": "proved",
   "theorems": [
    "Verif.Props.C31_forward_run",
    "Verif.Props.C31_training_run",
    "Verif.Props.C31_backward_run",
    "Verif.Props.C31_graph_runs",
    "Verif.Props.C31_graph_duplicate_loss"
   ],
   "note": "Proved for the forward, training and backward runs of every model built by any history of Model calls (cyclic graphs included). C31_graph_duplicate_loss: on a bare DLGraph, registering a loss layer twice lists its backward arcs twice."
  },
  {
   "property": "C32",
   "status": "partial",
   "theorems": [
    "Verif.Props.C32_topological_refuted",
    "Verif.Props.C32_topological_partial",
    "Verif.Props.C32_training_topological_partial",
    "Verif.Props.C32_backward_topological_partial"
   ],
   "note": "False as stated: C32_topological_refuted gives an acyclic model with a skip connection where the joining layer's outgoing connection runs before one of its incoming ones. Proved for models with consistent depths (every path to a layer has the same length), for all three runs."
  },
  {
   "property": "C33",
   "status": "partial",
   "theorems": [
    "Verif.Props.C33_lists_refuted",
    "Verif.Props.C33_stale_refuted",
    "Verif.Props.C33_copy_refuted",
    "Verif.Props.C33_lists_partial",
    "Verif.Props.C33_copy_right",
    "Verif.Props.C33_copy_partial"
   ],
   "note": "False as stated: C33_lists_refuted (single layer: both lists empty), C33_stale_refuted (layer added after the last connection), C33_copy_refuted (a copy recomputes stale lists). Proved: right after any successful forward connection and any later calls except add_layer; copies always have right lists and preserve right ones."
  },
  {
   "property": "C34",
   "status": "partial",
   "theorems": [
    "Verif.Props.C34_atomic",
    "Verif.Props.C34_records",
    "Verif.Props.C34_add_node",
    "Verif.Props.C34_add_layer",
    "Verif.Props.C34_indices",
    "Verif.Props.C34_loss_indices",
    "Verif.Props.C34_loss_index_refuted",
    "Verif.Props.C34_vector_refuted",
    "Verif.Props.C34_vector_throws",
    "Verif.Props.C34_vector_records"
   ],
   "note": "Proved at Model level (atomicity, exact effect, all indices valid, loss indices exactly the loss layers) and for the vector forms of DLGraph when all layers are known (C34_vector_records). False of two DLGraph entry points: C34_loss_index_refuted (add_loss of a layer already present records the last layer), C34_vector_refuted (vector forms leave the arcs added before the throw)."
  },
  {
   "property": "C35",
   "status": "partial",
   "theorems": [
    "Verif.Props.C35_predict_partial",
    "Verif.Props.C35_composition_unique",
    "Verif.Props.C35_fnn_partial",
    "Verif.Props.C35_dropout_refuted",
    "Verif.Props.C35_recurrent_refuted",
    "Verif.Props.C35_single_layer_refuted",
    "Verif.Props.C35_history_partial",
    "Verif.Props.C35_used_partial",
    "Verif.Props.C35_any_shape_partial",
    "Verif.Props.C35_tree_partial",
    "Verif.Props.C35_join_actual"
   ],
   "note": "Proved for every chain of stateless layers (dense, convolution, pooling, activations), every parameter value and every history of predict, step, train and init calls (C35_history_partial) and, for feedforward networks, of predict, evaluate and fit calls on data sets (C35_used_partial). For acyclic models of any shape (branches, joins, skip connections) predict is the composition of the layers along one walk of the graph, after every history (C35_any_shape_partial); for trees this is the path to the first output layer (C35_tree_partial). A layer with several predecessors uses only the one that is run last (C35_join_actual). Refuted for dropout (forward leaves the output of the last training step), recurrent layers (hidden state survives) and single-layer models (no output layer)."
  },
  {
   "property": "C36",
   "status": "proved",
   "theorems": [
    "Verif.Props.C36_chain",
    "Verif.Props.C36_input_only_first",
    "Verif.Props.C36_no_exception",
    "Verif.Props.C36_defined",
    "Verif.Props.C36_zero_stride"
   ],
   "note": "Descriptors are added in order, each followed by its activation, forming one chain; malformed sequences raise the documented outcome; a convolution or pooling with a zero stride is undefined behaviour."
  },
  {
   "property": "C37",
   "status": "proved",
   "theorems": [
    "Verif.Props.C37_sequential",
    "Verif.Props.C37_epoch",
    "Verif.Props.C37_fit",
    "Verif.Props.C37_batch_zero"
   ],
   "note": "The loop is modelled with a bound on its iterations (fuel); any bound of at least ceil(n/b) gives the specified calls, and with batch size 0 no bound suffices (C37_batch_zero). An exception in a call ends the run, in the loop and in the specification."
  },
  {
   "property": "C38",
   "status": "proved",
   "theorems": [
    "Verif.Props.C38_entry_tasks",
    "Verif.Props.C38_batch_tasks",
    "Verif.Props.C38_execution",
    "Verif.Props.C38_epoch",
    "Verif.Props.C38_no_deadlock",
    "Verif.Props.C38_wraps_around"
   ],
   "note": "Tasks and train calls are atomic events; workers take tasks in any order. The bound on sizes is needed: C38_wraps_around."
  },
  {
   "property": "C39",
   "status": "partial",
   "theorems": [
    "Verif.Props.C39_barrier_partial",
    "Verif.Props.C39_refuted",
    "Verif.Props.C39_entry_partial",
    "Verif.Props.C39_batch_partial"
   ],
   "note": "False of the code: the main thread applies the first result while later tasks are still to copy the model (C39_refuted, already with atomic tasks; in C++ this is also a data race). If all tasks of a round finish before the first result is applied: the result does not depend on the order of the tasks, for every optimizer (C39_barrier_partial), and training with gradient descent over any number of rounds and epochs is gradient descent on the batches of the rounds (C39_entry_partial: the same statement as for sequential training; C39_batch_partial: batches of threads times batch size)."
  },
  {
   "property": "C40",
   "status": "proved",
   "theorems": [
    "Verif.Props.C40_single",
    "Verif.Props.C40_same_parameters",
    "Verif.Props.C40_copy",
    "Verif.Props.C40_call",
    "Verif.Props.C40_train",
    "Verif.Props.C40_setParams"
   ],
   "note": "Copies are modelled with a memory of parameter vectors and addresses (SharedParams), private members are copied. All histories of copies, predict, step, reset_score and train on any of the models. Name and shape records, which copies also share, never change in these calls and are not part of the model."
  },
  {
   "property": "C41",
   "status": "proved",
   "theorems": [
    "Verif.Props.C41_of_vector"
   ],
   "note": "Every vector, feature size, sequence size and label set, including 0 and oversized ones."
  },
  {
   "property": "C42",
   "status": "partial",
   "theorems": [
    "Verif.Props.C42_rows_partial",
    "Verif.Props.C42_rows_actual",
    "Verif.Props.C42_rows_refuted",
    "Verif.Props.C42_cube_partial",
    "Verif.Props.C42_cube_refuted"
   ],
   "note": "False: with a number of rows that is not a multiple of the sequence size, size() counts rows that are not stored and entry() reads outside the data (C42_rows_refuted); a cube whose first matrix is empty gets a wrong sequence size (C42_cube_refuted). Proved for whole sequences and for cubes whose first matrix has rows; C42_rows_actual states what happens in general."
  },
  {
   "property": "C43",
   "status": "proved",
   "theorems": [
    "Verif.Props.C43_entry",
    "Verif.Props.C43_input",
    "Verif.Props.C43_label",
    "Verif.Props.C43_entry_seq",
    "Verif.Props.C43_inputs_seq",
    "Verif.Props.C43_labels_seq",
    "Verif.Props.C43_rows"
   ],
   "note": "Every accessor on every consistent dataset, every index; no read outside the data."
  },
  {
   "property": "C44",
   "status": "proved",
   "theorems": [
    "Verif.Props.C44_inputs",
    "Verif.Props.C44_labels",
    "Verif.Props.C44_rows_agree",
    "Verif.Props.C44_partition"
   ],
   "note": "Rows of inputs() and labels() agree with input(i) and label(i) and together hold every cell once."
  },
  {
   "property": "C45",
   "status": "partial",
   "theorems": [
    "Verif.Props.C45_split_partial",
    "Verif.Props.C45_empty_refuted",
    "Verif.Props.C45_proportion"
   ],
   "note": "False for the empty dataset: split divides by a sequence size of 0 and converts NaN to an integer (C45_empty_refuted). Proved for every non-empty dataset, percentage and monotone rounding of the products."
  },
  {
   "property": "C46",
   "status": "proved",
   "theorems": [
    "Verif.Props.C46_throws_iff",
    "Verif.Props.C46_returns",
    "Verif.Props.C46_whole_sequences",
    "Verif.Props.C46_percentage"
   ],
   "note": "Throws iff from exceeds min(to,size()); otherwise exactly the requested rows, cut to whole sequences. C46_percentage is the same for subdata(percentage)."
  },
  {
   "property": "C47",
   "status": "proved",
   "theorems": [
    "Verif.Props.C47_shuffle",
    "Verif.Props.C47_inputs_with_labels"
   ],
   "note": "For every permutation the generator can produce."
  },
  {
   "property": "C48",
   "status": "partial",
   "theorems": [
    "Verif.Props.C48_normalize_partial",
    "Verif.Props.C48_constant_refuted",
    "Verif.Props.C48_no_rows_refuted",
    "Verif.Props.C48_explicit_bounds",
    "Verif.Props.C48_equal_bounds_throw"
   ],
   "note": "False for constant columns (division by zero gives NaN, C48_constant_refuted) and for datasets with columns but no rows (out-of-range read, C48_no_rows_refuted). Proved over the reals for all other columns; explicit bounds proved in full."
  },
  {
   "property": "C49",
   "status": "proved",
   "theorems": [
    "Verif.Props.C49_axis0",
    "Verif.Props.C49_axis1",
    "Verif.Props.C49_axis2",
    "Verif.Props.C49_throws_iff",
    "Verif.Props.C49_empty_neutral"
   ],
   "note": "All three axes, the exact throwing condition, neutrality of empty datasets."
  },
  {
   "property": "C50",
   "status": "proved",
   "theorems": [
    "Verif.Props.C50_sequence_size",
    "Verif.Props.C50_history",
    "Verif.Props.C50_start"
   ],
   "note": "Any history of calls that return, including concatenation, inputs() and labels()."
  },
  {
   "property": "C51",
   "status": "partial",
   "theorems": [
    "Verif.Props.C51_actual",
    "Verif.Props.C51_one_hot_partial",
    "Verif.Props.C51_position_refuted",
    "Verif.Props.C51_default"
   ],
   "note": "False unless the labels are the last columns: inputs are not moved together and are overwritten (C51_position_refuted). Proved for labels in the last columns; C51_actual gives the exact result for all label positions; the default encoding is proved."
  },
  {
   "property": "C52",
   "status": "proved",
   "theorems": [
    "Verif.Props.C52_matcher",
    "Verif.Props.C52_classification",
    "Verif.Props.C52_quoted",
    "Verif.Props.C52_integer_text",
    "Verif.Props.C52_boolean_text",
    "Verif.Props.C52_float_text",
    "Verif.Props.C52_row"
   ],
   "note": "parseType models TypeChecker::parse with the file's four regular expressions (matcher proved equal to the language, C52_matcher). C52_classification characterises every class by an independent grammar; C52_quoted covers quoted text; C52_integer_text / C52_boolean_text / C52_float_text show that written integers, booleans and finite floats (std::to_string) are classified INT / BOOL / FLOAT and denote the value written. nan and inf texts are not written by the model of std::to_string."
  },
  {
   "property": "C53",
   "status": "partial",
   "theorems": [
    "Verif.Props.C53_equality",
    "Verif.Props.C53_round_trip_partial",
    "Verif.Props.C53_scalars_partial",
    "Verif.Props.C53_nested_partial",
    "Verif.Props.C53_empty_list_refuted",
    "Verif.Props.C53_empty_dict_refuted",
    "Verif.Props.C53_quote_refuted",
    "Verif.Props.C53_last_empty_refuted",
    "Verif.Props.C53_empty_item_refuted"
   ],
   "note": "Equality of items is proved to be equality of the shown texts (C53_equality). Writing then reading is proved to give back an equal item for every tree of class Plain, of any depth and width (C53_round_trip_partial, C53_scalars_partial, C53_nested_partial). The unrestricted claim is false of the code and refuted by concrete items: an empty list reads back with one empty leaf, an empty dictionary runs past the end of the stream, a quote inside a text cuts it, a last empty leaf of a list is lost, an empty item reads back as a leaf. Missing: nothing more holds on the excluded items."
  },
  {
   "property": "C54",
   "status": "proved",
   "theorems": [
    "Verif.Props.C54_program",
    "Verif.Props.C54_reading",
    "Verif.Props.C54_one_tree",
    "Verif.Props.C54_write",
    "Verif.Props.C54_append",
    "Verif.Props.C54_throw",
    "Verif.Props.C54_copy",
    "Verif.Props.C54_other_variables"
   ],
   "note": "Programs of assignments, appends, copies and reads on JSON items stored in a heap are proved to behave like programs on independent ordered trees (C54_program, with the consequences C54_reading, C54_write, C54_append, C54_throw, C54_copy, C54_other_variables). The depth of the recursion of the copy constructor is a parameter of the model; the theorems hold from a depth on that depends only on the program. A single failing access leaves the item unchanged; a chained access such as x[\"a\"][0] may have created the key \"a\" before it throws. The constructors that slice an item and the conversions of leaves to C++ values are not modelled here."
  },
  {
   "property": "C55",
   "status": "partial",
   "theorems": [
    "Verif.Props.C55_history_partial",
    "Verif.Props.C55_fields_partial",
    "Verif.Props.C55_entry_partial",
    "Verif.Props.C55_refuted",
    "Verif.Props.C55_no_rows_refuted"
   ],
   "note": "For files with at least two complete lines, csv[i] is proved to be line i mod rows after any history of accesses, with its fields (C55_history_partial, C55_fields_partial, C55_entry_partial for the entries of the dataset interface). Refuted for files with fewer: with one row the cache of the constructor makes csv[1] depend on the history (C55_refuted), and with no complete line the remainder by zero is undefined behaviour (C55_no_rows_refuted)."
  },
  {
   "property": "C56",
   "status": "partial",
   "theorems": [
    "Verif.Props.C56_loop_partial",
    "Verif.Props.C56_walk_partial",
    "Verif.Props.C56_turn_partial",
    "Verif.Props.C56_refuted",
    "Verif.Props.C56_header_only_refuted",
    "Verif.Props.C56_iterators_partial"
   ],
   "note": "The loop from begin() to end() is proved to yield the data rows once each and in order without the last one (C56_loop_partial); every walk of an iterator that stays on the rows is proved to see the line of its position (C56_walk_partial). Refuted: the last data row is never visited (C56_refuted), and with only a header the loop does not end before the row index wraps around (C56_header_only_refuted)."
  },
  {
   "property": "C57",
   "status": "partial",
   "theorems": [
    "Verif.Props.C57_columns",
    "Verif.Props.C57_count",
    "Verif.Props.C57_access_partial",
    "Verif.Props.C57_pieces_partial",
    "Verif.Props.C57_past_end",
    "Verif.Props.C57_strings",
    "Verif.Props.C57_refuted"
   ],
   "note": "Number of fields, out-of-range accesses and the conversion to texts are proved for every line; row[i] is proved to be the i-th piece except for an empty last piece (C57_pieces_partial, C57_access_partial). Refuted for an empty last field, which is reported as missing (C57_refuted)."
  },
  {
   "property": "C58",
   "status": "partial",
   "theorems": [
    "Verif.Props.C58_opens_partial",
    "Verif.Props.C58_samples_partial",
    "Verif.Props.C58_rejected_partial",
    "Verif.Props.C58_missing_file",
    "Verif.Props.C58_short_file_refuted",
    "Verif.Props.C58_no_samples_refuted"
   ],
   "note": "For well-formed pairs with at least one sample, images, labels and entries are proved after any history of calls and for both byte orders of the processor (C58_opens_partial, C58_samples_partial); files with complete headers are accepted exactly when the header is right and rejected by an exception otherwise (C58_rejected_partial). Refuted: a file too short for its magic number is not rejected, the uninitialized variable is used (C58_short_file_refuted); a well-formed pair of no samples divides by zero when asked for one (C58_no_samples_refuted)."
  },
  {
   "property": "C59",
   "status": "proved",
   "theorems": [
    "Verif.Props.C59_opened_format",
    "Verif.Props.C59_records",
    "Verif.Props.C59_columns",
    "Verif.Props.C59_pixels",
    "Verif.Props.C59_rearranged",
    "Verif.Props.C59_injective",
    "Verif.Props.C59_onto",
    "Verif.Props.C59_orders"
   ],
   "note": "Records are proved for complete batches of ten thousand records of both formats and after any history of calls; the rearrangement is proved for images of every side to keep each pixel, to be a permutation of the bytes, injective and onto."
  },
  {
   "property": "C60",
   "status": "proved",
   "theorems": [
    "Verif.Props.C60_dump_load",
    "Verif.Props.C60_other_type",
    "Verif.Props.C60_types_differ",
    "Verif.Props.C60_again",
    "Verif.Props.C60_resolution"
   ],
   "note": "Proved for every layer that a program can have (Built: any constructor, training, change of input shape, load from any JSON), for every text format of numbers; C60_resolution shows for the format with six decimals that a number comes back within half a millionth. JSON values are trees here; C53 and C69 cover their text."
  },
  {
   "property": "C61",
   "status": "partial",
   "theorems": [
    "Verif.Props.C61_reproducible_partial",
    "Verif.Props.C61_returned_seed_partial",
    "Verif.Props.C61_values_actual",
    "Verif.Props.C61_recurrent_actual",
    "Verif.Props.C61_stream_refuted"
   ],
   "note": "Same seed gives the same parameters (C61_reproducible_partial, C61_returned_seed_partial). The stream half is refuted for every model, engine and distribution: equally sized dense layers get equal weights because the generator is passed by value (C61_stream_refuted). C61_values_actual and C61_recurrent_actual say exactly which values are stored. Random engine and normal distribution are parameters of the model."
  },
  {
   "property": "C62",
   "status": "partial",
   "theorems": [
    "Verif.Props.C62_shapes_partial",
    "Verif.Props.C62_output_refuted",
    "Verif.Props.C62_first_actual",
    "Verif.Props.C62_set_input_refuted",
    "Verif.Props.C62_backward_actual"
   ],
   "note": "Refuted (C62_output_refuted: for all valid non-empty shapes and all inputs of the declared sizes, feeding one input per shape never finishes: with one shape the write is behind the buffer, with more the second call throws; C62_set_input_refuted: setting the input shape never ends). C62_shapes_partial gives when a layer can be made and its shapes; C62_first_actual says where the first call puts the input; C62_backward_actual says that the gradients handed back are zeros."
  },
  {
   "property": "C63",
   "status": "proved",
   "theorems": [
    "Verif.Props.C63_queries",
    "Verif.Props.C63_forward_layers"
   ],
   "note": "Every graph reachable through the DLGraph interface."
  },
  {
   "property": "C64",
   "status": "partial",
   "theorems": [
    "Verif.Props.C64_first_fit",
    "Verif.Props.C64_later_fit",
    "Verif.Props.C64_batch_size_refuted"
   ],
   "note": "Attachment to the last activation on the first fit, and no change by later fits, are proved; refuted for the batch size: a later fit keeps the loss layer, and so the gradient scale, of the first."
  },
  {
   "property": "C65",
   "status": "proved",
   "theorems": [
    "Verif.Props.C65_lines",
    "Verif.Props.C65_table"
   ],
   "note": "The list of lines and the table of texts of a file are proved; the conversion of each text to a C++ value is not modelled."
  },
  {
   "property": "C66",
   "status": "proved",
   "theorems": [
    "Verif.Props.C66_names",
    "Verif.Props.C66_fields"
   ],
   "note": "Proved for every file of names."
  },
  {
   "property": "C67",
   "status": "partial",
   "theorems": [
    "Verif.Props.C67_mnist_partial",
    "Verif.Props.C67_cifar_partial",
    "Verif.Props.C67_white_refuted"
   ],
   "note": "Printing is proved for every MNIST image, and for CIFAR images whose brightness values fit in a byte (C67_cifar_partial). Refuted for CIFAR: the brightness formula multiplies where it should add, so that a white pixel converts a number above 255 to a byte, which is undefined behaviour (C67_white_refuted). Brightness is modelled with exact fractions instead of doubles."
  },
  {
   "property": "C68",
   "status": "partial",
   "theorems": [
    "Verif.Props.C68_sizes_partial",
    "Verif.Props.C68_buffers_partial",
    "Verif.Props.C68_elu_refuted",
    "Verif.Props.C68_axis_refuted",
    "Verif.Props.C68_state_refuted"
   ],
   "note": "Buffer sizes and the dropout scale are restored (C68_sizes_partial), and every history of construction, training, reshaping and loading leaves buffers of the right lengths (C68_buffers_partial). Refuted: the alpha of an Elu layer (C68_elu_refuted), the axis of a Concatenate layer (C68_axis_refuted) and the hidden state of a recurrent layer (C68_state_refuted) are not saved."
  },
  {
   "property": "C69",
   "status": "partial",
   "theorems": [
    "Verif.Props.C69_save_load_partial",
    "Verif.Props.C69_quote_refuted"
   ],
   "note": "Proved for models with at least one layer, names without quotes, non-empty weights and finite numbers (C69_save_load_partial). Refuted for names with quotes, which make the file unreadable (C69_quote_refuted)."
  },
  {
   "property": "C70",
   "status": "partial",
   "theorems": [
    "Verif.Props.C70_prediction_partial",
    "Verif.Props.C70_gradients_partial",
    "Verif.Props.C70_max_pooling_refuted",
    "Verif.Props.C70_thinned_partial",
    "Verif.Props.C70_dropout_partial"
   ],
   "note": "C70_gradients_partial proves it for all models whose connections form a path of dense, convolution, pooling and activation layers into one loss layer, for every layer such that the layers above it are differentiable at the samples (a max pooling layer is where each window has one maximum that is not in its upper left cell), any parameters and any earlier contents of the gradient buffers. The batch loss of the theorem is the sum of squared errors (or the cross entropy) times the loss layer's factor; the loss that the code reports is the mean of the squared errors, so the gradients are the output size times those of the reported loss (C19). C70_dropout_partial proves it with dropout layers too, for all dropout probabilities and random streams: the prediction for a sample is then the one of the network in which each dropout layer multiplies the components by the factors drawn in that pass (C70_thinned_partial). Left out: layers below an average pooling layer, recurrent and concatenation layers and the biases of convolutions, which have defects of their own (C12, C13, C14, C30, C62), and models of a single layer (C35). C70_max_pooling_refuted: with maxima in upper left cells the gradient of a step is wrong (-4 instead of 2 for one parameter)."
  },
  {
   "property": "C71",
   "status": "partial",
   "theorems": [
    "Verif.Props.C71_fit_partial",
    "Verif.Props.C71_fnn_partial",
    "Verif.Props.C71_max_pooling_refuted",
    "Verif.Props.C71_dropout_partial",
    "Verif.Props.C71_fnn_dropout_partial"
   ],
   "note": "C71_fnn_partial proves it for every feedforward network whose layers above the first dense or convolution layer are dense and convolution layers with differentiable activations (all but the rectifier), mean squared errors, and every data set with rows of the right lengths; C71_fit_partial proves it for all path-shaped models, pooling layers included, and both losses under the condition that at the parameters reached everything above a layer with parameters is differentiable at the samples. C71_dropout_partial and C71_fnn_dropout_partial prove both with dropout layers, for all dropout probabilities and random streams, where each sample is predicted by the network that the dropout layers leave in its pass. Nothing is claimed about the biases of convolutions (C12). The divisor is the batch size also for the shorter last batch, and the batch size of the first fit for later fits (C64). C71_max_pooling_refuted: with maxima in upper left cells of pooling windows, whose gradients are wrong (C13), the parameters after one update are not those of gradient descent, for any learning rate."
  },
  {
   "property": "C72",
   "status": "partial",
   "theorems": [
    "Verif.Props.C72_predict_partial",
    "Verif.Props.C72_labelled_refuted"
   ],
   "note": "Proved for data sets without label columns (C72_predict_partial). Refuted for labelled data: predict passes whole rows, labels included, which is undefined behaviour for every network whose first layer is dense (C72_labelled_refuted)."
  },
  {
   "property": "C73",
   "status": "proved",
   "theorems": [
    "Verif.Props.C73_evaluate",
    "Verif.Props.C73_no_labels"
   ],
   "note": "For all feedforward networks without dropout and both losses; the labels must be usable for the loss (not empty for squared errors, one-hot for cross entropy)."
  },
  {
   "property": "C74",
   "status": "partial",
   "theorems": [
    "Verif.Props.C74_state_partial",
    "Verif.Props.C74_not_compiled_partial",
    "Verif.Props.C74_recompile_partial",
    "Verif.Props.C74_fit_partial",
    "Verif.Props.C74_evaluate_partial",
    "Verif.Props.C74_default_partial",
    "Verif.Props.C74_sizes_partial",
    "Verif.Props.C74_input_only_refuted",
    "Verif.Props.C74_failed_compile_refuted"
   ],
   "note": "Proved for all lists of layers that can be added (theorems _partial). Refuted for lists whose n-th layer cannot be added: compile throws, but the layers before it stay as a compiled network (C74_failed_compile_refuted); and for networks that consist of an Input only, which report no inputs (C74_input_only_refuted)."
  },
  {
   "property": "C75",
   "status": "partial",
   "theorems": [
    "Verif.Props.C75_history_partial",
    "Verif.Props.C75_recurrent_refuted",
    "Verif.Props.C75_any_shape_partial",
    "Verif.Props.C75_cycles_partial"
   ],
   "note": "Proved for every path of dense, convolution, pooling, activation and dropout layers, every loss, every optimizer and every history with inputs of the declared size (C75_history_partial), and for models of any shape made of these layers (C75_any_shape_partial; with cycles C75_cycles_partial). False for recurrent layers, whose hidden state survives a prediction (C75_recurrent_refuted). Concatenation layers are not included."
  },
  {
   "property": "C76",
   "status": "partial",
   "theorems": [
    "Verif.Props.C76_refit_partial",
    "Verif.Props.C76_batch_refuted",
    "Verif.Props.C76_dropout_refuted"
   ],
   "note": "Proved for every feedforward network without dropout layers, every history of predict, evaluate and fit calls that use one loss and one batch size, and every later fit with a seed other than 0 (C76_refit_partial). False when an earlier fit used another batch size (C76_batch_refuted), because the loss layer of the first fit stays, and for networks with dropout layers (C76_dropout_refuted), whose generators keep their place."
  },
  {
   "property": "C77",
   "status": "proved",
   "theorems": [
    "Verif.Props.C77_fit_returns"
   ],
   "note": "For every feedforward network built from descriptors whose windows fit and that applies no softmax to an empty vector. 'A label that the loss can score' is CanScore: as many values as the network has outputs, at least one, and for the cross entropy an active class. The bound on steps is the number of batches per epoch. Apart from the invalidated iterators in the loop that attaches the loss layers, see DESIGN."
  },
  {
   "property": "C78",
   "status": "partial",
   "theorems": [
    "Verif.Props.C78_elementwise_partial",
    "Verif.Props.C78_scalar_partial",
    "Verif.Props.C78_arrays_partial",
    "Verif.Props.C78_losses_partial",
    "Verif.Props.C78_softmax_partial",
    "Verif.Props.C78_matarr_mul_partial",
    "Verif.Props.C78_checked_partial",
    "Verif.Props.C78_dense_partial",
    "Verif.Props.C78_softmax_1_opt_partial",
    "Verif.Props.C78_softmax_1_partial",
    "Verif.Props.C78_overlap_refuted",
    "Verif.Props.C78_dense_refuted",
    "Verif.Props.C78_matarr_mul_refuted",
    "Verif.Props.C78_softmax_1_opt_refuted",
    "Verif.Props.C78_softmax_1_refuted",
    "Verif.Props.C78_concatenate_partial",
    "Verif.Props.C78_separate_partial",
    "Verif.Props.C78_concatenateN_partial",
    "Verif.Props.C78_separateN_partial",
    "Verif.Props.C78_dense_backward_partial",
    "Verif.Props.C78_concatenate_refuted",
    "Verif.Props.C78_avg_pool_partial",
    "Verif.Props.C78_max_pool_partial",
    "Verif.Props.C78_cross_correlation_partial",
    "Verif.Props.C78_cross_correlation_refuted",
    "Verif.Props.C78_pool_refuted"
   ],
   "note": "Proved: element-wise functions, arr_mul, arr_sum, the loss derivatives and the softmaxes, unless the destination begins inside a source (so in place they are right); the same for max_pool, avg_pool and one-filter cross_correlation without padding; matarr_mul, dense and softmax_1_opt with the destination apart from the operands, dense also when it overwrites the biases; softmax_1 with the destination apart from the gradients, however it overlaps the source; cross_correlation in general, concatenate and separate (two or any number of cubes) and dense_1 with the destinations apart from what is read; matarr_mul and softmax_1_opt throw when source and destination are the same pointer. False otherwise: C78_overlap_refuted, C78_dense_refuted (destination = input), C78_matarr_mul_refuted (shifted overlap passes the check), C78_softmax_1_opt_refuted and C78_softmax_1_refuted (destination = gradients), C78_pool_refuted, C78_cross_correlation_refuted, C78_concatenate_refuted (destination = first cube). The backward passes of pooling and convolution are not covered."
  },
  {
   "property": "C79",
   "status": "partial",
   "theorems": [
    "Verif.Props.C79_update_partial",
    "Verif.Props.C79_fit_partial",
    "Verif.Props.C79_epochs_partial",
    "Verif.Props.C79_fnn_partial",
    "Verif.Props.C79_max_pooling_refuted"
   ],
   "note": "C79_fit_partial proves it for all models whose connections form a path of dense, convolution, max pooling and activation layers into one loss layer, any starting point, batch size and number of epochs, if no sample hits a kink of a rectifier or exponential unit at the start, every max pooling window has one maximum, not in its upper left cell, and the cross entropy does not clamp; C79_update_partial for a single update, C79_epochs_partial says that with the whole data set as batch no epoch increases the loss; C79_fnn_partial is the statement for feedforward networks with mean squared errors. The loss is the sum of squared errors (or the cross entropy). C79_max_pooling_refuted: with maxima in upper left cells, whose gradients are wrong (C13), a single update can increase the loss for every learning rate. Nothing is said about the biases of convolutions (C12), dropout, recurrent and average pooling layers (C14, C28, C62) or the Adam optimizer."
  },
  {
   "property": "C80",
   "status": "partial",
   "theorems": [
    "Verif.Props.C80_convert",
    "Verif.Props.C80_field",
    "Verif.Props.C80_unique",
    "Verif.Props.C80_typed",
    "Verif.Props.C80_integer_text",
    "Verif.Props.C80_float_text",
    "Verif.Props.C80_saved",
    "Verif.Props.C80_row",
    "Verif.Props.C80_entry_partial",
    "Verif.Props.C80_dataset_partial",
    "Verif.Props.C80_matrix",
    "Verif.Props.C80_text_refuted",
    "Verif.Props.C80_tail_refuted",
    "Verif.Props.C80_empty_refuted",
    "Verif.Props.C80_header_refuted"
   ],
   "note": "The conversion accepts exactly the numerals and gives their value (C80_convert); files, entries and data sets of numerals are read exactly (C80_entry_partial, C80_dataset_partial, C80_matrix), for files with a header and at least one data row. False: a field that is no number is read as 0 or as the number it begins with, without report; an empty field has an indeterminate value; the header becomes a row of zeros in to_mat."
  },
  {
   "property": "C81",
   "status": "partial",
   "theorems": [
    "Verif.Props.C81_values_partial",
    "Verif.Props.C81_destroyed_partial",
    "Verif.Props.C81_field_refuted",
    "Verif.Props.C81_field_actual",
    "Verif.Props.C81_row_refuted",
    "Verif.Props.C81_copy_refuted",
    "Verif.Props.C81_row_destroyed_refuted"
   ],
   "note": "False of the code: fields refer to a type and rows to a vector of types of a CSV object, and operator= writes through these references, so that assigning a field changes a column type of the file (C81_field_refuted), assigning a row of another file replaces all types (C81_row_refuted), and a copied CSV object uses the types of the original and cannot be used after its destruction (C81_copy_refuted). Proved: without destroyed CSV objects and with assignments only between objects of the same types, every program reports what it would report with independent values (C81_values_partial); with destroyed objects it reports the same or has undefined behaviour (C81_destroyed_partial)."
  },
  {
   "property": "C82",
   "status": "proved",
   "theorems": [
    "Verif.Props.C82_dense_forward",
    "Verif.Props.C82_layer_forward",
    "Verif.Props.C82_dense_backward",
    "Verif.Props.C82_convolution",
    "Verif.Props.C82_max_pool",
    "Verif.Props.C82_avg_pool",
    "Verif.Props.C82_gradient_step",
    "Verif.Props.C82_double",
    "Verif.Props.C82_network",
    "Verif.Props.C82_dense_double",
    "Verif.Props.C82_integers"
   ],
   "note": "C82_dense_forward, C82_layer_forward, C82_dense_backward, C82_convolution, C82_avg_pool, C82_gradient_step: error bounds for every format; C82_max_pool: no error; C82_double: the format double; C82_dense_double: the bound in numbers; C82_integers: exact on integers; C82_network: whole networks. Parameters and inputs are arbitrary real numbers, among them all numbers of the format."
  },
  {
   "property": "C83",
   "status": "partial",
   "theorems": [
    "Verif.Props.C83_sigmoid",
    "Verif.Props.C83_tanh",
    "Verif.Props.C83_relu",
    "Verif.Props.C83_elu",
    "Verif.Props.C83_softmax",
    "Verif.Props.C83_softmax_sum",
    "Verif.Props.C83_softmax_sum_double",
    "Verif.Props.C83_loss",
    "Verif.Props.C83_loss_gradient",
    "Verif.Props.C83_classifier",
    "Verif.Props.C83_softmax_refuted"
   ],
   "note": "False of DLMath::softmax, which does not subtract the maximum: it gives NaN for large inputs, in every format (C83_softmax_refuted); layers use stable_softmax_no_check. Proved: sigmoid, tanh, relu, elu (C83_sigmoid, C83_tanh, C83_relu, C83_elu), the stable softmax with its range, order and sum (C83_softmax, C83_softmax_sum, C83_softmax_sum_double), cross-entropy and its gradient (C83_loss, C83_loss_gradient), and the gradient passed down by a classifier (C83_classifier). Dense layers and squared errors can overflow, see the hypotheses of C82."
  },
  {
   "property": "C84",
   "status": "partial",
   "theorems": [
    "Verif.Props.C84_float_partial",
    "Verif.Props.C84_vanishing_actual",
    "Verif.Props.C84_refuted",
    "Verif.Props.C84_exact_partial",
    "Verif.Props.C84_exact_refuted"
   ],
   "note": "False of the code: the predictions are clamped from below in the loss gradient only, so that a prediction of zero (underflow of the exponential) makes the whole gradient zero although the prediction is wrong (C84_refuted, C84_vanishing_actual), and in exact arithmetic the identity fails for every prediction of the target class below the smallest normal number (C84_exact_refuted). Proved: above it, the gradient is right, exactly in exact arithmetic (C84_exact_partial) and within 2^-49 with double (C84_float_partial)."
  },
  {
   "property": "C85",
   "status": "partial",
   "theorems": [
    "Verif.Props.C85_values_partial",
    "Verif.Props.C85_loops_partial",
    "Verif.Props.C85_written_refuted",
    "Verif.Props.C85_destroyed_refuted",
    "Verif.Props.C85_predict_refuted"
   ],
   "note": "False of the code: the layer keeps the address of the vector. If the vector is written before backward, the gradients are those at the new values (C85_written_refuted); if it is destroyed, backward and last_input are undefined behaviour (C85_destroyed_refuted); a prediction between training_forward and backward overwrites the output of the lower layer, which is the input of the upper one, so that the gradients are wrong (C85_predict_refuted). Proved: every program that leaves the vectors alone as long as some layer points to them sees what a layer with a copy of its input would show (C85_values_partial), and so does every training loop over a chain of layers with anything harmless between the passes (C85_loops_partial)."
  },
  {
   "property": "C86",
   "status": "partial",
   "theorems": [
    "Verif.Props.C86_gradients_partial",
    "Verif.Props.C86_shared_refuted"
   ],
   "note": "C86_gradients_partial: for any number of branches of dense, convolution, pooling and activation layers that share the input layer only; refuted if branches share a further layer (C86_shared_refuted), because backward overwrites the input gradient instead of summing over the successors"
  },
  {
   "property": "C87",
   "status": "partial",
   "theorems": [
    "Verif.Props.C87_prediction_partial",
    "Verif.Props.C87_exact_partial",
    "Verif.Props.C87_refuted",
    "Verif.Props.C87_any_shape_partial",
    "Verif.Props.C87_any_shape_exact_partial"
   ],
   "note": "refuted as stated: a parameter below 5e-7 is written as 0.000000, so for every B there are a network and an input whose prediction is B before saving and 0 after loading (C87_refuted). Proved: the predictions differ by at most drift(1/2000000), a bound computed from the weights and the input, for every model on a path of dense, convolution, pooling and activation layers (C87_prediction_partial), and not at all if the parameters are multiples of 1e-6 (C87_exact_partial); the same for acyclic models of any shape, along the walk that determines the prediction (C87_any_shape_partial, C87_any_shape_exact_partial). Missing: recurrent and concatenation layers, dropout; exact real arithmetic in the layers."
  },
  {
   "property": "C88",
   "status": "proved",
   "theorems": [
    "Verif.Props.C88_fit",
    "Verif.Props.C88_softmax_derivative",
    "Verif.Props.C88_fnn"
   ],
   "note": "fitF runs the floating-point kernels layer by layer along the path (the order of calls that C37 and C70 prove for the graph), both losses, plain gradient descent; the limit is taken over formats, so no error bound for double in particular is stated. Numbers in memory need not be representable. Other layers, Adam and branching models are not covered."
  },
  {
   "property": "C89",
   "status": "partial",
   "theorems": [
    "Verif.Props.C89_any_shape_partial",
    "Verif.Props.C89_cycles_partial",
    "Verif.Props.C89_fit_partial",
    "Verif.Props.C89_single_layer_refuted",
    "Verif.Props.C89_unconnected_loss_refuted",
    "Verif.Props.C89_cycle_refuted"
   ],
   "note": "Proved for every acyclic model of any shape (branches, joins, skip connections, several inputs, outputs and losses) whose input and output lists are right and whose loss layers are connected, and for models with cycles if every layer is reached from an input; with every history of calls, every optimizer, and fit on every data set; layers of every class, recurrent ones included, except concatenation layers. Refuted as stated: step on a model of one layer and a loss layer crashes (no edge was made, so the input list is stale), so does step with a loss layer that has no edge, and step on a model with a cycle that no input reaches. Concatenation layers are not included."
  },
  {
   "property": "C90",
   "status": "proved",
   "theorems": [
    "Verif.Props.C90_append_places",
    "Verif.Props.C90_extract_places",
    "Verif.Props.C90_throws_iff",
    "Verif.Props.C90_extract_append"
   ],
   "note": "Every rank, shape, axis and offset at which the slab fits; throws iff there is no such axis; extract after append is the identity."
  },
  {
   "property": "C91",
   "status": "proved",
   "theorems": [
    "Verif.Props.C91_item",
    "Verif.Props.C91_list",
    "Verif.Props.C91_dict",
    "Verif.Props.C91_file_item",
    "Verif.Props.C91_file_list",
    "Verif.Props.C91_file_dict",
    "Verif.Props.C91_row"
   ],
   "note": "Items, vectors and maps, in memory and through a file; integer types of any width, numbers as rationals written with six decimals. The way through a file excludes empty texts and texts or keys with quotes (see C53) and empty containers."
  },
  {
   "property": "C92",
   "status": "partial",
   "theorems": [
    "Verif.Props.C92_convert",
    "Verif.Props.C92_item_partial",
    "Verif.Props.C92_container_partial",
    "Verif.Props.C92_prefix_actual",
    "Verif.Props.C92_range_actual",
    "Verif.Props.C92_unsigned_actual",
    "Verif.Props.C92_blank_actual",
    "Verif.Props.C92_integer_refuted",
    "Verif.Props.C92_empty_refuted"
   ],
   "note": "Proved: wrong structure throws, and exactly then; the conversion to a signed integer type reports success exactly for decimal integers in the range. Refuted: the result of the conversion is ignored, so a text that is no integer is read as 0, an integer with a fraction without it, an integer outside the range as the end of the range, a negative integer as a huge unsigned one (even reported as success), and an empty text as an uninitialised variable (undefined). The theorems ending in _actual say exactly which value is returned."
  },
  {
   "property": "C93",
   "status": "partial",
   "theorems": [
    "Verif.Props.C93_records_partial",
    "Verif.Props.C93_failed_actual",
    "Verif.Props.C93_missing_refuted",
    "Verif.Props.C93_poisoned_refuted"
   ],
   "note": "Proved: for files of any length, samples that the file contains are decoded from their records as long as only such samples were asked for. Refuted for every incomplete or missing file: asking for one missing image throws nothing and turns every later sample, whatever is called in between, into a black image with label 0 (C93_poisoned_refuted, C93_missing_refuted; C93_failed_actual says exactly what is returned)."
  },
  {
   "property": "C94",
   "status": "proved",
   "theorems": [
    "Verif.Props.C94_rate",
    "Verif.Props.C94_limit"
   ],
   "note": "C94_rate: the bound for every number of epochs and all weights and biases to compare with; C94_limit: the squared error tends to the infimum. Exact real arithmetic; the learning rate must be at most batch size / (2 * sum of the squared lengths of the inputs, each with an additional component 1), and batches must hold the data set."
  },
  {
   "property": "C95",
   "status": "partial",
   "theorems": [
    "Verif.Props.C95_grids_partial",
    "Verif.Props.C95_dropout_refuted"
   ],
   "note": "C95_grids_partial: proved for all lists of descriptors in which no layer with a window follows a dropout layer that gets more than one column or channel, unless a dense layer is between them, and whose dense layers have one column and one channel. False otherwise (C95_dropout_refuted): DropoutLayer keeps only the number of elements, so a later convolution or pooling layer works on one column and one channel."
  },
  {
   "property": "C96",
   "status": "partial",
   "theorems": [
    "Verif.Props.C96_mlpack_layers",
    "Verif.Props.C96_sizes_partial",
    "Verif.Props.C96_dropout_refuted",
    "Verif.Props.C96_guard_refuted"
   ],
   "note": "C96_mlpack_layers: the full statement for the construction with mlpack, dropout included (layers of the library are represented by the arguments of their constructors). C96_sizes_partial: agreement of both frameworks, with the exception of C95. False with dropout (C96_dropout_refuted: 3 outputs against 2), and for fit of a network whose descriptors were rejected (C96_guard_refuted: mlpack counts them)."
  },
  {
   "property": "C97",
   "status": "partial",
   "theorems": [
    "Verif.Props.C97_numbers_partial",
    "Verif.Props.C97_all_parameters",
    "Verif.Props.C97_indices",
    "Verif.Props.C97_dimensions_partial",
    "Verif.Props.C97_dimensions_refuted",
    "Verif.Props.C97_no_filters_refuted"
   ],
   "note": "C97_numbers_partial and C97_all_parameters: all models whose convolutional layers have filters; C97_indices: dense layers; C97_dimensions_partial: all layers but recurrent ones. False otherwise: C97_dimensions_refuted (recurrent layers announce the wrong number of columns), C97_no_filters_refuted (undefined behaviour without filters). The decimal text of numbers is not modelled."
  },
  {
   "property": "C98",
   "status": "partial",
   "theorems": [
    "Verif.Props.C98_scores_partial",
    "Verif.Props.C98_heads",
    "Verif.Props.C98_observed_partial",
    "Verif.Props.C98_skip_refuted",
    "Verif.Props.C98_any_shape_partial",
    "Verif.Props.C98_tree_partial"
   ],
   "note": "C98_scores_partial: models on a path of dense, convolution, pooling and activation layers, any sequence of calls. C98_any_shape_partial: models of any shape without cycles, several loss layers, each behind one layer; C98_tree_partial: if the model is a tree, each loss layer scores the layers on the path to it. C98_observed_partial: all layer classes but concatenation, also several layers in front of a loss layer (each counts once), provided these have at most one predecessor: scored is what last_output() of the layer returns after the step. C98_skip_refuted: false for a model without cycles in which the layer in front of the loss layer has two predecessors, because the loss layer is called before the second of them. C98_heads: the scores of any model are the means of those of its loss layers. Missing: concatenation layers."
  },
  {
   "property": "C99",
   "status": "proved",
   "theorems": [
    "Verif.Props.C99_sequential",
    "Verif.Props.C99_parallel"
   ],
   "note": "C99_sequential: each step of a run of fit that returns, from the model reached by the calls before it; C99_parallel: each step of each task of each round, under every schedule."
  },
  {
   "property": "C100",
   "status": "proved",
   "theorems": [
    "Verif.Props.C100_own_calls",
    "Verif.Props.C100_no_interference",
    "Verif.Props.C100_schedule"
   ],
   "note": "C100_own_calls, C100_no_interference, C100_schedule. Calls on models are atomic in the model: the copies share only parameters, which these calls do not write (C40_call)."
  },
  {
   "property": "C101",
   "status": "partial",
   "theorems": [
    "Verif.Props.C101_sum_partial",
    "Verif.Props.C101_order_partial",
    "Verif.Props.C101_fit_partial",
    "Verif.Props.C101_one_batch",
    "Verif.Props.C101_conv_refuted"
   ],
   "note": "Proved for models of any shape without cycles: gradients are sums of the contributions of the samples (all blocks but the biases of convolutions), and rearranging the samples within the batches changes nothing for models of dense, pooling, activation and loss layers, any optimizer, after any history, and for fit. False with convolutions, whose bias gradients are overwritten by each sample (C101_conv_refuted). Dropout, recurrent and concatenation layers are not covered."
  },
  {
   "property": "C102",
   "status": "partial",
   "theorems": [
    "Verif.Props.C102_text_partial",
    "Verif.Props.C102_unique_partial",
    "Verif.Props.C102_written_partial",
    "Verif.Props.C102_space_refuted",
    "Verif.Props.C102_space_dict_refuted"
   ],
   "note": "C102_text_partial: all texts without spaces in which strings and keys contain no quotes and lists and dictionaries are not empty; C102_unique_partial: such a text denotes one value only; C102_written_partial: what C53 writes is such a text. With spaces it is false: C102_space_refuted ([1, 2] reads as 1 and the string \" 2\"), C102_space_dict_refuted ({\"a\":1, \"b\":2} makes the reader use a character it never read). Escapes, empty lists and dictionaries: refuted under C53. null is read as a string."
  },
  {
   "property": "C103",
   "status": "partial",
   "theorems": [
    "Verif.Props.C103_vectors_partial",
    "Verif.Props.C103_matrix_partial",
    "Verif.Props.C103_cube_partial",
    "Verif.Props.C103_fit_partial",
    "Verif.Props.C103_fit_throws_partial",
    "Verif.Props.C103_predict_partial",
    "Verif.Props.C103_predict_actual_partial",
    "Verif.Props.C103_predict_refuted",
    "Verif.Props.C103_epochs_refuted"
   ],
   "note": "C103_vectors_partial, C103_matrix_partial, C103_cube_partial: all consistent data sets. C103_fit_partial: data sets with rows, inputs and labels, at least one epoch. C103_predict_partial: data sets without labels. False otherwise: C103_predict_refuted (label columns are handed to the network as inputs; C103_predict_actual_partial says what is returned), C103_epochs_refuted (with zero epochs the optimizer gets the limit 0, which in ensmallen means no limit). Armadillo's operations are modelled by their documented meaning; what Train does is the library's."
  },
  {
   "property": "C104",
   "status": "partial",
   "theorems": [
    "Verif.Props.C104_sequential_partial",
    "Verif.Props.C104_parallel_actual_partial",
    "Verif.Props.C104_parallel_refuted"
   ],
   "note": "C104_sequential_partial: models of any shape without cycles and with all layer classes but concatenation, if the layers in front of loss layers have one predecessor at most; it also shows that the training run returns. C104_parallel_refuted: false in the thread-parallel modes, where copies of the model make the steps; C104_parallel_actual_partial: there the model has counted no sample after any run, whatever the schedule, so both scores divide zero by zero. Missing: concatenation layers and skip connections into the layer in front of a loss layer (C98_skip_refuted)."
  },
  {
   "property": "C105",
   "status": "partial",
   "theorems": [
    "Verif.Props.C105_independent_partial",
    "Verif.Props.C105_first_partial",
    "Verif.Props.C105_second_actual_partial",
    "Verif.Props.C105_defined_partial",
    "Verif.Props.C105_unserved_refuted"
   ],
   "note": "C105_unserved_refuted: a call for all frameworks that throws in the network of the repository is not made for mlpack. C105_independent_partial: state and results of every framework as if alone, if no call for all frameworks throws. C105_first_partial: the network of the repository, always. C105_second_actual_partial: exactly which calls reach mlpack. C105_defined_partial: no undefined behaviour if the networks have none. The networks themselves are parameters."
  },
  {
   "property": "C106",
   "status": "proved",
   "theorems": [
    "Verif.Props.C106_step",
    "Verif.Props.C106_history",
    "Verif.Props.C106_fit",
    "Verif.Props.C106_sharp"
   ],
   "note": "C106_step: the bound for any constants; C106_sharp: it cannot be improved; C106_history: any history of calls on a model of any shape (all layer classes but concatenation) with the default constants; C106_fit: sequential training runs. Numbers are reals."
  },
  {
   "property": "C107",
   "status": "proved",
   "theorems": [
    "Verif.Props.C107_bound",
    "Verif.Props.C107_class",
    "Verif.Props.C107_sharp"
   ],
   "note": "C107_bound: any shape without cycles, any history; C107_class: the winning class stays; C107_sharp: a family of networks that reaches the bound. Over the reals (rounding: C59, C92). Models with dropout, recurrent or concatenation layers are outside the property."
  },
  {
   "property": "C108",
   "status": "proved",
   "theorems": [
    "Verif.Props.C108_fit",
    "Verif.Props.C108_gd",
    "Verif.Props.C108_adam",
    "Verif.Props.C108_adam_moves"
   ],
   "note": "Models on a path (layer after layer) of dense, convolution, pooling and activation layers; the optimizer is any function that leaves a parameter with zero gradient alone (C108_gd, C108_adam), and C108_adam_moves shows that an Adam optimizer with momentum does not. Numbers are reals."
  },
  {
   "property": "C109",
   "status": "proved",
   "theorems": [
    "Verif.Props.C109_range",
    "Verif.Props.C109_bounded"
   ],
   "note": "any shape without cycles, any history, real arithmetic; in floating point the strict bounds can be reached by rounding, see C82 for the distance"
  },
  {
   "property": "C110",
   "status": "proved",
   "theorems": [
    "Verif.Props.C110_moved",
    "Verif.Props.C110_local"
   ],
   "note": "rectangles whose fields lie inside the images of all layers; a convolution with padding is included away from the border"
  },
  {
   "property": "C111",
   "status": "proved",
   "theorems": [
    "Verif.Props.C111_squares",
    "Verif.Props.C111_classes"
   ],
   "note": "sequential models of dense, convolution, pooling and activation layers; for cross entropy the layer below the loss is softmax and targets are one-hot"
  },
  {
   "property": "C112",
   "status": "partial",
   "theorems": [
    "Verif.Props.C112_history_partial",
    "Verif.Props.C112_fit_partial",
    "Verif.Props.C112_adam_refuted",
    "Verif.Props.C112_model_refuted"
   ],
   "note": "Proved for gradient descent and every other optimizer that leaves parameters without gradient alone, for models of any shape (C112_history_partial, C112_fit_partial). False for Adam (C112_adam_refuted): all parameters of all layers share one pair of moments, so that a weight without gradient is moved by the gradients of the others."
  },
  {
   "property": "C113",
   "status": "partial",
   "theorems": [
    "Verif.Props.C113_history_partial",
    "Verif.Props.C113_fit_partial",
    "Verif.Props.C113_adam_refuted"
   ],
   "note": "Proved for every optimizer that leaves parameters without gradient alone (gradient descent). False for Adam: its moments are shared by all parameters of the model, so a layer without gradients is moved by the gradients of others (C113_adam_refuted)."
  },
  {
   "property": "C114",
   "status": "proved",
   "theorems": [
    "Verif.Props.C114_optimizers",
    "Verif.Props.C114_history",
    "Verif.Props.C114_fit"
   ],
   "note": "A comparison of two executions that both return (C89 says when they do), for every history and every training run, for gradient descent, Adam and every optimizer whose state depends on gradients only."
  },
  {
   "property": "C115",
   "status": "partial",
   "theorems": [
    "Verif.Props.C115_history_partial",
    "Verif.Props.C115_fit_partial",
    "Verif.Props.C115_adam_refuted"
   ],
   "note": "Proved for gradient descent: a simulation, so that the second model also returns whenever the first does. False for Adam (C115_adam_refuted): the moments are shared by all parameters, so that the weight of a zero feature moves if it comes after the other one and stays if it comes first."
  },
  {
   "property": "C116",
   "status": "proved",
   "theorems": [
    "Verif.Props.C116_gradients",
    "Verif.Props.C116_adam_gradients",
    "Verif.Props.C116_history",
    "Verif.Props.C116_fit",
    "Verif.Props.C116_adam_history",
    "Verif.Props.C116_adam_fit"
   ],
   "note": "Gradient descent with any rates in the ratio of the batch sizes, and Adam with epsilons in the inverse ratio, for models of all layer classes, histories with caught exceptions and training runs. Real arithmetic."
  },
  {
   "property": "C117",
   "status": "proved",
   "theorems": [
    "Verif.Props.C117_history",
    "Verif.Props.C117_adam_history",
    "Verif.Props.C117_fit",
    "Verif.Props.C117_adam_fit"
   ],
   "note": "Gradient descent and Adam, histories with caught exceptions and training runs, new and used models; mean squared error losses behind dense layers that are connected to nothing else. Real arithmetic."
  }
 ]
}