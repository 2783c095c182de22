import Verif.Props.Activation
import Verif.Props.AdamBound
import Verif.Props.Arma
import Verif.Props.Array
import Verif.Props.Aside
import Verif.Props.Backprop
import Verif.Props.BatchOrder
import Verif.Props.Calls
import Verif.Props.ClassGrad
import Verif.Props.Concat
import Verif.Props.ConcatLayer
import Verif.Props.Copies
import Verif.Props.Csv
import Verif.Props.CsvRef
import Verif.Props.Data
import Verif.Props.DataConcat
import Verif.Props.DataHist
import Verif.Props.DataMat
import Verif.Props.DataNorm
import Verif.Props.DataOps
import Verif.Props.Dense
import Verif.Props.Descent
import Verif.Props.Drift
import Verif.Props.Dropout
import Verif.Props.Dump
import Verif.Props.DumpModel
import Verif.Props.Dynamic
import Verif.Props.Encoding
import Verif.Props.Exceptions
import Verif.Props.Field
import Verif.Props.Finite
import Verif.Props.FloatTrain
import Verif.Props.Gain
import Verif.Props.Graph
import Verif.Props.GraphVector
import Verif.Props.Grid
import Verif.Props.Idle
import Verif.Props.IdleModel
import Verif.Props.Images
import Verif.Props.Init
import Verif.Props.Json
import Verif.Props.JsonAs
import Verif.Props.JsonHeap
import Verif.Props.JsonText
import Verif.Props.LastScores
import Verif.Props.LeastSquares
import Verif.Props.Loss
import Verif.Props.Marks
import Verif.Props.Memory
import Verif.Props.MemoryConcat
import Verif.Props.MemorySlide
import Verif.Props.Multi
import Verif.Props.Net
import Verif.Props.Nn
import Verif.Props.Number
import Verif.Props.Optimizer
import Verif.Props.Origin
import Verif.Props.Parallel
import Verif.Props.ParallelFit
import Verif.Props.Print
import Verif.Props.Range
import Verif.Props.Recurrent
import Verif.Props.Refit
import Verif.Props.Reorder
import Verif.Props.Rescale
import Verif.Props.Rounding
import Verif.Props.RoundingNet
import Verif.Props.Scores
import Verif.Props.SeenScores
import Verif.Props.Session
import Verif.Props.Shape
import Verif.Props.ShapeDrift
import Verif.Props.ShapeHistory
import Verif.Props.ShapeRnn
import Verif.Props.ShapeScores
import Verif.Props.Slide
import Verif.Props.Spare
import Verif.Props.Star
import Verif.Props.Still
import Verif.Props.Thin
import Verif.Props.Total
import Verif.Props.Training
import Verif.Props.TypeChecker
import Verif.Props.World

/-! Generated: the axioms of every theorem named in MANIFEST.json, printed during the build. -/

#print axioms Verif.Props.C01_concatenate_places
#print axioms Verif.Props.C01_concatenate_throws_iff
#print axioms Verif.Props.C02_separate_concatenate
#print axioms Verif.Props.C02_concatenate_separate
#print axioms Verif.Props.C03_concatenateN_places
#print axioms Verif.Props.C03_concatenateN_throws_iff
#print axioms Verif.Props.C03_concatenateN_empty_ub
#print axioms Verif.Props.C03_separateN_concatenateN
#print axioms Verif.Props.C03_concatenateN_separateN
#print axioms Verif.Props.C04_dense_forward
#print axioms Verif.Props.C04_layer_forward
#print axioms Verif.Props.C04_forward_frame
#print axioms Verif.Props.C04_short_input_misaligned
#print axioms Verif.Props.C04_long_input_ub
#print axioms Verif.Props.C04_matarr_mul
#print axioms Verif.Props.C05_dense_backward
#print axioms Verif.Props.C05_backward_is_gradient
#print axioms Verif.Props.C05_backward_accumulates
#print axioms Verif.Props.C06_threaded_forward
#print axioms Verif.Props.C06_threaded_forward_frame
#print axioms Verif.Props.C07_threaded_backward_refuted
#print axioms Verif.Props.C07_threaded_backward_partial
#print axioms Verif.Props.C07_threaded_backward_noOverlap_partial
#print axioms Verif.Props.C08_cross_correlation
#print axioms Verif.Props.C08_conv_layer_constructed
#print axioms Verif.Props.C08_conv_layer_forward
#print axioms Verif.Props.C09_output_side_partial
#print axioms Verif.Props.C09_placements_closed_form
#print axioms Verif.Props.C09_output_side_refuted
#print axioms Verif.Props.C09_too_large_wraps
#print axioms Verif.Props.C09_zero_stride
#print axioms Verif.Props.C10_max_pool
#print axioms Verif.Props.C10_avg_pool
#print axioms Verif.Props.C10_pool_layer_constructed
#print axioms Verif.Props.C11_conv_backward_is_gradient
#print axioms Verif.Props.C11_conv_backward_accumulates
#print axioms Verif.Props.C12_conv_bias_refuted
#print axioms Verif.Props.C12_forward_ignores_bias
#print axioms Verif.Props.C12_conv_bias_partial
#print axioms Verif.Props.C13_max_pool_backward_actual
#print axioms Verif.Props.C13_max_pool_backward_partial
#print axioms Verif.Props.C13_max_pool_backward_refuted
#print axioms Verif.Props.C14_avg_pool_backward_partial
#print axioms Verif.Props.C14_avg_pool_backward_refuted
#print axioms Verif.Props.C14_avg_pool_backward_sum
#print axioms Verif.Props.C15_relu_derivative
#print axioms Verif.Props.C15_elu_derivative
#print axioms Verif.Props.C15_tanh_derivative
#print axioms Verif.Props.C15_sigmoid_derivative
#print axioms Verif.Props.C15_values
#print axioms Verif.Props.C15_arrays
#print axioms Verif.Props.C15_relu_at_zero
#print axioms Verif.Props.C16_relu
#print axioms Verif.Props.C16_tanh
#print axioms Verif.Props.C16_sigmoid
#print axioms Verif.Props.C16_elu_partial
#print axioms Verif.Props.C16_elu_refuted
#print axioms Verif.Props.C16_linear
#print axioms Verif.Props.C17_softmax_values
#print axioms Verif.Props.C17_softmax_laws
#print axioms Verif.Props.C17_softmax_lt_one
#print axioms Verif.Props.C17_layer
#print axioms Verif.Props.C17_degenerate
#print axioms Verif.Props.C18_softmax_gradient
#print axioms Verif.Props.C18_layer_gradient
#print axioms Verif.Props.C19_mse_value
#print axioms Verif.Props.C19_gradient_partial
#print axioms Verif.Props.C19_gradient_refuted
#print axioms Verif.Props.C19_gradient_actual
#print axioms Verif.Props.C19_gradient_scaled_partial
#print axioms Verif.Props.C19_layer_backward
#print axioms Verif.Props.C20_cross_entropy_value
#print axioms Verif.Props.C20_cross_entropy_bounded
#print axioms Verif.Props.C20_gradient_partial
#print axioms Verif.Props.C20_gradient_unclamped
#print axioms Verif.Props.C20_gradient_refuted
#print axioms Verif.Props.C20_layer_backward_partial
#print axioms Verif.Props.C21_argmax
#print axioms Verif.Props.C21_unique
#print axioms Verif.Props.C21_empty
#print axioms Verif.Props.C22_mse_statistics
#print axioms Verif.Props.C22_cce_statistics
#print axioms Verif.Props.C22_no_target
#print axioms Verif.Props.C22_backward_frame
#print axioms Verif.Props.C23_cce_decision
#print axioms Verif.Props.C23_cce_zero_target
#print axioms Verif.Props.C23_mse_decision
#print axioms Verif.Props.C24_gd_train
#print axioms Verif.Props.C24_gd_train_pair
#print axioms Verif.Props.C24_gd_history
#print axioms Verif.Props.C24_gd_history_untrained
#print axioms Verif.Props.C25_adam_actual
#print axioms Verif.Props.C25_adam_partial
#print axioms Verif.Props.C25_adam_per_parameter_refuted
#print axioms Verif.Props.C25_reset
#print axioms Verif.Props.C26_train_check
#print axioms Verif.Props.C26_unchecked_train_is_not_atomic
#print axioms Verif.Props.C27_enumeration
#print axioms Verif.Props.C27_count
#print axioms Verif.Props.C28_probability_one
#print axioms Verif.Props.C28_probability_zero
#print axioms Verif.Props.C28_dropout
#print axioms Verif.Props.C28_inference
#print axioms Verif.Props.C28_shrink_keeps_mask
#print axioms Verif.Props.C28_resized
#print axioms Verif.Props.C29_new_sized
#print axioms Verif.Props.C29_time_steps_sized
#print axioms Verif.Props.C29_time_steps_keeps_state
#print axioms Verif.Props.C29_set_hidden
#print axioms Verif.Props.C29_forward_partial
#print axioms Verif.Props.C29_forward_refuted
#print axioms Verif.Props.C29_one_step_actual
#print axioms Verif.Props.C29_calls_partial
#print axioms Verif.Props.C30_backward_actual
#print axioms Verif.Props.C30_output_partial
#print axioms Verif.Props.C30_opt_derivative_partial
#print axioms Verif.Props.C30_backward_refuted
#print axioms Verif.Props.C31_forward_run
#print axioms Verif.Props.C31_training_run
#print axioms Verif.Props.C31_backward_run
#print axioms Verif.Props.C31_graph_runs
#print axioms Verif.Props.C31_graph_duplicate_loss
#print axioms Verif.Props.C32_topological_refuted
#print axioms Verif.Props.C32_topological_partial
#print axioms Verif.Props.C32_training_topological_partial
#print axioms Verif.Props.C32_backward_topological_partial
#print axioms Verif.Props.C33_lists_refuted
#print axioms Verif.Props.C33_stale_refuted
#print axioms Verif.Props.C33_copy_refuted
#print axioms Verif.Props.C33_lists_partial
#print axioms Verif.Props.C33_copy_right
#print axioms Verif.Props.C33_copy_partial
#print axioms Verif.Props.C34_atomic
#print axioms Verif.Props.C34_records
#print axioms Verif.Props.C34_add_node
#print axioms Verif.Props.C34_add_layer
#print axioms Verif.Props.C34_indices
#print axioms Verif.Props.C34_loss_indices
#print axioms Verif.Props.C34_loss_index_refuted
#print axioms Verif.Props.C34_vector_refuted
#print axioms Verif.Props.C34_vector_throws
#print axioms Verif.Props.C34_vector_records
#print axioms Verif.Props.C35_predict_partial
#print axioms Verif.Props.C35_composition_unique
#print axioms Verif.Props.C35_fnn_partial
#print axioms Verif.Props.C35_dropout_refuted
#print axioms Verif.Props.C35_recurrent_refuted
#print axioms Verif.Props.C35_single_layer_refuted
#print axioms Verif.Props.C35_history_partial
#print axioms Verif.Props.C35_used_partial
#print axioms Verif.Props.C35_any_shape_partial
#print axioms Verif.Props.C35_tree_partial
#print axioms Verif.Props.C35_join_actual
#print axioms Verif.Props.C36_chain
#print axioms Verif.Props.C36_input_only_first
#print axioms Verif.Props.C36_no_exception
#print axioms Verif.Props.C36_defined
#print axioms Verif.Props.C36_zero_stride
#print axioms Verif.Props.C37_sequential
#print axioms Verif.Props.C37_epoch
#print axioms Verif.Props.C37_fit
#print axioms Verif.Props.C37_batch_zero
#print axioms Verif.Props.C38_entry_tasks
#print axioms Verif.Props.C38_batch_tasks
#print axioms Verif.Props.C38_execution
#print axioms Verif.Props.C38_epoch
#print axioms Verif.Props.C38_no_deadlock
#print axioms Verif.Props.C38_wraps_around
#print axioms Verif.Props.C39_barrier_partial
#print axioms Verif.Props.C39_refuted
#print axioms Verif.Props.C39_entry_partial
#print axioms Verif.Props.C39_batch_partial
#print axioms Verif.Props.C40_single
#print axioms Verif.Props.C40_same_parameters
#print axioms Verif.Props.C40_copy
#print axioms Verif.Props.C40_call
#print axioms Verif.Props.C40_train
#print axioms Verif.Props.C40_setParams
#print axioms Verif.Props.C41_of_vector
#print axioms Verif.Props.C42_rows_partial
#print axioms Verif.Props.C42_rows_actual
#print axioms Verif.Props.C42_rows_refuted
#print axioms Verif.Props.C42_cube_partial
#print axioms Verif.Props.C42_cube_refuted
#print axioms Verif.Props.C43_entry
#print axioms Verif.Props.C43_input
#print axioms Verif.Props.C43_label
#print axioms Verif.Props.C43_entry_seq
#print axioms Verif.Props.C43_inputs_seq
#print axioms Verif.Props.C43_labels_seq
#print axioms Verif.Props.C43_rows
#print axioms Verif.Props.C44_inputs
#print axioms Verif.Props.C44_labels
#print axioms Verif.Props.C44_rows_agree
#print axioms Verif.Props.C44_partition
#print axioms Verif.Props.C45_split_partial
#print axioms Verif.Props.C45_empty_refuted
#print axioms Verif.Props.C45_proportion
#print axioms Verif.Props.C46_throws_iff
#print axioms Verif.Props.C46_returns
#print axioms Verif.Props.C46_whole_sequences
#print axioms Verif.Props.C46_percentage
#print axioms Verif.Props.C47_shuffle
#print axioms Verif.Props.C47_inputs_with_labels
#print axioms Verif.Props.C48_normalize_partial
#print axioms Verif.Props.C48_constant_refuted
#print axioms Verif.Props.C48_no_rows_refuted
#print axioms Verif.Props.C48_explicit_bounds
#print axioms Verif.Props.C48_equal_bounds_throw
#print axioms Verif.Props.C49_axis0
#print axioms Verif.Props.C49_axis1
#print axioms Verif.Props.C49_axis2
#print axioms Verif.Props.C49_throws_iff
#print axioms Verif.Props.C49_empty_neutral
#print axioms Verif.Props.C50_sequence_size
#print axioms Verif.Props.C50_history
#print axioms Verif.Props.C50_start
#print axioms Verif.Props.C51_actual
#print axioms Verif.Props.C51_one_hot_partial
#print axioms Verif.Props.C51_position_refuted
#print axioms Verif.Props.C51_default
#print axioms Verif.Props.C52_matcher
#print axioms Verif.Props.C52_classification
#print axioms Verif.Props.C52_quoted
#print axioms Verif.Props.C52_integer_text
#print axioms Verif.Props.C52_boolean_text
#print axioms Verif.Props.C52_float_text
#print axioms Verif.Props.C52_row
#print axioms Verif.Props.C53_equality
#print axioms Verif.Props.C53_round_trip_partial
#print axioms Verif.Props.C53_scalars_partial
#print axioms Verif.Props.C53_nested_partial
#print axioms Verif.Props.C53_empty_list_refuted
#print axioms Verif.Props.C53_empty_dict_refuted
#print axioms Verif.Props.C53_quote_refuted
#print axioms Verif.Props.C53_last_empty_refuted
#print axioms Verif.Props.C53_empty_item_refuted
#print axioms Verif.Props.C54_program
#print axioms Verif.Props.C54_reading
#print axioms Verif.Props.C54_one_tree
#print axioms Verif.Props.C54_write
#print axioms Verif.Props.C54_append
#print axioms Verif.Props.C54_throw
#print axioms Verif.Props.C54_copy
#print axioms Verif.Props.C54_other_variables
#print axioms Verif.Props.C55_history_partial
#print axioms Verif.Props.C55_fields_partial
#print axioms Verif.Props.C55_entry_partial
#print axioms Verif.Props.C55_refuted
#print axioms Verif.Props.C55_no_rows_refuted
#print axioms Verif.Props.C56_loop_partial
#print axioms Verif.Props.C56_walk_partial
#print axioms Verif.Props.C56_turn_partial
#print axioms Verif.Props.C56_refuted
#print axioms Verif.Props.C56_header_only_refuted
#print axioms Verif.Props.C56_iterators_partial
#print axioms Verif.Props.C57_columns
#print axioms Verif.Props.C57_count
#print axioms Verif.Props.C57_access_partial
#print axioms Verif.Props.C57_pieces_partial
#print axioms Verif.Props.C57_past_end
#print axioms Verif.Props.C57_strings
#print axioms Verif.Props.C57_refuted
#print axioms Verif.Props.C58_opens_partial
#print axioms Verif.Props.C58_samples_partial
#print axioms Verif.Props.C58_rejected_partial
#print axioms Verif.Props.C58_missing_file
#print axioms Verif.Props.C58_short_file_refuted
#print axioms Verif.Props.C58_no_samples_refuted
#print axioms Verif.Props.C59_opened_format
#print axioms Verif.Props.C59_records
#print axioms Verif.Props.C59_columns
#print axioms Verif.Props.C59_pixels
#print axioms Verif.Props.C59_rearranged
#print axioms Verif.Props.C59_injective
#print axioms Verif.Props.C59_onto
#print axioms Verif.Props.C59_orders
#print axioms Verif.Props.C60_dump_load
#print axioms Verif.Props.C60_other_type
#print axioms Verif.Props.C60_types_differ
#print axioms Verif.Props.C60_again
#print axioms Verif.Props.C60_resolution
#print axioms Verif.Props.C61_reproducible_partial
#print axioms Verif.Props.C61_returned_seed_partial
#print axioms Verif.Props.C61_values_actual
#print axioms Verif.Props.C61_recurrent_actual
#print axioms Verif.Props.C61_stream_refuted
#print axioms Verif.Props.C62_shapes_partial
#print axioms Verif.Props.C62_output_refuted
#print axioms Verif.Props.C62_first_actual
#print axioms Verif.Props.C62_set_input_refuted
#print axioms Verif.Props.C62_backward_actual
#print axioms Verif.Props.C63_queries
#print axioms Verif.Props.C63_forward_layers
#print axioms Verif.Props.C64_first_fit
#print axioms Verif.Props.C64_later_fit
#print axioms Verif.Props.C64_batch_size_refuted
#print axioms Verif.Props.C65_lines
#print axioms Verif.Props.C65_table
#print axioms Verif.Props.C66_names
#print axioms Verif.Props.C66_fields
#print axioms Verif.Props.C67_mnist_partial
#print axioms Verif.Props.C67_cifar_partial
#print axioms Verif.Props.C67_white_refuted
#print axioms Verif.Props.C68_sizes_partial
#print axioms Verif.Props.C68_buffers_partial
#print axioms Verif.Props.C68_elu_refuted
#print axioms Verif.Props.C68_axis_refuted
#print axioms Verif.Props.C68_state_refuted
#print axioms Verif.Props.C69_save_load_partial
#print axioms Verif.Props.C69_quote_refuted
#print axioms Verif.Props.C70_prediction_partial
#print axioms Verif.Props.C70_gradients_partial
#print axioms Verif.Props.C70_max_pooling_refuted
#print axioms Verif.Props.C70_thinned_partial
#print axioms Verif.Props.C70_dropout_partial
#print axioms Verif.Props.C71_fit_partial
#print axioms Verif.Props.C71_fnn_partial
#print axioms Verif.Props.C71_max_pooling_refuted
#print axioms Verif.Props.C71_dropout_partial
#print axioms Verif.Props.C71_fnn_dropout_partial
#print axioms Verif.Props.C72_predict_partial
#print axioms Verif.Props.C72_labelled_refuted
#print axioms Verif.Props.C73_evaluate
#print axioms Verif.Props.C73_no_labels
#print axioms Verif.Props.C74_state_partial
#print axioms Verif.Props.C74_not_compiled_partial
#print axioms Verif.Props.C74_recompile_partial
#print axioms Verif.Props.C74_fit_partial
#print axioms Verif.Props.C74_evaluate_partial
#print axioms Verif.Props.C74_default_partial
#print axioms Verif.Props.C74_sizes_partial
#print axioms Verif.Props.C74_input_only_refuted
#print axioms Verif.Props.C74_failed_compile_refuted
#print axioms Verif.Props.C75_history_partial
#print axioms Verif.Props.C75_recurrent_refuted
#print axioms Verif.Props.C75_any_shape_partial
#print axioms Verif.Props.C75_cycles_partial
#print axioms Verif.Props.C76_refit_partial
#print axioms Verif.Props.C76_batch_refuted
#print axioms Verif.Props.C76_dropout_refuted
#print axioms Verif.Props.C77_fit_returns
#print axioms Verif.Props.C78_elementwise_partial
#print axioms Verif.Props.C78_scalar_partial
#print axioms Verif.Props.C78_arrays_partial
#print axioms Verif.Props.C78_losses_partial
#print axioms Verif.Props.C78_softmax_partial
#print axioms Verif.Props.C78_matarr_mul_partial
#print axioms Verif.Props.C78_checked_partial
#print axioms Verif.Props.C78_dense_partial
#print axioms Verif.Props.C78_softmax_1_opt_partial
#print axioms Verif.Props.C78_softmax_1_partial
#print axioms Verif.Props.C78_overlap_refuted
#print axioms Verif.Props.C78_dense_refuted
#print axioms Verif.Props.C78_matarr_mul_refuted
#print axioms Verif.Props.C78_softmax_1_opt_refuted
#print axioms Verif.Props.C78_softmax_1_refuted
#print axioms Verif.Props.C78_concatenate_partial
#print axioms Verif.Props.C78_separate_partial
#print axioms Verif.Props.C78_concatenateN_partial
#print axioms Verif.Props.C78_separateN_partial
#print axioms Verif.Props.C78_dense_backward_partial
#print axioms Verif.Props.C78_concatenate_refuted
#print axioms Verif.Props.C78_avg_pool_partial
#print axioms Verif.Props.C78_max_pool_partial
#print axioms Verif.Props.C78_cross_correlation_partial
#print axioms Verif.Props.C78_cross_correlation_refuted
#print axioms Verif.Props.C78_pool_refuted
#print axioms Verif.Props.C79_update_partial
#print axioms Verif.Props.C79_fit_partial
#print axioms Verif.Props.C79_epochs_partial
#print axioms Verif.Props.C79_fnn_partial
#print axioms Verif.Props.C79_max_pooling_refuted
#print axioms Verif.Props.C80_convert
#print axioms Verif.Props.C80_field
#print axioms Verif.Props.C80_unique
#print axioms Verif.Props.C80_typed
#print axioms Verif.Props.C80_integer_text
#print axioms Verif.Props.C80_float_text
#print axioms Verif.Props.C80_saved
#print axioms Verif.Props.C80_row
#print axioms Verif.Props.C80_entry_partial
#print axioms Verif.Props.C80_dataset_partial
#print axioms Verif.Props.C80_matrix
#print axioms Verif.Props.C80_text_refuted
#print axioms Verif.Props.C80_tail_refuted
#print axioms Verif.Props.C80_empty_refuted
#print axioms Verif.Props.C80_header_refuted
#print axioms Verif.Props.C81_values_partial
#print axioms Verif.Props.C81_destroyed_partial
#print axioms Verif.Props.C81_field_refuted
#print axioms Verif.Props.C81_field_actual
#print axioms Verif.Props.C81_row_refuted
#print axioms Verif.Props.C81_copy_refuted
#print axioms Verif.Props.C81_row_destroyed_refuted
#print axioms Verif.Props.C82_dense_forward
#print axioms Verif.Props.C82_layer_forward
#print axioms Verif.Props.C82_dense_backward
#print axioms Verif.Props.C82_convolution
#print axioms Verif.Props.C82_max_pool
#print axioms Verif.Props.C82_avg_pool
#print axioms Verif.Props.C82_gradient_step
#print axioms Verif.Props.C82_double
#print axioms Verif.Props.C82_network
#print axioms Verif.Props.C82_dense_double
#print axioms Verif.Props.C82_integers
#print axioms Verif.Props.C83_sigmoid
#print axioms Verif.Props.C83_tanh
#print axioms Verif.Props.C83_relu
#print axioms Verif.Props.C83_elu
#print axioms Verif.Props.C83_softmax
#print axioms Verif.Props.C83_softmax_sum
#print axioms Verif.Props.C83_softmax_sum_double
#print axioms Verif.Props.C83_loss
#print axioms Verif.Props.C83_loss_gradient
#print axioms Verif.Props.C83_classifier
#print axioms Verif.Props.C83_softmax_refuted
#print axioms Verif.Props.C84_float_partial
#print axioms Verif.Props.C84_vanishing_actual
#print axioms Verif.Props.C84_refuted
#print axioms Verif.Props.C84_exact_partial
#print axioms Verif.Props.C84_exact_refuted
#print axioms Verif.Props.C85_values_partial
#print axioms Verif.Props.C85_loops_partial
#print axioms Verif.Props.C85_written_refuted
#print axioms Verif.Props.C85_destroyed_refuted
#print axioms Verif.Props.C85_predict_refuted
#print axioms Verif.Props.C86_gradients_partial
#print axioms Verif.Props.C86_shared_refuted
#print axioms Verif.Props.C87_prediction_partial
#print axioms Verif.Props.C87_exact_partial
#print axioms Verif.Props.C87_refuted
#print axioms Verif.Props.C87_any_shape_partial
#print axioms Verif.Props.C87_any_shape_exact_partial
#print axioms Verif.Props.C88_fit
#print axioms Verif.Props.C88_softmax_derivative
#print axioms Verif.Props.C88_fnn
#print axioms Verif.Props.C89_any_shape_partial
#print axioms Verif.Props.C89_cycles_partial
#print axioms Verif.Props.C89_fit_partial
#print axioms Verif.Props.C89_single_layer_refuted
#print axioms Verif.Props.C89_unconnected_loss_refuted
#print axioms Verif.Props.C89_cycle_refuted
#print axioms Verif.Props.C90_append_places
#print axioms Verif.Props.C90_extract_places
#print axioms Verif.Props.C90_throws_iff
#print axioms Verif.Props.C90_extract_append
#print axioms Verif.Props.C91_item
#print axioms Verif.Props.C91_list
#print axioms Verif.Props.C91_dict
#print axioms Verif.Props.C91_file_item
#print axioms Verif.Props.C91_file_list
#print axioms Verif.Props.C91_file_dict
#print axioms Verif.Props.C91_row
#print axioms Verif.Props.C92_convert
#print axioms Verif.Props.C92_item_partial
#print axioms Verif.Props.C92_container_partial
#print axioms Verif.Props.C92_prefix_actual
#print axioms Verif.Props.C92_range_actual
#print axioms Verif.Props.C92_unsigned_actual
#print axioms Verif.Props.C92_blank_actual
#print axioms Verif.Props.C92_integer_refuted
#print axioms Verif.Props.C92_empty_refuted
#print axioms Verif.Props.C93_records_partial
#print axioms Verif.Props.C93_failed_actual
#print axioms Verif.Props.C93_missing_refuted
#print axioms Verif.Props.C93_poisoned_refuted
#print axioms Verif.Props.C94_rate
#print axioms Verif.Props.C94_limit
#print axioms Verif.Props.C95_grids_partial
#print axioms Verif.Props.C95_dropout_refuted
#print axioms Verif.Props.C96_mlpack_layers
#print axioms Verif.Props.C96_sizes_partial
#print axioms Verif.Props.C96_dropout_refuted
#print axioms Verif.Props.C96_guard_refuted
#print axioms Verif.Props.C97_numbers_partial
#print axioms Verif.Props.C97_all_parameters
#print axioms Verif.Props.C97_indices
#print axioms Verif.Props.C97_dimensions_partial
#print axioms Verif.Props.C97_dimensions_refuted
#print axioms Verif.Props.C97_no_filters_refuted
#print axioms Verif.Props.C98_scores_partial
#print axioms Verif.Props.C98_heads
#print axioms Verif.Props.C98_observed_partial
#print axioms Verif.Props.C98_skip_refuted
#print axioms Verif.Props.C98_any_shape_partial
#print axioms Verif.Props.C98_tree_partial
#print axioms Verif.Props.C99_sequential
#print axioms Verif.Props.C99_parallel
#print axioms Verif.Props.C100_own_calls
#print axioms Verif.Props.C100_no_interference
#print axioms Verif.Props.C100_schedule
#print axioms Verif.Props.C101_sum_partial
#print axioms Verif.Props.C101_order_partial
#print axioms Verif.Props.C101_fit_partial
#print axioms Verif.Props.C101_one_batch
#print axioms Verif.Props.C101_conv_refuted
#print axioms Verif.Props.C102_text_partial
#print axioms Verif.Props.C102_unique_partial
#print axioms Verif.Props.C102_written_partial
#print axioms Verif.Props.C102_space_refuted
#print axioms Verif.Props.C102_space_dict_refuted
#print axioms Verif.Props.C103_vectors_partial
#print axioms Verif.Props.C103_matrix_partial
#print axioms Verif.Props.C103_cube_partial
#print axioms Verif.Props.C103_fit_partial
#print axioms Verif.Props.C103_fit_throws_partial
#print axioms Verif.Props.C103_predict_partial
#print axioms Verif.Props.C103_predict_actual_partial
#print axioms Verif.Props.C103_predict_refuted
#print axioms Verif.Props.C103_epochs_refuted
#print axioms Verif.Props.C104_sequential_partial
#print axioms Verif.Props.C104_parallel_actual_partial
#print axioms Verif.Props.C104_parallel_refuted
#print axioms Verif.Props.C105_independent_partial
#print axioms Verif.Props.C105_first_partial
#print axioms Verif.Props.C105_second_actual_partial
#print axioms Verif.Props.C105_defined_partial
#print axioms Verif.Props.C105_unserved_refuted
#print axioms Verif.Props.C106_step
#print axioms Verif.Props.C106_history
#print axioms Verif.Props.C106_fit
#print axioms Verif.Props.C106_sharp
#print axioms Verif.Props.C107_bound
#print axioms Verif.Props.C107_class
#print axioms Verif.Props.C107_sharp
#print axioms Verif.Props.C108_fit
#print axioms Verif.Props.C108_gd
#print axioms Verif.Props.C108_adam
#print axioms Verif.Props.C108_adam_moves
#print axioms Verif.Props.C109_range
#print axioms Verif.Props.C109_bounded
#print axioms Verif.Props.C110_moved
#print axioms Verif.Props.C110_local
#print axioms Verif.Props.C111_squares
#print axioms Verif.Props.C111_classes
#print axioms Verif.Props.C112_history_partial
#print axioms Verif.Props.C112_fit_partial
#print axioms Verif.Props.C112_adam_refuted
#print axioms Verif.Props.C112_model_refuted
#print axioms Verif.Props.C113_history_partial
#print axioms Verif.Props.C113_fit_partial
#print axioms Verif.Props.C113_adam_refuted
#print axioms Verif.Props.C114_optimizers
#print axioms Verif.Props.C114_history
#print axioms Verif.Props.C114_fit
#print axioms Verif.Props.C115_history_partial
#print axioms Verif.Props.C115_fit_partial
#print axioms Verif.Props.C115_adam_refuted
#print axioms Verif.Props.C116_gradients
#print axioms Verif.Props.C116_adam_gradients
#print axioms Verif.Props.C116_history
#print axioms Verif.Props.C116_fit
#print axioms Verif.Props.C116_adam_history
#print axioms Verif.Props.C116_adam_fit
#print axioms Verif.Props.C117_history
#print axioms Verif.Props.C117_adam_history
#print axioms Verif.Props.C117_fit
#print axioms Verif.Props.C117_adam_fit
