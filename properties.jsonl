{"id": "C01", "title": "Concatenating two cubes places every element", "statement": "DLMath::concatenate(dst, src1, shape1, src2, shape2, axis) either throws (exactly when axis >= 3 or the shapes differ on some other axis, writing nothing) or writes every cell of the destination cube and nothing else, each cell (i,j,k) holding the element of src1 or src2 that the axis coordinate selects; no access leaves the three buffers.", "quantifier": "all cube shapes, all three axes, all buffer contents", "why_tests_cant": "index arithmetic on an unbounded family of shapes; tests sample a handful of shapes", "anchors": ["source/dnn/dlmath.hpp: append, concatenate(2 cubes)"]}
{"id": "C02", "title": "Separate undoes concatenate", "statement": "separate(dst1, s1, dst2, s2, src, axis) applied to the output of concatenate on the same axis and shapes returns exactly the two original cubes, and concatenate applied to the two outputs of separate returns the original cube.", "quantifier": "all shapes, axes and contents", "why_tests_cant": "a round trip over every shape cannot be enumerated", "anchors": ["source/dnn/dlmath.hpp: concatenate, separate, append, extract"]}
{"id": "C03", "title": "N-way concatenate/separate are placement-correct and mutually inverse", "statement": "The vector-of-shapes overloads of concatenate and separate place each cube's elements at the axis offset equal to the sum of the preceding cubes' sizes on that axis, for any number of cubes, and separate after concatenate is the identity.", "quantifier": "any number of cubes, all shapes, axes and contents", "why_tests_cant": "unbounded number of cubes and sizes", "anchors": ["source/dnn/dlmath.hpp: concatenate(N), separate(N)"]}
{"id": "C04", "title": "Dense forward computes W x + b", "statement": "DLMath::dense writes, for every output i, bias[i] plus the in-order sum of weights[i][j]*src[j], touches nothing outside the buffers and modifies nothing else; DenseLayer::forward returns that vector whenever the input length is the layer's input size.", "quantifier": "all input/output sizes, all buffer contents, any number type with + and *", "why_tests_cant": "every size and content; also the absence of stray reads/writes", "anchors": ["source/dnn/dlmath.hpp: dense, matarr_mul", "source/dnn/dense.cpp: DenseLayer::forward"]}
{"id": "C05", "title": "Dense backward accumulates the exact gradients", "statement": "A call of DLMath::dense_1 adds g_i to every bias gradient and g_i*x_j to every weight gradient, overwrites every input gradient with sum_i g_i*W_ij, and these are the partial derivatives of the scalar g.(W x + b); k successive backward calls without an optimizer step leave the sum of the k gradients.", "quantifier": "all sizes, contents, and any number of successive backward calls", "why_tests_cant": "history of any length and every size", "anchors": ["source/dnn/dlmath.hpp: dense_1", "source/dnn/dense.cpp: DenseLayer::backward"]}
{"id": "C06", "title": "Threaded dense forward gives the sequential result on every schedule", "statement": "DLMath::dense_thread_opt returns, for every interleaving of the reads and writes of its tasks, the same destination array as DLMath::dense.", "quantifier": "all interleavings of all tasks, all sizes and contents", "why_tests_cant": "tests execute a few schedules chosen by the OS", "anchors": ["source/dnn/dlmath.hpp: dense_thread_opt"]}
{"id": "C07", "title": "Threaded dense backward gives the sequential result on every schedule", "statement": "DLMath::dense_1_thread_opt returns, for every interleaving of its tasks, the same gradients as DLMath::dense_1.", "quantifier": "all interleavings, all sizes and contents", "why_tests_cant": "a lost update needs a specific schedule that tests practically never hit", "anchors": ["source/dnn/dlmath.hpp: dense_1_thread_opt"]}
{"id": "C08", "title": "Cross-correlation computes the zero-padded sliding dot product", "statement": "DLMath::cross_correlation writes, for every output position (r,c) and filter f, the sum over kernel rows, kernel columns and channels of source times kernel, where positions that fall in the padding count as zero; it never reads outside the source or kernel and writes every output cell and nothing else.", "quantifier": "all source shapes, channels, kernels no larger than the padded source, strides, paddings, filter counts", "why_tests_cant": "unbounded family of geometries; out-of-bounds reads are silent in tests", "anchors": ["source/dnn/dlmath.hpp: cross_correlation, kernel_slide, _conv4d_op"]}
{"id": "C09", "title": "Output side formula is the number of kernel placements", "statement": "The output height/width used by convolution and pooling equals the number of stride-aligned placements at which the kernel fits in the padded input, for every input side, kernel side, stride and padding; a kernel that does not fit yields an empty output or an error.", "quantifier": "all 64-bit input, kernel, stride and padding sizes, including kernels larger than the input", "why_tests_cant": "unsigned wrap-around happens only at sizes tests do not try", "anchors": ["source/dnn/dlmath.hpp: kernel_slide", "source/dnn/convolutional.cpp: convolutional_output_side", "source/dnn/pooling.cpp: pooling_output_side"]}
{"id": "C10", "title": "Max and average pooling compute the window maximum and mean", "statement": "max_pool writes for each output position and channel the maximum, avg_pool the arithmetic mean, of exactly the kernel-sized window of that channel; no access leaves the buffers.", "quantifier": "all shapes with non-empty kernels that fit, strides, contents", "why_tests_cant": "unbounded geometries and contents", "anchors": ["source/dnn/dlmath.hpp: max_pool, avg_pool, _max_pool_op, _avg_pool_op"]}
{"id": "C11", "title": "Convolution backward is the gradient of convolution forward", "statement": "ConvolutionalLayer::backward sets the input gradient to the exact partial derivatives of g.forward(x) with respect to the input and adds to the weight gradients the partial derivatives with respect to the kernels, for every geometry.", "quantifier": "all geometries and contents, any number of successive backward calls", "why_tests_cant": "needs every geometry, and equality with a derivative", "anchors": ["source/dnn/convolutional.cpp: ConvolutionalLayer::backward", "source/dnn/dlmath.hpp: kernel_slide"]}
{"id": "C12", "title": "Convolution layer uses its biases", "statement": "ConvolutionalLayer::forward returns the cross-correlation plus the bias of each filter, and successive backward calls accumulate bias gradients the way weight gradients accumulate.", "quantifier": "all geometries, weights, biases and histories of backward calls", "why_tests_cant": "a dropped bias is invisible whenever the tested biases are zero or only sizes are checked", "anchors": ["source/dnn/convolutional.cpp: forward, backward"]}
{"id": "C13", "title": "Max pooling backward routes each gradient to the window's maximum", "statement": "MaxPoolingLayer::backward adds each output gradient to the input gradient of a cell of the corresponding window that attains the maximum, and to no other cell.", "quantifier": "all geometries and contents", "why_tests_cant": "depends on where the maximum lies in each window", "anchors": ["source/dnn/max_pooling.cpp: backward"]}
{"id": "C14", "title": "Average pooling backward spreads each gradient evenly over its window", "statement": "AveragePoolingLayer::backward adds g/(kh*kw) to every cell of the corresponding window, so the sum of input gradients equals the sum of output gradients.", "quantifier": "all geometries and contents", "why_tests_cant": "must hold for every cell of every window", "anchors": ["source/dnn/avg_pooling.cpp: backward"]}
{"id": "C15", "title": "Activation derivatives are the derivatives", "statement": "relu_1, elu_1, tanh_1 and sigmoid_1 return at every point the derivative of relu, elu, tanh and sigmoid (relu, and elu with alpha != 1, at every x other than 0).", "quantifier": "all real x and alpha", "why_tests_cant": "a statement about limits at every real point", "anchors": ["source/dnn/dlmath.hpp: relu, relu_1, elu, elu_1, tanh, tanh_1, sigmoid, sigmoid_1"]}
{"id": "C16", "title": "Activation layers' backward uses the output correctly", "statement": "The Relu, Elu, Tanh, Sigmoid and Linear layers compute dJ/dx from the stored output only, and the result equals incoming gradient times the derivative at the input for every input the layer saw.", "quantifier": "all inputs, gradients, vector sizes and alpha", "why_tests_cant": "needs the output-to-input correspondence at every point, including alpha < 0", "anchors": ["source/dnn/activation.cpp: *Layer::backward", "source/dnn/dlmath.hpp: relu_1, elu_1_opt, tanh_1_opt, sigmoid_1_opt"]}
{"id": "C17", "title": "Softmax is a probability distribution and stable softmax equals softmax", "statement": "For every non-empty vector softmax and stable_softmax return the same values, all in (0,1], summing to 1, unchanged when a constant is added to the input and ordered like the input.", "quantifier": "all real vectors of any length", "why_tests_cant": "unbounded length and continuum of values", "anchors": ["source/dnn/dlmath.hpp: softmax, stable_softmax, max"]}
{"id": "C18", "title": "Softmax backward is the Jacobian-vector product", "statement": "softmax_1 and SoftmaxLayer::backward return sum_j g_j * d softmax_j / d x_i for every i; the components sum to zero.", "quantifier": "all vectors, gradients and lengths", "why_tests_cant": "a statement about derivatives at every point", "anchors": ["source/dnn/dlmath.hpp: softmax_1, softmax_1_opt_no_check", "source/dnn/activation.cpp: SoftmaxLayer::backward"]}
{"id": "C19", "title": "MSE loss and its gradient agree", "statement": "mean_squared_error is the mean of squared differences, non-negative and zero only for equal vectors, and mean_squared_error_1 with norm 1 returns its partial derivatives with respect to the prediction.", "quantifier": "all vectors and lengths", "why_tests_cant": "a scaling mismatch is only visible against the derivative for every length", "anchors": ["source/dnn/dlmath.hpp: mean_squared_error, mean_squared_error_1", "source/dnn/mse_loss.cpp"]}
{"id": "C20", "title": "Cross-entropy loss and its gradient agree", "statement": "cross_entropy of a one-hot or probability target and a prediction in (0,1] is non-negative, and cross_entropy_1 with norm 1 returns its partial derivatives with respect to the prediction at every positive prediction.", "quantifier": "all targets, predictions and lengths", "why_tests_cant": "clamping constants differ only on a tiny interval tests do not probe", "anchors": ["source/dnn/dlmath.hpp: cross_entropy, cross_entropy_1", "source/dnn/cce_loss.cpp"]}
{"id": "C21", "title": "argmax returns the first index of the maximum", "statement": "For every non-empty array argmax and max_and_argmax return the least index whose element is maximal, and max returns that element.", "quantifier": "all non-empty arrays, including ties", "why_tests_cant": "all lengths and tie patterns", "anchors": ["source/dnn/dlmath.hpp: max, argmax, max_and_argmax"]}
{"id": "C22", "title": "Loss statistics count every evaluation since the last reset", "statement": "After any history of set_target, forward and reset_score calls on a loss layer, accuracy() is (correct evaluations)/(evaluations since the last reset) and lies in [0,1], avg_loss() is the mean of the losses of exactly those evaluations; a forward before any set_target throws and changes no statistic.", "quantifier": "all histories of calls of any length", "why_tests_cant": "histories are unbounded", "anchors": ["source/dnn/loss.cpp", "source/dnn/mse_loss.cpp: forward", "source/dnn/cce_loss.cpp: forward", "source/dnn/model.cpp: reset_score, accuracy, avg_loss"]}
{"id": "C23", "title": "Classification is counted correct exactly when the prediction's argmax is the active target class", "statement": "CategoricalCrossEntropyLossLayer::forward counts a sample as correct iff the first maximal prediction index equals the first non-zero target index; an all-zero target throws; MeanSquaredLossLayer counts it correct iff the loss is within the tolerance.", "quantifier": "all predictions, targets and sizes, including ties and all-zero targets", "why_tests_cant": "decision logic over unbounded vectors", "anchors": ["source/dnn/cce_loss.cpp: forward, _argactive", "source/dnn/mse_loss.cpp: forward"]}
{"id": "C24", "title": "Gradient descent subtracts eta times the accumulated gradient and clears it", "statement": "After optimizer.train(layer) with gradient descent every parameter equals its old value minus eta times its gradient and every gradient is zero, for every layer; after any sequence of accumulate/train steps a parameter equals its initial value minus eta times the sum of all gradients accumulated before the last train.", "quantifier": "all layers, parameter counts, gradient histories", "why_tests_cant": "histories of any length", "anchors": ["source/dnn/gd_optimizer.cpp: _train", "source/dnn/optimizer.cpp: train"]}
{"id": "C25", "title": "Adam updates each parameter from that parameter's own gradient history", "statement": "AdamOptimizer performs, for each parameter separately, the documented algorithm: first and second moments of that parameter's gradients, bias-corrected with t = number of train calls, so the update of a parameter does not depend on other parameters.", "quantifier": "all layers, gradient histories", "why_tests_cant": "needs a comparison of whole histories", "anchors": ["source/dnn/adam_optimizer.cpp: _train, reset", "source/dnn/adam_optimizer.hpp"]}
{"id": "C26", "title": "train_check refuses layers of different size and changes nothing", "statement": "optimizer.train_check(from, to) throws iff the two layers have a different number of parameters, in which case no parameter, gradient or optimizer state changes; otherwise it behaves like train(from, to).", "quantifier": "all pairs of layers", "why_tests_cant": "all sizes", "anchors": ["source/dnn/optimizer.cpp: train_check"]}
{"id": "C27", "title": "param(i) and gradient(i) enumerate all learnable values exactly once", "statement": "For Dense, Convolutional and Recurrent layers the indices 0..param_count()-1 are in one-to-one correspondence with the stored weights and biases, gradient(i) is the accumulator belonging to param(i), and any index >= param_count() throws.", "quantifier": "all layer sizes and indices", "why_tests_cant": "all sizes and every index", "anchors": ["source/dnn/dense.cpp: param, gradient", "source/dnn/convolutional.cpp: param, gradient", "source/dnn/recurrent.cpp: param, gradient"]}
{"id": "C28", "title": "Dropout drops and rescales consistently in forward and backward", "statement": "In training every output is either 0 or the input times 1/(1-p); the backward pass multiplies each gradient by the same factor and zeroes exactly the dropped positions of the last training forward; inference is the identity.", "quantifier": "all sizes, probabilities, random streams and call histories", "why_tests_cant": "depends on random streams and call order", "anchors": ["source/dnn/dropout.cpp, dropout.hpp"]}
{"id": "C29", "title": "Recurrent forward computes the recurrence and carries the hidden state", "statement": "RecurrentLayer::forward over T time steps computes h_{t+1} = tanh(W_ih x_t + W_hh h_t + b_h) and y_t = W_ho h_{t+1} + b_o from the stored hidden state and leaves h_T as the hidden state of the next call, for every T.", "quantifier": "all sizes, sequences, T, and number of successive calls", "why_tests_cant": "buffer reuse is only wrong for particular T", "anchors": ["source/dnn/recurrent.cpp: forward"]}
{"id": "C30", "title": "Recurrent backward is backpropagation through time", "statement": "RecurrentLayer::backward accumulates the exact gradients of g.forward(x) with respect to all weights and biases.", "quantifier": "all sizes, sequences and T", "why_tests_cant": "equality with a derivative over all histories", "anchors": ["source/dnn/recurrent.cpp: backward"]}
{"id": "C31", "title": "Model traversal executes each reachable connection exactly once and terminates", "statement": "For every model graph, also cyclic ones, the forward, training and backward runs are finite and contain each connection that leaves a layer reachable from the start layers exactly once, and no other connection.", "quantifier": "all graphs and insertion orders", "why_tests_cant": "all graphs, including cycles and diamonds", "anchors": ["source/dnn/dlgraph.cpp: training_forward_run, forward_run, backward_run"]}
{"id": "C32", "title": "Layers run after all their predecessors", "statement": "In the forward run of an acyclic model every connection out of a layer is executed after every connection into it, so that no layer is evaluated on a stale input.", "quantifier": "all acyclic graphs", "why_tests_cant": "wrong only on graphs with unequal path lengths", "anchors": ["source/dnn/dlgraph.cpp: forward_run"]}
{"id": "C33", "title": "Input and output layers are always the layers without predecessors / successors", "statement": "After any sequence of add_layer, add_loss and create_*_arc calls, model.input_layers() are exactly the layers with no incoming forward connection and model.output_layers() exactly the non-loss layers with no outgoing forward connection, and copying a model preserves both lists.", "quantifier": "all operation sequences", "why_tests_cant": "unbounded build histories", "anchors": ["source/dnn/dlgraph.cpp: add_node, add_arc_forward, add_loss, _compute_input_layers, copy constructor"]}
{"id": "C34", "title": "Graph edits are all-or-nothing", "statement": "Adding an arc throws iff an endpoint is not in the graph and then changes nothing; adding a node twice changes nothing; every recorded arc, input, output and loss index always refers to an existing layer, and each loss index refers to a loss layer.", "quantifier": "all operation sequences", "why_tests_cant": "unbounded histories", "anchors": ["source/dnn/dlgraph.hpp: Graph::add_arc", "source/dnn/dlgraph.cpp: add_node, add_loss, add_edge"]}
{"id": "C35", "title": "Prediction of a sequential model is the composition of its layers", "statement": "For a model whose layers form a chain, predict(x) returns layer_n(...layer_1(x)...) for every input, whatever calls were made before, and training steps do not change the prediction function until train is called.", "quantifier": "all chain lengths, inputs and call histories", "why_tests_cant": "all lengths and histories", "anchors": ["source/dnn/model.cpp: predict, step", "source/middleware/fnn.hpp: add, predict"]}
{"id": "C36", "title": "FNN construction builds exactly the described chain with matching sizes", "statement": "Adding any list of layer descriptors to a feedforward network yields a single path layer1, activation1, layer2, activation2, ... whose consecutive input/output sizes agree; an Input descriptor is accepted only in first position.", "quantifier": "all descriptor lists", "why_tests_cant": "lists of any length", "anchors": ["source/middleware/fnn.hpp: add, _add_layer, _add_activation_layer"]}
{"id": "C37", "title": "Sequential training visits every sample exactly once per epoch", "statement": "Training with batch size b >= 1 on n samples performs, per epoch, one step per sample in order, grouped in ceil(n/b) batches each followed by one optimizer call; it terminates for every n, epochs and b >= 1.", "quantifier": "all n, epochs, batch sizes", "why_tests_cant": "boundary cases n mod b; termination", "anchors": ["source/middleware/fnn.hpp: Training<SEQUENTIAL>::run"]}
{"id": "C38", "title": "Data-parallel training visits every sample exactly once per epoch", "statement": "With batch size and number of worker threads at least 1 (and samples plus threads times batch size below 2^64), the thread-parallel training modes step each sample exactly once per epoch and apply the optimizer once per task, however the worker threads are scheduled.", "quantifier": "all n, epochs, batch sizes, concurrency levels", "why_tests_cant": "depends on the machine's concurrency", "anchors": ["source/middleware/fnn.hpp: Training<THREAD_PARALLELISM_ON_DATA_ENTRY>, Training<THREAD_PARALLELISM_ON_DATA_BATCH>"]}
{"id": "C39", "title": "Data-parallel training is schedule-independent", "statement": "The parameters after a data-parallel training run do not depend on how the worker threads are scheduled, and with gradient descent equal the sequential mini-batch result.", "quantifier": "all schedules", "why_tests_cant": "tests see a few schedules", "anchors": ["source/middleware/fnn.hpp: Training<...>::run", "source/dnn/model.cpp: train, copy constructor", "source/type.hpp: SharedParams"]}
{"id": "C40", "title": "Copying a model shares parameters but not gradients or activations", "statement": "A copy of a model reads and writes the same weights and biases as the original, while steps on the copy never change the original's gradients, activations or statistics.", "quantifier": "all models and interleavings of operations on original and copies", "why_tests_cant": "aliasing over all histories", "anchors": ["source/dnn/model.cpp: Model(const Model&)", "source/type.hpp: SharedParams", "source/dnn/dlgraph.cpp: copy constructor"]}
{"id": "C41", "title": "A dataset built from a flat vector is a truncation to whole sequences", "statement": "Dataset(vec, feature_size, sequence_size, labels) keeps the longest prefix of the vector consisting of whole sequences; size(), sequence counts and data length are consistent; every label index is a feature index and input and label indices partition the features.", "quantifier": "all vectors and parameters, including 0 and oversized ones", "why_tests_cant": "all sizes with all remainders", "anchors": ["source/data/dataset.hpp: Dataset(Vec,...)"]}
{"id": "C42", "title": "A dataset built from rows or sequences is consistent", "statement": "Dataset(rows, sequence_size, labels) and Dataset(cube, labels) hold each row cut to the common feature count, size() counts exactly the stored rows, and every index below size() can be read with entry(), input() and label().", "quantifier": "all row matrices, sequence sizes and label sets", "why_tests_cant": "remainders of rows modulo sequence size", "anchors": ["source/data/dataset.hpp: Dataset(Mat,...), Dataset(Cub,...)"]}
{"id": "C43", "title": "Accessors return exactly the stored cells", "statement": "On every consistent dataset entry(i), entry_seq(s), input(i), label(i), inputs_seq(s), labels_seq(s) return exactly the cells of that row or sequence restricted to the selected columns in increasing order, return an empty vector for an index past the end, and never read outside the data.", "quantifier": "all consistent datasets and indices", "why_tests_cant": "all indices and shapes", "anchors": ["source/data/dataset.hpp: entry, entry_seq, input, label, inputs_seq, labels_seq, _field_from_row_idx, _field_from_seq_idx"]}
{"id": "C44", "title": "Inputs and labels partition every row", "statement": "inputs() and labels() have one row per row of the dataset (none if no column is selected), row i of inputs() is input(i), row i of labels() is label(i), and together they contain every cell of the row exactly once.", "quantifier": "all consistent datasets", "why_tests_cant": "all shapes and label sets", "anchors": ["source/data/dataset.hpp: inputs, labels, label_idx"]}
{"id": "C45", "title": "split partitions the dataset in order", "statement": "split(p) returns a training set and a testing set whose rows concatenated are the rows of the dataset in order, the cut lies on a sequence boundary, every non-empty part keeps the label columns, for every p.", "quantifier": "all datasets and percentages", "why_tests_cant": "rounding at every percentage and size", "anchors": ["source/data/dataset.hpp: split, subdata"]}
{"id": "C46", "title": "subdata returns the requested rows", "statement": "subdata(from,to) throws iff from exceeds min(to,size()); otherwise it contains exactly rows from..min(to,size())-1 and the same label columns, whenever that number of rows is a multiple of the sequence size.", "quantifier": "all datasets and ranges", "why_tests_cant": "all ranges incl. empty and clamped", "anchors": ["source/data/dataset.hpp: subdata"]}
{"id": "C47", "title": "shuffle is a permutation of whole rows", "statement": "After shuffle the dataset contains the same rows with the same multiplicities, each row intact (inputs stay with their labels), and all sizes and index sets are unchanged, for every random generator state.", "quantifier": "all datasets and generator states", "why_tests_cant": "all permutations", "anchors": ["source/data/dataset.hpp: shuffle", "source/dnn/dlmath.hpp: unique_rand_sequence"]}
{"id": "C48", "title": "Min-max normalization maps each column onto [0,1]", "statement": "min_max_normalization() replaces each column by (x-min)/(max-min) with that column's own minimum and maximum, so every value lies in [0,1] and the extremes map to 0 and 1; with explicit bounds only the selected columns change.", "quantifier": "all datasets, including constant columns and empty datasets", "why_tests_cant": "constant columns and all contents", "anchors": ["source/data/dataset.hpp: min_max_normalization"]}
{"id": "C49", "title": "Dataset concatenation", "statement": "concatenate(d1,d2,axis) along axis 0 appends the sequences, along axis 1 joins the sequences pairwise, along axis 2 joins the features of corresponding rows; it throws for incompatible shapes or labels; an empty dataset is neutral.", "quantifier": "all consistent datasets and axes", "why_tests_cant": "all shapes", "anchors": ["source/data/dataset.hpp: concatenate"]}
{"id": "C50", "title": "Any sequence of dataset operations keeps the dataset consistent", "statement": "Starting from a consistent dataset, any sequence of shuffle, label_idx, sequence_size, normalization, subdata and split operations that the API accepts yields a consistent dataset (sizes, data length and index sets agree).", "quantifier": "all operation sequences", "why_tests_cant": "histories of any length", "anchors": ["source/data/dataset.hpp"]}
{"id": "C51", "title": "One-hot encoding encodes labels and preserves inputs", "statement": "Parsing a dataset with ONE_HOT_ENCODING yields rows whose input columns equal the original inputs in order, followed by one block per label that contains a single 1 at the rank of the label value among its distinct values, and declares exactly the block columns as labels.", "quantifier": "all datasets, label positions and value sets", "why_tests_cant": "label positions other than those tested", "anchors": ["source/parser/parser.hpp: data_to_encoding, encoding_feature_size, encoding_labels_idx, unique_map"]}
{"id": "C52", "title": "Type detection is total and matches the documented grammar", "statement": "TypeChecker::parse classifies every string: empty as NONE, quoted or otherwise unrecognised as STRING, true/false as BOOL, signed decimal integers without leading zeros as INT, other decimal or scientific numerals as FLOAT; the text written for any integer or boolean is classified INT or BOOL.", "quantifier": "all strings, all integers", "why_tests_cant": "infinite language", "anchors": ["source/parser/type_checker.hpp: parse, convert, regexes"]}
{"id": "C53", "title": "JSON print then parse is the identity", "statement": "Writing a JSON value to a stream and reading it back yields an equal value with the same structure, for every value built through the API.", "quantifier": "all JSON trees", "why_tests_cant": "trees of any depth; special characters; empty containers", "anchors": ["source/parser/json.hpp: operator<<, operator>>"]}
{"id": "C54", "title": "JSON values behave like an ordinary tree of maps and lists", "statement": "operator[], append, at, size and copy behave like operations on a tree of lists and key-sorted dictionaries: a write is read back, other keys are unaffected, copies are deep, and accesses of the wrong kind or out of range throw without changing the value.", "quantifier": "all trees and operation sequences", "why_tests_cant": "histories of any length", "anchors": ["source/parser/json.hpp: JsonItem, JsonDict, JsonList"]}
{"id": "C55", "title": "CSV random access is history-independent", "statement": "csv[i] returns the fields of line i mod rows of the file, whatever rows were accessed before.", "quantifier": "all files, indices and access histories", "why_tests_cant": "cache state depends on the history", "anchors": ["source/parser/csv.hpp: CSV::operator[], CSVIterator"]}
{"id": "C56", "title": "CSV iteration visits every data row once", "statement": "Iterating from begin() to end() yields every data row of the file exactly once, in order.", "quantifier": "all files", "why_tests_cant": "off-by-one at file end", "anchors": ["source/parser/csv.hpp: CSV::begin, end, CSVIterator"]}
{"id": "C57", "title": "CSV row fields are the separator-delimited pieces of the line", "statement": "A row has one more field than separators in its line and row[i] is the i-th piece, for every line, also with empty fields; an index past the end throws.", "quantifier": "all lines and separators", "why_tests_cant": "empty fields at all positions", "anchors": ["source/parser/csv.hpp: CSVRow"]}
{"id": "C58", "title": "MNIST decoding", "statement": "For a well-formed MNIST pair of n samples, image(i) returns bytes 16+784*(i mod n).. of the image file and label(i) byte 8+(i mod n) of the label file, whatever was read before; files with wrong magic, unequal counts or other image sizes are rejected.", "quantifier": "all file contents, indices and access histories", "why_tests_cant": "all byte contents and histories", "anchors": ["source/parser/mnist.hpp"]}
{"id": "C59", "title": "CIFAR decoding", "statement": "Image i of a CIFAR batch is decoded from its record, and converting between channel-major and row-major order rearranges the 3072 bytes bijectively with pixel (r,c,channel) preserved.", "quantifier": "all record contents and indices", "why_tests_cant": "3072-byte permutation and all indices", "anchors": ["source/parser/cifar.hpp"]}
{"id": "C60", "title": "Layer dump/load round trip", "statement": "Loading into a layer of the same type the JSON produced by dump() of another restores its shapes and all weights and biases (up to the decimal text of numbers); loading a dump of another type throws.", "quantifier": "all layers, sizes and weights", "why_tests_cant": "all sizes", "anchors": ["source/dnn/layer.cpp: dump, load", "source/dnn/dense.cpp: dump, load", "source/dnn/convolutional.cpp: dump, load", "source/dnn/recurrent.cpp: dump, load"]}
{"id": "C61", "title": "Seeded initialisation is reproducible and gives different layers independent weights", "statement": "model.init with the same non-zero seed sets the same parameters every time, and layers draw from one continuing random stream rather than repeating the same values.", "quantifier": "all models and seeds", "why_tests_cant": "all seeds", "anchors": ["source/dnn/model.cpp: init", "source/dnn/dense.cpp: init"]}
{"id": "C62", "title": "ConcatenateLayer joins its inputs", "statement": "After being fed one input vector per declared shape, ConcatenateLayer's output is the concatenation of those inputs along its axis, and setting its input shape terminates.", "quantifier": "all shapes, axes, inputs", "why_tests_cant": "all shapes and numbers of inputs", "anchors": ["source/dnn/concatenate.cpp"]}
{"id": "C63", "title": "Graph queries and adjacency matrices agree", "statement": "For every graph built through the interface the successor and predecessor queries, their has_* forms and the adjacency matrices describe the same set of arcs, and the layers enumerated for initialisation are exactly the non-loss layers, each once.", "quantifier": "all graphs, all operation histories", "why_tests_cant": "all graphs", "anchors": ["source/dnn/dlgraph.hpp: Graph", "source/dnn/dlgraph.cpp: forward_layers_idx"]}
{"id": "C64", "title": "Fitting a feedforward network attaches its loss once", "statement": "The first fit of a feedforward network appends exactly one loss layer, connected to its last activation layer and as wide as the network's output; later fits append none, prediction is unaffected, and each fit scales its gradients by its own batch size.", "quantifier": "all accepted sequences of layer descriptors, loss functions and sequences of fits", "why_tests_cant": "all networks and all sequences of batch sizes", "anchors": ["source/middleware/fnn.hpp: FNN::fit, _fit", "source/dnn/model.hpp: add_loss"]}
{"id": "C65", "title": "Converting a whole CSV file lists every row", "statement": "Converting a CSV object to a vector of lines lists every complete line of the file once, in order, and converting it to a table gives for each of them the list of its fields, also the empty ones.", "quantifier": "all files whose lines have as many fields as the header", "why_tests_cant": "all files, also with empty fields and without a final newline", "anchors": ["source/parser/csv.hpp: CSV conversions to vectors"]}
{"id": "C66", "title": "CIFAR label names are the lines of the names file", "statement": "The label names of a CIFAR dataset are the non-empty lines of the names file, in order; fine names are read only for CIFAR-100 with a given path.", "quantifier": "all files of names", "why_tests_cant": "all files, with empty lines anywhere and with or without a final newline", "anchors": ["source/parser/cifar.hpp: Cifar::Cifar"]}
{"id": "C67", "title": "Printing an image shows every pixel", "statement": "Printing an MNIST or CIFAR image gives one text row for each image row, with each pixel drawn twice by the character of its brightness, for every image.", "quantifier": "all images", "why_tests_cant": "all byte values at all places", "anchors": ["source/parser/mnist.hpp: MnistImage", "source/parser/cifar.hpp: CifarImage, perception_brightness"]}
{"id": "C68", "title": "A loaded layer computes like the saved one", "statement": "Loading a saved layer into another of the same type makes it compute like the saved one: it also gets every setting and state that decides its results, and buffers of the right sizes.", "quantifier": "all layers of all types, reached by any sequence of constructions, trainings, changes of input shape and loads", "why_tests_cant": "all settings and all pairs of layers", "anchors": ["source/dnn/layer.cpp: Layer::dump, load", "source/dnn/activation.hpp: EluLayer", "source/dnn/concatenate.cpp: ConcatenateLayer::dump, load", "source/dnn/recurrent.cpp: RecurrentLayer::dump, load"]}
{"id": "C69", "title": "A model saved to a file and loaded is the same model", "statement": "The text that model.dump() writes to a file is accepted by load() of every model whose layers have the same types in the same order, and gives it the name of the saved model and to each layer the shapes, weights and biases of the saved one.", "quantifier": "all models, all models of the same layer types to load into", "why_tests_cant": "any number of layers of any sizes, any names", "anchors": ["source/dnn/model.cpp: Model::dump, load", "source/parser/json.hpp: Json"]}
{"id": "C70", "title": "Training steps compute the gradient of the loss", "statement": "After a batch of samples has been stepped through a model, each gradient buffer entry has grown by the partial derivative, with respect to the parameter of the same index, of the batch loss of the model's predictions, and no parameter has changed.", "quantifier": "all models whose layers form a path to a loss layer, all parameter values, all batches", "why_tests_cant": "derivatives of a whole network at all parameter values and samples; numerical checks only sample them and cannot tell a small systematic error from rounding", "anchors": ["source/dnn/model.cpp: Model::step", "source/dnn/dense.cpp: backward", "source/dnn/convolutional.cpp: backward", "source/dnn/activation.cpp: backward", "source/dnn/loss.cpp"]}
{"id": "C71", "title": "Fitting with gradient descent is gradient descent", "statement": "fit() of a feedforward network with the gradient descent optimizer leaves the parameters that mathematical gradient descent reaches from the initial ones: for each epoch and each batch, in order, every parameter is decreased by the learning rate times the partial derivative of the batch loss, divided by the batch size, at the parameters reached so far.", "quantifier": "all networks, initial parameters, data sets, batch sizes, numbers of epochs and learning rates", "why_tests_cant": "whole training histories of any length", "anchors": ["source/middleware/fnn.hpp: FNN::fit", "source/dnn/model.cpp: Model::step, train", "source/dnn/gd_optimizer.hpp", "source/dnn/optimizer.cpp"]}
{"id": "C72", "title": "Predicting a data set predicts every row", "statement": "predict(data) of a network returns a data set with one row for each row of data, in order: the output that the layers, with their current parameters, compute from the input columns of that row. It does not change the parameters.", "quantifier": "all feedforward networks without dropout, after any sequence of predictions, evaluations and fits, all data sets", "why_tests_cant": "all data sets and all histories", "anchors": ["source/middleware/fnn.hpp: FNN::predict, FeedforwardNeuralNetwork::predict", "source/data/dataset.hpp: Dataset::trainset"]}
{"id": "C73", "title": "Evaluation reports the mean loss and the fraction of correct predictions", "statement": "evaluate(data) returns the mean, over all samples, of the loss of the network's prediction from the input columns against the label columns, and the fraction of samples predicted correctly, with percentages and error rates computed from it; on data without labels it throws. It does not change the parameters.", "quantifier": "all feedforward networks without dropout, after any sequence of predictions, evaluations and fits, both losses, all data sets", "why_tests_cant": "all data sets and all histories: scores left over from earlier calls would show only after particular sequences", "anchors": ["source/middleware/fnn.hpp: FNN::evaluate", "source/middleware/nn.hpp: EvaluationResult", "source/dnn/model.cpp: Model::step, reset_score, accuracy, avg_loss"]}
{"id": "C74", "title": "A network is trained with what it was last compiled with", "statement": "Before compile(), fit() and evaluate() throw and predict() works as after compile() without arguments; compile() discards what was learned and every earlier choice; fit() and evaluate() use the loss, the optimizer and the initialisation of the last compile(); a compile() that throws leaves the network not compiled. input_size() and output_size() are the declared ones, compiled or not.", "quantifier": "all lists of layers, all sequences of calls", "why_tests_cant": "all sequences of calls of any length", "anchors": ["source/middleware/nn.hpp: DynamicNeuralNetwork"]}
{"id": "C75", "title": "Using a model while it is trained does not change what it learns", "statement": "Calls of predict() and reset_score() between the steps and updates of a training do not change what is learned: without them, step() and train() report the same exceptions, and parameters, gradients and optimizer are the same afterwards.", "quantifier": "all models whose layers form a path to a loss layer, all histories of predict, reset_score, step and train calls, all optimizers", "why_tests_cant": "histories of any length: predictions write the same buffers that training reads, and a leftover value would show only in particular interleavings", "anchors": ["source/dnn/model.cpp: Model::predict, step, train, reset_score", "source/dnn/layer.hpp: Layer", "source/dnn/loss.hpp: LossLayer::reset_score"]}
{"id": "C76", "title": "Fitting a network again starts afresh", "statement": "fit() with a given seed (not 0) ends in the same way and with the same parameters whatever was done with the network before: earlier fits, predictions and evaluations on other data leave nothing behind that a later fit uses.", "quantifier": "all lists of layers, all sequences of predict, evaluate and fit calls on all data sets, all optimizers and initialisations, all later fits", "why_tests_cant": "histories of any length: gradients, optimizer moments, buffers or weights of an earlier fit would leak only in particular histories", "anchors": ["source/middleware/fnn.hpp: EdgeFeedforwardNeuralNetwork::fit, Training<SEQUENTIAL>::run", "source/dnn/model.cpp: Model::init, train"]}
{"id": "C77", "title": "Fitting on well-formed data completes", "statement": "If every row of the data set has an input of the declared size and a label that the loss can score, fit() returns normally: it throws nothing, has no undefined behaviour and ends after a bounded number of steps, whatever was done with the network before.", "quantifier": "all lists of layers (dense, convolution, pooling, dropout, all activations), all histories of predict, evaluate and fit calls, all such data sets, all optimizers, initialisations, learning rates, seeds, numbers of epochs and positive batch sizes", "why_tests_cant": "a buffer of a wrong size or a read past an end shows only for particular sequences of layers, sizes, batches and earlier calls", "anchors": ["source/middleware/fnn.hpp: EdgeFeedforwardNeuralNetwork::fit, add, Training<SEQUENTIAL>::run", "source/dnn/model.cpp: Model::init, step, train", "source/dnn/dlmath.hpp: DLMath"]}
{"id": "C78", "title": "Array functions read their operands before they overwrite them", "statement": "An array function of the math library called on overlapping arrays either stores what it would store with separate arrays, that is the function of the values its operands held before the call, and changes nothing else, or it throws.", "quantifier": "all memories, all positions of the operands and of the destination, all lengths, all numbers", "why_tests_cant": "all the ways in which arrays can overlap, of any length; tests call them with separate arrays or one overlap", "anchors": ["source/dnn/dlmath.hpp: DLMath::arr_mul, arr_sum, matarr_mul, matarr_mul_no_check, dense, dense_simd_opt, softmax, stable_softmax, stable_softmax_no_check, softmax_1, softmax_1_opt, softmax_1_opt_no_check, relu, elu, tanh, sigmoid and derivatives, cross_entropy_1, mean_squared_error_1"]}
{"id": "C79", "title": "Training with a small enough learning rate lowers the loss", "statement": "For every network, data set and starting point there is a positive learning rate below which fit() with gradient descent ends with a lower summed loss over the data set than it started with, unless all partial derivatives of that loss are zero at the start; with the whole data set as batch no epoch increases the loss.", "quantifier": "all models whose layers form a path to a loss layer, all parameters, all data sets, batch sizes and numbers of epochs, all learning rates below the bound", "why_tests_cant": "a wrong gradient in one place lowers the loss in most runs too; that every small step goes downhill ranges over all networks, points and data", "anchors": ["source/middleware/fnn.hpp: EdgeFeedforwardNeuralNetwork::fit, Training<SEQUENTIAL>::run", "source/dnn/gd_optimizer.hpp: GradientDescentOptimizer::train", "source/dnn/model.cpp: Model::step, train", "source/dnn/dense.cpp: DenseLayer::training_forward, backward"]}
{"id": "C80", "title": "Numbers in a CSV file are read as the numbers they spell", "statement": "If the data fields of a CSV file are decimal numerals (sign, digits, point, exponent, blanks around them), entry(i), the conversion of rows and files to numbers and Dataset::parse give exactly these numbers in file order, after any earlier accesses; a field that does not spell a number is reported and never becomes a number silently.", "quantifier": "all texts, all files with all numbers of lines and fields, all separators and types, all histories of accesses", "why_tests_cant": "all spellings of numbers, with leading zeros, points without digits on one side, exponents and blanks, at all positions of a file", "anchors": ["source/parser/type_checker.hpp: convert", "source/parser/csv.hpp: CSVField::as, CSVRow::operator std::vector<T>, CSV::entry, CSV::operator std::vector<std::vector<T>>", "source/parser/parser.hpp: DatasetParser::data_to_encoding", "source/data/dataset.hpp: Dataset::parse"]}
{"id": "C81", "title": "CSV objects, rows and fields are independent values", "statement": "A CSV object, a row or a field and every copy of it keeps reporting the same text, position and types whatever is done with other objects: reading them, copying them, assigning to them or destroying them.", "quantifier": "all programs that create, read, copy, assign and destroy CSV objects, rows and fields, all files and types", "why_tests_cant": "sequences of operations of any length on any number of objects: shared or dangling references show only in particular sequences", "anchors": ["source/parser/csv.hpp: CSVField::CSVField, operator=, CSVRow::CSVRow, operator=, operator[], CSV::CSV, operator[], header"]}
{"id": "C82", "title": "Rounding errors stay small", "statement": "With the floating-point numbers the library really uses, a dense, convolution or pooling layer, its gradients and an optimizer step return finite numbers within a known distance of the exact results as long as nothing overflows; integer data are computed exactly; and the output of any network is as close to the exact output as wanted if the floating-point format is precise enough.", "quantifier": "all networks of dense, convolution, pooling and activation layers, all sizes, parameters and inputs, all floating-point formats with correctly rounded operations, among them double", "why_tests_cant": "rounding depends on every bit of the operands; a test sees the errors of a few operands and cannot bound those of all", "anchors": ["source/type.hpp: NumType", "source/dnn/dlmath.hpp: DLMath::dense, dense_1, cross_correlation, max_pool, avg_pool, relu, elu, tanh, sigmoid, stable_softmax_no_check", "source/dnn/gd_optimizer.hpp: GradientDescentOptimizer::update", "source/dnn/model.cpp: Model::predict"]}
{"id": "C83", "title": "Finite inputs give finite results", "statement": "On finite numbers of any size the activation functions and the softmax return finite numbers in their ranges, never an infinity or NaN; softmax outputs add up to one up to rounding and the largest input gets the largest output; cross-entropy and its gradient and the gradient a classifier passes down are finite for all predictions, zero included.", "quantifier": "all finite inputs, all sizes, all targets, all floating-point formats with correctly rounded operations (losses: double), all C libraries of bounded inaccuracy", "why_tests_cant": "overflow and underflow happen at the far ends of a range of 2^64 numbers, in combinations of elements of a vector of any length", "anchors": ["source/dnn/dlmath.hpp: DLMath::relu, elu, tanh, sigmoid, softmax, stable_softmax_no_check, cross_entropy, cross_entropy_1, softmax_1_opt_no_check", "source/dnn/activation.cpp: SoftmaxLayer::forward, backward"]}
{"id": "C84", "title": "A classifier's gradient is prediction minus target", "statement": "For a softmax output with cross-entropy loss, the gradient passed to the layer below the softmax is the normalizer times the difference of the predictions and the targets, up to rounding, for all logits.", "quantifier": "all logits, all numbers of classes, all target classes, all normalizers between zero and one", "why_tests_cant": "the identity must survive a division by the prediction followed by a multiplication with it, for predictions down to the smallest numbers", "anchors": ["source/dnn/dlmath.hpp: DLMath::cross_entropy_1, softmax_1_opt_no_check, stable_softmax_no_check", "source/dnn/cce_loss.cpp: CategoricalCrossEntropyLossLayer::backward", "source/dnn/activation.cpp: SoftmaxLayer::backward"]}
{"id": "C85", "title": "A layer differentiates at the input of its last training pass", "statement": "After training_forward(x), backward computes the gradients at x and last_input() returns x, whatever the program does with its vectors, the layer, other layers and clones before it calls backward.", "quantifier": "all layers of all types, all programs of calls of forward, training_forward, backward, last_input, clone, set_target, train and of the destructors, all changes and lifetimes of the vectors passed", "why_tests_cant": "the layer keeps an address, not a copy; whether something writes or destroys what it points to depends on the whole history of calls", "anchors": ["source/dnn/layer.cpp: Layer::training_forward, Layer::last_input", "source/dnn/layer.hpp: _last_input", "source/dnn/dense.cpp: DenseLayer::backward", "source/dnn/convolutional.cpp: ConvolutionalLayer::backward", "source/dnn/max_pooling.cpp: MaxPoolingLayer::backward", "source/dnn/recurrent.cpp: RecurrentLayer::backward", "source/dnn/dropout.hpp: DropoutLayer::forward"]}
{"id": "C86", "title": "A model with several losses is trained on their sum", "statement": "When branches of a model end in loss layers of their own, step adds to every gradient buffer entry the derivative of the sum of all losses with respect to the parameter, for the layers the branches share too.", "quantifier": "all models whose branches start at the input layer, all numbers and lengths of branches, all losses, all parameters, all lists of samples", "why_tests_cant": "the gradients arrive at a shared layer one after the other, in an order that depends on the whole graph, and every one must be propagated and added", "anchors": ["source/dnn/model.cpp: Model::step, Model::create_edge, Model::create_loss_edge", "source/dnn/dlgraph.cpp: DLGraph::training_forward_run, DLGraph::backward_run", "source/dnn/dense.cpp: DenseLayer::backward", "source/dnn/dlmath.hpp: DLMath::dense_1"]}
{"id": "C87", "title": "A network saved and loaded predicts as before", "statement": "A model that is dumped to a file and loaded into a model of the same structure predicts for every input what the original predicts: exactly if its parameters are multiples of a millionth, otherwise within a distance that the weights and the input determine.", "quantifier": "all models on a path of dense, convolution, pooling and activation layers, all parameters, all inputs", "why_tests_cant": "every parameter is rounded when it is written, and the errors are multiplied by inputs and weights of any size through layers of any number", "anchors": ["source/dnn/model.cpp: Model::dump, Model::load, Model::predict", "source/dnn/dense.cpp: DenseLayer::dump, DenseLayer::load", "source/dnn/convolutional.cpp: ConvolutionalLayer::dump, ConvolutionalLayer::load", "source/parser/json.hpp: JsonLeaf::JsonLeaf", "source/dnn/dlmath.hpp: DLMath::dense, cross_correlation, max_pool, avg_pool, relu, elu, tanh, sigmoid, stable_softmax_no_check"]}
{"id": "C88", "title": "Training in floating point follows exact gradient descent", "statement": "Training a network of dense and activation layers with fit and gradient descent ends, for numbers of enough precision, with finite parameters as close as wanted to those that the same training leaves in exact arithmetic.", "quantifier": "all networks of dense and activation layers on a path, all initial parameters, both losses, all data sets, batch sizes, numbers of epochs and learning rates, at whose samples the exact run is differentiable; all tolerances; all floating-point formats and C libraries of the required precision", "why_tests_cant": "rounding errors of every step feed into all later steps; that none of them is amplified without bound by an update, a derivative or a branch must hold for every length of training", "anchors": ["source/type.hpp: NumType", "source/middleware/fnn.hpp: FNN::fit", "source/dnn/model.cpp: Model::step, Model::train", "source/dnn/dlmath.hpp: DLMath::dense, dense_1, relu_1, elu_1_opt, tanh_1_opt, sigmoid_1_opt, softmax_1_opt_no_check, mean_squared_error_1, cross_entropy_1", "source/dnn/gd_optimizer.hpp: GradientDescentOptimizer::update"]}
{"id": "C89", "title": "A model of any shape whose sizes agree can be used without a crash", "statement": "A model put together from layers, loss layers, edges and loss edges in any order, with equal sizes at both ends of every connection, can be used for prediction and training in any order of calls with inputs and targets of the right lengths: no call accesses memory outside a buffer, follows a null pointer or throws.", "quantifier": "all sequences of add_layer, add_loss, create_edge and create_loss_edge; all layers and sizes that agree; all parameters; all histories of predict, step, train and reset_score, all data sets given to fit; all optimizers", "why_tests_cant": "whether every pointer is set when it is read depends on the order in which the graph is traversed, and so on the whole shape of the model and all earlier calls; tests only try a few chains", "anchors": ["source/dnn/model.cpp: Model::predict, Model::step, Model::train, Model::create_edge, Model::create_loss_edge", "source/dnn/dlgraph.cpp: DLGraph::forward_run, DLGraph::training_forward_run, DLGraph::backward_run, DLGraph::compute_inputs, DLGraph::compute_outputs", "source/dnn/layer.cpp: Layer::training_forward, Layer::last_input", "source/dnn/loss.cpp: LossLayer::set_target"]}
{"id": "C90", "title": "Append and extract move slabs of arrays of any rank", "statement": "append_check(dst, shape, src, a, axis, offset) throws exactly if the array has no such axis; otherwise it moves every element of the source to the same coordinates moved by the offset along the axis, and changes nothing else, in the array or behind it. extract_check with the same arguments gives the source back.", "quantifier": "all numbers of dimensions, all shapes, axes and offsets at which the slab fits, all contents", "why_tests_cant": "the library only calls it with three dimensions; the index arithmetic must be right for any number of them", "anchors": ["source/dnn/dlmath.hpp: DLMath::append, DLMath::extract, DLMath::append_check, DLMath::extract_check"]}
{"id": "C91", "title": "Values stored in JSON come back with their type", "statement": "An integer, number, boolean or text stored in a JSON item, or a vector or map of them stored as a list or dictionary, is returned by as<T>(), as_vec<T>() and as_map<T>() with the same type as the same value, a floating-point number up to half a millionth and exactly if it has at most six decimals; also after the JSON was written and parsed again. Integer fields of a CSV row are converted to their values.", "quantifier": "all integer types and all values they hold, all numbers, booleans and texts (for the way through a file: not empty and without quotes), all vectors and maps of them", "why_tests_cant": "every value goes through its decimal text; the conversions must be inverse for every integer of every width, and lists and dictionaries of every length", "anchors": ["source/parser/json.hpp: JsonItem::as, as_vec, as_map, JsonLeaf::as, JsonList::operator std::vector<T>, JsonDict::operator std::map<std::string, T>, JsonList::_convert_vec, JsonDict::_convert_map", "source/parser/type_checker.hpp: convert", "source/parser/csv.hpp: CSVField::as, CSVRow::to_vec"]}
{"id": "C92", "title": "A value that does not have the type asked for is reported", "statement": "as<T>(), as_vec<T>() and as_map<T>() throw if the item is not a leaf, a list or a dictionary respectively, or if a text in it is not a value of type T.", "quantifier": "all items, all texts, all integer types", "why_tests_cant": "which texts are accepted is a question about all strings, and about the value left behind when the conversion fails", "anchors": ["source/parser/json.hpp: convert_json_object, JsonLeaf::as", "source/parser/type_checker.hpp: convert"]}
{"id": "C93", "title": "A sample missing from an image file is reported and does no harm", "statement": "Asking a CIFAR dataset for a sample that its file does not contain is reported, and the samples the file does contain can still be read afterwards.", "quantifier": "all files of any length, all histories of calls, all samples, both formats and orders", "why_tests_cant": "whether a sample can be read depends on all reads before it: the state of the stream is carried from call to call", "anchors": ["source/parser/cifar.hpp: Cifar::Cifar, Cifar::image, Cifar::label, Cifar::entry, CifarImage::CifarImage, CifarLabel::CifarLabel"]}
{"id": "C94", "title": "Fitting a linear network finds the least squares fit", "statement": "A feedforward network with one dense layer and no activation function, trained with mean squared errors and gradient descent on batches that hold the whole data set, approaches the least squares fit: if the learning rate is small enough for the inputs, the squared error after any number of epochs exceeds that of any other weights and biases by at most their squared distance from the initial ones times batch size / (2 * rate * epochs), so it tends to the smallest squared error possible. Computed with exact arithmetic.", "quantifier": "all numbers of inputs and outputs, all data sets, initial weights and biases, batch sizes that hold the data set, learning rates up to the stated bound, all numbers of epochs and all weights and biases to compare with", "why_tests_cant": "a statement about limits and about every competitor; a test sees one run and does not know the smallest error", "anchors": ["source/middleware/fnn.hpp: FNN::fit", "source/dnn/dense.cpp: DenseLayer::forward, DenseLayer::backward", "source/dnn/mse_loss.cpp: MeanSquaredLossLayer::backward", "source/dnn/gd_optimizer.cpp: GradientDescentOptimizer::_train", "source/dnn/model.cpp: Model::step, Model::train"]}
{"id": "C95", "title": "Layers of a network work on the grid the layers before them give", "statement": "Every convolution or pooling layer of a feedforward network works on the rows, columns and channels that the described layers before it give: one row and column per placement of a window, one channel per filter, the declared units of a dense layer; activations and dropout leave them as they are.", "quantifier": "all input shapes, all lists of layer descriptors of any length whose windows fit", "why_tests_cant": "a wrong grid with the right number of elements is not noticed by any check; every sequence of layers has to be considered", "anchors": ["source/middleware/fnn.hpp: EdgeFeedforwardNeuralNetwork::_add_layer, EdgeFeedforwardNeuralNetwork::add", "source/dnn/dropout.cpp: DropoutLayer::DropoutLayer", "source/dnn/layer.hpp: LayerShape, Layer::output_shape", "source/dnn/dlmath.hpp: DLMath::kernel_slide_output_shape"]}
{"id": "C96", "title": "A description gives the same network in both frameworks", "statement": "For every list of layer descriptors the framework of the repository and mlpack accept the same calls of add, create for each descriptor the layer it stands for and its activation, with the right sizes, report the same input and output sizes, and refuse to fit a network without layers.", "quantifier": "all input shapes, all lists of layer descriptors of any length whose windows fit", "why_tests_cant": "two implementations have to agree on every sequence of layers, and the tests only build with one of them", "anchors": ["source/middleware/mlpack_fnn.hpp: MlpackFNN::add, MlpackFNN::_add_layer, MlpackFNN::_add_activation_layer, MlpackFNN::input_size, MlpackFNN::output_size, MlpackFNN::fit", "source/middleware/fnn.hpp: EdgeFeedforwardNeuralNetwork::add, EdgeFeedforwardNeuralNetwork::input_size, EdgeFeedforwardNeuralNetwork::output_size, EdgeFeedforwardNeuralNetwork::fit"]}
{"id": "C97", "title": "Printing a model shows all its parameters", "statement": "print() of a model writes, layer by layer, every parameter exactly once and no other numbers (loss layers write their average loss and accuracy in percent); weights of dense layers stand behind their index; every header announces the dimensions of the numbers that follow it. Printing never misbehaves.", "quantifier": "all models, all layers of all sizes, all values of the parameters", "why_tests_cant": "the loops compute positions from the dimensions; tests only check that print does not throw", "anchors": ["source/dnn/model.cpp: Model::print", "source/dnn/dense.cpp: DenseLayer::print", "source/dnn/convolutional.cpp: ConvolutionalLayer::print", "source/dnn/recurrent.cpp: RecurrentLayer::print", "source/dnn/loss.cpp: LossLayer::print", "source/dnn/activation.cpp: ActivationLayer::print"]}
{"id": "C98", "title": "The scores of a model are those of the steps since the last reset", "statement": "After any sequence of step, train, predict and reset_score, avg_loss() of the model is the mean loss and accuracy() the fraction of correct predictions over exactly the samples passed to step since the last reset_score; each sample counts with what the model predicted when it was passed, with the parameters of that time. predict and train do not touch the scores. With several loss layers the scores are the means of theirs.", "quantifier": "all models, all sequences of calls of any length, all optimizers, all samples", "why_tests_cant": "the scores depend on the whole history of calls and on the parameters at each of them", "anchors": ["source/dnn/model.cpp: Model::step, Model::train, Model::predict, Model::reset_score, Model::accuracy, Model::avg_loss", "source/dnn/loss.cpp: LossLayer::set_target, LossLayer::accuracy, LossLayer::avg_loss, LossLayer::reset_score"]}
{"id": "C99", "title": "Training that returns has made every step", "statement": "If fit returns normally, in the sequential and in both thread-parallel modes, then every call of step in it has returned normally: an exception thrown in a step, also one thrown in a worker thread, is not lost.", "quantifier": "all data sets, batch sizes, numbers of epochs and threads, all optimizers, all models, all schedules of the worker threads", "why_tests_cant": "an exception may be thrown in any task of any round under any schedule", "anchors": ["source/middleware/fnn.hpp: Training::run", "source/dnn/model.cpp: Model::step"]}
{"id": "C100", "title": "Copies of a model can be used by different threads", "statement": "Copies of a model that get calls of predict, step and reset_score in any interleaving end in the same states as if each had got its own calls alone, and none of them fails because of the others.", "quantifier": "all models, all numbers of copies, all lists of calls on each of them, all interleavings", "why_tests_cant": "there are unboundedly many interleavings of the calls", "anchors": ["source/dnn/model.cpp: Model::Model(const Model&), Model::predict, Model::step", "source/type.hpp: SharedParams", "source/dnn/dlgraph.cpp: DLGraph::DLGraph(const DLGraph&)"]}
{"id": "C101", "title": "The order of the samples in a batch does not matter", "statement": "The steps of a batch add to the gradients the sum of what each sample adds on its own. So exchanging samples within the batches, between two calls of train, changes neither the parameters learned nor the state of the optimizer; in particular fit with a batch size of at least the number of rows does not depend on the order of the rows of the data set.", "quantifier": "all models, all histories of calls before, all lists of batches of any sizes, all permutations within the batches, all optimizers, data sets and numbers of epochs", "why_tests_cant": "there are unboundedly many orders, models and histories; gradients are accumulated in place by many functions", "anchors": ["source/dnn/model.cpp: Model::step, Model::train", "source/dnn/dense.cpp: DenseLayer::backward", "source/dnn/convolutional.cpp: ConvolutionalLayer::backward", "source/dnn/optimizer.cpp: Optimizer::train", "source/middleware/fnn.hpp: Training::run"]}
{"id": "C102", "title": "A JSON text is read as the value it denotes", "statement": "Reading a JSON text gives the value the text denotes: strings, numbers and booleans with their types, lists in order, dictionaries that give each key the last value the text gives to it, whatever the order of the fields; spaces between the parts of the text do not matter.", "quantifier": "all JSON texts of any length and depth of nesting, all orders of fields and repeated keys", "why_tests_cant": "texts of any length and nesting, read with seeks in the stream; tests read a few texts", "anchors": ["source/parser/json.hpp: operator>>(std::istream&, JsonItem&), operator>>(std::istream&, JsonDict&), operator>>(std::istream&, JsonList&), operator>>(std::istream&, JsonLeaf&)"]}
{"id": "C103", "title": "Data sets reach mlpack, and predictions come back, with their rows intact", "statement": "Converted to an Armadillo column or row, a data set gives data() in order; to a matrix, one column per row; to a cube, one slice per sequence with one column per row. fit() of a network of the mlpack framework trains on the pairs of input and label columns of the rows, in order, and visits each row epochs times; predict() returns one row for each row: what the library's network computes from its input columns.", "quantifier": "all data sets, all numbers of epochs, all networks of the library that work sample by sample", "why_tests_cant": "all sizes of data sets; a transposed or shifted matrix of a square data set looks right in a test", "anchors": ["source/data/dataset.hpp: operator arma::Col, operator arma::Row, operator arma::Mat, operator arma::Cube, to_arma", "source/middleware/mlpack_fnn.hpp: MlpackFNN::fit, MlpackFNN::predict, MlpackFNN::_fit"]}
{"id": "C104", "title": "After training, the scores are those of the last batch", "statement": "When a training run has returned, avg_loss() and accuracy() of the model are the scores of the steps of its last batch of samples, in every mode of parallelism.", "quantifier": "all models, data sets, batch sizes and numbers of epochs >= 1, all optimizers, all schedules of the worker threads", "why_tests_cant": "all numbers of samples, batches and epochs; in the parallel modes all orders in which the tasks finish", "anchors": ["source/middleware/fnn.hpp: Training::run", "source/dnn/model.cpp: Model::reset_score, Model::step, Model::avg_loss, Model::accuracy", "source/dnn/loss.cpp: LossLayer::reset_score, LossLayer::avg_loss, LossLayer::accuracy"]}
{"id": "C105", "title": "A network for several frameworks behaves like one network per framework", "statement": "After any history of calls of compile, fit, predict and evaluate on a network for several frameworks, some for one framework and some for all of them, the network of each framework has the state, and gave the results, that it would have and give if it alone had got its calls.", "quantifier": "all networks of the frameworks, all histories of calls with any arguments, with calls that return and calls that throw", "why_tests_cant": "histories of calls are unbounded, and any call may throw in any of the frameworks", "anchors": ["source/middleware/fnn.hpp: DynamicFeedforwardNeuralNetwork", "source/middleware/nn.hpp: DynamicNeuralNetwork::compile, DynamicNeuralNetwork::fit"]}
{"id": "C106", "title": "Adam never moves a parameter far in one step", "statement": "A step of Adam moves a parameter by at most the learning rate times a number that depends on the constants of Adam and the number of gradients seen only, whatever the gradients are, and that number cannot be made smaller. With the default constants, a history of calls on a model moves no parameter by more than 7.28 times the learning rate for each call of train in it, and a training run by no more than 7.28 times the learning rate for each batch of each epoch.", "quantifier": "all sequences of gradients of any sizes, all constants with 0 <= beta_1 < 1, 0 < beta_2 < 1, epsilon > 0; all models, inputs, targets, histories of predict, step, train and reset_score, all data sets, batch sizes and numbers of epochs", "why_tests_cant": "gradients and their history are unbounded; exploding gradients are just what tests do not produce", "anchors": ["source/dnn/adam_optimizer.cpp: AdamOptimizer::_train", "source/dnn/model.cpp: Model::train", "source/middleware/fnn.hpp: Training::run"]}
{"id": "C107", "title": "A small change of the input changes the prediction by little", "statement": "If each value of one input differs by at most e from that of another, each value of the prediction of a network differs by at most e times the product of the gains of the layers from the input to the output, whatever calls were made before. The gain of a dense layer is its largest absolute row sum of weights, of a convolution the largest absolute sum of the weights of a filter, a quarter for sigmoid, a half for softmax, and 1 for pooling and the other activations (max(1, alpha) for ELU). So a class that wins by more than twice this bound is predicted for all inputs within e. The bound is reached by some networks.", "quantifier": "all models without cycles of dense, convolution, pooling and activation layers, with branches, joins, several outputs and losses; all weights; all histories of predict, step, train and reset_score; all pairs of inputs", "why_tests_cant": "inputs are real vectors and weights are whatever training made of them; a test sees finitely many pairs", "anchors": ["source/dnn/model.cpp: Model::predict", "source/dnn/dense.cpp: DenseLayer::forward", "source/dnn/convolutional.cpp: ConvolutionalLayer::forward", "source/dnn/activation.cpp", "source/dnn/pooling.cpp", "source/dnn/dlmath.hpp"]}
{"id": "C108", "title": "Training does not change a model that already fits the data", "statement": "If a sequential model with a mean squared error predicts the label of every sample of a data set, a training run on this data set with gradient descent, or with an Adam optimizer that has seen no other gradients, returns, and afterwards every parameter has the value it had and every prediction is the same as before.", "quantifier": "all sequential models of dense, convolution, pooling and activation layers with clear gradient buffers, all parameters; all data sets they fit; all batch sizes >= 1, numbers of epochs, learning rates; all optimizers that do not move a parameter with gradient zero", "why_tests_cant": "all architectures, weights, data sets and lengths of training; a small drift would show after many epochs only", "anchors": ["source/middleware/fnn.hpp: Training::run", "source/dnn/model.cpp: Model::step, Model::train", "source/dnn/mse_loss.cpp: MeanSquaredLossLayer::backward", "source/dnn/adam_optimizer.cpp: AdamOptimizer::_train", "source/dnn/gd_optimizer.cpp: GradientDescentOptimizer::_train"]}
{"id": "C109", "title": "Predictions stay in the range of the last layer", "statement": "If the first output layer of a model is an activation layer, then, whatever calls were made before, the prediction for every input lies in the range of its function: positive values that sum to 1 for softmax, values strictly between 0 and 1 for sigmoid and between -1 and 1 for tanh, no negative values for ReLU, none below -alpha for ELU. A softmax, sigmoid or tanh layer anywhere on the way to the output bounds the predictions for all inputs at once: they differ from what the later layers make of zeros by at most the product of the gains of these layers.", "quantifier": "all models without cycles of dense, convolution, pooling and activation layers, with branches, joins, several outputs and losses; all weights; all histories of predict, step, train and reset_score; all inputs of any size of values", "why_tests_cant": "inputs and weights are unbounded; the extreme ones that training runs into are not in tests", "anchors": ["source/dnn/model.cpp: Model::predict", "source/dnn/activation.cpp: SoftmaxLayer::forward, TanhLayer::forward, SigmoidLayer::forward, ReluLayer::forward, EluLayer::forward", "source/dnn/dlmath.hpp: DLMath::stable_softmax, DLMath::sigmoid, DLMath::tanh, DLMath::relu, DLMath::elu"]}
{"id": "C110", "title": "A convolutional network treats all places of an image alike", "statement": "A rectangle of the output of a network of convolution, pooling and activation layers is computed from a rectangle of the image only, whose place and size follow from kernels, strides and paddings: changes of the image elsewhere do not show in it. If another image shows the same content in a rectangle moved by a multiple of the product of the strides, the output for it shows the same values in the rectangle moved by that multiple, as long as the rectangles lie inside the images.", "quantifier": "all models without cycles whose layers on the way to the output are convolution, max or average pooling or pointwise activation layers on images, with any kernels, strides, paddings, numbers of filters and weights; all histories of predict, step, train and reset_score; all pairs of images, rectangles and moves", "why_tests_cant": "all pairs of images and all places; a test compares a few", "anchors": ["source/dnn/model.cpp: Model::predict", "source/dnn/convolutional.cpp: ConvolutionalLayer::forward", "source/dnn/max_pooling.cpp: MaxPoolingLayer::forward", "source/dnn/avg_pooling.cpp: AveragePoolingLayer::forward", "source/dnn/dlmath.hpp: DLMath::cross_correlation, DLMath::max_pool, DLMath::avg_pool"]}
{"id": "C111", "title": "A small reported loss means a high reported accuracy", "statement": "After any calls of step, train, predict and reset_score, the average loss of a model with squared errors is not negative, is zero exactly if every step since the last reset was predicted exactly, and is at least the tolerance times the fraction of wrong predictions; for a model that ends with softmax and cross entropy, and targets that name a class, it is not negative and at least log 2 times the fraction of wrong predictions. The reported accuracy lies between 0 and 1 and is 1 exactly if every one of these steps was predicted correctly: up to the tolerance, or with the right class as the most probable one.", "quantifier": "all sequential models of dense, convolution, pooling and activation layers, all weights, tolerances, optimizers, inputs and targets, all histories of step, train, predict and reset_score with at least one step since the last reset", "why_tests_cant": "relates two counters over unbounded histories of samples and weights that change from step to step", "anchors": ["source/dnn/loss.cpp: LossLayer::accuracy, LossLayer::avg_loss, LossLayer::reset_score", "source/dnn/mse_loss.cpp: MeanSquaredLossLayer::forward", "source/dnn/cce_loss.cpp: CategoricalCrossEntropyLossLayer::forward", "source/dnn/model.cpp: Model::step", "source/middleware/nn.hpp"]}
{"id": "C112", "title": "A feature that is always zero is not trained", "statement": "If a feature is zero in every sample a model is trained on, the weights with which the dense layers at the input of the model read this feature are after any calls of predict, step, train and reset_score, and after any training run, what they were before: the samples say nothing about them.", "quantifier": "all models of any shape and with layers of all classes, all dense layers that read the input of the model only, all weights, targets, data sets, batch sizes, numbers of epochs and histories; all optimizers that do not move a parameter without gradient", "why_tests_cant": "weights could be touched through any gradient, buffer or optimizer state in any of unboundedly many steps; a test checks some of them", "anchors": ["source/dnn/dense.cpp: DenseLayer::backward", "source/dnn/dlmath.hpp: DLMath::dense_1", "source/dnn/model.cpp: Model::step, Model::train", "source/dnn/gd_optimizer.cpp: GradientDescentOptimizer::_train", "source/dnn/adam_optimizer.cpp: AdamOptimizer::_train", "source/middleware/fnn.hpp: Training::run"]}
{"id": "C113", "title": "Layers that no loss depends on are not trained", "statement": "In a model assembled with add_layer, add_loss, create_edge and create_loss_edge in any order, a layer from which no loss layer can be reached along the connections (a spare head, the layers behind the last loss) keeps its parameters: no history of predict, step, train and reset_score, and no training run on any data set with any number of epochs and any batch size, changes them.", "quantifier": "all models of any shape with layers of any class, all layers without a path to a loss, all histories of calls, data sets, epoch numbers and batch sizes, and all optimizers that leave parameters without gradient alone", "why_tests_cant": "there are infinitely many shapes, histories and data sets; a test trains one model for a few steps", "anchors": ["source/dnn/model.cpp: Model::step, Model::train, Model::create_loss_edge", "source/dnn/dlgraph.cpp: DLGraph::backward_run", "source/dnn/optimizer.cpp: Optimizer::train", "source/dnn/adam_optimizer.cpp: AdamOptimizer::_train"]}
{"id": "C114", "title": "What layers that no loss depends on contain does not influence what the others learn", "statement": "Take a model assembled with add_layer, add_loss, create_edge and create_loss_edge in any order, and the same model with other parameters in layers from which no loss layer can be reached. After the same calls of predict, step, train and reset_score, or the same training run, every other layer of the two models has the same parameters, gradients, outputs and scores, the optimizer has the same state, and the predictions are equal if a loss can be reached from the output layer. This holds for gradient descent and Adam.", "quantifier": "all models of any shape with layers of any class, all parameter values of the layers without a path to a loss, all histories of calls on which both models return, data sets, epoch numbers and batch sizes, and all optimizers whose state depends on gradients only", "why_tests_cant": "it compares pairs of executions for all values of the hidden parameters; a test compares one pair", "anchors": ["source/dnn/model.cpp: Model::step, Model::predict, Model::train", "source/dnn/dlgraph.cpp: DLGraph::training_forward_run, DLGraph::backward_run", "source/dnn/optimizer.cpp: Optimizer::train", "source/dnn/adam_optimizer.cpp: AdamOptimizer::_train"]}
{"id": "C115", "title": "The order of the features does not matter", "statement": "Reordering the features of all samples, and the columns of the weights of the dense layers that read them, changes nothing: after any calls of predict, step, train and reset_score, or any training run, these layers again differ in the order of their columns only, all other parameters, gradients, outputs and scores are the same, and so are all predictions.", "quantifier": "all models of any shape in which the samples go to dense layers to which nothing is connected, with later layers of any class; all numbers and orders of features, weights, samples, histories, data sets, batch sizes and numbers of epochs", "why_tests_cant": "compares pairs of executions for all orders and all histories; a test compares one pair", "anchors": ["source/dnn/dense.cpp: DenseLayer::forward, DenseLayer::backward", "source/dnn/dlmath.hpp: DLMath::dense, DLMath::dense_1", "source/dnn/model.cpp: Model::step, Model::predict, Model::train", "source/dnn/gd_optimizer.cpp: GradientDescentOptimizer::_train", "source/dnn/adam_optimizer.cpp: AdamOptimizer::_train", "source/middleware/fnn.hpp: Training::run"]}
{"id": "C116", "title": "Only the ratio of learning rate and batch size matters", "statement": "Two models that differ only in the batch size their loss layers were made for, and that have no gradients yet, are trained in the same way by gradient descent if the learning rates are in the ratio of the batch sizes: after any calls of predict, step, train and reset_score (or any training run) they have thrown the same exceptions, they have the same parameters, outputs and scores, and they predict the same. With Adam the same holds for one learning rate if the epsilons are in the inverse ratio of the batch sizes, so that the batch size matters only as far as epsilon does.", "quantifier": "every model of any layers connected in any way, every pair of batch sizes, learning rate, sequence of calls, data set, number of epochs", "why_tests_cant": "A test compares two runs; that nothing but a common factor of all gradients changes must hold for every layer class, graph and history, and the two runs differ in every gradient.", "anchors": ["source/dnn/loss.cpp:LossLayer", "source/dnn/gd_optimizer.cpp", "source/dnn/adam_optimizer.cpp", "source/dnn/model.cpp:step", "source/dnn/model.cpp:train"]}
{"id": "C117", "title": "The origin of the labels does not matter", "statement": "Take a model with mean squared error losses and dense layers before them that are connected to nothing else, and the same model with a constant added to each bias of these dense layers (the same constants for the same outputs). If the constants are added to the labels as well, then any calls of predict, step, train and reset_score, and any training run, with gradient descent or Adam, do the same with both models: they throw the same exceptions, afterwards the biases still differ by the constants, all other parameters, gradients and scores are the same, and each prediction of the second model is that of the first plus the constants.", "quantifier": "every model assembled with add_layer, add_loss, create_edge and create_loss_edge of that shape, with layers of any class before the last dense ones, every vector of constants, learning rate, optimizer state, sequence of calls, data set, number of epochs and batch size", "why_tests_cant": "A test compares two runs; that training sees only differences of predictions and labels must hold for every graph, history and state of the optimizer.", "anchors": ["source/dnn/dense.cpp:DenseLayer::forward", "source/dnn/mse_loss.cpp:MeanSquaredLossLayer", "source/dnn/dlmath.hpp: DLMath::squared_error, DLMath::squared_error_1", "source/dnn/model.cpp:step", "source/dnn/model.cpp:predict", "source/dnn/gd_optimizer.cpp", "source/dnn/adam_optimizer.cpp"]}
