# Design of the formal model of EdgeLearning

Source: `/repo` (read as text, never built). Prover: Lean 4.33.0 with Mathlib.
Project: `/verif/lean`, library `Verif`. Build: `lake build` in `/verif/lean`.

* `properties.jsonl`: the properties in English.
* `lean/Verif/Exec.lean`: how a C++ call is represented.
* `lean/Verif/Model/`: the code, function by function; every definition cites the lines it models.
* `lean/Verif/Spec/`: small specifications, written without the model's helpers.
* `lean/Verif/Proofs/`: lemmas, loop invariants, inductions.
* `lean/Verif/Props/`: the property theorems `Cnn_…`, beside each an example that meets its hypotheses.
* `lean/Verif/Audit.lean`: generated, prints the axioms of every theorem named in the manifest.
* `MANIFEST.json`: theorems and remarks per property.
* `seeded/LOG.jsonl`: attempts to fool the theorems with wrong programs.

## Trusted base

* The kernel of Lean 4.33.0.
* The axioms `propext`, `Classical.choice` and `Quot.sound` of Lean's library and no others: the build
  prints them for each theorem (`Verif/Audit.lean`). There are no axioms of our own, no `sorry` or
  `admit`, no `native_decide` or `bv_decide`.
* The translation by hand from C++ to the definitions in `Verif/Model/`.
* The specifications in `Verif/Spec/` and the statements in `Verif/Props/`.

## Conventions of the model

* **Outcome of a call.** `Exec α` is `ok a`, `throw message` or `ub`. Each access through a pointer or
  `operator[]` is a checked `rd`/`wr` that gives `ub` outside the buffer, so a theorem `f … = .ok r`
  also states memory safety. Where an exception leaves a partial update behind that a caller can see,
  the call returns the state together with the exception.
* **Loops.** `forUp n s body` is `for (i = 0; i < n; ++i)`; while-loops without an evident bound get a
  number of iterations (`fuel`), and the theorems say that every sufficient number gives the result.
  Proofs are by induction, without bounds on sizes.
* **Numbers.** `NumType` is `double`. Kernels that only add and multiply are generic in the number type,
  with the operations in the order of the program, so those statements hold for doubles too. Statements
  of calculus are about real numbers. Text of numbers: rationals with six decimals (`Decimal`).
  Floating-point numbers with rounding, infinities and NaN are modelled in `Float`, for any format with
  correctly rounded operations; the generic kernels run on them and the functions that call the C library
  are modelled again (C82). There zero has no sign, a division by zero gives NaN, and no operations are
  fused. `split` has the rounding of its products as a parameter.
* **Sizes.** `std::size_t` is `Nat`, except where the code wraps in practice (output sides of windows,
  the loop of the batch-parallel training mode): there arithmetic is modulo 2^64.
* **Threads.** A task is a list of atomic actions on shared memory (a read-modify-write of a double is
  two); a schedule is any interleaving. Theorems quantify over all schedules.
* **Randomness.** Generators, distributions and permutations are parameters that theorems quantify over.
* **Files** are lists of bytes or characters that do not change while they are used.
* **Shared state.** Where sharing matters (copies of models, JSON items) there is a memory of addressed
  objects, and it is proved that programs behave as if they worked on independent values (C40, C54).

## What is modelled

| code | model | not modelled |
|------|-------|--------------|
| `dnn/dlmath.hpp` | `Concat`, `Dense`, `Threads`, `Slide`, `Activation`, `Loss`, `Init` (distributions) | printing, `rand` helpers not used by layers, vectorised variants without callers |
| `dnn/layer.*`, `feedforward.*` | in each layer's model; sizes and saving in `Dump`; `clone` and the pointer to the last input in `Calls` | |
| `dnn/dense.*`, `convolutional.*`, `max_pooling.*`, `avg_pooling.*`, `pooling.*` | `Dense`, `Slide`, `Net` | |
| `dnn/activation.*`, `loss.*`, `mse_loss.*`, `cce_loss.*` | `Activation`, `Loss` | |
| `dnn/dropout.*`, `recurrent.*`, `concatenate.*` | `Dropout`, `Recurrent`, `ConcatLayer` | |
| `dnn/optimizer.*`, `gd_optimizer.*`, `adam_optimizer.*` | `Optimizer` | |
| `dnn/dlgraph.*` | `Graph` | |
| `dnn/model.*` | `Graph` (structure), `Net` (computation), `Init`, `Training` (copies), `Dump`, `Print` | decimal text of printed numbers |
| `middleware/fnn.hpp`, `nn.hpp` | `Fnn` (construction), `Training` (loops, threads), `Nn` (fit, predict, evaluate, compile) | progress output |
| `middleware/layer_descriptor.*`, `definitions.hpp` | `Fnn` (descriptors as data) | names |
| `data/dataset.hpp` | `Data`, `Encoding`, `Arma` | Armadillo itself (the documented meaning of its operations is modelled) |
| `parser/type_checker.hpp`, `json.hpp`, `csv.hpp`, `mnist.hpp`, `cifar.hpp`, `parser.hpp` | `TypeChecker`, `Json`, `JsonHeap`, `Csv`, `CsvRef`, `Number`, `Images`, `Encoding` | rounding and overflow of numbers read, colour output |
| `type.hpp` | `Training` (`SharedParams`), `Float` (`NumType`) | |
| `middleware/mlpack_*` | `Mlpack` (construction: layers created, shapes kept), `Arma` (data handed to the library and back) | the library itself, which is not part of the repository |
| `data/path.hpp`, `examples`, `tests`, `profile` | — | path constants; programs that use the library |

Also outside: allocation failure, locale, the algorithm of `std::mt19937_64`, compiler effects, and the
invalidated iterators in the loop of `fit` that adds loss layers (formally undefined; the model runs over
the layers as they are when the loop starts).

## How properties that the code does not have are treated

The negation is proved (`…_refuted`), for all cases where the code fails if that is possible, otherwise
on a witness; the part that holds is proved (`…_partial`); where it helps, the exact behaviour is proved
too. The manifest lists such a property as partial and its note says what is missing. No property of the
list is left without theorems.

## Per property

| id | property | what is modelled, how it is proved |
|----|----------|-----------------------------------|
| C01 | Concatenating two cubes places every element | append/concatenate as checked loops over flat arrays; loop invariant, injectivity of row-major indices |
| C02 | Separate undoes concatenate | extract/separate; from the placement theorems of both directions |
| C03 | N-way concatenate/separate are placement-correct and mutually inverse | N-way versions as loops over the list of cubes; induction over the list |
| C04 | Dense forward computes W x + b | dense and DenseLayer::forward; loop invariant, program-order and sum forms |
| C05 | Dense backward accumulates the exact gradients | dense_1; loop invariants, HasDerivAt, induction over calls |
| C06 | Threaded dense forward gives the sequential result on every schedule | tasks of memory actions; disjoint write sets, induction over interleavings |
| C07 | Threaded dense backward gives the sequential result on every schedule | same; refuted for input gradients by a lost update, weights and biases proved |
| C08 | Cross-correlation computes the zero-padded sliding dot product | kernel_slide with the convolution operation; invariants, sums |
| C09 | Output side formula is the number of kernel placements | output side modulo 2^64; arithmetic, refuted for kernels that do not fit |
| C10 | Max and average pooling compute the window maximum and mean | pooling kernels; folds |
| C11 | Convolution backward is the gradient of convolution forward | convolution backward; exchange of sums, HasDerivAt |
| C12 | Convolution layer uses its biases | convolution layer; refuted on a witness, single call proved |
| C13 | Max pooling backward routes each gradient to the window's maximum | max pooling backward; refuted, exact behaviour proved |
| C14 | Average pooling backward spreads each gradient evenly over its window | average pooling backward; refuted, exact behaviour proved |
| C15 | Activation derivatives are the derivatives | scalar activation functions; derivatives from Mathlib |
| C16 | Activation layers' backward uses the output correctly | activation layers; derivative through the output, refuted for negative alpha |
| C17 | Softmax is a probability distribution and stable softmax equals softmax | softmax over lists; sums of exponentials |
| C18 | Softmax backward is the Jacobian-vector product | softmax_1; product rule on sums |
| C19 | MSE loss and its gradient agree | mean squared error; value, gradient refuted for lengths above 1, partial scalings |
| C20 | Cross-entropy loss and its gradient agree | cross entropy; value, gradient refuted under the clamp |
| C21 | argmax returns the first index of the maximum | max_element loop; induction |
| C22 | Loss statistics count every evaluation since the last reset | loss layer as a state machine; induction over histories |
| C23 | Classification is counted correct exactly when the prediction's argmax is the active target class | decision of correctness; case analysis |
| C24 | Gradient descent subtracts eta times the accumulated gradient and clears it | parameter walk and update; induction over parameters and histories |
| C25 | Adam updates each parameter from that parameter's own gradient history | Adam; refuted on a witness, exact algorithm for the shared moments |
| C26 | train_check refuses layers of different size and changes nothing | train_check; all update rules |
| C27 | param(i) and gradient(i) enumerate all learnable values exactly once | addressing of parameters and gradients; arithmetic, bijection |
| C28 | Dropout drops and rescales consistently in forward and backward | dropout with any stream; induction over histories |
| C29 | Recurrent forward computes the recurrence and carries the hidden state | recurrent forward over offsets; induction over time, refuted for one step |
| C30 | Recurrent backward is backpropagation through time | recurrent backward; refuted, exact recurrences and their derivative reading |
| C31 | Model traversal executes each reachable connection exactly once and terminates | breadth-first runs of the graph; invariant of queue and marks, termination measure |
| C32 | Layers run after all their predecessors | same; refuted by a skip connection, proved for chains and the weaker orders |
| C33 | Input and output layers are always the layers without predecessors / successors | state of the graph under histories; invariants, three refutations |
| C34 | Graph edits are all-or-nothing | graph edits with the state they leave; case analysis, refutations at DLGraph level |
| C35 | Prediction of a sequential model is the composition of its layers | predict along runs; induction along the path, refutations for stateful layers |
| C36 | FNN construction builds exactly the described chain with matching sizes | add with descriptors; invariant over sequences of add |
| C37 | Sequential training visits every sample exactly once per epoch | training loop with fuel; induction, equality with the specified calls |
| C38 | Data-parallel training visits every sample exactly once per epoch | rounds of tasks; induction over schedules |
| C39 | Data-parallel training is schedule-independent | copies and shared parameters; refuted by a schedule; barrier executions proved order-independent and equal to gradient descent on the batches of the rounds |
| C40 | Copying a model shares parameters but not gradients or activations | memory of parameter vectors; invariant over histories |
| C41 | A dataset built from a flat vector is a truncation to whole sequences | Dataset from a vector; arithmetic of divisions |
| C42 | A dataset built from rows or sequences is consistent | Dataset from rows or sequences; refutation, partial |
| C43 | Accessors return exactly the stored cells | accessors as checked reads; arithmetic |
| C44 | Inputs and labels partition every row | column sets; partition of rows |
| C45 | split partitions the dataset in order | split with a rounding parameter; refuted for the empty dataset |
| C46 | subdata returns the requested rows | subdata; arithmetic |
| C47 | shuffle is a permutation of whole rows | shuffle for every permutation; permutation lemmas |
| C48 | Min-max normalization maps each column onto [0,1] | normalization; order lemmas, refutations |
| C49 | Dataset concatenation | concatenation on three axes; arithmetic |
| C50 | Any sequence of dataset operations keeps the dataset consistent | histories of operations; invariant |
| C51 | One-hot encoding encodes labels and preserves inputs | label encodings; sorting lemmas, refutation for labels that are not last |
| C52 | Type detection is total and matches the documented grammar | regular expressions with derivatives; language equality, grammar |
| C53 | JSON print then parse is the identity | printer and stream reader; structural induction, refutations |
| C54 | JSON values behave like an ordinary tree of maps and lists | items in a heap; simulation between heap programs and trees |
| C55 | CSV random access is history-independent | file position state machine; invariant over histories, refutation |
| C56 | CSV iteration visits every data row once | iterators; induction, refutation of the last row |
| C57 | CSV row fields are the separator-delimited pieces of the line | splitting of lines; induction, refutation for empty fields |
| C58 | MNIST decoding | byte files; arithmetic, refutations |
| C59 | CIFAR decoding | byte files; arithmetic |
| C60 | Layer dump/load round trip | dump and load of each layer class; structural induction through JSON text |
| C61 | Seeded initialisation is reproducible and gives different layers independent weights | init with any engine and distribution; determinism, refutation of independence |
| C62 | ConcatenateLayer joins its inputs | ConcatenateLayer; refutations for all shapes, exact behaviour |
| C63 | Graph queries and adjacency matrices agree | graph queries; invariants |
| C64 | Fitting a feedforward network attaches its loss once | loss layer attachment; invariant, refutation for the batch size |
| C65 | Converting a whole CSV file lists every row | conversions of CSV files; induction |
| C66 | CIFAR label names are the lines of the names file | file of names; induction over lines |
| C67 | Printing an image shows every pixel | text of images; refutation by overflow, partial |
| C68 | A loaded layer computes like the saved one | settings of loaded layers; refutations, sizes proved |
| C69 | A model saved to a file and loaded is the same model | model files; induction over layers, refutations |
| C70 | Training steps compute the gradient of the loss | step along the runs of a path; dropout layers of pass t replaced by diagonal dense layers (Spec/Thin); chain rule by induction over the layers (each layer's backward is the adjoint of its derivative), sum over samples |
| C71 | Fitting with gradient descent is gradient descent | fit with gradient descent; C37 turns it into calls, C70 and C24 make each batch a descent step, induction over batches |
| C72 | Predicting a data set predicts every row | predict of data sets; invariants of the layers under every call (shapes kept, parameters kept by predict and evaluate), then C35 for each row; refutation for labelled data |
| C73 | Evaluation reports the mean loss and the fraction of correct predictions | evaluate as reset, steps and means; induction over samples on the score of the loss layer |
| C74 | A network is trained with what it was last compiled with | states of dynamic networks; invariant over all sequences of calls, refutation for compile that throws |
| C75 | Using a model while it is trained does not change what it learns | two runs related layer by layer up to the buffers a step overwrites; the relation is kept by each call |
| C76 | Fitting a network again starts afresh | two networks of the same shape are related again by the seeded initialisation; an invariant over the history gives the same shapes and cleared gradients |
| C77 | Fitting on well-formed data completes | a plan gives each layer its sizes; the invariant that every layer has buffers of these sizes makes each call return and is kept by each call |
| C78 | Array functions read their operands before they overwrite them | the array functions on one memory with positions for the arrays; loop invariant: the numbers stored so far are right and the rest is unchanged, with the overlap hypothesis keeping what is still to be read |
| C79 | Training with a small enough learning rate lowers the loss | the cost of a path is a differentiable function of all parameters jointly (closed classes of functions), one step decreases it to first order, a walk of fixed length stays in a neighbourhood in which slopes change little, so the decrease survives; refutation with a model evaluated in full |
| C80 | Numbers in a CSV file are read as the numbers they spell | the stream extraction (gathering of characters, then strtod) is modelled character by character over rationals; it is shown to accept exactly the numerals of a small grammar and to give their value, then combined with the theorems on CSV histories and data sets; refutations by evaluation |
| C81 | CSV objects, rows and fields are independent values | programs over numbered variables with explicit references to the vectors of types and destroyed objects, compared by a simulation relation with a small specification in which everything is a value; refutations by evaluation of programs |
| C82 | Rounding errors stay small | the kernels are generic in the number type and are run on a type of floating-point numbers with infinities and NaN over any correctly rounded format (IEEE double is constructed and shown to be one); error bounds by induction over the sums in program order; the statement on networks by a calculus of limits over formats, layer by layer |
| C83 | Finite inputs give finite results | the floating-point functions are evaluated symbolically with an order argument: rounding is monotone and keeps zero and one, so ranges are preserved, the sum of the exponentials is at least one (or infinite), and its inverse at most one; the sum of the outputs by the error bounds of C82 |
| C84 | A classifier's gradient is prediction minus target | exact algebra for real numbers; for double an error analysis of the four roundings of each element, where underflow is bounded by the smallest prediction allowed; refutation by evaluating logits whose exponential underflows |
| C85 | A layer differentiates at the input of its last training pass | a program is a list of calls on layers and vectors; the code's machine keeps the address of the last input, the specification's machine a copy; a simulation shows that both see the same in every program that does not write, destroy or overwrite a vector some layer points to before that layer runs again, and that every training loop over a chain of layers is such a program; refutations by evaluating programs that write, destroy or predict in between |
| C86 | A model with several losses is trained on their sum | loop invariants over any order of connections in which every connection follows one that ends where it starts (the runs are proved to list all connections once, in such an order): forwards, every layer visited holds the value of the composed layer functions; backwards, every layer visited holds the adjoint gradient and the input layer the sum over the branches that arrived; the derivative of the sum is the sum of the chain rules of the branches; refutation by evaluating a step of a model whose losses share a second layer |
| C87 | A network saved and loaded predicts as before | every layer is Lipschitz in its inputs and parameters: sums of products by the triangle inequality, sigmoid, tanh and softmax by the mean value theorem, the exponential unit by cases, max pooling by comparing maxima; induction over the layers composes the bounds into `drift`; joined with the theorems that saving and loading restores every number to within half a millionth and that predict is the composition of the layer functions, on a path or, for acyclic models of any shape, along the walk that forward connections determine; a weight below half a millionth refutes exactness |
| C88 | Training in floating point follows exact gradient descent | limits along the filter of ever more precise formats: every kernel of the floating-point pass tends to its exact value if its arguments do (derivatives of rectifiers because the sign of a number that is not zero is eventually right); induction over layers gives the pass, over samples the batch, over batches the run; the limit of the gradients is the derivative of the cost by the chain rule of C70, so the limit of the parameters is a gradient descent, which is unique |
| C89 | A model of any shape whose sizes agree can be used without a crash | a layout gives every layer of the graph its input and output size (for a recurrent layer, those of all time steps); the runs are proved to expand only layers whose inputs were computed before (every arc of a run follows one that ends where it starts or starts at an input), so that no pass reads an unset buffer; every call keeps the layout, and induction over the history gives totality; an acyclic graph is reached from its inputs by induction on the arcs; refutations by evaluating step on three small models: one layer with a loss (no input list), a loss layer without an edge, and a cycle no input reaches |
| C90 | Append and extract move slabs of arrays of any rank | coordinates are lists of any length and positions are computed by Horner's rule; the offsets loop is proved to compute the products before and after the axis, the copy loops to be injective, and positions to split at the axis |
| C91 | Values stored in JSON come back with their type | the extraction of an integer by a stream is modelled character by character (blanks, sign, digits, range); the decimal text of an integer is shown to be read back as the integer; lists and dictionaries follow by induction, the way through a file from the round trip of C53 |
| C92 | A value that does not have the type asked for is reported | exact description of the texts for which the conversion succeeds, and of the value for those for which it fails; structure errors by cases; the claim about texts is refuted because the result of the conversion is ignored |
| C93 | A sample missing from an image file is reported and does no harm | the stream is modelled with its end-of-file and failure bits; an invariant (no failure, same file) gives the records as long as all samples asked for are in the file; the claim is refuted for every incomplete file: the failure bit set by one short read is never cleared, and every later read leaves the zeros the buffers are initialised with |
| C94 | Fitting a linear network finds the least squares fit | by C71 a run of fit is gradient descent on the squared errors; for one dense layer they are a quadratic function of the coefficients (biases as coefficients of an additional input 1), whose smoothness is bounded by the squared lengths of the inputs; the standard estimate for gradient descent on a convex smooth function, summed over the epochs, gives the rate, and the rate the limit |
| C95 | Layers of a network work on the grid the layers before them give | the shape kept by the builder follows the specified grid, by induction over the descriptors, as long as no dropout layer flattens it before a layer with a window; counterexamples for dropout |
| C96 | A description gives the same network in both frameworks | the arguments of the constructors of mlpack and the shape kept by its adapter, by induction over the descriptors; comparison with C95; counterexamples for dropout and for rejected descriptors |
| C97 | Printing a model shows all its parameters | the output as a list of items; loops by induction, positions in row-major order; counterexamples for the headers of recurrent layers and for no filters |
| C98 | The scores of a model are those of the steps since the last reset | relation between a model and the log of (target, prediction) pairs since the last reset; invariant: the counters of the loss layer are those of the log; steps by the step along a path of C70; for other shapes by the traversal of C31, which calls a loss layer behind one layer once |
| C99 | Training that returns has made every step | runs that return are split at a step or a task; in an execution the result of every task is taken after it, and taking a result with an exception throws |
| C100 | Copies of a model can be used by different threads | induction over the interleaving with C40_call: a call changes the state of its own copy only; conversely each call finds its copy in the state of its own calls |
| C101 | The order of the samples in a batch does not matter | relation between two models that differ in the accumulated gradients only: a step adds the same amounts to both (shift by any vector, then the bisimulation of C75); sums are invariant under permutations |
| C102 | A JSON text is read as the value it denotes | relation between texts and values (a grammar); for every text that denotes a value, reading it from any position leaves the stream behind it, by induction over the relation; maps with sorted keys are determined by their lookups |
| C103 | Data sets reach mlpack, and predictions come back, with their rows intact | Model/Arma: the conversions of data sets to Armadillo vectors, matrices and cubes, and fit/predict of MlpackFNN up to the calls of the library (Train gets two matrices and the optimizer's arguments; Predict is a parameter that works sample by sample). The columns of the matrices are shown to be the rows of the data set, for all consistent data sets. |
| C104 | After training, the scores are those of the last batch | the calls of the sequential loop (C37) keep the relation between a model and its log of C98, and reset_score empties the log at the start of every batch; in the thread-parallel modes the counters are in the members of the model object itself, which only reset_score changes |
| C105 | A network for several frameworks behaves like one network per framework | Model/Multi: the map of networks, with the networks themselves as arbitrary state machines that may throw; induction over the history of calls, with the keys of the map as invariant. The exact set of calls that reach the second framework is computed by a separate function of the specification |
| C106 | Adam never moves a parameter far in one step | first moment bounded by the second with the inequality of Cauchy and Schwarz, by induction over the gradients seen (the one stream of C25_adam_actual); the default constants by a bound on three geometric sums; models by an invariant of the optimizer's state and of the distance of every parameter from its start, over histories of calls and over the calls of a training run (C37). Numbers are reals |
| C107 | A small change of the input changes the prediction by little | the per-layer bounds of C87 with parameters that do not move give the gain of a layer; induction over the layers on the walk to the first output layer; the invariant of C35 (sizes kept by every call) for histories |
| C108 | Training does not change a model that already fits the data | partial correctness of the backward functions of all layer classes: zero gradients in, zero gradients out, nothing added for the parameters (loop invariants); the backward run reaches a layer only from the loss layer or a layer reached before; the loss layer's gradients are zero when the prediction is the target; the optimizer writes back what it read; induction over the batches |
| C109 | Predictions stay in the range of the last layer | sizes and classes of the layers on the walk to the output after any history (C107); the functions of the activations have the ranges by calculus; a bounded layer followed by layers with gains (C107) compared with zeros |
| C110 | A convolutional network treats all places of an image alike | the outputs of convolution and pooling by coordinates (C08, C10); the cells a placement covers; induction over the layers from the output to the input; the geometry of the layers is preserved by every history |
| C111 | A small reported loss means a high reported accuracy | the scores as means over the log of steps (C98); predictions of softmax are probabilities (C109) at every point of the history, as layers keep their shapes; a wrong prediction costs at least the tolerance, resp. log 2; induction over the log |
| C112 | A feature that is always zero is not trained | an invariant of the whole model state (the gradients and the remembered input of the column are zero, its weights are the old ones) preserved by every loop of step, train, predict, reset_score and fit, also if a call throws; for Adam the exact first step of a layer with two weights |
| C113 | Layers that no loss depends on are not trained | for every graph built with the four operations, the run from the losses along the backward connections stays among layers from which a loss can be reached (the backward connections are the training connections turned round); forward passes of every layer class keep parameters and gradients, so a layer outside that run has zero gradients for ever, and an optimizer that leaves parameters without gradient alone keeps its parameters: an invariant over histories and training runs. Adam's moments are shared by all parameters of the model, so there it is refuted with a model of two dense layers. |
| C114 | What layers that no loss depends on contain does not influence what the others learn | noninterference: a relation between two models (equal layers where a loss can be reached, equal gradients and sizes elsewhere) is kept by every forward pass, backward pass, training and reset when both executions return, because the sources of connections into needed layers are needed; an induction over histories and over the training loops of two runs side by side. |
| C115 | The order of the features does not matter | a simulation between the two models (columns of weights and of their gradients in the other order in the layers that get the samples, all else equal): sums over the features do not depend on their order, the backward pass adds to each column what it adds to the one it stands for, whether a loop returns depends on lengths only, and the input gradients of the first layers are never read; by induction over histories and training loops the second execution returns whenever the first does. Adam's moments are shared by all parameters and depend on their order, so there it is refuted with a model of two features. |
| C116 | Only the ratio of learning rate and batch size matters | All layer classes of `AnyLayer` and any graph. `rescaled c` (Spec/Rescale.lean) multiplies all gradient buffers of a layer and the factor of a loss layer by `c`. Proved by a simulation that follows both runs call by call, with equal exceptions and undefined behaviour (`SameEnd`): every `backward` is linear in the gradients it gets, every `forward` ignores them, and an update with gradient descent or Adam cancels the factor. The corollaries for batch sizes use that zero gradients stay as they are. Numbers are reals: rounding (and, for factors that are not powers of two, exact equality in floating point) is not covered. |
| C117 | The origin of the labels does not matter | A simulation that follows both runs call by call with equal exceptions and undefined behaviour (`SameEnd`): the forward pass of a dense layer with moved biases gives moved outputs whatever the output buffer held, the squared error and its derivative see only the difference of prediction and target, so all gradients agree, and gradient descent and Adam change a parameter by an amount that does not depend on where it is. That a call never reads an output before computing it is proved for the arcs of every run (`run_ready`). Numbers are reals: in floating point the differences are rounded differently. |
