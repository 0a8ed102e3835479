{
 "C06": {
  "note": "C06_sort is the whole property for a total order on the elements (any length, heap-sort fallback included). C06_nan_fails: with NaN the comparison is not an order and the result need not be sorted."
 },
 "C08": {
  "note": "All operations and variants proved except the in-place division_element_wise, which writes through a null pointer of a fresh vector (C08_division_inplace_fails)."
 },
 "C09": {
  "note": "Rejection proved for all methods that check; the methods that do not check (diagonal_zeroed, scalar_multiplyb, cross ..., mult_vec with a short vector) are refuted by the _fails theorems."
 },
 "C10": {
  "note": "All functions and variants proved except in-place cos, which computes sqrt (C10_cos_inplace_fails)."
 },
 "C13": {
  "note": "Proved for vectors with at least one value above -inf; with only -inf the index is -1 (C13_all_neg_inf_fails)."
 },
 "C19": {
  "note": "multn proved in full; mult and multb proved when the target is not an operand; under aliasing the code zeroes the operand first (the _fails theorems)."
 },
 "C20": {
  "note": "Aliased transposeb is wrong in the code (C20_transposeb_aliased_fails); everything else proved."
 },
 "C21": {
  "note": "Proved for every n >= 2; for 1x1 the code returns 0 (C21_det_one_by_one_fails)."
 },
 "C22": {
  "note": "adjoint in full; inverse for n >= 2; 1x1 inverse is wrong in the code (divides by 0)."
 },
 "C23": {
  "note": "Proved for n >= 2; 1x1 inherits the inverse failure of C22."
 },
 "C24": {
  "note": "n >= 0 in full; negative powers for matrices of size >= 2 (1x1 inherits C22)."
 },
 "C25": {
  "note": "kronecker_productn in full; b variant when not aliased; the in-place variant accesses memory outside the result for non-trivial shapes (C25_kronecker_product_fails)."
 },
 "C27": {
  "note": "The code forms A*A instead of transpose(A)*A: proved what it computes for square A, left inverse for symmetric A, refuted for the rest."
 },
 "C28": {
  "note": "Axes 0 and 1 proved; axis 2 and axis -1 are not rotations in the code."
 },
 "C31": {
  "note": "scalar_multiplyb / scalar_addb ignore their matrix operand (refuted); all other variants proved."
 },
 "C33": {
  "note": "All slice operations except z_slice_remove_unordered (reads outside the tensor) and the null get_into; both refuted."
 },
 "C34": {
  "note": "row_get_vector ignores z (refuted)."
 },
 "C35": {
  "note": "The code swaps the x and y coordinates: proved exactly what it computes (C35_slices_actual_partial), the property for slices symmetric in x,y, the set/get round trip for square slices; refuted in general."
 },
 "C37": {
  "note": "Even length proved; odd length: the code returns the wrong order statistic (refuted for every odd length: 0 for one element, not a median when the elements are distinct)."
 },
 "C38": {
  "note": "range proved; midrange computes range/2 (refuted)."
 },
 "C39": {
  "note": "Non-empty proved; on an empty vector the code reads outside the array (refuted, outside the stated domain)."
 },
 "C42": {
  "note": "All means proved except neuman_sandor_mean, which multiplies instead of dividing (refuted)."
 },
 "C43": {
  "note": "Every scalar derivative proved except those where the code is wrong: run_activation_deriv_real (evaluates the activation), leaky_relu for c > 1, selu (lambda dropped), gelu (rounded constants), mish at 0, arsech (missing square root), each refuted."
 },
 "C44": {
  "note": "softmax proved in full; adj_softmax proved unless the integer conversion of the maximum overflows (refuted there); Jacobian: softmax_deriv_normv proved, softmax_derivv refuted (returns softmax), softmax_derivm recurses forever. softmax_deriv_normm and softmax_deriv_derivm: what they compute is stated (C44_jacobians_partial), and that it is no Jacobian (C44_jacobians_fails)."
 },
 "C45": {
  "note": "Every activation whose vector/matrix version is not broken proved at all shapes; broken ones refuted one by one."
 },
 "C47": {
  "note": "Proved for lists of equal length / shape; with ragged input the tensor contains uninitialised cells (refuted)."
 },
 "C49": {
  "note": "The flag is inverted in the code: refuted for every activation; C49_vector_partial says what it does compute."
 },
 "C50": {
  "note": "Everything proved except: scalar_*nm with a null matrix is undefined behaviour; maxnm does not compare shapes (refuted)."
 },
 "C29": {
  "note": "Square matrices in full; for more rows than columns the result is cut to the number of columns (C29_cov_tall_partial); for more columns than rows the code uses rows that do not exist (C29_cov_wide_fails)."
 },
 "C51": {
  "note": "All in full except mat_vec_multnv with a short vector, which the code accepts (C51_mat_vec_multnv_fails)."
 },
 "C52": {
  "note": "n >= 2; 1x1 refuted."
 },
 "C55": {
  "note": "Everything except null operands of dotnv and sum_elementsv, which are dereferenced (C55_null_fails)."
 },
 "C56": {
  "note": "All functions except absnvt (returns its argument) and lists of different lengths (crash), both refuted."
 },
 "C57": {
  "note": "All losses except msev/msem (wrong factor), rmsem (divides by rows), hinge_losswm (always undefined), null operands; these are refuted."
 },
 "C58": {
  "note": "mse, rmse (vectors), log loss, cross entropy, hinge, Wasserstein, mbe (vectors) in full; mae and Huber only where the code's sign is right, mbe for square matrices; the rest refuted."
 },
 "C60": {
  "note": "Everything except null weights (C60_null_fails)."
 },
 "C61": {
  "note": "Lists in full for positive k. Matrices: inputs of create_mini_batchesmv in full; create_mini_batchesm/mm only when the number of batches equals their size; outputs of mv and other sizes refuted. The matrix versions drop the last n%k rows."
 },
 "C62": {
  "status": "proved",
  "note": "Labels below 99999 in absolute value for the approximate comparison of performance_vec and performance_mat; any integer label for the others."
 },
 "C63": {
  "note": "For lists of equal length; a shorter label list is undefined behaviour (C63_short_fails)."
 },
 "C64": {
  "note": "Vectors in full. Matrices and std::vectors: default and uniform kinds; the others are refuted because of integer division. bias_initializationv does nothing (refuted)."
 },
 "C65": {
  "note": "For texts in which every punctuation mark is followed by a space or ends the text; otherwise refuted."
 },
 "C67": {
  "note": "remove_spaces in full; remove_empty if no two empty strings are adjacent, otherwise refuted."
 },
 "C68": {
  "note": "remove_stop_words in full; remove_stop_words_vec if the first word is no stop word; otherwise the program stops (refuted)."
 },
 "C69": {
  "note": "vec_to_set in full; split_sentences refuted."
 },
 "C70": {
  "note": "For a lower-casing that leaves the space alone (String::to_lower does); the characters' conversion table is a parameter."
 },
 "C71": {
  "note": "Exact result including the uninitialised memory; the tf-idf numbers if that memory is zero; refuted otherwise. Sentences without words divide by zero (0 in the model)."
 },
 "C72": {
  "note": "The random numbers are arbitrary; that they are random is not a property of this code."
 },
 "C73": {
  "note": "one_hot_rep in full; reverseOneHot is off by one (refuted as an inverse)."
 },
 "C76": {
  "note": "For files whose last line has no line break, every line with enough fields; with a final line break refuted (crash); unsupervised refuted (transposed)."
 },
 "C79": {
  "note": "Over the reals; different function values are assumed for inverse quadratic interpolation (otherwise the code divides by zero). Halley's method: fixed points and degree one only."
 },
 "C81": {
  "note": "Linear term refuted for two or more variables, cubic term refuted; quadratic term and the second derivative test in full (two variables; for more variables the answer the code gives is stated)."
 },
 "C82": {
  "note": "Over the reals."
 },
 "C83": {
  "note": "Over the reals. For constant data the code computes 0/0 = NaN and reports nothing; the model computes 0 and reports nothing."
 },
 "C84": {
  "note": "Order and minimality in full; the number of neighbours is refuted in general and given exactly."
 },
 "C85": {
  "note": "The majority vote is refuted; what is computed instead is stated and proved, as are model_set_test and score relative to model_test. Outputs outside the range of int are excluded (undefined conversion)."
 },
 "C86": {
  "note": "Over the reals. Proved for all five models; the accessors of the outputs of MLPPTanhReg are refuted."
 },
 "C87": {
  "note": "Over the reals. Linear, logistic, tanh and probit in full, convergence for linear and logistic regression; complementary log-log is refuted."
 },
 "C88": {
  "note": "What the code does is proved to be a Newton step divided by the number of samples; the full step is reached for a learning rate equal to the number of samples. For at least two weights (the modelled inverse needs two or more)."
 },
 "C89": {
  "note": "The weights satisfy the normal equation without intercept; for centred data (column means zero) the result is the true least squares line; in general the claim is refuted."
 },
 "C90": {
  "note": "sgd: linear, logistic, probit and complementary log-log in full; tanh refuted. mbgd: what linear and logistic compute is stated exactly (the outputs of the first batch); right when there is a single batch; tanh and probit refuted. mbgd of complementary log-log: C90_cloglog_reg_mbgd_partial."
 },
 "C91": {
  "note": "Each optimiser follows a rule stated in Spec/Glm; it differs from the published one: gradient of the weights multiplied by an integer quotient, nag leaves its look-ahead applied, adagrad keeps no sum, adam's exponents count epochs, nadam uses uncorrected momentum. In adamax the code divides 0 by 0 where the model yields 0."
 },
 "C92": {
  "note": "Over the reals, for square results as the code makes them. Full for stride 1; for other strides the exact windows are stated, right when there are at most two a side, and the claim is refuted beyond."
 },
 "C93": {
  "note": "As C92. Greatest and least values need the constant infinity of the code to bound the cells."
 },
 "C94": {
  "note": "dy in full; dx for images at most as wide as high, exact law for all shapes, refuted for wider ones."
 },
 "C95": {
  "note": "Full for odd sizes and width 1; other widths and even sizes refuted, with the exact law."
 },
 "C96": {
  "note": "Exact law for every number of filters, stride and padding; the claim is refuted for one filter, for several, and with padding even for one channel."
 },
 "C98": {
  "note": "Cells and flat response in full; the orientation of the Sobel pair is refuted."
 },
 "C99": {
  "note": "Full for square images, refuted for others."
 },
 "C100": {
  "note": "Predictions, missing data and stochastic training in full; gradient descent: the weights follow the subgradient, the bias is refuted; mini-batches and set_output_set refuted."
 },
 "C101": {
  "note": "Predictions, missing data and gradient descent in full; stochastic training when there are at most as many classes as columns, refuted otherwise; mini-batches as the code forms them, refuted as a partition; creation without the biases."
 },
 "C102": {
  "note": "Predictions in full for the right width, refuted otherwise; the output layer makes exact steps of gradient descent, the hidden layer does not (characterised exactly, and refuted); mini-batches as the code forms them; creation without the hidden biases."
 },
 "C103": {
  "note": "Forward pass and test in full except the functions without a working matrix version (refuted) and, for adj_softmax, pre-activations outside the int range (undefined behaviour, refuted); setters refuted; the biases of a new layer are never written, so nothing is said about them."
 },
 "C104": {
  "note": "Forward pass, test and constructor in full, except adj_softmax outside the int range (refuted); setters refuted."
 },
 "C105": {
  "note": "Forward pass and test except the functions without a working matrix version and adj_softmax outside the int range (both refuted); setters and constructor, except the biases, which are never written."
 },
 "C106": {
  "note": "model_test in full for every activation function with pre-activations in the int range for adj_softmax; building except the biases of hidden layers, which are never written; model_set_test refuted (draws new weights)."
 },
 "C107": {
  "note": "Each step is proved to be exact gradient descent for networks of any depth, but training as a whole is refuted (weights redrawn). The adaptive optimisers are C136."
 },
 "C108": {
  "note": "All schedules; the step schedule as long as the number of drops is an int, undefined behaviour beyond (refuted)."
 },
 "C109": {
  "note": "model_test in full; model_set_test for trained objects and sets with as many rows as the data; the rest refuted."
 },
 "C110": {
  "note": "Random centroids and setters in full; k-means++ refuted (what it does is proved)."
 },
 "C111": {
  "note": "Exactly one cluster per point, and the exact cluster; nearest centroid only where it is not the first one (refuted there)."
 },
 "C112": {
  "note": "Full when k equals the number of columns (refuted otherwise), for non-empty clusters; the assignment is that of C111. score in full."
 },
 "C114": {
  "note": "What is done is proved for every number of epochs; it is gradient descent with the slope of each weight divided by its initial value (refuted otherwise), while the weights are positive; sgd of an empty data set is undefined."
 },
 "C115": {
  "note": "The full claim is refuted; proved for one column and one batch without the bias."
 },
 "C118": {
  "note": "The claim is refuted; the exact recursion of the bias is proved."
 },
 "C136": {
  "status": "partial",
  "note": "The rules are proved for all weights of networks of any depth; in adadelta the output layer and in adamax the hidden layers follow another rule, first moments are uninitialised, weights are drawn again before every step so that the methods have no influence (C136_no_influence_fails), and adam is always undefined (C136_adam_fails)."
 },
 "C137": {
  "status": "partial",
  "note": "Proved for all texts and lists of suffixes without separators; the result has four more spaces at the end than it should (C137_padding_fails)."
 },
 "C138": {
  "status": "partial",
  "note": "The exact value the code computes, for all data; it is the silhouette only by accident (C138_fails, C138_one_column_fails)."
 },
 "C139": {
  "status": "partial",
  "note": "Writing an image needs 1 to 16384 rows and columns and entries whose product with 255, truncated, is a byte (C139_large_fails, C139_range_fails); reading and both round trips are proved. Image formats with one byte for each channel."
 },
 "C140": {
  "status": "partial",
  "note": "Proved for slices of 1 to 16384 rows and columns and targets with data (C140_new_target_fails); z_slices_add_image adds rows (C140_add_image_fails). C140_clamped, C140_grey and C140_missing say what is read back for components outside 0 to 1, grey formats and missing channels."
 },
 "C141": {
  "status": "partial",
  "note": "y_slice_set_image proved; the others exchange row and column or transpose: what they do is given exactly (the _actual theorems), with the cases where this is right (_partial) and counterexamples (_fails)."
 },
 "C142": {
  "status": "partial",
  "note": "Proved for objects with at least one cell and lists of one length; the empty and ragged cases are undefined or leave uninitialised cells (the _fails theorems)."
 },
 "C77": {
  "status": "partial",
  "note": "All numerical derivatives, the linear and the quadratic approximation in full; the cubic term is never added (refuted)."
 },
 "C119": {
  "status": "partial",
  "note": "Predictions while the outputs are in the range of int (undefined behaviour beyond, refuted); score and missing data in full; the constructor without the biases, which are never written."
 },
 "C120": {
  "status": "partial",
  "note": "What every epoch does is proved: exact steps in the output layer, while the hidden layer follows the new output layer and mini-batches never change the output biases (refuted as gradient descent)."
 },
 "C121": {
  "status": "partial",
  "note": "Predictions, score and objects not set up in full; setters make the object useless (refuted); the constructor without the biases, which are never written."
 },
 "C122": {
  "status": "partial",
  "note": "What every epoch does is proved; it is not gradient descent (output biases n times too far, hidden layer through the new output layer), mini-batches are undefined in general: refuted."
 },
 "C123": {
  "status": "partial",
  "note": "Partial correctness for every square matrix (order, trace, unit eigenvectors, orthogonality relations), full correctness including termination for symmetric 2x2 and for diagonal matrices of any size; refuted for repeated eigenvalues and for negative off-diagonal entries from 3x3 on. Missing: termination in general."
 },
 "C124": {
  "status": "partial",
  "note": "Full for symmetric 2x2 and diagonal matrices of any size; zero_eigenvalue is inverted, and symmetric matrices with negative entries may be reported wrongly (refuted)."
 },
 "C125": {
  "status": "partial",
  "note": "Partial correctness for every matrix; 2x2 and diagonal matrices in full; the product of the factors is refuted in general."
 },
 "C126": {
  "status": "partial",
  "note": "Partial correctness for data with at least as many rows as columns; principal directions for two variables and for uncorrelated ones; refuted for more variables than samples. score, null and construction in full."
 },
 "C127": {
  "status": "partial",
  "note": "One input in full except adj_softmax; many inputs draw new hidden weights (refuted) and are right without hidden layers; building without the biases, which are never written."
 },
 "C128": {
  "status": "partial",
  "note": "Exact gradient descent without hidden layers and for the output layer with one; hidden layers are redrawn, several of different size are undefined (refuted)."
 },
 "C129": {
  "status": "partial",
  "note": "What is fitted is proved exactly; predictions are always class 0 (refuted)."
 },
 "C130": {
  "status": "partial",
  "note": "Training and prediction exactly as computed (frequencies truncated to integers); refuted as a Bernoulli classifier."
 },
 "C131": {
  "status": "partial",
  "note": "Range, consistency and score proved; predictions do not depend on the input (refuted)."
 },
 "C132": {
  "status": "partial",
  "note": "Building, splitting and scores proved; samples come from freshly drawn weights (refuted), missing layers stop the program or dereference null (refuted)."
 },
 "C133": {
  "status": "partial",
  "note": "Refuted: training never returns, from every reachable GAN state, for all arguments."
 },
 "C134": {
  "status": "partial",
  "note": "Building, layer access, splitting and scores proved; regularisation argument ignored, samples from freshly drawn weights, missing layers: refuted."
 },
 "C135": {
  "status": "partial",
  "note": "Each of the steps is proved to be exact gradient descent on the stated loss; the result is lost because weights are redrawn, and networks with one or two hidden layers are undefined (refuted)."
 },
 "C143": {
  "status": "partial",
  "note": "Shape, form and (for two sentences with two words) relation to the co-occurrences proved; the call ending is not, and the inner products are refuted by C143_same_fails."
 },
 "C144": {
  "status": "partial",
  "note": "All functions but arsech, which is refuted; gelu is specified as the usual sigmoid approximation. Matrix versions of swish, mish, softplus and softsign return null or read null (C45)."
 },
 "C145": {
  "status": "partial",
  "note": "Pairs proved; rows proved for sentences of two or more words and refuted otherwise; the matrices given to the network are characterised, and refute the claim about training. The training of the network from uninitialised targets is not described further."
 },
 "C146": {
  "status": "proved",
  "note": "All histories; the weights in [0, 1) are the numbers of the modelled random source."
 },
 "C147": {
  "status": "proved",
  "note": "All histories, key types, hash functions and initial capacities; the load factor of 3/4 is compared exactly rather than in float."
 },
 "C148": {
  "status": "partial",
  "note": "All histories, as long as no vector needs more than 2^31 bytes; beyond that resize uses a null pointer (refuted)."
 },
 "C157": {
  "note": "Proved for objects made with data and any sequence of set_c, data_z_set, data_bias_set and the three trainings (C157_history_partial), each with the step that the code really makes. For objects made empty the property is false for every history (C157_empty_fails), and so it is after any call of set_output_set (C157_set_output_set_fails). Missing: set_input_set, initialize and the setters of the vectors in the positive part."
 },
 "C158": {
  "note": "Everything but the meaning of the answers: how many neighbours there are and what is counted is described exactly by Answer; that it is the majority class among k neighbours is false (C84_fails, C85_majority_fails)."
 },
 "C159": {
  "note": "Proved for objects made with data and the calls of Admissible (C159_history_partial); set_output_set, objects made without data, get_output_set and train_sgd fail. Missing: set_input_set, initialize, the setters of the object's vectors, train_mbgd (undefined in general, C90_tanh_reg_mbgd_fails)."
 }
}