# Formal model of Relintai/pmlpp in Lean 4

## 1. Approach

`pmlpp` is a C++ machine-learning library on three container classes (`MLPPVector`, `MLPPMatrix`,
`MLPPTensor3`: manually `realloc`ed `real_t` arrays behind reference-counted handles) and stateless
numeric services (`MLPPLinAlg`, `MLPPStat`, `MLPPActivation`, `MLPPCost`, ...), on top of which sit the learners.

The model is an *executable imperative* model: a heap of objects, methods in a state monad with the outcomes

* `ok` - normal return,
* `crash` - a deliberate abort (`CRASH_COND`, `CRASH_BAD_INDEX`),
* `ub` - C++ undefined behaviour (out-of-bounds access, NULL dereference, unbounded recursion, integer overflow
  of a float-to-int conversion).

`lean/Verif/Base.lean` defines it. A handle (`Ref`) is an object number or null, so **aliasing** (`a.mult(a)`) is in
the model. A data array is a list of cells. Memory that was allocated but never written (`memrealloc`) holds
*arbitrary* values: the heap carries an oracle `junk` of such contents, `memrealloc` keeps the prefix and takes
the new cells from the oracle, and every theorem is about every oracle. A method whose result depends on
uninitialised memory therefore cannot be proved to return a definite value.

Loops are `forN`/`foldN` (counted), or structural/well-founded recursion; code whose termination is not structural
(`softmax_derivm` calls itself) takes a fuel argument, running out of it is `ub`, and the theorem is for every fuel.

Element type: the container theorems are for an arbitrary type with arbitrary operations `+ * - / < ==`
**without laws**, so they hold for IEEE `float` and `double` bit by bit (NaN and infinities included). Algebraic
properties (determinant, softmax sums to one, derivatives) are about exact real arithmetic (`ℝ`);
rounding is not modelled, and each such theorem says so by its type. `MathFns`/`HasInf` (`Scalar.lean`) supply
`Math::exp`, `sqrt`, ..., and `MLPP_INFINITY`-like constants; `Real.lean` instantiates them with Mathlib's functions
(`erf` is defined there by its integral). Lean's `x / 0 = 0` stands for C++ infinities/NaN, so a real-number theorem
says nothing about C++ runs that divide by zero; where this matters the theorem assumes the divisor non-zero.

Layout: `Verif/Model/*` definitions with source citations; `Verif/Lemmas/*` proofs; `Verif/Spec/*` small
independent specifications; `Verif/Props/*` the property theorems (`C01_...`) with non-vacuity examples.

Where the code violates the property, the violation is proved as a theorem `..._fails` on a concrete witness (or on a
whole class), the true part is proved as `..._partial`, and the finding is listed in section 4.

### Specification vocabulary

* `Runs m h Q` : running `m` on heap `h` returns normally (no crash, no ub) and result and heap satisfy `Q`.
* `IsVec h i u`, `IsMat h i A`, `IsTen h i T` : object `i` has exactly the shape and the cells of the mathematical
  vector `u : Fin n → R`, matrix `A : Matrix (Fin r) (Fin c) R`, tensor.
* `Keeps h h' P` : all objects existing in `h` and not in `P` are unchanged in `h'`.
* `ReturnsMat m h A` : `m` returns a *new* object holding `A` and keeps every old one; `SetsMat m h o A`: object `o` holds
  `A` afterwards and all others are kept. Same for `Vec`, `Ten`.
* `Table`/`MOp`/`MRel` (Spec/Rows), `Stack`/`TOp`/`TRel` (Spec/Slices), list of elements (Spec/Vector): call histories of a
  container against a mathematical list.
* `Lifts l f m`, `Lifts2` (Spec/Lift): `m` maps the scalar function `f` over an object into a new one, rejecting null
  and mismatched operands.
* Spec/Stat (mean, sample covariance, median, residual sums), Spec/Softmax, Spec/Activation (set where an
  activation is differentiable), Spec/Cost (loss functions and partial derivatives), ...

## 2. Per-property plan

See `MANIFEST.json` for the current theorem names.

| property | modelled code | proof method |
|---|---|---|
| C01, C02 | all container methods of MLPPVector | invariant + refinement to `List`, induction over the call list |
| C03, C09 | guards of the methods | direct computation on the model |
| C04 | erase_multiple_unordered with find/remove_unordered | well-founded loop, `List.Perm` to a filter |
| C05 | find | loop invariant |
| C06 | SortArray (introsort, heap sort, partition, insertion sort) | loop invariants, permutation + sortedness |
| C07 | ordered_insert | loop invariant, `List.Pairwise` |
| C08, C10, C31 | all element-wise methods, heap with aliasing | one loop lemma about aliasing reads and writes, instantiated |
| C11 | duplicate_fast | freshness of the allocated object |
| C12-C14 | dot, norms, distance, max/min element, cross | fold lemmas, Mathlib inequalities |
| C15 | get_data/set_data | round trip |
| C16 | is_equal_approx | loop = `all`; real arithmetic |
| C17, C32 | element_get/element_set | index arithmetic injectivity |
| C18 | row operations | refinement to a list of rows |
| C19, C20, C25, C26, C30 | mult*, transpose*, kronecker*, identity, ... | nested loop invariants; Mathlib `Matrix` |
| C21-C24, C27 | det, cofactor, adjoint, inverse, solve, powern, pinverse | Laplace expansion, Mathlib `Matrix.det`, `adjugate` |
| C28 | create_rotation_matrix | trigonometric identities |
| C29 | cov, covo | loop invariants |
| C33-C35, C46, C47 | tensor slices, rows, flatten, contraction, construction | refinement to a list of slices, index arithmetic |
| C36-C42, C48 | MLPPStat | real analysis, Cauchy-Schwarz, power-mean inequalities |
| C43 | scalar activations and their derivatives | Mathlib `HasDerivAt` |
| C44 | softmax family | loop invariants, then positivity/sum/shift over `ℝ`, Jacobian by `HasDerivAt` |
| C45, C49 | vector/matrix activations, run_activation_* | composition of element-wise operations (`Ev` framework) |
| C50 | element-wise part of MLPPLinAlg | reduction to the container methods it calls |
| C51, C52 | matrix part of MLPPLinAlg | reduction to the MLPPMatrix theorems where the loops agree, otherwise the same invariants; `detm` by induction on the dimension |
| C53 | gram_schmidt_process, qrd | loop invariant: each finished row is the normalised remainder after projection on the rows before; orthonormality by induction from linear independence |
| C54 | cholesky | loop invariant: the finished cells satisfy the equations of L L^T = A; pivots positive because the leading blocks' Schur complements are |
| C55 | reductions of MLPPLinAlg | reduction to C12, C13 |
| C56 | `*nvt` functions | induction over the list |
| C57 | losses of MLPPCost over the reals | one lemma for the common loop, sums over `Fin n` / cells |
| C58 | derivatives of MLPPCost, dual_form_svm | composition lemmas for element-wise calls, then `HasDerivAt` in Mathlib |
| C59 | run_cost_* (function pointers are modelled by the functions) | case analysis, C57, C58 |
| C60 | MLPPReg over the reals | loop lemmas, `HasDerivAt`, subgradient inequality |
| C61 | createMiniBatches (lists), create_mini_batches* (heap) | loop invariants: prefix of the list of pieces; new objects collected so far |
| C62 | the performance functions over the reals | loop counting, uniqueness of the nearest integer |
| C63 | TF_PN and the metrics | fold over the zipped lists |
| C64 | the initialisers, for a stream of draws given as a parameter | loop invariant; integer division lemma for the failing kinds |
| C65 | segment on lists of characters | equation with a scanner by structural recursion; induction over the pieces of the text |
| C66 | tokenize | loop invariant: tokens written so far are ranks among the different words so far |
| C67 | remove_spaces, remove_empty | strong induction on the remaining length |
| C68 | remove_stop_words, remove_stop_words_vec (list of stop words and lower-casing as parameters) | strong induction; stopped programs as none |
| C69 | vec_to_set, split_sentences | fold = firsts; concrete refutation |
| C70 | create_word_list, bag_of_words | the word list as the firsts of the concatenated words; three nested loop invariants |
| C71 | tfidf with the contents of fresh memory as an oracle | loop invariants for counts, presence and frequencies; exact result with the junk, then the two cases |
| C72 | Array::shuffle with arbitrary random numbers, train_test_split | every swap is a permutation; row copy loops |
| C73 | one_hot_rep (conversion to int as truncation), reverseOneHot | cell-by-cell fill |
| C74 | feature_scaling, mean_centering, mean_normalization over the reals | row loops; facts about maximum, mean and variance |
| C75 | the file as a list of characters with a position and an end-of-file flag; get_line, get_csv_line, store_csv_line | induction over the entries with the scanner state as invariant |
| C76 | set_data_*, load_* over the lines of the file, String::to_double a parameter | fold invariants over the lines |
| C77 | difference quotients over the reals | mean value theorem, Taylor's formula with remainder |
| C78 | callbacks as functions of the list of elements; perturbed copies in the heap | fill loops; repeated mean value theorem |
| C79 | Newton, Halley (iteration), inverse quadratic interpolation (vector as queue) | monotone convergence; Lagrange interpolation; loop invariant |
| C80 | Euler loops with conversion to int | loop invariants; local error by Taylor, discrete Gronwall |
| C81 | row matrices, products, tensor times vector; branch of the test for 2 variables (the eigenvalue branch is a parameter) | run lemmas of the parts; classification of binary quadratic forms |
| C82 | object as a structure of its fields; train calls the modelled statistics | least squares theorem of C41, its uniqueness |
| C83 | loops over vector and matrix, pool arrays as lists | loop invariants; Chebyshev-like counting |
| C84 | both loops with scratch vectors, hash map as set of keys | invariant on the list of neighbours; counting of the rows nearer than row 0 |
| C85 | class counts as function on integers, conversion to int with its range | loop invariants; argmax |
| C86 | object as a structure of its fields; handles (possibly null) as `Ref`; evaluate functions | composition of the specifications of products, sums and activations |
| C87 | the epoch loop, with forward pass, error, gradient, regularisation and bias | invariant: `Chain` of gradient steps; descent lemma for smooth convex functions, bound of 1/epochs |
| C88 | epoch loop with the inverse of the normal matrix | invariant `Chain` of Newton steps; strict convexity |
| C89 | the code with its guard on NaN in the inverse | least squares orthogonality; a counterexample for the intercept |
| C90 | random draws as an arbitrary sequence `pick`; batches by create_mini_batches | invariant over epochs and batches |
| C91 | the seven loops, one rule of update each | one lemma for all loops, one relation of state and rule for each |
| C92 | padded copy, window loop, map cells, with the index arithmetic of the code | loop invariants for the scratch copy and the fill of the result; general law for any stride, a family of counterexamples |
| C93 | window collection and reduction, slices of a volume | as C92, with the specifications of the reductions |
| C94 | the three cases of each border test | cell-wise fill; arctan2 by complex arguments |
| C95 | nested loops with the integer shift of the centre | cell-wise fill, exponentials are injective |
| C96 | five nested loops and the order of the indices as written | scratch fill of a tensor, concrete volume as counterexample |
| C97 | composition of C94, C95, C92 and hadamard products | composition of specifications |
| C98 | the literals of the constructor | reduction to C92; sums of literals |
| C99 | four nested loops | fill; orthogonality from sums of roots of unity |
| C100 | SVC methods on the object record of Model/Glm.lean with the hinge loss and its slope | the training engine of C87/C90; subgradient inequality of the hinge loss; counterexamples |
| C101 | SoftmaxReg methods on an object record with matrix weights (Model/SoftmaxReg.lean) | loop invariant over epochs with the handle calculus of Lemmas/HandleM; gradient of the cross entropy of a softmax computed with HasDerivAt; counterexamples |
| C102 | MLP methods on an object record (Model/Mlp.lean) | loop invariant over epochs with the handle calculus and the tactics of Lemmas/Thread; chain rule with HasDerivAt for both layers; counterexamples |
| C103 | the methods of a hidden layer on a record (Model/Layers.lean) | handle calculus, element-wise lifts of the activation functions (C45); counterexamples |
| C104 | the methods of an output layer on a record (Model/Layers.lean) | the same |
| C105 | the methods of a layer with several outputs (Model/Layers.lean) | the same |
| C106 | MLPPANN as a record with a list of layer records (Model/Ann.lean) | induction on the list of layers, over dependent parameter types; counterexamples |
| C107 | compute_gradients, update_parameters and the training methods (Model/Ann.lean); the adaptive methods are C136 | back-propagation by induction on the layers equals the directional derivative (chain rule); loop invariants; counterexamples |
| C108 | apply_learning_rate_scheduler (Model/Ann.lean) | direct |
| C109 | model_test, model_set_test (Model/KMeans.lean) | loop invariant: the first nearest among the centroids seen; counterexamples |
| C110 | initialize and both initialisations (Model/KMeans.lean), random rows as parameters | loop invariants; counterexamples |
| C111 | _evaluate (Model/KMeans.lean) | loop invariants over rows and centroids; counterexample |
| C112 | train, _compute_mu, _cost (Model/KMeans.lean); silhouette_scores is modelled without a theorem | induction over the turns; the mean minimises the squares |
| C113 | constructor, evaluatev/evaluatem, model_test, model_set_test, score (Model/ExpReg.lean); pow on the reals | loops as sums |
| C114 | gradient_descent, sgd (Model/ExpReg.lean), random rows as parameters | invariant over the epochs; derivative of the loss by every parameter; counterexample |
| C115 | mbgd (Model/ExpReg.lean) | invariant over the batches; counterexample |
| C116 | constructor, propagatev/m, evaluatev/m (Model/DualSvc.lean) | loop invariants, sums |
| C117 | gradient_descent, alpha_projection (Model/DualSvc.lean) | invariant over the epochs; gradient of the dual objective (C58) |
| C118 | the bias part of gradient_descent (Model/DualSvc.lean) | exact recursion; counterexamples |
| C119 | evaluatev/m, propagatev/m, score, constructor, initialize (Model/TwoLayer.lean, Model/SoftmaxNet.lean) | composition of the specifications of the matrix operations |
| C120 | train_gradient_descent, train_sgd, train_mbgd (Model/SoftmaxNet.lean) | invariant over the epochs; chain rule for the two layers; counterexamples |
| C121 | evaluatev/m, propagatev/m, score, constructor, setters (Model/TwoLayer.lean, Model/AutoEncoder.lean) | composition of the specifications of the matrix operations |
| C122 | gradient_descent, sgd, mbgd (Model/AutoEncoder.lean) | invariant over the epochs; chain rule for the two layers; counterexamples |
| C123 | eigen of MLPPMatrix and of MLPPLinAlg (Model/Eigen.lean); the loop with a bound on the number of rounds | invariant over the rounds (orthogonal transformation, trace, symmetry); exactness of one rotation for 2 x 2 and diagonal matrices; counterexamples |
| C124 | the three checks (Model/Eigen.lean) | quadratic form in the basis of eigenvectors |
| C125 | svd, svdb, MLPPLinAlg::svd (Model/Eigen.lean) | C123 for A At and At A; uniqueness of sorted values; determinants for the counterexamples |
| C126 | the whole class (Model/Pca.lean) | composition of C29, C74, C125; square roots of positive semidefinite matrices; Pythagoras for the score |
| C127 | the whole class (Model/Mann.lean), on top of the layers of C103 and C105 | composition over the list of layers; induction on the network |
| C128 | gradient_descent (Model/Mann.lean) | invariant over the epochs; the gradient of the output layer from C43, C44, C58 by the chain rule; counterexamples for hidden layers |
| C129 | the whole class (Model/GaussianNb.lean), with NaN and minus infinity for logarithms (Model/NaiveBayes.lean) | exact run of the training, loop invariants; the answer is constant |
| C130 | the whole class (Model/BernoulliNb.lean); the capacity of the maps is a parameter | exact run of the training by a rule for computations that run or stop the program (Guarded); products over the vocabulary; divergence by induction on the capacity |
| C131 | the whole class (Model/MultinomialNb.lean); the uninitialised scores are a parameter | partial correctness (Ends): invariant of the training; independence from the input |
| C132 | the whole class (Model/Gan.lean), with the noise and the random numbers of each pass as parameters | run of the layers from the lemmas of C103–C106; a stack of layers is split into generator and critic (Lemmas/GanBuild.lean) |
| C133 | as C132; training is modelled up to the first gradients | partial correctness (Ends) over all histories of calls |
| C134 | the whole class (Model/Gan.lean) | as C132 |
| C135 | the whole class (Model/Gan.lean) | back-propagation as in C107; the steps are descriptions by derivatives of the loss (Spec/Gan.lean); loop invariants |
| C136 | all seven methods (Model/AnnOpt.lean): moments as lists of matrices and a vector on the heap, with arbitrary first contents | each rule is proved for any number of layers by lifting element-wise operations to lists of matrices; one generic proof of the loops for any rule (Lemmas/AnnOptTrain.lean) |
| C137 | stemming, String::erase, String::substr (Model/Stemming.lean) on lists of characters | the loop is followed word by word; a suffix fits only at the end of a word |
| C138 | MLPPKMeans::silhouette_scores (Model/KMeans.lean); infinity as `none`, not-a-number as a parameter | loops over points and centroids followed with the heap invariant; the value of each score is given exactly, with the two divisors the code really uses |
| C139 | Image (size, format, bytes grouped by pixel) with get_pixel, set_pixel, create, clear, resize for the one-byte formats; MLPPMatrix::get_as_image, get_into_image, set_from_image (Model/Image.lean) | loops over bytes and pixels with the image or the matrix described cell by cell; round trips from bounds on the floor function |
| C140 | the z slice image functions of MLPPTensor3 (Model/Image.lean) | loop over pixels with an invariant on the cells already written; which component ends in a slice computed by a function on the list of targets |
| C141 | the x and y slice image functions of MLPPTensor3 (Model/Image.lean) | as C140, with cells out of range read as zero and not written |
| C142 | to_std_vector, to_flat_std_vector, set_from_std_vector(s), set_row_std_vector, set_from_ptr, set_from_mlpp_vectors (Model/StdVec.lean; a std::vector is a list, the memory behind a pointer a list, null is none) | loops with an invariant on the cells already read or written; reuse of the row representation of C18 |
| C143 | lsa (Model/Lsa.lean) on top of bag_of_words (Model/Text.lean) and MLPPLinAlg::svd (Model/Eigen.lean) | loop invariant for the truncation, composition with the theorems of C70 and C125; refuted for sentences of one word each |
| C144 | the scalar activation functions and their vector and matrix versions (Model/Activation.lean, Model/Softmax.lean) | a separate specification (Spec/ActivationValue.lean) that describes inverse functions by what they invert and the normal distribution function by Mathlib's measure; real analysis, and C45 for the liftings |
| C145 | word_to_vec (Model/WordToVec.lean), everything before the training separately; training is the model of C119 | the pairs are a permutation of the pairs of near places (induction on the loops); the vocabulary of the pairs against that of the sentences; loop invariants for the matrices |
| C146 | setters, getters, the empty constructor (Model/GlmSetters.lean) and `initialize` (Model/Glm.lean) of MLPPProbitReg; a session is a list of calls | induction on the history for the getters; loop invariants of `initialize`; readiness as in C86 |
| C147 | the template HashMap of platform/sfw.h (Model/HashMap.lean): arrays as functions, elements identified by their keys, the linked list as a list; the load factor computed exactly rather than in float | the Robin Hood order (the probe length grows by at most one from a place to the next, and is zero after an empty place) is an invariant; simulation by a list of pairs, induction on the history |
| C148 | Vector and CowData of platform/sfw.h (Model/Cow.lean): blocks with reference count, size, allocated bytes and elements; realloc always moves; atomic operations sequential; element destructors and sort not modelled | representation invariant (reference count = number of pointers, elements fit into the allocated bytes) kept by every operation; simulation by lists, induction on the history; bitwise induction for next_power_of_2 |

## 3. Trusted base

* Lean 4.33.0 kernel; axioms `propext`, `Classical.choice`, `Quot.sound` only.
* The reading of the C++ source (no extraction, no differential testing here): every model definition cites the lines.
* `int` is modelled as unbounded (no overflow), sizes are non-negative, allocation never fails
  (except `resize(n<0)` on a vector, which is `crash`).
* Reference counting of the library's objects is not modelled: objects are never freed (their memory cannot be reused while
  reachable). For `Vector` it is (C148).
* Error printing (`ERR_PRINT` part of the `ERR_FAIL` macros) is not modelled; the control flow is.
* Evaluation order of operands is left to right.
* Where `abs` is applied to a `real_t`, the `<cmath>` overload (`fabs`) is assumed.
* `Vector`, `HashMap`, `HashSet` and `String` inside other functions are modelled as lists, maps and character lists; C147, C148 and C149 prove
  that `HashMap` and `Vector` behave so.

Not modelled: `to_string`, printing and `save`/`print_ui` wrappers, `to_byte_array`, method binding (`_bind_methods`), threads,
file I/O below the level of lines, the random number generators (where a modelled function draws random numbers, they are an
argument or an oracle), the platform library apart from `Image` pixels, `SortArray`, `HashMap`, `Vector`/`CowData`, and the functions
of `MLPPData` that return empty results (`rgb2ycbcr`, `rgb2hsv`, `rgb2xyz`, `xyz2rgb`).

## 4. Findings (code violates the property)

Each is a proved theorem `Cnn_..._fails` on the model.

| where | what | theorem |
|---|---|---|
| MLPPVector::cos | computes `sqrt` | C10_cos_inplace_fails |
| MLPPVector::division_element_wise | writes through a null pointer | C08_division_inplace_fails |
| MLPPVector::find with negative start | out-of-bounds read | C05_find_negative_ub |
| MLPPVector / MLPPMatrix unchecked null operands | NULL dereference | C09_null_operand_fails, C09_diagonal_zeroed_null_fails |
| MLPPVector::max_element_index | -1 when all elements are -inf | C13_all_neg_inf_fails |
| SortArray | NaN breaks the order | C06_nan_fails |
| MLPPMatrix::mult, multb, transposeb | wrong under aliasing | C19_*_fails, C20_transposeb_aliased_fails |
| MLPPMatrix::mult_vec | accepts a vector that is too short | C09_mult_vec_accepts_short_fails |
| MLPPMatrix::det, inverse | wrong for 1x1 | C21_det_one_by_one_fails, C22_inverse_one_by_one_fails |
| MLPPMatrix::kronecker_product | out-of-bounds write | C25_kronecker_product_fails |
| MLPPMatrix::pinverse | uses A*A | C27_*_fails |
| MLPPMatrix::create_rotation_matrix | axis 2 and axis -1 singular | C28_*_fails |
| MLPPMatrix/Tensor3 scalar_multiplyb, scalar_addb | ignore the operand | C31_scalar_b_fails, C31_tensor_scalar_b_fails |
| MLPPTensor3::z_slice_remove_unordered | out-of-bounds read | C33_remove_unordered_fails |
| MLPPTensor3::row_get_vector | ignores z | C34_row_get_vector_fails |
| MLPPTensor3 x/y slices | coordinates swapped | C35_*_fails |
| MLPPTensor3::set_from_mlpp_vectors (ragged) | uninitialised cells | C47_ragged_fails |
| MLPPStat::median (odd), midrange, neuman_sandor_mean, mode (empty) | wrong value / ub | C37, C38, C42, C39 `_fails` |
| MLPPActivation::run_activation_* | flag inverted | C49_*_fails |
| MLPPActivation::run_activation_deriv_real | evaluates the activation | C43_run_deriv_real_fails |
| MLPPActivation leaky_relu (c>1), selu, gelu, mish(0), arsech, cloglog | wrong derivative | C43_*_fails, C45_cloglog_*_fails |
| MLPPActivation several `_normm`/`_derivm`/arcsch_derivv | return null or NULL dereference | C45_*_fails |
| MLPPActivation softmax_derivv, softmax_derivm, adj_softmax | returns softmax / infinite recursion / int overflow | C44_*_fails |
| MLPPLinAlg::scalar_multiplynm (null), maxnm (shapes) | ub | C50_*_fails |
| MLPPMatrix::cov, covo, MLPPLinAlg::covnm | result has the shape of the operand instead of rows x rows | C29_cov_wide_fails, C29_cov_tall_partial |
| MLPPLinAlg::detm, inversenm (1 x 1) | determinant 0 | C52_detm_one_by_one_fails |
| MLPPLinAlg::linear_independence_checker | asks for the determinant of A^T A with the number of rows of A: wrong for matrices that are not square | C52_linear_independence_fails |
| MLPPLinAlg::mat_vec_multnv | accepts a shorter vector | C51_mat_vec_multnv_fails |
| MLPPLinAlg::absnvt | returns its argument | C56_absnvt_fails |
| MLPPLinAlg::dotnv, sum_elementsv (null) | ub | C55_null_fails |
| MLPPCost::msev, msem | multiplies by the size instead of dividing | C57_mse_fails |
| MLPPCost::rmsem | divides by the number of rows instead of cells | C57_rmsem_fails |
| MLPPCost losses of matrices | compare the number of cells only, so a row and a column pass | C57_shape_fails |
| MLPPCost losses (null) | ub | C57_null_fails |
| MLPPCost::hinge_losswm | passes a matrix where a vector is expected: always ub | C57_hinge_weights_matrix_fails |
| MLPPCost::mbe_derivm | result has the transposed shape | C58_mbem_fails |
| MLPPCost::mae_derivv, mae_derivm | sign of the truncated prediction instead of the sign of the error; conversion to int may be undefined | C58_mae_fails, C58_mae_range_fails |
| MLPPCost::huber_loss_derivv, huber_loss_derivm | sign of the prediction instead of the sign of the error beyond delta | C58_huber_fails |
| MLPPCost::rmse_derivm | factor sqrt/2 instead of 1/(2 sqrt) | C58_rmsem_fails |
| MLPPCost::rmse_derivm, log_loss_derivm, cross_entropy_derivm, hinge_loss_derivwm (sizes differ) | ub | C58_mismatch_fails |
| MLPPReg (null) | ub | C60_null_fails |
| MLPPUtilities::create_mini_batchesmv | outputs of every batch are the first ones | C61_outputs_fails |
| MLPPUtilities::create_mini_batchesm, create_mini_batchesmm | batches start at multiples of the number of batches instead of the batch size | C61_overlap_fails |
| MLPPUtilities::createMiniBatches (k <= 0) | ub | C61_nonpositive_fails |
| MLPPUtilities::weight_initializationm, weightInitialization | integer division: zero weights or zero deviation | C64_matrix_zero_fails, C64_matrix_normal_fails, C64_list_zero_fails |
| MLPPUtilities::bias_initializationv | does not write its argument | C64_bias_vector_fails |
| MLPPData::segment | after a punctuation mark the next character is skipped whatever it is | C65_segment_fails |
| MLPPData::remove_empty | of two adjacent empty strings one stays | C67_empty_fails |
| MLPPData::remove_stop_words_vec | stops the program if the first word is a stop word (not the last of the list) | C68_vec_fails |
| MLPPData::split_sentences | splits only at double full stops, loses the last character | C69_sentences_fails |
| MLPPData::tfidf | counts are added to a matrix that was never cleared: the result contains uninitialised memory | C71_tfidf_fails |
| MLPPData::reverseOneHot | returns the class number plus one | C73_reverse_fails |
| MLPPData::set_data_supervised and the loaders | a file that ends with a line break stops the program | C76_newline_fails |
| MLPPData::set_data_unsupervised | the caller's matrix holds the transpose; the transposed copy is dropped | C76_unsupervised_fails |
| MLPPNumericalAnalysis::cubic_approximationr, cubic_approximationv | 1 / 6 is an integer division: the third-order term is always zero | C77_cubic_approximationr_fails, C77_cubic_wrong_fails, C81_cubic_fails |
| MLPPNumericalAnalysis::linear_approximationv | multiplies a column by a row and takes the first entry: only the first variable counts | C81_linear_fails |
| MLPPNumericalAnalysis (float builds) | with the default real_t = float (sfw.h:293-295), x + 1e-10 == x for all |x| > 0.002, so num_diffr is 0 there; the model has exact arithmetic and does not see this | - |
| MLPPKNN::nearest_neighbors | every round starts from candidate 0 even when row 0 is already taken, so the list stops growing once row 0 is in it | C84_fails |
| MLPPKNN::determine_class | compares the row number of a neighbour with class numbers; the classes of the neighbours are never looked up | C85_majority_fails |
| MLPPTanhReg::set_output_set, get_output_set | convert a handle of a vector to a handle of a matrix, which is null: the outputs cannot be set or read | C86_tanh_set_output_set_fails, C86_tanh_get_output_set_fails |
| MLPPCLogLogReg::gradient_descent | multiplies by exp(-exp z), which is not the derivative of the link | C87_cloglog_fails |
| MLPPCLogLogReg::mle | steps with the wrong sign: the loss grows | C87_cloglog_mle_fails |
| MLPPLinReg::newton_raphson | the step is divided by the number of samples, so a learning rate of 1 is not a Newton step | C88_step_size_fails |
| MLPPLinReg::normal_equation | weights come from uncentred data, the bias is then computed as for centred ones: data exactly on a line are not fitted | C89_intercept_fails |
| MLPPTanhReg::sgd | throws away the result of the subtraction, the weights do not move | C90_tanh_reg_sgd_fails |
| MLPPLinReg::mbgd, MLPPLogReg::mbgd | every batch is compared with the outputs of the first batch | C90_lin_reg_mbgd_fails |
| mini-batch optimisers | a batch size of 0 or larger than the data set divides by zero | C90_batch_size_fails |
| MLPPTanhReg::mbgd | reads a handle never set: null dereference | C90_tanh_reg_mbgd_fails |
| MLPPProbitReg::mbgd | reads past the only element of the list of propagated values: null dereference | C90_probit_reg_mbgd_fails |
| MLPPLinReg adaptive optimisers | the integer division 1 / batch size is 0 for batches of two or more samples, the weights never move | C91_frozen_fails |
| convolve_2d, pool_2d, pool_3d, convolve_3d | for strides above 1 window number i >= 1 is taken at i + S - 1 instead of i * S | C92_stride_fails, C93_stride_fails |
| MLPPConvolutions::dx | the last column is recognised by the number of rows: wrong for images wider than high | C94_wide_fails |
| MLPPConvolutions::gaussian_2d | the exponent is multiplied by the variance instead of divided | C95_width_fails |
| MLPPConvolutions::gaussian_filter_2d | even sizes are not centred | C95_even_fails |
| MLPPConvolutions::convolve_3d | with several filters the result is zero; with one the channel index and the column index are exchanged | C96_several_filters_fails, C96_convolve_3d_fails |
| MLPPConvolutions::convolve_3d | the padding reads the volume in the same wrong order: an image of one channel loses all rows but the first | C96_padded_fails |
| MLPPConvolutions constructor | the vertical Sobel filter has the opposite orientation to the other pairs | C98_sobel_orientation_fails |
| MLPPTransforms::discrete_cosine_transform | uses the number of rows for both directions: images that are not square lose information | C99_wide_fails |
| MLPPSVC::train_gradient_descent | the bias is increased instead of decreased, by slopes taken at the predicted signs instead of the scores | C100_gradient_descent_fails |
| MLPPSVC::train_mbgd | the gradient step of the weights is computed with subn and dropped: the weights only decay | C100_mbgd_fails |
| MLPPSVC::set_output_set | takes a matrix, so the labels become null | C100_set_output_set_fails |
| MLPPSoftmaxReg::train_sgd | evaluates the outputs of the sample as if they were inputs: null dereference when there are more classes than columns | C101_sgd_fails |
| MLPPSoftmaxReg::train_mbgd | mini-batches overlap and leave samples out (create_mini_batchesmm) | C101_mbgd_fails |
| MLPPSoftmaxReg::initialize | the biases are never written | C101_create_partial, C64_bias_vector_fails |
| MLPPMLP::gradient_descent, sgd, mbgd | the step of the hidden layer uses the output weights already updated: not the gradient | C102_gradient_descent_fails |
| MLPPMLP::mbgd | only the outputs of the first mini-batch are ever used | C102_mbgd_fails |
| MLPPMLP::model_set_test | inputs of the wrong width: null dereference | C102_predict_fails |
| MLPPMLP::set_lambda and the other setters | take the object out of its set-up state, and initialize() draws new weights | C102_setters, C102_create_partial |
| MLPPHiddenLayer::set_* , MLPPOutputLayer::set_* | every setter marks the layer as not initialised, so the next forward pass draws new weights over those set | C103_setters_fails, C104_setters_fails |
| MLPPHiddenLayer::forward_pass | no outputs with softplus, softsign, swish; undefined behaviour with mish | C103_forward_fails |
| MLPPHiddenLayer() | a layer without inputs: null dereference in initialize, forward_pass, test | C103_no_input_fails |
| MLPPANN::forward_pass, model_set_test | all weights are drawn again in every pass (set_input marks a layer as not initialised): predictions on a set change the network, and training is lost | C106_set_test_fails, C107_gradient_descent_fails, C107_nothing_learned_fails |
| MLPPANN::sgd | the step for one sample uses the values of all samples: null dereference with more than one sample | C107_sgd_fails |
| MLPPANN without add_output_layer | null dereference in predictions and training | C106_no_output_fails |
| MLPPANN::cost | the penalty of the last hidden layer is left out (only printed) | — |
| MLPPKMeans::model_set_test | the answer has as many rows as the data set, not as the argument, and the search runs over the columns of the memberships | C109_rows_fails, C109_untrained_fails |
| MLPPKMeans::_kmeanspp_initialization | the largest distance is reset for every point (the last point that differs wins) and the last centroid is never chosen | C110_farthest_fails, C110_last_fails |
| MLPPKMeans::_evaluate | the index of the closest centroid is not reset from row to row: a point nearest to the first centroid joins the cluster of the point before it | C111_kept_fails |
| MLPPKMeans::_compute_mu | the sum has k elements instead of one for each column: unless k equals the number of columns no centroid ever moves; an empty cluster divides by zero | C112_stuck_fails |
| MLPPExpReg::gradient_descent, sgd | the slope by a weight lacks the factor `_initial[i]`: with a negative initial value the weight moves uphill | C114_gradient_descent_fails |
| MLPPExpReg::mbgd | the gradients of all columns go to the element with the number of the batch; the bias is never changed | C115_mbgd_fails |
| MLPPDualSVC::gradient_descent | the loop for the bias ends after the first sample, whether it is a support vector or not, and the wanted bias itself is subtracted instead of the distance to it | C118_margin_fails, C118_bias_partial |
| MLPPDualSVC::gradient_descent | the condition sum alpha_i y_i = 0 of the dual problem is ignored | C118_balance_fails |
| MLPPSoftmaxNet::evaluatev/m | outputs beyond the range of int are undefined behaviour (adj_softmax) | C119_predict_fails |
| MLPPSoftmaxNet::train_gradient_descent, train_sgd | the hidden layer is moved with the already updated output weights: no step of gradient descent | C120_gradient_descent_fails |
| MLPPSoftmaxNet::train_mbgd | the biases of the outputs are never updated | C120_mbgd_fails |
| MLPPAutoEncoder::set_input_set, set_n_hidden | nothing ever sets the object up again | C121_setters_fails |
| MLPPAutoEncoder::gradient_descent | the step of the biases of the outputs is not divided by the number of samples, and the hidden layer is moved with the already updated output weights | C122_gradient_descent_fails, C122_sgd_fails |
| MLPPAutoEncoder::mbgd | product in the wrong order: null dereference unless the number of hidden units is the size of a mini-batch | C122_mbgd_fails |
| eigen | the pivot is the largest entry, not the largest absolute value: with negative entries off the diagonal the loop stops at once and reports the diagonal as eigenvalues | C123_negative_fails, C124_negative_fails |
| eigen | equal eigenvalues get the same eigenvector, so the vectors are not orthogonal | C123_repeated_fails |
| MLPPLinAlg::zero_eigenvalue | the answer is inverted: true exactly if no eigenvalue is 0 | C124_zero_eigenvalue_fails |
| the definiteness checks | follow a null handle | C124_null_fails |
| svd | the signs of U and Vt are not matched, and Vt is V: the product is not the operand for any symmetric matrix with negative determinant, nor for multiples of the identity | C125_product_fails, C125_repeated_fails |
| MLPPPCA::principal_components | the covariance matrix is cut to as many columns as there are samples: components that are 0 for data that are not | C126_tall_fails |
| MLPPNumericalAnalysis::second_partial_derivative_test | with three or more variables the answers "saddle" and "test was inconclusive" are interchanged | C81_many_variables_fails |
| MLPPMANN::model_set_test, score, gradient_descent | the weights of all hidden layers are drawn again in every pass, so what they have learned is lost and the answers are those of another network | C127_set_test_fails, C128_hidden_fails |
| MLPPMANN::gradient_descent | the weights are not transposed when errors are carried from one hidden layer to the previous one: null is dereferenced if their sizes differ | C128_layers_fails |
| MLPPMANN::gradient_descent | with softmax the chosen loss is ignored | C128_softmax_loss_fails |
| MLPPMANN::initialize | accepts an object without data; predictions and training then dereference null | C127_no_data_fails |
| MLPPMANN | null data in the constructor and a missing output layer are dereferenced | C127_create_null_fails, C127_no_output_fails |
| MLPPGaussianNB::evaluate | the frequencies of the classes are never counted (they stay 0), so every input is assigned to class 0; (x * mu)^2 is used for (x - mu)^2; one mean and deviation for all features together | C129_constant_fails, C129_wrong_fails |
| MLPPBernoulliNB::compute_theta | frequencies are stored as int, without the fractional part | C130_rare_fails, C130_wrong_fails |
| MLPPBernoulliNB::compute_theta | the loop over the map inserts keys into it: with a value that is not a natural number it never ends | C130_values_fails |
| MLPPBernoulliNB::evaluate | the table is made before the vocabulary: a value larger than all values of one of the classes stops the program | C130_crash_fails |
| MLPPMultinomialNB | the vocabulary is never computed, so that answers do not depend on the input; the scores are not initialised, so that any class may be answered | C131_constant_fails, C131_any_fails |
| MLPPMultinomialNB::evaluate | the priors are not cleared between the passes | C131_priors_fails |
| naive Bayes classes | null data are dereferenced; initialize() accepts objects without data | C129_null_fails, C130_null_fails, C131_null_fails |
| MLPPGAN, MLPPWGAN: passes | every pass gives the layers a new input, which marks them as uninitialised, so that all weights are drawn again: nothing that was learned has an influence | C132_generate_fails, C134_generate_fails, C135_gradient_descent_fails |
| MLPPGAN::gradient_descent | the member _output_set, a matrix, is used as the vector of targets, and is null there: training always dereferences null | C133_training_fails |
| MLPPGAN, MLPPWGAN: generate_example, score | without layers the program stops, without an output layer null is dereferenced | C132_empty_fails, C132_no_output_fails, C134_empty_fails, C134_no_layers_fails |
| MLPPWGAN::add_output_layer | the kind of regularisation is ignored, and uninitialised memory used | C134_regularisation_fails |
| MLPPWGAN::gradient_descent | with one or two hidden layers the critic has none and judges the generated samples alone: null dereference | C135_shallow_fails |
| MLPPANN::adam | the moments of the output layer are resized only if one of them is empty and the other is not: their sum with the gradient is null and is dereferenced, always | C136_adam_fails |
| MLPPANN: adaptive training methods | the next pass draws all weights anew, so that no method has any influence: all of them find the network of mbgd | C136_no_influence_fails |
| MLPPANN::adadelta, adamax | adadelta does not decay the moment of the output layer; adamax uses the gradient instead of its absolute value in hidden layers (absnvt gives its argument back) | C136_adadelta_rule_partial, C136_adamax_rule_partial |
| MLPPANN: adaptive training methods | the moments start from uninitialised memory (resize does not clear) | the moments S in C136_*_partial are arbitrary |
| MLPPData::stemming | four spaces are added at the end of the text, and stay there | C137_padding_fails |
| MLPPKMeans::silhouette_scores | a is divided by the number of columns less one, not by the number of other points of the cluster; b is the sum over all points divided by the number of points that equal the centroid, so that scores of trained objects are not numbers | C138_fails, C138_one_column_fails |
| MLPPMatrix::get_into_image, get_as_image | undefined conversion to a byte for entries outside [0, 1] (more exactly: when the truncated product with 255 is not a byte); matrices with more than 16384 rows or columns leave the target as it was | C139_range_fails, C139_large_fails |
| MLPPTensor3::z_slices_add_image | increases the number of rows instead of the number of slices, then writes to slices with these row numbers | C140_add_image_fails |
| MLPPTensor3::*_get_into_image | a new image has no data, Image::resize refuses it, and the pixels are then written out of bounds (in debug builds nothing is written) | C140_new_target_fails |
| MLPPTensor3::x_slice_get_image, y_slice_get_image | row and column index are exchanged; cells that do not exist then are read as zero | C141_get_image_fails |
| MLPPTensor3::x_slice_get_into_image, y_slice_get_into_image, x_slice_set_image | the loop bounds are exchanged: the slice is transposed, and cut when it is not square | C141_x_get_into_fails, C141_y_get_into_fails, C141_x_set_fails |
| to_std_vector of MLPPVector, to_flat_std_vector of MLPPMatrix and MLPPTensor3 | take the address of the first element of an empty std::vector if the object is empty | C142_vec_get_empty_fails, C142_mat_flat_empty_fails, C142_ten_flat_empty_fails |
| MLPPMatrix::set_from_ptr | sets the data pointer to null without freeing it (leak); after a null argument the size stays, so reading a cell dereferences null | C142_ptr_null_fails |
| MLPPMatrix::set_from_std_vectors, set_from_mlpp_vectors | rows of another length than the first are skipped and keep uninitialised memory | C142_mat_ragged_fails, C142_vectors_ragged_fails |
| MLPPTensor3::set_from_std_vectors | reads the first row of the first plane although the plane may be empty | C142_first_plane_fails |
| MLPPData::lsa | takes rows of the matrix whose columns are the right singular vectors, and inherits the equal columns of svd: n sentences of one different word each give every word the same embedding | C143_same_fails |
| arsech_normr | the square root is missing: log(1/z + (1/z + 1)(1/z - 1)) is wrong everywhere on (0, 1) except at 1/sqrt 2 | C144_arsech_fails |
| leaky_relu_normr | for a slope above 1 the branches are swapped | C144_leaky_relu_fails |
| softmax_deriv_normm, softmax_deriv_derivm | mix the softmax of different rows; the matrices have the shape of the argument and are no Jacobian matrices for two or more rows | C44_jacobians_fails |
| MLPPData::word_to_vec | the loop that should fill the targets writes to the inputs again: the network is trained from the second words of the pairs to uninitialised memory | C145_training_fails, C145_targets_fails |
| MLPPData::word_to_vec | a word all of whose sentences have no other word has no row in the embeddings, so the rows after it belong to other words than those at their places in the returned list | C145_rows_fails |
| adj_softmax in the layers (MLPPHiddenLayer, MLPPOutputLayer, MLPPMultiOutputLayer) | the largest element is kept in an int: a pre-activation outside the int range is undefined behaviour in forward_pass and test | C103_overflow_fails, C104_overflow_fails, C105_overflow_fails |
| apply_learning_rate_scheduler (step) | the number of drops is converted to int: for a very small drop rate that overflows, undefined behaviour | C108_steps_fails |
| MLPPLinReg/MLPPLogReg::initialize | an empty object is marked as initialised without data; predictions and training then use a null pointer | C86_initialize_fails |
| CowData::resize | the bytes needed are rounded up to a power of two in 32 bits: for more than 2^31 bytes the result is 0, nothing is allocated and a null pointer is used | C148_large_fails |
| C149 | the template HashSet of platform/sfw.h (Model/HashSet.lean): key array with possibly missing keys, both index tables, uninitialised memory as an arbitrary function; the load factor computed exactly rather than in float; iterators as places, the iterator loop as a walk over the places | simulation of the Robin Hood table of C147 (elements = keys at the indices) plus the invariant that key_to_hash undoes hash_to_key; refinement of a list, induction on the history |
| C150 | the constructor without arguments, setters, getters, initialize and training of Model/Mlp.lean as calls of a history | invariant over histories (Props/MlpLife.lean), extended call by call: ownership of the object's vectors, flag = a declarative predicate on the history, readiness; uses the loop invariants of C102 |
| C151 | the constructor without arguments, setters and getters of MLPPSoftmaxReg (Model/SoftmaxSetters.lean), with initialize, needs_init and train_gradient_descent of Model/SoftmaxReg.lean as calls of a history | invariant over histories (Props/SoftmaxLife.lean): ownership of the object's matrices, their sizes against the last effective initialising; uses the loop invariants of C101 |
| C152 | all setters and getters of MLPPHiddenLayer (Model/LayerSetters.lean), with initialize, forward_pass and test of Model/Layers.lean as calls of a history | invariant over histories (Props/LayerLife.lean): the flag, the source of the weights in use, ownership of weights, biases and z; uses the specifications of C103 |
| C153 | all setters and getters of MLPPOutputLayer (Model/OutputSetters.lean), with initialize, forward_pass and test of Model/Layers.lean as calls of a history | invariant over histories (Props/OutputLife.lean), as for C152; the setter of the regularisation, alone, does not ask for new weights |
| C154 | all setters and getters of MLPPKMeans, with initialize, train, model_test, model_set_test and score of Model/KMeans.lean as calls of a history (Model/KMeansLife.lean) | a specification that folds over the history (data, clusters, rows drawn, turns since), and an invariant that relates it to the object and the heap (Props/KMeansLife.lean) |
| C155 | all setters and getters of MLPPMultiOutputLayer (Model/MultiSetters.lean), with forward_pass and test of Model/Layers.lean as calls of a history | invariant over histories (Props/MultiLife.lean): what each getter returns, and what weights and biases are in force |
| C156 | the setters, getters and default constructor of MLPPUniLinReg (Model/UniLinRegLife.lean), with train of Model/Simple.lean, as calls of a history | a specification that folds over the history (data, origin of each coefficient), and an invariant that relates it to the object (Props/UniLinRegLife.lean); least squares from C41 |
| C157 | the setters, getters and default constructor of MLPPSVC (Model/SvcLife.lean), with the methods of Model/Svc.lean, as calls of a history | a relation that says what each call does to what is known (C, parameters, predictions shown), chained over the history, and an invariant (Props/SvcLife.lean) from C100; the lost labels by induction over any history |
| C158 | the setters, getters and constructor of MLPPKNN (Model/KNNLife.lean), with the methods of Model/Simple.lean, as calls of a history | a specification that folds over the history (data and k set last) and an invariant (Props/KNNLife.lean); answers from C84 and C85 |
| C159 | the setters, getters and constructors of MLPPTanhReg (Model/TanhLife.lean), with the methods of Model/Glm.lean, as calls of a history | a relation that says what every call does to what is known of the object, an invariant and induction over the history (Props/TanhLife.lean); trainings from C87 and C90 |
| MLPPSVC::set_output_set, MLPPSVC() | a classifier made without data can never get labels, whatever is called; a call of set_output_set on any classifier makes it refuse for the rest of its life | C157_empty_fails, C157_set_output_set_fails |
- `MLPPTanhReg` made with `MLPPTanhReg()` is useless: `set_output_set` always stores null, so whatever is called afterwards every answer is 0 or null and no training does anything (C159_empty_fails); one call of it on a working object has the same effect for ever (C159_set_output_set_fails).
- `MLPPTanhReg::train_sgd` only regularises the weights, with every kind of regularisation; the data move the bias alone (C159_sgd_fails).
- C155: set_n_output and set_n_hidden of MLPPMultiOutputLayer change nothing but the answers of their getters: the weights keep the sizes of the constructor.
