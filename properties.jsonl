{"id": "C01", "title": "Vector storage stays inside its allocation", "statement": "Starting from an empty MLPPVector, after any finite sequence of container calls (push_back, append_mlpp_vector, insert, ordered_insert, remove, remove_unordered, erase, erase_multiple_unordered, invert, fill, clear, reset, element_set, set_from_mlpp_vector, non-negative resize), with valid or invalid arguments, no call accesses memory outside the vector's storage or crashes, and size() is the number of stored elements.", "quantifier": "every finite sequence of container calls with arbitrary arguments, on every element type", "why_tests_cant": "the number of call sequences and sizes is unbounded; a test runs a few of them and out-of-bounds accesses may stay silent", "anchors": ["core/mlpp_vector.cpp::push_back", "core/mlpp_vector.cpp::remove", "core/mlpp_vector.cpp::insert", "core/mlpp_vector.cpp::resize", "core/mlpp_vector.cpp::append_mlpp_vector"]}
{"id": "C02", "title": "Vector behaves like a sequence", "statement": "For any sequence of container calls, what size(), element_get(i), find(x) return is what the same operations on an ordinary mathematical list would return (push_back appends, insert inserts, remove deletes the i-th, remove_unordered replaces the i-th by the last, erase deletes the first occurrence, invert reverses, fill overwrites, append concatenates, also when a vector is appended to itself).", "quantifier": "every sequence of calls and every content", "why_tests_cant": "refinement over all histories", "anchors": ["core/mlpp_vector.cpp::push_back", "core/mlpp_vector.cpp::insert", "core/mlpp_vector.cpp::remove", "core/mlpp_vector.cpp::remove_unordered", "core/mlpp_vector.cpp::erase", "core/mlpp_vector.cpp::invert", "core/mlpp_vector.cpp::fill", "core/mlpp_vector.cpp::append_mlpp_vector"]}
{"id": "C03", "title": "Bad indices are rejected without side effects", "statement": "element_get, element_set, remove, remove_unordered and insert called with a negative or too large index change nothing (element_get returns 0), on vectors, matrices and tensors. The same holds of the flat indices of matrices and tensors.", "quantifier": "every object and every integer index outside the valid range", "why_tests_cant": "infinitely many indices and contents", "anchors": ["core/mlpp_vector.h::element_get", "core/mlpp_vector.h::element_set", "core/mlpp_vector.cpp::remove", "core/mlpp_matrix.h::element_get", "core/mlpp_matrix.h::element_set", "core/mlpp_tensor3.h::element_get"]}
{"id": "C04", "title": "erase_multiple_unordered removes all occurrences", "statement": "erase_multiple_unordered(v) terminates, returns the number of elements equal to v, leaves no element equal to v, and keeps every other element with its multiplicity.", "quantifier": "every vector content and every value", "why_tests_cant": "loop over a mutating container; every content and size", "anchors": ["core/mlpp_vector.cpp::erase_multiple_unordered", "core/mlpp_vector.cpp::find", "core/mlpp_vector.cpp::remove_unordered"]}
{"id": "C05", "title": "find returns the first match", "statement": "find(v, from) with from >= 0 returns the smallest index i >= from whose element equals v, and -1 exactly when there is none.", "quantifier": "every vector, value and start index", "why_tests_cant": "universal over contents", "anchors": ["core/mlpp_vector.cpp::find"]}
{"id": "C06", "title": "sort sorts", "statement": "sort() leaves the vector in non-decreasing order, as a permutation of the previous contents, and never reads or writes outside the array, for every length (including the heap-sort fallback).", "quantifier": "every finite content over a linear order, every length", "why_tests_cant": "introsort has three regimes selected by length and by data; tests only reach a few", "anchors": ["core/mlpp_vector.h::sort_custom", "platform/sfw.h::SortArray"]}
{"id": "C07", "title": "ordered_insert keeps a sorted vector sorted", "statement": "On a sorted vector ordered_insert(x) gives a sorted vector holding exactly the previous elements plus x.", "quantifier": "every sorted vector and every x", "why_tests_cant": "universal over contents", "anchors": ["core/mlpp_vector.cpp::ordered_insert", "core/mlpp_vector.cpp::insert"]}
{"id": "C08", "title": "Element-wise vector arithmetic, three variants, aliasing allowed", "statement": "For hadamard_product, division_element_wise, add, sub, max, min (two vectors) and scalar_multiply, scalar_add: the in-place, the 'n' (returns new) and the 'b' (stores into this) variants all produce at every index i the operation applied to the operands' elements at i, even when operands and target are the same object, and they change no other object.", "quantifier": "every pair of vectors of equal size, every aliasing of target and operands, every scalar arithmetic (including IEEE)", "why_tests_cant": "all sizes, contents and aliasing patterns", "anchors": ["core/mlpp_vector.cpp::add", "core/mlpp_vector.cpp::addn", "core/mlpp_vector.cpp::addb", "core/mlpp_vector.cpp::sub", "core/mlpp_vector.cpp::hadamard_product", "core/mlpp_vector.cpp::division_element_wise", "core/mlpp_vector.cpp::max", "core/mlpp_vector.cpp::min", "core/mlpp_vector.cpp::scalar_multiply", "core/mlpp_vector.cpp::scalar_add"]}
{"id": "C09", "title": "Size mismatch or null operand is rejected without side effects", "statement": "The binary vector and matrix operations called with a null operand or operands of different size change no object and return a null reference (or 0).", "quantifier": "every pair of objects of different size", "why_tests_cant": "universal over sizes and contents", "anchors": ["core/mlpp_vector.cpp::add", "core/mlpp_vector.cpp::addn", "core/mlpp_vector.cpp::addb", "core/mlpp_matrix.cpp::add", "core/mlpp_matrix.cpp::multn", "core/mlpp_matrix.cpp::mult"]}
{"id": "C10", "title": "Element-wise functions, three variants agree", "statement": "log, log10, exp, erf, exponentiate, sqrt, cbrt, abs, sin, cos on a vector: the in-place, 'n' and 'b' variants all map the named function over all elements.", "quantifier": "every vector, every aliasing", "why_tests_cant": "universal over sizes and contents", "anchors": ["core/mlpp_vector.cpp::log", "core/mlpp_vector.cpp::exp", "core/mlpp_vector.cpp::sqrt", "core/mlpp_vector.cpp::cos", "core/mlpp_vector.cpp::cosn", "core/mlpp_vector.cpp::cosb"]}
{"id": "C11", "title": "duplicate_fast gives an independent copy", "statement": "duplicate_fast (vector, matrix, tensor) returns a new object with the same size and elements; any later write to one of the two does not change the other.", "quantifier": "every object, every later write", "why_tests_cant": "history property over all contents", "anchors": ["core/mlpp_vector.cpp::duplicate_fast", "core/mlpp_matrix.cpp::duplicate_fast", "core/mlpp_tensor3.cpp::duplicate_fast"]}
{"id": "C12", "title": "dot, norms and distance", "statement": "With exact real arithmetic: dot is the sum of products, norm_sq = dot with itself, euclidean_distance is a metric (symmetric, zero iff equal, triangle inequality) and |dot(a,b)| <= norm_2(a)*norm_2(b).", "quantifier": "all real vectors of all dimensions", "why_tests_cant": "inequalities over all of R^n for all n", "anchors": ["core/mlpp_vector.cpp::dot", "core/mlpp_vector.cpp::norm_2", "core/mlpp_vector.cpp::norm_sq", "core/mlpp_vector.cpp::euclidean_distance", "core/mlpp_vector.cpp::sum_elements"]}
{"id": "C13", "title": "max_element / min_element and their indices", "statement": "On a non-empty vector of finite values max_element is an element and an upper bound; max_element_index is the first index holding it; dually for min. On an empty vector the index is -1.", "quantifier": "every non-empty vector over a linear order", "why_tests_cant": "universal over sizes and contents", "anchors": ["core/mlpp_vector.cpp::max_element", "core/mlpp_vector.cpp::max_element_index", "core/mlpp_vector.cpp::min_element", "core/mlpp_vector.cpp::min_element_index"]}
{"id": "C14", "title": "cross product", "statement": "For 3-vectors over the reals cross(a,b) is orthogonal to a and to b, anti-commutative and satisfies Lagrange's identity.", "quantifier": "all real 3-vectors", "why_tests_cant": "identities over R^3", "anchors": ["core/mlpp_vector.cpp::cross"]}
{"id": "C15", "title": "get_data / set_data round trip", "statement": "For vectors, matrices and tensors set_data(x.get_data()) on any object makes it equal to x in shape and contents.", "quantifier": "every pair of objects, of any sizes", "why_tests_cant": "round trip for all shapes", "anchors": ["core/mlpp_vector.cpp::get_data", "core/mlpp_vector.cpp::set_data", "core/mlpp_matrix.cpp::get_data", "core/mlpp_matrix.cpp::set_data", "core/mlpp_tensor3.cpp::get_data", "core/mlpp_tensor3.cpp::set_data"]}
{"id": "C16", "title": "is_equal_approx is reflexive and symmetric", "statement": "is_equal_approx(x,x) is true for every tolerance, is_equal_approx(x,y) = is_equal_approx(y,x), and objects of different shape are never equal; with tolerance t it implies each element differs by less than t or is equal.", "quantifier": "all objects and tolerances (real arithmetic)", "why_tests_cant": "universal over contents", "anchors": ["core/mlpp_vector.cpp::is_equal_approx", "core/mlpp_matrix.cpp::is_equal_approx", "core/mlpp_tensor3.cpp::is_equal_approx"]}
{"id": "C17", "title": "Matrix cell read/write", "statement": "For in-range indices element_get(y,x) after element_set(y,x,v) returns v and every other cell is unchanged; distinct cells never share storage and all accesses are inside the allocation. The flat index i * columns + j reads and writes the cell (i, j).", "quantifier": "every matrix shape, all pairs of cells", "why_tests_cant": "index arithmetic for all shapes", "anchors": ["core/mlpp_matrix.h::element_get", "core/mlpp_matrix.h::element_set", "core/mlpp_matrix.h::calculate_index"]}
{"id": "C18", "title": "Matrix is a list of rows", "statement": "row_add*, rows_add_mlpp_matrix, row_remove, row_remove_unordered, row_swap, row_set_*, row_get_*, fill behave as the corresponding operations on a list of rows of equal length, with no out-of-bounds access, for any sequence of calls.", "quantifier": "every sequence of row operations starting from an empty matrix", "why_tests_cant": "refinement over all histories", "anchors": ["core/mlpp_matrix.cpp::row_add", "core/mlpp_matrix.cpp::row_remove", "core/mlpp_matrix.cpp::row_remove_unordered", "core/mlpp_matrix.cpp::row_swap", "core/mlpp_matrix.cpp::row_set_vector", "core/mlpp_matrix.cpp::row_get_vector", "core/mlpp_matrix.cpp::rows_add_mlpp_matrix"]}
{"id": "C19", "title": "Matrix product", "statement": "mult, multn, multb store the mathematical product A*B (for conformable A, B), also when the target is one of the operands.", "quantifier": "all real matrices of conformable shapes and all aliasing patterns", "why_tests_cant": "all shapes and contents", "anchors": ["core/mlpp_matrix.cpp::mult", "core/mlpp_matrix.cpp::multn", "core/mlpp_matrix.cpp::multb"]}
{"id": "C20", "title": "Transpose", "statement": "transpose, transposen, transposeb produce the transposed matrix; transposing twice gives back the original.", "quantifier": "every matrix of every shape (any element type)", "why_tests_cant": "all shapes", "anchors": ["core/mlpp_matrix.cpp::transpose", "core/mlpp_matrix.cpp::transposen", "core/mlpp_matrix.cpp::transposeb"]}
{"id": "C21", "title": "Determinant", "statement": "det() of a square matrix is its mathematical determinant.", "quantifier": "all square real matrices of every dimension", "why_tests_cant": "recursive algorithm on every dimension", "anchors": ["core/mlpp_matrix.cpp::det", "core/mlpp_matrix.cpp::detb"]}
{"id": "C22", "title": "Adjoint and inverse", "statement": "adjoint() is the adjugate; inverse() of an invertible matrix times the matrix is the identity.", "quantifier": "all square real matrices", "why_tests_cant": "every dimension", "anchors": ["core/mlpp_matrix.cpp::adjoint", "core/mlpp_matrix.cpp::adjointo", "core/mlpp_matrix.cpp::cofactor", "core/mlpp_matrix.cpp::inverse", "core/mlpp_matrix.cpp::inverseo"]}
{"id": "C23", "title": "solve", "statement": "For an invertible A, solve(b) returns the unique x with A x = b.", "quantifier": "all invertible real matrices and right-hand sides", "why_tests_cant": "every dimension", "anchors": ["core/mlpp_matrix.cpp::solve", "core/mlpp_matrix.cpp::mult_vec"]}
{"id": "C24", "title": "matrix_powern", "statement": "matrix_powern(n) of a square matrix is the n-th power for n >= 0 and the power of the inverse for n < 0.", "quantifier": "all square real matrices and all integers n", "why_tests_cant": "unbounded exponent", "anchors": ["core/mlpp_matrix.cpp::matrix_powern"]}
{"id": "C25", "title": "Kronecker product", "statement": "kronecker_product, kronecker_productn, kronecker_productb compute A (x) B: entry (i*p+k, j*q+l) is A(i,j)*B(k,l).", "quantifier": "all pairs of matrices", "why_tests_cant": "all shapes", "anchors": ["core/mlpp_matrix.cpp::kronecker_product", "core/mlpp_matrix.cpp::kronecker_productn", "core/mlpp_matrix.cpp::kronecker_productb"]}
{"id": "C26", "title": "Identity, diagonal and constant constructors, trace", "statement": "identity_mat(d) is the identity and neutral for mult; diagonal_set/zeroed put the vector on the diagonal and keep/zero the rest; matn_zero/one/full are constant; trace is the sum of the diagonal. vecn_zero/one/full give constant vectors, and diagnm() of a vector the square matrix with that diagonal.", "quantifier": "all sizes", "why_tests_cant": "all shapes", "anchors": ["core/mlpp_matrix.cpp::identity", "core/mlpp_matrix.cpp::identity_mat", "core/mlpp_matrix.cpp::diagonal_set", "core/mlpp_matrix.cpp::diagonal_zeroed", "core/mlpp_matrix.cpp::trace", "core/mlpp_matrix.cpp::matn_zero"]}
{"id": "C27", "title": "Pseudo-inverse", "statement": "pinverse() of a full-column-rank matrix A is a left inverse: pinverse()*A = I.", "quantifier": "all full-column-rank real matrices", "why_tests_cant": "every shape", "anchors": ["core/mlpp_matrix.cpp::pinverse", "core/mlpp_matrix.cpp::pinverseo"]}
{"id": "C28", "title": "Rotation matrices are rotations", "statement": "create_rotation_matrix(theta, axis) is orthogonal with determinant 1 for axis -1, 0, 1, 2, so rotate preserves lengths.", "quantifier": "all angles, all four axes", "why_tests_cant": "all real angles", "anchors": ["core/mlpp_matrix.cpp::create_rotation_matrix", "core/mlpp_matrix.cpp::rotate"]}
{"id": "C29", "title": "cov is the covariance matrix of the rows", "statement": "cov() of a matrix with n rows is the symmetric n x n matrix whose (i,j) entry is the sample covariance of row i and row j.", "quantifier": "all matrices", "why_tests_cant": "all shapes", "anchors": ["core/mlpp_matrix.cpp::cov", "core/mlpp_matrix.cpp::covo"]}
{"id": "C30", "title": "Matrix-vector operations", "statement": "mult_vec is the matrix-vector product, add_vec adds the vector to every row, outer_product(a,b)(i,j)=a_i*b_j, flatten lists the cells in row-major order. subtract_matrix_rowsb subtracts all rows of the matrix from the vector.", "quantifier": "all shapes", "why_tests_cant": "all shapes and contents", "anchors": ["core/mlpp_matrix.cpp::mult_vec", "core/mlpp_matrix.cpp::add_vec", "core/mlpp_matrix.cpp::outer_product", "core/mlpp_matrix.cpp::flatten", "core/mlpp_vector.cpp::outer_product", "core/mlpp_vector.cpp::diagnm"]}
{"id": "C31", "title": "Element-wise matrix and tensor arithmetic, three variants", "statement": "add, sub, hadamard_product, division_element_wise, max, min, scalar_multiply, scalar_add and the element-wise functions: the in-place, 'n' and 'b' variants all produce the same element-wise result, also under aliasing, on matrices and tensors.", "quantifier": "all shapes, contents, aliasings, any scalar arithmetic", "why_tests_cant": "universal", "anchors": ["core/mlpp_matrix.cpp::add", "core/mlpp_matrix.cpp::scalar_multiplyb", "core/mlpp_matrix.cpp::scalar_addb", "core/mlpp_tensor3.cpp::add", "core/mlpp_tensor3.cpp::scalar_multiplyb"]}
{"id": "C32", "title": "Tensor cell read/write", "statement": "element_get(z,y,x) after element_set(z,y,x,v) returns v; every other cell is unchanged; accesses stay inside the allocation. The flat index y * columns + x + columns * rows * z reads and writes the cell (z, y, x).", "quantifier": "every tensor shape, all pairs of cells", "why_tests_cant": "index arithmetic for all shapes", "anchors": ["core/mlpp_tensor3.h::element_get", "core/mlpp_tensor3.h::element_set", "core/mlpp_tensor3.h::calculate_index"]}
{"id": "C33", "title": "Tensor z-slices", "statement": "The tensor behaves as a list of z slices: z_slice_add, z_slice_remove, z_slice_remove_unordered, z_slice_swap, z_slice_set_*, z_slice_get_* act on exactly the addressed slice and never access memory outside the tensor.", "quantifier": "all tensors and slice indices", "why_tests_cant": "all shapes and histories", "anchors": ["core/mlpp_tensor3.cpp::z_slice_add", "core/mlpp_tensor3.cpp::z_slice_remove", "core/mlpp_tensor3.cpp::z_slice_remove_unordered", "core/mlpp_tensor3.cpp::z_slice_swap", "core/mlpp_tensor3.cpp::z_slice_get_mlpp_matrix", "core/mlpp_tensor3.cpp::z_slice_set_mlpp_matrix"]}
{"id": "C34", "title": "Tensor rows", "statement": "row_get_vector, row_get_pool_vector, row_get_mlpp_vector(z,y) all return row y of slice z, and row_set_* followed by row_get_* at the same (z,y) returns what was set.", "quantifier": "all tensors and indices", "why_tests_cant": "all shapes", "anchors": ["core/mlpp_tensor3.cpp::row_get_vector", "core/mlpp_tensor3.cpp::row_get_pool_vector", "core/mlpp_tensor3.cpp::row_get_mlpp_vector", "core/mlpp_tensor3.cpp::row_set_mlpp_vector"]}
{"id": "C35", "title": "Tensor x- and y-slices", "statement": "x_slice_get(i)(z,y) is the cell (z,y,i), y_slice_get(j)(z,x) is the cell (z,j,x), and the setters write exactly these cells.", "quantifier": "all tensors and indices", "why_tests_cant": "all shapes", "anchors": ["core/mlpp_tensor3.cpp::x_slice_get", "core/mlpp_tensor3.cpp::x_slice_set", "core/mlpp_tensor3.cpp::y_slice_get", "core/mlpp_tensor3.cpp::y_slice_set"]}
{"id": "C36", "title": "Mean, weighted mean and variance", "statement": "With exact real arithmetic meanv lies between the smallest and the largest element, variancev is non-negative, zero iff all elements are equal, unchanged by translation; covariancev is symmetric and bilinear under scaling; covariance(x,x)=variance(x).", "quantifier": "all real vectors of size >= 2", "why_tests_cant": "all sizes", "anchors": ["core/stat.cpp::meanv", "core/stat.cpp::variancev", "core/stat.cpp::covariancev", "core/stat.cpp::weighted_mean"]}
{"id": "C37", "title": "Median", "statement": "median(x) of a non-empty vector is a median: at least half of the elements are <= it and at least half are >= it.", "quantifier": "all non-empty vectors", "why_tests_cant": "all lengths (odd and even) and contents", "anchors": ["core/stat.cpp::median"]}
{"id": "C38", "title": "Range and midrange", "statement": "range = max - min; midrange = (max + min)/2.", "quantifier": "all non-empty vectors", "why_tests_cant": "universal", "anchors": ["core/stat.cpp::range", "core/stat.cpp::midrange"]}
{"id": "C39", "title": "Mode", "statement": "mode(x) of a non-empty vector contains exactly the values of maximal multiplicity, each once.", "quantifier": "all non-empty vectors", "why_tests_cant": "universal", "anchors": ["core/stat.cpp::mode"]}
{"id": "C40", "title": "Correlation", "statement": "correlation(x,y) lies in [-1,1], r2 in [0,1], for vectors with non-zero variance.", "quantifier": "all real vectors", "why_tests_cant": "universal inequality", "anchors": ["core/stat.cpp::correlation", "core/stat.cpp::r2"]}
{"id": "C41", "title": "Least squares line", "statement": "b0_estimation/b1_estimation minimise the sum of squared residuals over all lines.", "quantifier": "all data with non-constant x and all competing lines", "why_tests_cant": "universal optimality", "anchors": ["core/stat.cpp::b0_estimation", "core/stat.cpp::b1_estimation"]}
{"id": "C42", "title": "Other means", "statement": "geometric_mean, harmonic_mean, rms, heronian, lehmer, log mean of positive reals lie between the minimum and the maximum.", "quantifier": "all positive vectors", "why_tests_cant": "universal inequality", "anchors": ["core/stat.cpp::geometric_mean", "core/stat.cpp::harmonic_mean", "core/stat.cpp::rms", "core/stat.cpp::log_mean", "core/stat.cpp::neuman_sandor_mean"]}
{"id": "C43", "title": "Activation derivatives are derivatives", "statement": "For each activation f, the scalar derivative function offered (f_derivr, and run_activation_deriv_real(f, .)) is the mathematical derivative of f_normr wherever f is differentiable.", "quantifier": "all real arguments, all activation functions", "why_tests_cant": "pointwise identity over R", "anchors": ["core/activation.cpp::run_activation_deriv_real", "core/activation.cpp::sigmoid_derivr", "core/activation.cpp::tanh_derivr"]}
{"id": "C44", "title": "Softmax is a probability vector", "statement": "softmax_normv has positive entries summing to 1, and is invariant under adding a constant; adj_softmax equals softmax.", "quantifier": "all non-empty real vectors", "why_tests_cant": "universal", "anchors": ["core/activation.cpp::softmax_normv", "core/activation.cpp::adj_softmax_normv"]}
{"id": "C45", "title": "Vector and matrix activations are the scalar ones, element by element", "statement": "For every activation f other than softmax, f_normv / f_normm apply f_normr to each element (and likewise the derivatives).", "quantifier": "all activations, all inputs", "why_tests_cant": "universal", "anchors": ["core/activation.cpp::sigmoid_normv", "core/activation.cpp::relu_normv"]}
{"id": "C46", "title": "Tensor flatten and tensor-vector contraction", "statement": "flatten/flatteno list all cells slice by slice and row by row; tensor_vec_mult(b) returns the matrix whose entry (z,y) is the inner product of row y of slice z with b; inputs are unchanged.", "quantifier": "all tensors of all shapes, all vectors of matching length", "why_tests_cant": "all shapes and contents", "anchors": ["core/mlpp_tensor3.cpp::flatten", "core/mlpp_tensor3.cpp::flatteno", "core/mlpp_tensor3.cpp::tensor_vec_mult"]}
{"id": "C47", "title": "Tensors built from vectors and matrices", "statement": "set_from_mlpp_matrix/matrices/vectors make the tensor contain exactly the stack of the given objects; every cell is initialised from them.", "quantifier": "all lists of vectors or matrices", "why_tests_cant": "all list lengths, shapes, and all contents of freshly allocated memory", "anchors": ["core/mlpp_tensor3.cpp::set_from_mlpp_matrix", "core/mlpp_tensor3.cpp::set_from_mlpp_matricess", "core/mlpp_tensor3.cpp::set_from_mlpp_vectors"]}
{"id": "C48", "title": "Chebyshev bound and absolute deviation", "statement": "For every vector of at least two reals and every k > 0, at least the fraction chebyshev_ineq(k) of the elements lies within k standard deviations of the mean; the average absolute deviation is non-negative and at most the standard deviation.", "quantifier": "all real vectors of size >= 2, all k > 0", "why_tests_cant": "universal inequality", "anchors": ["core/stat.cpp::chebyshev_ineq", "core/stat.cpp::abs_avg_deviation", "core/stat.cpp::standard_deviationv"]}
{"id": "C49", "title": "The deriv flag selects the derivative", "statement": "run_activation_{real,vector,matrix}(func, z, deriv) evaluates the derivative of the chosen activation exactly when deriv is true, and the activation itself otherwise.", "quantifier": "all activation functions, all real, vector and matrix inputs, both flag values", "why_tests_cant": "all real inputs and shapes times every activation", "anchors": ["core/activation.cpp::run_activation_real", "core/activation.cpp::run_activation_vector", "core/activation.cpp::run_activation_matrix"]}
{"id": "C50", "title": "LinAlg element-wise functions", "statement": "additionnm/nv, subtractionnm/nv, hadamard_productnm/nv, element_wise_divisionnm/nv, scalar_multiply/add, log/log10/exp/erf/exponentiate/sqrt/cbrt/abs/sin/cos, maxnm/maxnvv return a new object of the same shape whose every entry is the operation on the corresponding entries; zero/one/full constructors return constant objects; the output-parameter variants write the result to out; null or mismatched arguments are rejected and leave every object unchanged.", "quantifier": "all matrices and vectors of all shapes, all scalars", "why_tests_cant": "all shapes, contents and aliasings", "anchors": ["core/lin_alg.cpp::additionnm", "core/lin_alg.cpp::subtractionnm", "core/lin_alg.cpp::hadamard_productnm", "core/lin_alg.cpp::scalar_multiplynm", "core/lin_alg.cpp::maxnm", "core/lin_alg.cpp::additionm", "core/lin_alg.cpp::onematnm"]}
{"id": "C51", "title": "LinAlg matrix products", "statement": "MLPPLinAlg::matmultnm, transposenm, gram_matrix, kronecker_productnm, outer_product, mat_vec_multnv, mat_vec_addnm, diagnm, identitym, flattenvvnv and subtract_matrix_rowsnv return new objects holding the matrix product, transpose, A^T A, Kronecker product, u v^T, A v, A with v added to each row, diagonal matrix, identity, row-by-row list of cells and v minus all rows; operands whose shapes do not fit are rejected.", "quantifier": "all matrices and vectors of all shapes", "why_tests_cant": "all shapes and contents", "anchors": ["core/lin_alg.cpp::matmultnm", "core/lin_alg.cpp::transposenm", "core/lin_alg.cpp::gram_matrix", "core/lin_alg.cpp::kronecker_productnm", "core/lin_alg.cpp::outer_product", "core/lin_alg.cpp::mat_vec_multnv", "core/lin_alg.cpp::subtract_matrix_rowsnv"]}
{"id": "C52", "title": "LinAlg determinant, inverse, solve, pseudo-inverse, independence", "statement": "detm(A, d) is the determinant, adjointnm the adjugate, inversenm(A) of an invertible matrix a two-sided inverse, solve(A, b) the unique solution of A x = b, pinversenm(A) of a matrix with independent columns a left inverse giving least-squares solutions, linear_independence_checker(A) is true exactly if the columns are linearly independent.", "quantifier": "all square (for pinverse: full column rank) matrices of all sizes", "why_tests_cant": "recursion over all sizes", "anchors": ["core/lin_alg.cpp::detm", "core/lin_alg.cpp::adjointnm", "core/lin_alg.cpp::inversenm", "core/lin_alg.cpp::solve", "core/lin_alg.cpp::pinversenm", "core/lin_alg.cpp::linear_independence_checker"]}
{"id": "C53", "title": "Gram-Schmidt and QR", "statement": "gram_schmidt_process(A) and qrd(A).Q of a matrix with linearly independent columns have orthonormal columns; qrd(A).R is upper triangular with a positive diagonal and Q R = A.", "quantifier": "all m x n matrices with linearly independent columns, n >= 1", "why_tests_cant": "all sizes; the result of every loop iteration depends on all earlier ones", "anchors": ["core/lin_alg.cpp::gram_schmidt_process", "core/lin_alg.cpp::qrd", "core/lin_alg.cpp::vector_projection"]}
{"id": "C54", "title": "Cholesky", "statement": "cholesky(A) of a positive definite A returns a lower triangular L with positive diagonal and its transpose, and L L^T = A; in particular the square roots taken are of positive numbers.", "quantifier": "all positive definite matrices of all sizes", "why_tests_cant": "all sizes", "anchors": ["core/lin_alg.cpp::cholesky"]}
{"id": "C55", "title": "LinAlg reductions", "statement": "dotnv, euclidean_distance(_squared), norm_sqv, sum_elementsv, maxvr and minvr compute the dot product, distance, sum of squares, sum, largest and smallest element; null operands and operands of different lengths give the documented default and change nothing.", "quantifier": "all vectors", "why_tests_cant": "all lengths and contents", "anchors": ["core/lin_alg.cpp::dotnv", "core/lin_alg.cpp::euclidean_distance", "core/lin_alg.cpp::norm_sqv", "core/lin_alg.cpp::sum_elementsv", "core/lin_alg.cpp::maxvr", "core/lin_alg.cpp::minvr"]}
{"id": "C56", "title": "LinAlg functions on lists of matrices", "statement": "additionnvt, division_element_wisenvnvt, sqrtnvt, exponentiatenvt, scalar_multiplynvt, scalar_addnvt, maxnvt, absnvt apply the matrix operation to each entry of the list and return a list of new, pairwise different matrices; resizencvt returns new matrices of the same extents. No existing matrix changes.", "quantifier": "all lists of all lengths of matrices of all shapes, including lists with repeated entries", "why_tests_cant": "all lengths, shapes and aliasings", "anchors": ["core/lin_alg.cpp::additionnvt", "core/lin_alg.cpp::sqrtnvt", "core/lin_alg.cpp::scalar_multiplynvt", "core/lin_alg.cpp::maxnvt", "core/lin_alg.cpp::absnvt", "core/lin_alg.cpp::resizencvt"]}
{"id": "C57", "title": "Loss functions compute their formulas", "statement": "Each loss of MLPPCost (mse, rmse, mae, mbe, logistic, cross entropy, Huber, hinge, Wasserstein; vectors and matrices) returns the named quantity for operands of equal size and changes nothing; operands of different sizes give 0.", "quantifier": "all vectors and matrices of all sizes and contents (predictions in the domain of the logarithm where there is one)", "why_tests_cant": "sums over all lengths and all real contents", "anchors": ["core/cost.cpp::msev", "core/cost.cpp::rmsev", "core/cost.cpp::maev", "core/cost.cpp::mbev", "core/cost.cpp::log_lossv", "core/cost.cpp::cross_entropyv", "core/cost.cpp::huber_lossv", "core/cost.cpp::hinge_lossv", "core/cost.cpp::wasserstein_lossv", "core/cost.cpp::hinge_losswv"]}
{"id": "C58", "title": "Loss derivatives are gradients of the losses", "statement": "Each *_deriv function of MLPPCost returns a new object holding the gradient, with respect to the predictions, of a fixed multiple of the corresponding loss (away from kinks); dual_form_svm is the dual objective of the support vector machine and dual_form_svm_deriv its gradient; operands of different sizes are rejected.", "quantifier": "all vectors and matrices of all sizes and contents", "why_tests_cant": "a derivative is a limit over all directions; every length and content", "anchors": ["core/cost.cpp::mse_derivv", "core/cost.cpp::rmse_derivv", "core/cost.cpp::mae_derivv", "core/cost.cpp::mbe_derivv", "core/cost.cpp::log_loss_derivv", "core/cost.cpp::cross_entropy_derivv", "core/cost.cpp::huber_loss_derivv", "core/cost.cpp::hinge_loss_derivv", "core/cost.cpp::wasserstein_loss_derivv", "core/cost.cpp::dual_form_svm", "core/cost.cpp::dual_form_svm_deriv"]}
{"id": "C59", "title": "Selecting a cost by its type", "statement": "run_cost_norm_* and run_cost_deriv_* (and the functions returned by get_cost_function_ptr_*) compute the loss, respectively gradient, that the cost type names.", "quantifier": "all cost types, all operands", "why_tests_cant": "every cost type with every operand", "anchors": ["core/cost.cpp::run_cost_norm_vector", "core/cost.cpp::run_cost_norm_matrix", "core/cost.cpp::run_cost_deriv_vector", "core/cost.cpp::run_cost_deriv_matrix", "core/cost.cpp::get_cost_function_ptr_normal_vector"]}
{"id": "C60", "title": "Regularisation", "statement": "reg_term* is the penalty of the chosen kind, reg_deriv_term* its gradient (a subgradient at kinks), reg_weights* the weights minus that gradient, or for weight clipping the weights clamped to [lambda, alpha]. The weights themselves are not changed.", "quantifier": "all weight vectors and matrices, all lambda and alpha, all kinds", "why_tests_cant": "all sizes and real contents", "anchors": ["core/reg.cpp::reg_termv", "core/reg.cpp::reg_termm", "core/reg.cpp::reg_weightsv", "core/reg.cpp::reg_weightsm", "core/reg.cpp::reg_deriv_termv", "core/reg.cpp::reg_deriv_termm"]}
{"id": "C61", "title": "Mini-batches partition the data", "statement": "createMiniBatches cuts the data into the requested number k of consecutive batches of n/k elements, the last one also getting the n%k remaining ones; the versions with outputs cut the outputs at the same places; create_mini_batchesm/mv/mm return k new matrices (vectors), the i-th holding rows (n/k)*i to (n/k)*i+n/k-1 of the inputs and of the outputs.", "quantifier": "all data sets, all sizes, all numbers of batches", "why_tests_cant": "all lengths and all batch counts, divisible or not", "anchors": ["core/utilities.cpp::createMiniBatches", "core/utilities.cpp::create_mini_batchesm", "core/utilities.cpp::create_mini_batchesmv", "core/utilities.cpp::create_mini_batchesmm"]}
{"id": "C62", "title": "Performance is the fraction of right predictions", "statement": "performance, performance_vec, performance_mat and performance_pool_int_array_vec return the fraction of predictions (rows of predictions) whose nearest integer is the label; the result is between 0 and 1, and 1 exactly if all are right; missing operands give 0.", "quantifier": "all predictions and integer labels, all lengths", "why_tests_cant": "all real predictions, including those half way between integers", "anchors": ["core/utilities.cpp::performance", "core/utilities.cpp::performance_vec", "core/utilities.cpp::performance_mat", "core/utilities.cpp::performance_pool_int_array_vec"]}
{"id": "C63", "title": "Confusion counts and the metrics made from them", "statement": "TF_PN counts the true and false positives and negatives of binary predictions; precision, recall, accuracy and f1_score are the usual quotients of these counts.", "quantifier": "all lists of binary predictions and labels of equal length", "why_tests_cant": "all lengths and all combinations of counts", "anchors": ["core/utilities.cpp::TF_PN", "core/utilities.cpp::recall", "core/utilities.cpp::precision", "core/utilities.cpp::accuracy", "core/utilities.cpp::f1_score"]}
{"id": "C64", "title": "Random initialisation follows the chosen distribution", "statement": "weight_initialization*/bias_initialization* replace every element by one draw from the distribution of the chosen kind (interval or deviation as documented by the kind, from the number of inputs and outputs), whatever the random numbers, and change nothing else.", "quantifier": "all sizes, all kinds, all sequences of random numbers", "why_tests_cant": "no finite number of runs shows that every draw lies in the interval", "anchors": ["core/utilities.cpp::weight_initializationv", "core/utilities.cpp::weight_initializationm", "core/utilities.cpp::weightInitialization", "core/utilities.cpp::bias_initializationr", "core/utilities.cpp::bias_initializationv", "core/utilities.cpp::biasInitialization"]}
{"id": "C65", "title": "segment cuts a text into words and punctuation marks", "statement": "segment returns the words of a text and its punctuation marks (, ! . -), in order; words are separated by spaces or marks, and no word contains a space.", "quantifier": "all texts", "why_tests_cant": "all texts, with any sequence of words, spaces and marks", "anchors": ["core/data.cpp::segment"]}
{"id": "C66", "title": "Tokens identify words", "statement": "tokenize returns one number for each word of the text; equal words get the same number, different words different ones, and the numbers are those of first occurrence, 1, 2, 3, ...", "quantifier": "all texts", "why_tests_cant": "all texts and all repetitions", "anchors": ["core/data.cpp::tokenize"]}
{"id": "C67", "title": "remove_spaces and remove_empty", "statement": "remove_spaces deletes the spaces of every string and nothing else; remove_empty deletes the empty strings and nothing else.", "quantifier": "all lists of strings", "why_tests_cant": "all lists, including runs of empty strings", "anchors": ["core/data.cpp::remove_spaces", "core/data.cpp::remove_empty"]}
{"id": "C68", "title": "Stop words are removed", "statement": "remove_stop_words returns the words of the lower-case text that are not stop words, in order; remove_stop_words_vec does the same for a list of words; no list stops the program.", "quantifier": "all texts, all lists of words, all lists of stop words", "why_tests_cant": "all positions of stop words, including the first", "anchors": ["core/data.cpp::remove_stop_words", "core/data.cpp::remove_stop_words_vec"]}
{"id": "C69", "title": "vec_to_set keeps the first occurrence of every element; split_sentences splits at full stops", "statement": "vec_to_set returns the elements of the input, each once, in the order of first occurrence; split_sentences returns the sentences between full stops.", "quantifier": "all lists, all texts", "why_tests_cant": "all lists with any repetitions", "anchors": ["core/data.h::vec_to_set", "core/data.h::vecToSet", "core/data.cpp::split_sentences", "core/data.h::vec_to_setnv"]}
{"id": "C70", "title": "A bag of words counts words", "statement": "bag_of_words returns a new matrix with one row for each sentence and one column for each different word (not empty, no stop word, lower case, in order of first occurrence over all sentences); the entry is how often the word occurs in the sentence, or for the binary type whether it occurs.", "quantifier": "all lists of sentences, all stop words, both types", "why_tests_cant": "all sentences, with any repetition of words in and between sentences", "anchors": ["core/data.cpp::bag_of_words", "core/data.cpp::create_word_list"]}
{"id": "C71", "title": "tfidf weighs words", "statement": "tfidf returns a new matrix with one row for each sentence and one column for each different word; the entry is the share of the word among the words of the sentence times log(number of sentences / number of sentences with the word).", "quantifier": "all lists of sentences, all contents of uninitialised memory", "why_tests_cant": "all memory contents, all sentences", "anchors": ["core/data.cpp::tfidf"]}
{"id": "C72", "title": "train_test_split partitions the data", "statement": "train_test_split returns new training and test sets: there is a permutation of the rows such that the first floor(test_size * rows) permuted rows are the test set and the others are the training set, inputs and outputs keeping together; the data is unchanged.", "quantifier": "all pairs of matrices, all test sizes in [0,1], all random numbers", "why_tests_cant": "all random numbers; every row must be in exactly one set", "anchors": ["core/data.cpp::train_test_split", "platform/sfw.cpp::Array::shuffle"]}
{"id": "C73", "title": "One-hot representation of classes", "statement": "one_hot_rep returns a new matrix whose row i has 1 in the column of class i and 0 elsewhere; reverseOneHot gives the class numbers back.", "quantifier": "all class vectors, all numbers of classes", "why_tests_cant": "all class numbers, in range or not", "anchors": ["core/data.cpp::one_hot_rep", "core/data.cpp::reverseOneHot"]}
{"id": "C74", "title": "Feature scaling, mean centring and normalisation", "statement": "feature_scaling maps every column linearly to [0,1] with its extremes at 0 and 1; mean_centering subtracts from every row its mean; mean_normalization also divides by the standard deviation.", "quantifier": "all matrices without constant columns or rows", "why_tests_cant": "all real entries", "anchors": ["core/data.cpp::feature_scaling", "core/data.cpp::mean_centering", "core/data.cpp::mean_normalization"]}
{"id": "C75", "title": "CSV lines survive writing and reading", "statement": "get_csv_line returns the entries that store_csv_line wrote, whatever they contain (delimiters, quotation marks, line breaks), and leaves the rest of the file; a file of such lines is read as the list of the lines.", "quantifier": "all rows of entries, all delimiters, all following file contents", "why_tests_cant": "all characters in all positions", "anchors": ["platform/sfw.cpp::FileAccess::get_csv_line", "platform/sfw.cpp::FileAccess::store_csv_line", "core/data.cpp::load_breast_cancer"]}
{"id": "C76", "title": "Loading data files", "statement": "set_data_supervised gives the matrix the first k numbers of every line and the vector the next one; set_data_unsupervised gives the matrix the k numbers of every line; set_data_simple gives two vectors the first and second numbers of the pairs; the load_ functions return new objects with these numbers, the classes one-hot.", "quantifier": "all files of lines of enough fields", "why_tests_cant": "all files, including those written by store_csv_line", "anchors": ["core/data.cpp::set_data_supervised", "core/data.cpp::set_data_unsupervised", "core/data.cpp::set_data_simple", "core/data.cpp::load_iris", "core/data.cpp::load_wine", "core/data.cpp::load_mnist_train", "core/data.cpp::load_mnist_test", "core/data.cpp::load_breast_cancer", "core/data.cpp::load_california_housing"]}
{"id": "C77", "title": "Numerical derivatives and Taylor approximations in one variable", "statement": "num_diffr, num_diff_2r and num_diff_3r give the first, second and third derivative at a point close by; linear_, quadratic_ and cubic_approximationr give the Taylor polynomials of degree 1, 2 and 3 up to that error.", "quantifier": "all differentiable functions, all points", "why_tests_cant": "all functions and points", "anchors": ["core/numerical_analysis.cpp::num_diffr", "core/numerical_analysis.cpp::num_diff_2r", "core/numerical_analysis.cpp::num_diff_3r", "core/numerical_analysis.cpp::linear_approximationr", "core/numerical_analysis.cpp::quadratic_approximationr", "core/numerical_analysis.cpp::cubic_approximationr"]}
{"id": "C78", "title": "Jacobian, Hessian, third-order tensor, Laplacian", "statement": "jacobian, hessian, third_order_tensor and third_order_tensorvt return new objects whose entries are the partial derivatives at points close by; mixed derivatives are symmetric; laplacian is the trace of the Hessian; the point is unchanged; a missing axis aborts.", "quantifier": "all differentiable functions of any number of variables, all points", "why_tests_cant": "all dimensions, functions and points", "anchors": ["core/numerical_analysis.cpp::num_diffv", "core/numerical_analysis.cpp::num_diff_2v", "core/numerical_analysis.cpp::num_diff_3v", "core/numerical_analysis.cpp::jacobian", "core/numerical_analysis.cpp::hessian", "core/numerical_analysis.cpp::third_order_tensor", "core/numerical_analysis.cpp::third_order_tensorvt", "core/numerical_analysis.cpp::laplacian"]}
{"id": "C79", "title": "Root finding", "statement": "newton_raphson_method converges to the root of a convex function from the right without overshooting; roots are fixed points of Newton's and Halley's methods, which are exact on functions of degree one; inv_quadratic_interpolation returns the iterate of inverse quadratic interpolation.", "quantifier": "all functions, starting points and numbers of epochs", "why_tests_cant": "convergence is a statement about all numbers of epochs", "anchors": ["core/numerical_analysis.cpp::newton_raphson_method", "core/numerical_analysis.cpp::halley_method", "core/numerical_analysis.cpp::inv_quadratic_interpolation"]}
{"id": "C80", "title": "Euler's method and exponential growth", "statement": "eulerian_methodr and eulerian_methodv follow Euler's polygon; the error with N steps is at most C (p-q0)^2 exp(L (p-q0)) / (2 N); growth_method is the only solution of P' = k P with P(0) = C.", "quantifier": "all right-hand sides with a Lipschitz constant, all step counts", "why_tests_cant": "error bounds for all functions and step counts", "anchors": ["core/numerical_analysis.cpp::eulerian_methodr", "core/numerical_analysis.cpp::eulerian_methodv", "core/numerical_analysis.cpp::growth_method"]}
{"id": "C81", "title": "Taylor approximations in several variables and the second derivative test", "statement": "linear_, quadratic_ and cubic_approximationv give the Taylor polynomials of degree 1, 2 and 3; second_partial_derivative_test in two variables answers min, max or saddle exactly if a quadratic function has a minimum, maximum or saddle point there.", "quantifier": "all functions, centres and points; all quadratic functions of two variables", "why_tests_cant": "all functions and points", "anchors": ["core/numerical_analysis.cpp::constant_approximationv", "core/numerical_analysis.cpp::linear_approximationv", "core/numerical_analysis.cpp::quadratic_approximationv", "core/numerical_analysis.cpp::cubic_approximationv", "core/numerical_analysis.cpp::second_partial_derivative_test"]}
{"id": "C82", "title": "Simple linear regression", "statement": "Training MLPPUniLinReg on two vectors with at least two different inputs gives the unique line with the least sum of squared errors; data on a line are fitted by that line; model_set_test answers element by element; without data nothing happens.", "quantifier": "all vectors of all sizes, all lines", "why_tests_cant": "optimality over all lines, for all data", "anchors": ["modules/uni_lin_reg/uni_lin_reg.cpp::train", "modules/uni_lin_reg/uni_lin_reg.cpp::model_test", "modules/uni_lin_reg/uni_lin_reg.cpp::model_set_test", "modules/uni_lin_reg/uni_lin_reg.cpp::MLPPUniLinReg"]}
{"id": "C83", "title": "Finding outliers", "statement": "MLPPOutlierFinder reports, in order, exactly the elements (or the positions, row by row) that are more than the threshold of sample standard deviations away from the mean; the number of outliers times the squared threshold is less than the number of elements; nothing is changed.", "quantifier": "all vectors and matrices, all non-negative thresholds", "why_tests_cant": "all data and thresholds", "anchors": ["modules/outlier_finder/outlier_finder.cpp::model_test", "modules/outlier_finder/outlier_finder.cpp::model_set_test", "modules/outlier_finder/outlier_finder.cpp::model_set_test_indices"]}
{"id": "C84", "title": "k nearest neighbours: the neighbours", "statement": "The neighbours MLPPKNN finds are k different rows of the input set, sorted by distance, and no other row is nearer.", "quantifier": "all input sets, points and k", "why_tests_cant": "all data and k", "anchors": ["modules/knn/knn.cpp::nearest_neighbors"]}
{"id": "C85", "title": "k nearest neighbours: the class", "statement": "The answer of MLPPKNN is the class most frequent among the neighbours; model_set_test answers row by row as model_test does; score is the fraction of right answers.", "quantifier": "all input and output sets, points and k", "why_tests_cant": "all data and k", "anchors": ["modules/knn/knn.cpp::determine_class", "modules/knn/knn.cpp::model_test", "modules/knn/knn.cpp::model_set_test", "modules/knn/knn.cpp::score"]}
{"id": "C86", "title": "Linear models: prediction", "statement": "The five linear models (linear, logistic, tanh, probit, complementary log-log regression) answer a point x with g(w.x + b) for their link g, answer a matrix row by row, and change nothing that the caller can see; an object without data, or whose data are missing, trains and answers nothing; the constructor keeps the data and sets weights and bias drawn from the generator. score() is the fraction of the stored predictions that round to the wanted (integer) output.", "quantifier": "all data sets, parameters, points and matrices of all sizes", "why_tests_cant": "all data and parameters", "anchors": ["modules/lin_reg/lin_reg.cpp::model_test", "modules/lin_reg/lin_reg.cpp::model_set_test", "modules/lin_reg/lin_reg.cpp::MLPPLinReg", "modules/log_reg/log_reg.cpp::model_test", "modules/log_reg/log_reg.cpp::model_set_test", "modules/tanh_reg/tanh_reg.cpp::model_test", "modules/tanh_reg/tanh_reg.cpp::model_set_test", "modules/tanh_reg/tanh_reg.cpp::set_output_set", "modules/tanh_reg/tanh_reg.cpp::get_output_set", "modules/probit_reg/probit_reg.cpp::model_test", "modules/probit_reg/probit_reg.cpp::model_set_test", "modules/c_log_log_reg/c_log_log_reg.cpp::model_test", "modules/c_log_log_reg/c_log_log_reg.cpp::model_set_test"]}
{"id": "C87", "title": "Linear models: gradient descent", "statement": "Each epoch of gradient_descent (and mle) moves weights and bias by the learning rate against the gradient of the loss of the model and then applies the regularisation; training stops after max_epoch epochs; only the weights and the predictions change. For a small enough learning rate the loss of linear and logistic regression tends to its least value at the rate 1/epochs.", "quantifier": "all data sets, all learning rates, all numbers of epochs, all regularisations", "why_tests_cant": "number of epochs unbounded; convergence is a statement about the limit", "anchors": ["modules/lin_reg/lin_reg.cpp::gradient_descent", "modules/log_reg/log_reg.cpp::gradient_descent", "modules/log_reg/log_reg.cpp::mle", "modules/tanh_reg/tanh_reg.cpp::gradient_descent", "modules/probit_reg/probit_reg.cpp::gradient_descent", "modules/probit_reg/probit_reg.cpp::mle", "modules/c_log_log_reg/c_log_log_reg.cpp::gradient_descent", "modules/c_log_log_reg/c_log_log_reg.cpp::mle"]}
{"id": "C88", "title": "Linear regression: Newton-Raphson", "statement": "Each epoch of newton_raphson makes a Newton step for the sum of squared errors; a full step from any weights reaches the minimum over the weights.", "quantifier": "all data sets with invertible normal matrix, all learning rates", "why_tests_cant": "all data", "anchors": ["modules/lin_reg/lin_reg.cpp::newton_raphson"]}
{"id": "C89", "title": "Linear regression: normal equation", "statement": "normal_equation gives the line of least squares: the weights and the bias satisfy the normal equations.", "quantifier": "all data sets with invertible normal matrix", "why_tests_cant": "all data", "anchors": ["modules/lin_reg/lin_reg.cpp::normal_equation"]}
{"id": "C90", "title": "Linear models: stochastic and mini-batch descent", "statement": "Each epoch of sgd steps along the gradient of the loss of one sample drawn by the generator; each epoch of mbgd makes one step for each mini-batch, along the gradient of the loss of the samples of this batch.", "quantifier": "all data sets, all sequences of drawn samples, all batch sizes, all learning rates, numbers of epochs and regularisations", "why_tests_cant": "all draws of the random generator and all numbers of epochs", "anchors": ["modules/lin_reg/lin_reg.cpp::sgd", "modules/lin_reg/lin_reg.cpp::mbgd", "modules/log_reg/log_reg.cpp::sgd", "modules/log_reg/log_reg.cpp::mbgd", "modules/tanh_reg/tanh_reg.cpp::sgd", "modules/tanh_reg/tanh_reg.cpp::mbgd", "modules/probit_reg/probit_reg.cpp::sgd", "modules/probit_reg/probit_reg.cpp::mbgd", "modules/c_log_log_reg/c_log_log_reg.cpp::sgd", "modules/c_log_log_reg/c_log_log_reg.cpp::mbgd"]}
{"id": "C91", "title": "Linear regression: adaptive optimisers", "statement": "momentum, nag, adagrad, adadelta, adam, adamax and nadam move weights and bias, batch by batch, by their published rules applied to the gradient of the batch, with state that starts at zero.", "quantifier": "all data sets, batch sizes, learning rates, coefficients, numbers of epochs and regularisations", "why_tests_cant": "all histories of the state of the optimiser", "anchors": ["modules/lin_reg/lin_reg.cpp::momentum", "modules/lin_reg/lin_reg.cpp::nag", "modules/lin_reg/lin_reg.cpp::adagrad", "modules/lin_reg/lin_reg.cpp::adadelta", "modules/lin_reg/lin_reg.cpp::adam", "modules/lin_reg/lin_reg.cpp::adamax", "modules/lin_reg/lin_reg.cpp::nadam"]}
{"id": "C92", "title": "2-D convolution", "statement": "convolve_2d(input, filter, S, P) returns a new square matrix with, for every position of the filter on the zero-padded input that is a multiple of the stride S, the sum of the products of the filter with the cells under it; the arguments are unchanged.", "quantifier": "all inputs and filters of all sizes, all strides and paddings", "why_tests_cant": "all images, sizes and strides", "anchors": ["core/convolutions.cpp::convolve_2d"]}
{"id": "C93", "title": "Pooling", "statement": "pool_2d and pool_3d return for every window of F by F cells taken every S cells its average, least or greatest value (pool_3d slice by slice); global_pool_2d and global_pool_3d do so for whole images.", "quantifier": "all images and volumes, all window sizes and strides", "why_tests_cant": "all images, sizes and strides", "anchors": ["core/convolutions.cpp::pool_2d", "core/convolutions.cpp::pool_3d", "core/convolutions.cpp::global_pool_2d", "core/convolutions.cpp::global_pool_3d"]}
{"id": "C94", "title": "Image gradients", "statement": "dx and dy return, for every cell, the difference of its two neighbours in that direction (0 beyond the border); grad_magnitude and grad_orientation are the length and the angle of this gradient, which together determine it.", "quantifier": "all images of all shapes", "why_tests_cant": "all images and sizes", "anchors": ["core/convolutions.cpp::dx", "core/convolutions.cpp::dy", "core/convolutions.cpp::grad_magnitude", "core/convolutions.cpp::grad_orientation"]}
{"id": "C95", "title": "Gaussian filter", "statement": "gaussian_filter_2d(size, std) returns a new size by size matrix with the heights of the Gaussian bell of width std, centred on the matrix; it is symmetric under mirroring and transposition.", "quantifier": "all sizes and widths", "why_tests_cant": "all sizes and real widths", "anchors": ["core/convolutions.cpp::gaussian_2d", "core/convolutions.cpp::gaussian_filter_2d"]}
{"id": "C96", "title": "3-D convolution", "statement": "convolve_3d returns one slice for each filter: at each position the sum of products over all channels, rows and columns of the filter.", "quantifier": "all volumes, filters, strides", "why_tests_cant": "all volumes and sizes", "anchors": ["core/convolutions.cpp::convolve_3d"]}
{"id": "C97", "title": "Structure tensor and Harris corners", "statement": "compute_m and compute_mv return the squared and mixed slopes of the image smoothed by a Gaussian filter; harris_corner_detection marks each cell C, E or N by the sign of the Harris response det - k trace^2 computed from them.", "quantifier": "all square images", "why_tests_cant": "all images and sizes", "anchors": ["core/convolutions.cpp::compute_m", "core/convolutions.cpp::compute_mv", "core/convolutions.cpp::harris_corner_detection"]}
{"id": "C98", "title": "Built-in filters", "statement": "The constructor creates the Prewitt, Sobel, Scharr and Roberts filters with their published cells; each responds with 0 to an image of one colour; the vertical filter of each pair is the transposed horizontal one.", "quantifier": "all images of one colour, all positions", "why_tests_cant": "all image sizes and colours", "anchors": ["core/convolutions.cpp::MLPPConvolutions", "core/convolutions.cpp::get_prewitt_horizontal", "core/convolutions.cpp::get_prewitt_vertical", "core/convolutions.cpp::get_sobel_horizontal", "core/convolutions.cpp::get_sobel_vertical", "core/convolutions.cpp::get_scharr_horizontal", "core/convolutions.cpp::get_scharr_vertical", "core/convolutions.cpp::get_roberts_horizontal", "core/convolutions.cpp::get_roberts_vertical"]}
{"id": "C99", "title": "Discrete cosine transform", "statement": "discrete_cosine_transform returns the orthonormal two-dimensional cosine transform of the image shifted by 128: no information is lost and the energy is preserved.", "quantifier": "all images of all shapes", "why_tests_cant": "all images and sizes; invertibility is a statement about all pairs of images", "anchors": ["core/transforms.cpp::discrete_cosine_transform"]}
{"id": "C100", "title": "Support vector classifier", "statement": "An MLPPSVC predicts the sign of w.x + b; its training methods move weights and bias along a negative subgradient of the soft-margin loss C * mean(hinge) + ridge term and leave the data unchanged; methods called without data do nothing; set_output_set gives the labels used by the training. score() is the fraction of the predictions that equal the label.", "quantifier": "all data sets, labels, weights, C, learning rates, epoch counts, batch sizes, and for stochastic training all sequences of drawn samples", "why_tests_cant": "all real data sets and all epoch counts and draws", "anchors": ["modules/svc/svc.cpp::model_set_test", "modules/svc/svc.cpp::model_test", "modules/svc/svc.cpp::train_gradient_descent", "modules/svc/svc.cpp::train_sgd", "modules/svc/svc.cpp::train_mbgd", "modules/svc/svc.cpp::set_output_set", "modules/svc/svc.cpp::needs_init"]}
{"id": "C101", "title": "Softmax regression", "statement": "An MLPPSoftmaxReg predicts softmax(x.W + b), row by row; every epoch of its training methods is a step of gradient descent on the cross entropy of the whole set, of the drawn sample, or of the mini-batches partitioning the samples, followed by the regularisation of the weights; the data are unchanged and afterwards the stored predictions are those of the new parameters; a new object has initialised weights and biases; methods called without data do nothing. score() is the fraction of the rows predicted rightly in every class.", "quantifier": "all data sets, numbers of classes, parameters, learning rates, epoch counts, batch sizes, and for stochastic training all sequences of drawn samples", "why_tests_cant": "all real data sets and all epoch counts and draws", "anchors": ["modules/softmax_reg/softmax_reg.cpp::model_set_test", "modules/softmax_reg/softmax_reg.cpp::model_test", "modules/softmax_reg/softmax_reg.cpp::train_gradient_descent", "modules/softmax_reg/softmax_reg.cpp::train_sgd", "modules/softmax_reg/softmax_reg.cpp::train_mbgd", "modules/softmax_reg/softmax_reg.cpp::initialize"]}
{"id": "C102", "title": "Multilayer perceptron", "statement": "An MLPPMLP predicts the output of a network with one logistic hidden layer and one logistic output; every epoch of its training methods is a step of gradient descent in both layers on the logistic loss of the whole set, of the drawn sample, or of the mini-batches, followed by the regularisation of the weights; the data are unchanged and afterwards the stored predictions are those of the new parameters; an object that is not set up refuses to train; inputs of the wrong width are rejected. score() is the fraction of the predictions that round to the label.", "quantifier": "all data sets, numbers of hidden units, parameters, learning rates, epoch counts, batch sizes, and for stochastic training all sequences of drawn samples", "why_tests_cant": "all real data sets and all epoch counts and draws", "anchors": ["modules/mlp/mlp.cpp::model_set_test", "modules/mlp/mlp.cpp::model_test", "modules/mlp/mlp.cpp::gradient_descent", "modules/mlp/mlp.cpp::sgd", "modules/mlp/mlp.cpp::mbgd", "modules/mlp/mlp.cpp::initialize"]}
{"id": "C103", "title": "Hidden layer", "statement": "A forward pass of an MLPPHiddenLayer gives the activation function of X*W + b, test(x) that of one input vector; weights, biases and inputs are unchanged; the constructor draws initial weights; weights set by the user are the weights used; a layer without inputs does nothing.", "quantifier": "all input matrices, numbers of units, weights, biases, activation functions and drawn random numbers", "why_tests_cant": "all real inputs, sizes, activation functions and draws", "anchors": ["modules/hidden_layer/hidden_layer.cpp::initialize", "modules/hidden_layer/hidden_layer.cpp::forward_pass", "modules/hidden_layer/hidden_layer.cpp::test", "modules/hidden_layer/hidden_layer.cpp::set_weights", "modules/hidden_layer/hidden_layer.cpp::set_input"]}
{"id": "C104", "title": "Output layer", "statement": "A forward pass of an MLPPOutputLayer gives the activation function of X*w + b, test(x) the output at one input vector; weights, bias and inputs are unchanged; the constructor draws initial weights and bias; weights and bias set by the user are those used.", "quantifier": "all input matrices, numbers of units, weights, biases, activation functions and drawn random numbers", "why_tests_cant": "all real inputs, sizes, activation functions and draws", "anchors": ["modules/output_layer/output_layer.cpp::initialize", "modules/output_layer/output_layer.cpp::forward_pass", "modules/output_layer/output_layer.cpp::test", "modules/output_layer/output_layer.cpp::set_weights", "modules/output_layer/output_layer.cpp::set_bias"]}
{"id": "C105", "title": "Layer with several outputs", "statement": "A forward pass of an MLPPMultiOutputLayer gives the activation function of X*W + b, test(x) that of one input vector; weights, biases and inputs are unchanged; the constructor draws initial weights and biases; weights set by the user are those used.", "quantifier": "all input matrices, numbers of units, weights, biases, activation functions and drawn random numbers", "why_tests_cant": "all real inputs, sizes, activation functions and draws", "anchors": ["modules/multi_output_layer/multi_output_layer.cpp::forward_pass", "modules/multi_output_layer/multi_output_layer.cpp::test", "modules/multi_output_layer/multi_output_layer.cpp::set_weights"]}
{"id": "C106", "title": "Deep network: building and predictions", "statement": "An MLPPANN built with add_layer and add_output_layer has drawn weights and leaves the data alone; model_test(x) and model_set_test(X) answer with the composition of all layers and do not change the network; a network without an output layer does nothing. score() is the fraction of the rows whose prediction rounds to the wanted output.", "quantifier": "all input matrices, numbers and sizes of layers, activation functions, initialisations, weights and drawn random numbers", "why_tests_cant": "networks of every depth and width, all real weights and inputs", "anchors": ["modules/ann/ann.cpp::MLPPANN", "modules/ann/ann.cpp::add_layer", "modules/ann/ann.cpp::add_output_layer", "modules/ann/ann.cpp::model_test", "modules/ann/ann.cpp::model_set_test"]}
{"id": "C107", "title": "Deep network: training", "statement": "Every epoch of gradient_descent makes a step against the gradient of the objective (the losses of all samples and the penalties), computed by back-propagation; sgd does so for one sample, mbgd for consecutive mini-batches; afterwards the object shows the predictions of the trained weights; data are unchanged.", "quantifier": "all data, depths, layer sizes, differentiable activation functions, losses, penalties, learning rates and numbers of epochs", "why_tests_cant": "back-propagation must agree with the true gradient at every point of a parameter space of any dimension, and for every number of epochs", "anchors": ["modules/ann/ann.cpp::gradient_descent", "modules/ann/ann.cpp::sgd", "modules/ann/ann.cpp::mbgd", "modules/ann/ann.cpp::compute_gradients", "modules/ann/ann.cpp::update_parameters", "modules/ann/ann.cpp::forward_pass", "modules/ann/ann.cpp::cost"]}
{"id": "C108", "title": "Learning-rate schedules", "statement": "After set_learning_rate_scheduler the learning rate of epoch e is rate/(1+c*e), rate*c/sqrt(e), rate*c^floor((1+e)/d) or rate*exp(-c*e), according to the kind; without a schedule it is constant.", "quantifier": "all rates, decay constants, drop rates and epochs", "why_tests_cant": "all real constants and all epochs", "anchors": ["modules/ann/ann.cpp::apply_learning_rate_scheduler", "modules/ann/ann.cpp::set_learning_rate_scheduler", "modules/ann/ann.cpp::set_learning_rate_scheduler_drop"]}
{"id": "C109", "title": "k-means: predictions", "statement": "model_test(x) of an initialised MLPPKMeans returns the (first) centroid closest to x, and model_set_test(X) does so for every row of X; without data or before initialisation they return null; nothing else changes.", "quantifier": "all data sets, numbers of clusters, centroids and points", "why_tests_cant": "all real centroids and points, including ties, and sets of every size", "anchors": ["modules/kmeans/kmeans.cpp::model_test", "modules/kmeans/kmeans.cpp::model_set_test"]}
{"id": "C110", "title": "k-means: initial centroids", "statement": "initialize() takes as centroids rows of the data set: random rows, or, with k-means++, a random row and then always the point farthest from the centroids chosen before; it changes nothing but the centroids. Changing data, k or the kind makes the object uninitialised.", "quantifier": "all data sets, k and drawn rows", "why_tests_cant": "random draws and all data", "anchors": ["modules/kmeans/kmeans.cpp::initialize", "modules/kmeans/kmeans.cpp::_centroid_initialization", "modules/kmeans/kmeans.cpp::_kmeanspp_initialization", "modules/kmeans/kmeans.cpp::set_input_set", "modules/kmeans/kmeans.cpp::set_k", "modules/kmeans/kmeans.cpp::set_mean_type"]}
{"id": "C111", "title": "k-means: cluster memberships", "statement": "After train every point belongs to exactly one cluster, that of its nearest centroid.", "quantifier": "all data sets, centroids and numbers of epochs", "why_tests_cant": "must hold for every point and every history of centroids", "anchors": ["modules/kmeans/kmeans.cpp::train", "modules/kmeans/kmeans.cpp::_evaluate"]}
{"id": "C112", "title": "k-means: training and score", "statement": "train(e) runs max(e,1) rounds of Lloyd's algorithm: assign the points, move every centroid to the mean of its points, which never increases the sum of squared distances; score() is the sum of the squared distances of the points to the centroids of their clusters; the data set is not changed.", "quantifier": "all data sets, k, centroids and numbers of epochs", "why_tests_cant": "an invariant over any number of rounds", "anchors": ["modules/kmeans/kmeans.cpp::train", "modules/kmeans/kmeans.cpp::_compute_mu", "modules/kmeans/kmeans.cpp::_cost", "modules/kmeans/kmeans.cpp::score"]}
{"id": "C113", "title": "Exponential regression: predictions", "statement": "model_test(x) of an MLPPExpReg is the sum of initial_j * weights_j ^ x_j plus the bias, model_set_test(X) is a new vector with the prediction for every row; a new object holds the drawn weights, initial values and bias; score() is the fraction of the stored predictions that round to the outputs. Nothing else changes.", "quantifier": "all parameters, inputs and sizes", "why_tests_cant": "all real parameters and inputs of every size", "anchors": ["modules/exp_reg/exp_reg.cpp::model_test", "modules/exp_reg/exp_reg.cpp::model_set_test", "modules/exp_reg/exp_reg.cpp::score", "modules/exp_reg/exp_reg.cpp::evaluatev", "modules/exp_reg/exp_reg.cpp::evaluatem"]}
{"id": "C114", "title": "Exponential regression: gradient descent", "statement": "gradient_descent(r, e) and sgd(r, e) run max(e,1) steps of gradient descent (on the whole data set; on the sample drawn) on half the mean squared error with rate r, each followed by the regularisation of the weights; afterwards the stored predictions are those of the new parameters, and nothing but the parameters has changed.", "quantifier": "all data sets, parameters, rates and numbers of epochs", "why_tests_cant": "an invariant over any number of epochs; derivative statement over reals", "anchors": ["modules/exp_reg/exp_reg.cpp::gradient_descent", "modules/exp_reg/exp_reg.cpp::sgd"]}
{"id": "C115", "title": "Exponential regression: mini-batches", "statement": "mbgd(r, e, b) runs max(e,1) rounds; each does one step of gradient descent (initial values, weights and bias) for every mini-batch in order.", "quantifier": "all data sets, parameters, rates, batch sizes and numbers of epochs", "why_tests_cant": "an invariant over any number of rounds", "anchors": ["modules/exp_reg/exp_reg.cpp::mbgd"]}
{"id": "C116", "title": "Dual support vector classifier: predictions", "statement": "model_test(x) of an MLPPDualSVC is the sign of the sum of alpha_j y_j <x_j, x> plus the bias; model_set_test(X) is a new vector with the prediction for every row; a new object holds the drawn multipliers and bias and the kernel matrix of the samples; score() is the fraction of the stored predictions that round to the outputs. Nothing else changes.", "quantifier": "all data sets, multipliers, biases and inputs", "why_tests_cant": "all real data of every size", "anchors": ["modules/dual_svc/dual_svc.cpp::model_test", "modules/dual_svc/dual_svc.cpp::model_set_test", "modules/dual_svc/dual_svc.cpp::propagatev", "modules/dual_svc/dual_svc.cpp::propagatem", "modules/dual_svc/dual_svc.cpp::score"]}
{"id": "C117", "title": "Dual support vector classifier: multipliers", "statement": "gradient_descent(r, e) runs max(e,1) steps of gradient descent on the dual objective, each projected to the box [0, C]; afterwards every multiplier is in [0, C], the stored scores and predictions are those of the new parameters, and of what existed only the multipliers have changed.", "quantifier": "all data sets, multipliers, rates, C >= 0 and numbers of epochs", "why_tests_cant": "an invariant over any number of epochs; derivative statement over reals", "anchors": ["modules/dual_svc/dual_svc.cpp::gradient_descent", "modules/dual_svc/dual_svc.cpp::alpha_projection", "modules/dual_svc/dual_svc.cpp::forward_pass"]}
{"id": "C118", "title": "Dual support vector classifier: bias and balance", "statement": "Training moves the bias so that the free support vectors are on the margin (a bias that fits is kept), and the multipliers satisfy sum alpha_i y_i = 0.", "quantifier": "all data sets, multipliers and rates", "why_tests_cant": "optimality conditions over all reals", "anchors": ["modules/dual_svc/dual_svc.cpp::gradient_descent"]}
{"id": "C119", "title": "Softmax network: predictions", "statement": "model_test(x) of an MLPPSoftmaxNet is the softmax of the outputs of the network with one hidden logistic layer, model_set_test(X) that of every row; score() is the fraction of the samples all of whose stored outputs round to the right ones; without data the object answers null and 0 and training leaves it as it is; a new object made from data has the drawn weights, and get_embeddings is the matrix of the weights of its hidden layer. Nothing else changes.", "quantifier": "all data sets, parameters and inputs", "why_tests_cant": "all real data of every size", "anchors": ["modules/softmax_net/softmax_net.cpp::model_test", "modules/softmax_net/softmax_net.cpp::model_set_test", "modules/softmax_net/softmax_net.cpp::score", "modules/softmax_net/softmax_net.cpp::get_embeddings", "modules/softmax_net/softmax_net.cpp::evaluatev", "modules/softmax_net/softmax_net.cpp::evaluatem"]}
{"id": "C120", "title": "Softmax network: training", "statement": "Every epoch of train_gradient_descent, train_sgd (on the drawn sample) and train_mbgd (on every mini-batch) is a step of gradient descent on the cross entropy, in both layers, followed by the decay of the regularisation; afterwards the object shows the predictions of the new parameters, and of what existed only its own parameters have changed.", "quantifier": "all data sets with outputs summing to one, parameters, rates, samples drawn and numbers of epochs", "why_tests_cant": "an invariant over any number of epochs; derivative statement over reals", "anchors": ["modules/softmax_net/softmax_net.cpp::train_gradient_descent", "modules/softmax_net/softmax_net.cpp::train_sgd", "modules/softmax_net/softmax_net.cpp::train_mbgd"]}
{"id": "C121", "title": "Auto encoder: outputs and set-up", "statement": "model_test(x) of an MLPPAutoEncoder is the output of the network with one hidden logistic layer, model_set_test(X) that of every row; score() is the fraction of the samples all of whose stored outputs round to the inputs; an object that is not set up answers null and 0 and training leaves it as it is; a new object made from data has the drawn weights; after new data or a new number of units has been set, the object can be used with them. Nothing else changes.", "quantifier": "all data sets, parameters and inputs", "why_tests_cant": "all real data of every size; all later calls", "anchors": ["modules/auto_encoder/auto_encoder.cpp::model_test", "modules/auto_encoder/auto_encoder.cpp::model_set_test", "modules/auto_encoder/auto_encoder.cpp::score", "modules/auto_encoder/auto_encoder.cpp::set_input_set", "modules/auto_encoder/auto_encoder.cpp::set_n_hidden", "modules/auto_encoder/auto_encoder.cpp::evaluatev", "modules/auto_encoder/auto_encoder.cpp::evaluatem"]}
{"id": "C122", "title": "Auto encoder: training", "statement": "Every epoch of gradient_descent, sgd (on the drawn sample) and mbgd (on every mini-batch) is a step of gradient descent on half the mean squared distance of the outputs and the inputs, in both layers; afterwards the object shows the outputs of the new parameters, and of what existed only its own parameters have changed.", "quantifier": "all data sets, parameters, rates, samples drawn and numbers of epochs", "why_tests_cant": "an invariant over any number of epochs; derivative statement over reals", "anchors": ["modules/auto_encoder/auto_encoder.cpp::gradient_descent", "modules/auto_encoder/auto_encoder.cpp::sgd", "modules/auto_encoder/auto_encoder.cpp::mbgd"]}
{"id": "C123", "title": "Eigenvalues and eigenvectors", "statement": "eigen() of a symmetric matrix comes to an end and returns, as new matrices, a diagonal matrix with the eigenvalues of the operand in descending order and a matrix with pairwise orthogonal eigenvectors of length 1 in the corresponding columns; without a matrix the results are null; the operand is not changed.", "quantifier": "all symmetric matrices, any number of rotations", "why_tests_cant": "an iteration whose number of rounds depends on the data, over all real matrices", "anchors": ["core/mlpp_matrix.cpp::eigen", "core/mlpp_matrix.cpp::eigenb", "core/lin_alg.cpp::eigen"]}
{"id": "C124", "title": "Definiteness checks", "statement": "positive_definite_checker (negative_definite_checker) of a symmetric matrix answers true exactly if xAx is positive (negative) for every nonzero x; zero_eigenvalue exactly if the matrix is singular.", "quantifier": "all symmetric matrices", "why_tests_cant": "quantifies over all matrices and all vectors", "anchors": ["core/lin_alg.cpp::positive_definite_checker", "core/lin_alg.cpp::negative_definite_checker", "core/lin_alg.cpp::zero_eigenvalue"]}
{"id": "C125", "title": "Singular value decomposition", "statement": "svd() returns, as new matrices, U and Vt orthogonal and S with non-negative values in descending order on its diagonal and zeros elsewhere, such that U S Vt is the operand; the squares of these values are the eigenvalues of A At and At A; without a matrix the results are null; the operand is not changed.", "quantifier": "all matrices, any number of rotations", "why_tests_cant": "over all real matrices of every shape; two iterations", "anchors": ["core/mlpp_matrix.cpp::svd", "core/mlpp_matrix.cpp::svdb", "core/lin_alg.cpp::svd"]}
{"id": "C126", "title": "Principal component analysis", "statement": "principal_components() centres the data and returns their coordinates in the k principal directions: orthogonal unit eigenvectors of the covariance matrix for the k largest eigenvalues, the first of which is a direction of greatest variance; score() is the share of the variance that is kept, between 0 and 1; without data or components the results are null and 0. An object may be given data and number of components at construction or later, with the same result.", "quantifier": "all data sets and numbers of components", "why_tests_cant": "over all real data of every shape; maximality over all directions", "anchors": ["modules/pca/pca.cpp::principal_components", "modules/pca/pca.cpp::score", "modules/pca/pca.cpp::set_input_set", "modules/pca/pca.cpp::set_k"]}
{"id": "C127", "title": "Networks with several outputs: building and predictions", "statement": "add_layer and add_output_layer put layers with drawn weights behind the others and leave these as they are; model_test(x) and model_set_test(A) answer with the outputs of the network at x and at the rows of A, and leave the network as it is; score() is the fraction of the samples all of whose outputs are right; without data or output layer the answers are null and 0.", "quantifier": "all numbers and sizes of layers, activation functions, parameters and data", "why_tests_cant": "over all networks and real inputs", "anchors": ["modules/mann/mann.cpp::model_set_test", "modules/mann/mann.cpp::model_test", "modules/mann/mann.cpp::score", "modules/mann/mann.cpp::add_layer", "modules/mann/mann.cpp::add_output_layer", "modules/mann/mann.cpp::initialize", "modules/mann/mann.cpp::forward_pass"]}
{"id": "C128", "title": "Networks with several outputs: training", "statement": "gradient_descent is gradient descent: in every epoch all weights and biases take a step of size learning_rate / n against the gradient of the chosen loss, followed by the decay of the weights; max_epoch epochs (at least one) are run, and the object then shows the predictions of the last parameters; the data are not changed.", "quantifier": "all networks, data, learning rates and numbers of epochs", "why_tests_cant": "an unbounded number of steps over real data; gradients are limits", "anchors": ["modules/mann/mann.cpp::gradient_descent", "modules/mann/mann.cpp::forward_pass", "modules/mann/mann.cpp::cost"]}
{"id": "C129", "title": "Gaussian naive Bayes", "statement": "An MLPPGaussianNB trained with samples and their classes assigns an input to the class for which the frequency of the class times the normal densities of the features is largest; score() is the fraction of the samples that are assigned to their class; the data are not changed.", "quantifier": "all real data, classes and inputs", "why_tests_cant": "over all real data sets and inputs", "anchors": ["modules/gaussian_nb/gaussian_nb.cpp::model_set_test", "modules/gaussian_nb/gaussian_nb.cpp::model_test", "modules/gaussian_nb/gaussian_nb.cpp::score", "modules/gaussian_nb/gaussian_nb.cpp::MLPPGaussianNB", "modules/gaussian_nb/gaussian_nb.cpp::evaluate"]}
{"id": "C130", "title": "Bernoulli naive Bayes", "statement": "An MLPPBernoulliNB trained with samples of two classes assigns an input to the class for which the probabilities of the values that it contains, and of the absence of the other known values, times the frequency of the class are larger; score() is the fraction of the samples that are assigned to their class; the data are not changed; the constructor ends for all data.", "quantifier": "all real data with classes 0 and 1, and all inputs", "why_tests_cant": "over all data sets and inputs; termination", "anchors": ["modules/bernoulli_nb/bernoulli_nb.cpp::model_set_test", "modules/bernoulli_nb/bernoulli_nb.cpp::model_test", "modules/bernoulli_nb/bernoulli_nb.cpp::score", "modules/bernoulli_nb/bernoulli_nb.cpp::MLPPBernoulliNB", "modules/bernoulli_nb/bernoulli_nb.cpp::compute_vocab", "modules/bernoulli_nb/bernoulli_nb.cpp::compute_theta", "modules/bernoulli_nb/bernoulli_nb.cpp::evaluate"]}
{"id": "C131", "title": "Multinomial naive Bayes", "statement": "An MLPPMultinomialNB trained with samples and their classes assigns an input to the most probable class, given the frequencies of the values in the classes; every answer is one of the classes; a sample with a class that does not exist is rejected; before initialisation the answers are null and 0; the data are not changed.", "quantifier": "all real data, numbers of classes, inputs, and contents of memory", "why_tests_cant": "over all data sets, inputs and contents of uninitialised memory", "anchors": ["modules/multinomial_nb/multinomial_nb.cpp::model_set_test", "modules/multinomial_nb/multinomial_nb.cpp::model_test", "modules/multinomial_nb/multinomial_nb.cpp::score", "modules/multinomial_nb/multinomial_nb.cpp::MLPPMultinomialNB", "modules/multinomial_nb/multinomial_nb.cpp::compute_theta", "modules/multinomial_nb/multinomial_nb.cpp::evaluate", "modules/multinomial_nb/multinomial_nb.cpp::initialize"]}
{"id": "C132", "title": "GAN: building, samples, score", "statement": "An MLPPGAN is made of the hidden layers given to add_layer(), in their order, and the layer given to add_output_layer(): the first half of the hidden layers (and one more) generate samples from noise, the others and the output layer judge them. generate_example(n) answers with what the generator, with its current weights, makes of n samples of noise; score() is the fraction of generated samples that are taken for real ones. The given samples are not changed.", "quantifier": "all numbers and sizes of layers, activations, real weights, noise", "why_tests_cant": "over all networks, weights and random numbers", "anchors": ["modules/gan/gan.cpp::add_layer", "modules/gan/gan.cpp::add_output_layer", "modules/gan/gan.cpp::generate_example", "modules/gan/gan.cpp::score", "modules/gan/gan.cpp::forward_pass", "modules/gan/gan.cpp::model_set_test_generator", "modules/gan/gan.cpp::MLPPGAN"]}
{"id": "C133", "title": "GAN: training", "statement": "gradient_descent() of an MLPPGAN alternates steps of gradient descent for the layers that judge and for the layers that generate, and returns.", "quantifier": "all networks that the methods can build, all data, learning rates, numbers of epochs and random numbers", "why_tests_cant": "over all histories of calls, all data and random numbers", "anchors": ["modules/gan/gan.cpp::gradient_descent", "modules/gan/gan.cpp::compute_discriminator_gradients", "modules/gan/gan.cpp::model_set_test_discriminator", "modules/gan/gan.cpp::cost"]}
{"id": "C134", "title": "WGAN: building, samples, score", "statement": "An MLPPWGAN has the hidden layers given to add_layer() or create_layer(), in their order; get_layer() and remove_layer() find them by number; add_output_layer() completes the network with the given regularisation. generate_example(n) answers with what the generator, with its current weights, makes of n samples of noise; score() is the fraction of generated samples that are judged as 1. The given samples are not changed.", "quantifier": "all numbers and sizes of layers, activations, real weights, noise", "why_tests_cant": "over all networks, weights and random numbers", "anchors": ["modules/wgan/wgan.cpp::create_layer", "modules/wgan/wgan.cpp::add_layer", "modules/wgan/wgan.cpp::get_layer", "modules/wgan/wgan.cpp::remove_layer", "modules/wgan/wgan.cpp::get_layer_count", "modules/wgan/wgan.cpp::add_output_layer", "modules/wgan/wgan.cpp::generate_example", "modules/wgan/wgan.cpp::score", "modules/wgan/wgan.cpp::MLPPWGAN"]}
{"id": "C135", "title": "WGAN: training", "statement": "Every epoch of gradient_descent() of an MLPPWGAN makes five steps of gradient descent for the critic, on the Wasserstein loss with the targets -1 for generated samples and 1 for the given ones, and one for the generator, on the loss of the critic's opinions with the target 1; the steps start from the weights that the previous one has reached.", "quantifier": "all networks, differentiable activations, real data, learning rates, numbers of epochs, random numbers", "why_tests_cant": "over all networks, data and numbers of epochs", "anchors": ["modules/wgan/wgan.cpp::gradient_descent", "modules/wgan/wgan.cpp::update_discriminator_parameters", "modules/wgan/wgan.cpp::update_generator_parameters", "modules/wgan/wgan.cpp::compute_discriminator_gradients", "modules/wgan/wgan.cpp::compute_generator_gradients", "modules/wgan/wgan.cpp::forward_pass", "modules/wgan/wgan.cpp::model_set_test_discriminator"]}
{"id": "C136", "title": "Networks: adaptive training methods", "statement": "Every step of momentum() (with or without nag), adagrad(), adadelta(), adam(), adamax(), nadam() and amsgrad() of an MLPPANN changes every weight by the rule of the method (Sutskever, Nesterov, Duchi, Zeiler, Kingma, Dozat, Reddi), from moments that start at zero, on the gradient of the objective at one mini-batch; the steps continue where the previous one ended, so that the methods differ in the network they find. For any network, batch size and number of epochs they return.", "quantifier": "all networks of any depth, differentiable activations and losses, real data, rates, method parameters, batch sizes, numbers of epochs and random numbers", "why_tests_cant": "over all networks, data, parameters and numbers of epochs", "anchors": ["modules/ann/ann.cpp::momentum", "modules/ann/ann.cpp::adagrad", "modules/ann/ann.cpp::adadelta", "modules/ann/ann.cpp::adam", "modules/ann/ann.cpp::adamax", "modules/ann/ann.cpp::nadam", "modules/ann/ann.cpp::amsgrad", "modules/ann/ann.cpp::update_parameters"]}
{"id": "C137", "title": "Stemming", "statement": "stemming(text) answers with the text in which every word has lost the longest of the known suffixes it ends with (and nothing else has changed); words end at spaces and punctuation, and at the end of the text.", "quantifier": "all texts and all lists of suffixes", "why_tests_cant": "over all texts, of any length", "anchors": ["core/data.cpp::stemming", "core/data.cpp::load_default_suffixes"]}
{"id": "C138", "title": "Silhouette scores", "statement": "silhouette_scores() of a trained k-means object answers with a new vector holding the silhouette of each point: (b - a) / max(a, b), where a is the mean distance to the other points of its cluster and b the smallest mean distance to the points of another cluster; the scores lie between -1 and 1, and nothing else changes. An object that is not initialised answers with null.", "quantifier": "all data sets, centroids and memberships", "why_tests_cant": "over all real data of any size", "anchors": ["modules/kmeans/kmeans.cpp::silhouette_scores"]}
{"id": "C139", "title": "Matrices and images", "statement": "set_from_image gives a matrix the size of the image, and each cell the chosen colour component of its pixel; get_as_image and get_into_image make a grey image of the size of the matrix whose pixels are 255 times the entries, rounded down, and change nothing else, so that writing a matrix with entries between 0 and 1 to an image and reading it back changes no entry by 1/255 or more, and reading a grey image into a matrix and writing it gives the same image. Missing images and channels other than 0 to 3 change nothing; a matrix without elements clears the target.", "quantifier": "all matrices, images, channels, build modes", "why_tests_cant": "over all sizes and all real entries", "anchors": ["core/mlpp_matrix.cpp::get_as_image", "core/mlpp_matrix.cpp::get_into_image", "core/mlpp_matrix.cpp::set_from_image", "platform/image.cpp::get_pixel", "platform/image.cpp::create"]}
{"id": "C140", "title": "Z slices and images", "statement": "z_slice_get_image makes a grey image of a z slice; z_slices_get_image and z_slices_get_into_image make an image whose components are the slices named for them (black and not transparent where none is named); z_slice_get_into_image writes a slice to the channels named; z_slice_set_image, z_slices_set_image and set_from_image copy components to slices and change no other cell; z_slices_add_image adds a slice for every channel named. What has been written to a channel that the format of the image has is read back with an error below 1/255. Slices out of range, missing images, missing channels and images of a different size change nothing.", "quantifier": "all tensors, images, slices, channel flags, build modes", "why_tests_cant": "over all sizes and all real cells", "anchors": ["core/mlpp_tensor3.cpp::z_slices_add_image", "core/mlpp_tensor3.cpp::z_slice_get_image", "core/mlpp_tensor3.cpp::z_slices_get_image", "core/mlpp_tensor3.cpp::z_slice_get_into_image", "core/mlpp_tensor3.cpp::z_slices_get_into_image", "core/mlpp_tensor3.cpp::z_slice_set_image", "core/mlpp_tensor3.cpp::z_slices_set_image", "core/mlpp_tensor3.cpp::set_from_image", "platform/image.cpp::set_pixel", "platform/image.cpp::resize"]}
{"id": "C141", "title": "X and y slices and images", "statement": "x_slice_get_image(i) and x_slice_get_into_image(t, i, ...) make an image with a column for each row and a row for each slice of the tensor whose pixels are the cells with column i; x_slice_set_image copies such an image to these cells. y_slice_get_image, y_slice_get_into_image and y_slice_set_image do the same with the cells of row i (a column for each column, a row for each slice).", "quantifier": "all tensors, images, slices, channel flags", "why_tests_cant": "over all sizes and all real cells", "anchors": ["core/mlpp_tensor3.cpp::x_slice_get_image", "core/mlpp_tensor3.cpp::x_slice_get_into_image", "core/mlpp_tensor3.cpp::x_slice_set_image", "core/mlpp_tensor3.cpp::y_slice_get_image", "core/mlpp_tensor3.cpp::y_slice_get_into_image", "core/mlpp_tensor3.cpp::y_slice_set_image"]}
{"id": "C142", "title": "Conversions from and to std::vector, arrays of vectors and raw memory", "statement": "to_std_vector and to_flat_std_vector of a vector, matrix or tensor return its elements in order (row by row, slice by slice) and change nothing; set_from_std_vector(s), set_from_mlpp_vectors and set_from_ptr give the object exactly the elements passed, in the same order, with the size of what was passed, and change no other object; set_row_std_vector replaces one row, and does nothing for a bad index or length. Hence what was put in comes out again.", "quantifier": "all element types, sizes, contents and objects", "why_tests_cant": "over all sizes and contents", "anchors": ["core/mlpp_vector.cpp::to_std_vector", "core/mlpp_vector.cpp::set_from_std_vector", "core/mlpp_matrix.cpp::to_flat_std_vector", "core/mlpp_matrix.cpp::to_std_vector", "core/mlpp_matrix.cpp::set_from_std_vectors", "core/mlpp_matrix.cpp::set_row_std_vector", "core/mlpp_matrix.cpp::set_from_ptr", "core/mlpp_matrix.cpp::set_from_mlpp_vectors", "core/mlpp_matrix.cpp::set_from_mlpp_vectors_array", "core/mlpp_tensor3.cpp::to_flat_std_vector", "core/mlpp_tensor3.cpp::to_std_vector", "core/mlpp_tensor3.cpp::set_from_std_vectors"]}
{"id": "C143", "title": "Latent semantic analysis", "statement": "lsa(sentences, dim) returns a new matrix with dim rows and one column per different word, in which the inner products of words with dim equal to the number of words are those of the columns of the binary bag of words (the numbers of sentences in which both words occur), and changes nothing else.", "quantifier": "all lists of at least two sentences with at least two different words, all dimensions up to the number of either, all lists of stop words", "why_tests_cant": "the decomposition iterates an unbounded number of times and its result depends on ties between singular values for each choice of sentences", "anchors": ["core/data.cpp::MLPPData::lsa"]}
{"id": "C144", "title": "Values of the activation functions", "statement": "Each activation function of a number, and of every element of a vector or matrix, has the value of the function it is named after wherever that is defined: the inverse functions invert, the Gaussian distribution function is the probability of being at most z, the piecewise functions switch at the right point.", "quantifier": "all activation functions and all real arguments in their domains, all vectors and matrices with elements in the domains", "why_tests_cant": "an identity between real functions has uncountably many instances; a wrong constant or branch shows only at particular arguments", "anchors": ["core/activation.cpp::MLPPActivation::run_activation_norm_real", "core/activation.cpp::MLPPActivation::run_activation_norm_vector", "core/activation.cpp::MLPPActivation::run_activation_norm_matrix", "core/activation.cpp::MLPPActivation::arsech_normr", "core/activation.cpp::MLPPActivation::gaussian_cdf_normr"]}
{"id": "C145", "title": "Word embeddings", "statement": "word_to_vec pairs every word of a sentence (without stop words) with every other word at most windowSize places away, trains a network with the one-hot encodings of the first words of the pairs as inputs and of the second words as targets (or the other way round for skip-gram), and returns the list of words and an embedding for each of them, in the same order.", "quantifier": "all lists of sentences, stop words, window sizes and dimensions", "why_tests_cant": "the pairs, the vocabulary and the matrices depend on every sentence and on the window; uninitialised memory is often zero in a test", "anchors": ["core/data.cpp::MLPPData::word_to_vec"]}
{"id": "C146", "title": "A probit regression set up step by step", "statement": "After any history of setter calls each getter of MLPPProbitReg returns the last value set (a null vector is ignored by the data setters). An object created empty refuses predictions and training; given data and settings by setters in any order and then initialised, it is what the constructor with data makes. Weights and bias set by the user are the ones predictions use, and data of another size is refused until the object is initialised again.", "quantifier": "all histories of setter calls, data sets, settings and drawn weights", "why_tests_cant": "the order and repetition of setter calls is unbounded; tests use one order", "anchors": ["modules/probit_reg/probit_reg.cpp::MLPPProbitReg::set_input_set", "modules/probit_reg/probit_reg.cpp::MLPPProbitReg::set_output_set", "modules/probit_reg/probit_reg.cpp::MLPPProbitReg::data_weights_set", "modules/probit_reg/probit_reg.cpp::MLPPProbitReg::initialize", "modules/probit_reg/probit_reg.cpp::MLPPProbitReg::needs_init", "modules/probit_reg/probit_reg.cpp::MLPPProbitReg::MLPPProbitReg"]}
{"id": "C147", "title": "HashMap is a map for every history and hash function", "statement": "The answers of a HashMap to every history of insert (at the end or at the front), operator[], erase, clear, reserve, has, getptr, get, size, empty, key list, copy and assignment are those of a list of keys and values in insertion order, whatever the hash function, including one that gives all keys the same hash. Every call returns, except get of a missing key and operator[] with a new key at the largest size (1207959555 elements). The fast remainder used to find places is the remainder of the division for all 32-bit numbers and all capacities of the table.", "quantifier": "all histories of operations, key and value types, hash functions and initial capacities", "why_tests_cant": "collisions, displacement and deletion interact over unbounded histories; tests meet few collision patterns", "anchors": ["platform/sfw.h::HashMap::_insert", "platform/sfw.h::HashMap::erase", "platform/sfw.h::HashMap::_lookup_pos", "platform/sfw.h::HashMap::_insert_with_hash", "platform/sfw.h::HashMap::_resize_and_rehash", "platform/sfw.h::HashMap::reserve", "platform/sfw.h::HashMap::operator=", "platform/sfw.h::fastmod"]}
{"id": "C148", "title": "Vectors are values although copies share memory", "statement": "For every number of variables of type Vector<T> and every history of assignment, going out of scope, resize, set, get, push_back, insert, remove, erase, find, fill, invert, append_array (also of a vector to itself), slice, ordered_insert, size and empty, each variable behaves as a list of its own: a change of one is never seen in another. No memory is used after it was freed or beyond what was allocated, none is leaked, and the reference count of a block is the number of variables that use it. The program stops only when set or get is given an index that does not exist.", "quantifier": "all numbers of variables below 2^32 - 1, histories, element types and element sizes", "why_tests_cant": "sharing patterns and histories are unbounded; a wrong reference count shows only in some of them", "anchors": ["platform/sfw.h::CowData::_ref", "platform/sfw.h::CowData::_unref", "platform/sfw.h::CowData::_copy_on_write", "platform/sfw.h::CowData::resize", "platform/sfw.h::CowData::insert", "platform/sfw.h::CowData::remove", "platform/sfw.h::Vector::push_back", "platform/sfw.h::Vector::append_array", "platform/sfw.h::Vector::slice", "platform/sfw.h::Vector::invert", "platform/sfw.h::next_power_of_2"]}
{"id": "C149", "title": "The hash set behaves as a set", "statement": "For every hash function and every history of insert, erase, remove, clear, reset, reserve, has, find, size, is_empty, iteration, copy and assignment, a HashSet gives the answers of a list of different keys: each call returns; exactly the keys inserted and not erased since are found; iteration visits each key once, in the order of insertion except that the last key takes the place of an erased one; find and insert return an iterator at the key's place. No key is read where none was constructed.", "quantifier": "all key types, hash functions, initial capacities, histories and contents of uninitialised memory", "why_tests_cant": "two tables of indices must stay inverse to each other through every displacement, shift, rehash and swap; histories and collision patterns are unbounded", "anchors": ["platform/sfw.h::HashSet::_lookup_pos", "platform/sfw.h::HashSet::_insert_with_hash", "platform/sfw.h::HashSet::_resize_and_rehash", "platform/sfw.h::HashSet::_insert", "platform/sfw.h::HashSet::_init_from", "platform/sfw.h::HashSet::erase", "platform/sfw.h::HashSet::reserve"]}
{"id": "C150", "title": "A multilayer perceptron over its whole life", "statement": "An MLPPMLP created empty and given any sequence of calls of setters, initialize() and training methods never crashes and never changes an object that existed before it; each getter returns the value set last (or the default); it is initialised exactly if initialize() was called at a moment when inputs, outputs and hidden units were set and no setter has been called since; when it is, it is ready for the data and the number of hidden units set last, whatever sizes it had before, so that predictions and training are those of C102; before that, training does nothing.", "quantifier": "all sequences of calls, all data sets with one number of rows and any numbers of columns, all random draws, learning rates, epoch counts, batch sizes", "why_tests_cant": "histories are unbounded, and the sizes of the object's own vectors after each change matter to all later calls", "anchors": ["modules/mlp/mlp.cpp::set_input_set", "modules/mlp/mlp.cpp::set_output_set", "modules/mlp/mlp.cpp::set_n_hidden", "modules/mlp/mlp.cpp::set_lambda", "modules/mlp/mlp.cpp::set_alpha", "modules/mlp/mlp.cpp::set_reg", "modules/mlp/mlp.cpp::initialize", "modules/mlp/mlp.cpp::is_initialized", "modules/mlp/mlp.cpp::gradient_descent", "modules/mlp/mlp.cpp::sgd", "modules/mlp/mlp.cpp::mbgd"]}
{"id": "C151", "title": "A softmax regression over its whole life", "statement": "An MLPPSoftmaxReg created empty and given any sequence of calls of the setters of data and settings, initialize() and gradient descent never crashes and never changes an object that existed before it; each getter returns the value set last (or the default). Without data it refuses to predict, scores 0 and does not train. With data it is either ready for exactly that data (C101) or refuses everything: ready if the last initialising was with data of the same widths, even if data was exchanged since; refusing if the widths differ or it was never initialised. Weights and biases set by the user are those predictions use.", "quantifier": "all sequences of calls, all data sets with one number of rows and any numbers of columns and classes, all random draws, learning rates, epoch counts", "why_tests_cant": "histories are unbounded, and readiness depends on the sizes of the object's matrices after all earlier calls", "anchors": ["modules/softmax_reg/softmax_reg.cpp::set_input_set", "modules/softmax_reg/softmax_reg.cpp::set_output_set", "modules/softmax_reg/softmax_reg.cpp::set_reg", "modules/softmax_reg/softmax_reg.cpp::set_lambda", "modules/softmax_reg/softmax_reg.cpp::set_alpha", "modules/softmax_reg/softmax_reg.cpp::data_weights_set", "modules/softmax_reg/softmax_reg.cpp::data_bias_set", "modules/softmax_reg/softmax_reg.cpp::needs_init", "modules/softmax_reg/softmax_reg.cpp::initialize", "modules/softmax_reg/softmax_reg.cpp::train_gradient_descent"]}
{"id": "C152", "title": "A hidden layer over its whole life", "statement": "An MLPPHiddenLayer made with inputs and given any sequence of calls of its setters (other than those of the weights, biases and z, see C103), initialize(), forward_pass() and test() never crashes and never changes an object that existed before it; each getter returns the value set last. is_initialized() is true exactly if no setter was called since the last use (or since the constructor); the weights are then those drawn by the first use after the last setter, in the sizes of the present inputs and number of units, and later uses keep them. After a forward pass the outputs are the activation function of X*W+b at the present inputs, after test(x) that of W*x+b.", "quantifier": "all sequences of calls, all inputs of any sizes, numbers of units, random draws, uniform weight distributions and activation functions that work for every value (C103)", "why_tests_cant": "histories are unbounded, and what a forward pass does depends on which calls came before", "anchors": ["modules/hidden_layer/hidden_layer.cpp::set_n_hidden", "modules/hidden_layer/hidden_layer.cpp::set_activation", "modules/hidden_layer/hidden_layer.cpp::set_input", "modules/hidden_layer/hidden_layer.cpp::set_reg", "modules/hidden_layer/hidden_layer.cpp::set_lambda", "modules/hidden_layer/hidden_layer.cpp::set_alpha", "modules/hidden_layer/hidden_layer.cpp::set_weight_init", "modules/hidden_layer/hidden_layer.cpp::is_initialized", "modules/hidden_layer/hidden_layer.cpp::initialize", "modules/hidden_layer/hidden_layer.cpp::forward_pass", "modules/hidden_layer/hidden_layer.cpp::test"]}
{"id": "C153", "title": "An output layer over its whole life", "statement": "An MLPPOutputLayer given any sequence of calls of its setters (other than that of the weights, see C104), initialize(), forward_pass() and test(), with inputs of as many columns as there are weights whenever a forward pass is made, never crashes and never changes an object that existed before it; each getter returns the value set last. is_initialized() is true exactly if the layer was used since the last setter (that of the regularisation excepted); weights and bias are then those drawn by the first use after that setter, and later uses keep them. After a forward pass the outputs are the activation function of X*w+b at the present inputs, after test(x) that of w.x+b.", "quantifier": "all sequences of calls, all inputs and numbers of weights, random draws, weight distributions, and activation functions but adj_softmax (C103)", "why_tests_cant": "histories are unbounded, and what a forward pass does depends on which calls came before", "anchors": ["modules/output_layer/output_layer.cpp::set_n_hidden", "modules/output_layer/output_layer.cpp::set_activation", "modules/output_layer/output_layer.cpp::set_cost", "modules/output_layer/output_layer.cpp::set_input", "modules/output_layer/output_layer.cpp::set_bias", "modules/output_layer/output_layer.cpp::set_reg", "modules/output_layer/output_layer.cpp::set_lambda", "modules/output_layer/output_layer.cpp::set_alpha", "modules/output_layer/output_layer.cpp::set_weight_init", "modules/output_layer/output_layer.cpp::is_initialized", "modules/output_layer/output_layer.cpp::initialize", "modules/output_layer/output_layer.cpp::forward_pass", "modules/output_layer/output_layer.cpp::test"]}
{"id": "C154", "title": "A k-means object over its whole life", "statement": "An MLPPKMeans given any sequence of calls of its setters, initialize(), train(), model_test(), model_set_test() and score(), with random centroids, for data and numbers of clusters that change in between, never crashes and never changes an object that existed before it; each getter returns the value set last. A setter asks for new centroids: until the next initialize() or train() with data every prediction is refused and the score is 0. Afterwards the centroids are those reached from the drawn rows of the present data by as many turns as all trainings since then had together (at least one each); model_test(x) answers the first of them closest to x, and after a training score() is the sum of squared distances of the points to the centroids of the clusters they were assigned to.", "quantifier": "all sequences of calls, all data, numbers of clusters, rows drawn, epochs", "why_tests_cant": "histories are unbounded, and what a training starts from depends on which calls came before", "anchors": ["modules/kmeans/kmeans.cpp::set_input_set", "modules/kmeans/kmeans.cpp::set_k", "modules/kmeans/kmeans.cpp::set_mean_type", "modules/kmeans/kmeans.cpp::initialize", "modules/kmeans/kmeans.cpp::train", "modules/kmeans/kmeans.cpp::model_test", "modules/kmeans/kmeans.cpp::model_set_test", "modules/kmeans/kmeans.cpp::score"]}
{"id": "C155", "title": "A layer with several outputs over its whole life", "statement": "An MLPPMultiOutputLayer given any sequence of calls of all its setters, forward_pass() and test(), such that the sizes of inputs, weights and biases fit together whenever a pass or a test is made, never crashes and never changes an object that existed before it; each getter returns the value set last (for z, a, z_test, a_test: set since the last pass or test). The weights are those set last; if none were set they are the ones drawn by the constructor, whatever was set as the numbers of units. After a forward pass the outputs are the activation function of X*W+b for the present inputs, weights, biases and activation function, after test(x) that of x*W+b, with or without inputs.", "quantifier": "all sequences of calls, all sizes, inputs, weights, biases, draws, and the activation functions that work for every value (C105)", "why_tests_cant": "histories are unbounded, and what a forward pass does depends on which calls came before", "anchors": ["modules/multi_output_layer/multi_output_layer.cpp::set_n_output", "modules/multi_output_layer/multi_output_layer.cpp::set_n_hidden", "modules/multi_output_layer/multi_output_layer.cpp::set_activation", "modules/multi_output_layer/multi_output_layer.cpp::set_cost", "modules/multi_output_layer/multi_output_layer.cpp::set_input", "modules/multi_output_layer/multi_output_layer.cpp::set_weights", "modules/multi_output_layer/multi_output_layer.cpp::set_bias", "modules/multi_output_layer/multi_output_layer.cpp::set_z", "modules/multi_output_layer/multi_output_layer.cpp::set_a", "modules/multi_output_layer/multi_output_layer.cpp::set_z_test", "modules/multi_output_layer/multi_output_layer.cpp::set_a_test", "modules/multi_output_layer/multi_output_layer.cpp::set_delta", "modules/multi_output_layer/multi_output_layer.cpp::set_reg", "modules/multi_output_layer/multi_output_layer.cpp::set_lambda", "modules/multi_output_layer/multi_output_layer.cpp::set_alpha", "modules/multi_output_layer/multi_output_layer.cpp::set_weight_init", "modules/multi_output_layer/multi_output_layer.cpp::forward_pass", "modules/multi_output_layer/multi_output_layer.cpp::test"]}
{"id": "C156", "title": "A simple linear regression over its whole life", "statement": "An MLPPUniLinReg, made with or without data, is given any sequence of calls of its setters and of train(), with as many inputs as outputs whenever it is trained with both. No call fails or changes the data; training without inputs or outputs changes nothing; the getters of the data return what was set last. Each coefficient is the value set last, or, if a training with data came after that, the one of the only line of least squares for the data of the last such training (if the inputs are not all equal), even if other data were set since. model_test(t) = b0 + b1*t for the present coefficients.", "quantifier": "all sequences of calls, all vectors of data, all values of the coefficients", "why_tests_cant": "histories are unbounded, and what the coefficients are depends on which calls came before", "anchors": ["modules/uni_lin_reg/uni_lin_reg.cpp::set_input_set", "modules/uni_lin_reg/uni_lin_reg.cpp::set_output_set", "modules/uni_lin_reg/uni_lin_reg.cpp::set_b0", "modules/uni_lin_reg/uni_lin_reg.cpp::set_b1", "modules/uni_lin_reg/uni_lin_reg.cpp::train", "modules/uni_lin_reg/uni_lin_reg.cpp::model_test"]}
{"id": "C157", "title": "A support vector classifier over its whole life", "statement": "An MLPPSVC, made with data or made empty and then given data with its setters, is given any sequence of calls of its setters, of initialize and of its trainings. No call fails or changes the data; the getters return what was set last; every training goes from the parameters that the calls before it left, with the C set last, against subgradients of C times the mean hinge loss; the answers are the signs of the linear function with the present parameters, and the predictions shown are those of the last training.", "quantifier": "all sequences of calls, all samples and labels, all values of C, learning rates, numbers of epochs, drawn rows and initial weights", "why_tests_cant": "histories are unbounded, and the parameters depend on all calls that came before", "anchors": ["modules/svc/svc.cpp::set_input_set", "modules/svc/svc.cpp::set_output_set", "modules/svc/svc.cpp::set_c", "modules/svc/svc.cpp::data_z_set", "modules/svc/svc.cpp::data_y_hat_set", "modules/svc/svc.cpp::data_weights_set", "modules/svc/svc.cpp::data_bias_set", "modules/svc/svc.cpp::initialize", "modules/svc/svc.cpp::train_gradient_descent", "modules/svc/svc.cpp::train_sgd", "modules/svc/svc.cpp::train_mbgd", "modules/svc/svc.cpp::MLPPSVC"]}
{"id": "C158", "title": "A nearest-neighbours classifier over its whole life", "statement": "An MLPPKNN made empty is given any sequence of calls of its setters and of questions (model_test, model_set_test, score), each question asked when there are samples and classes. No call fails or changes an object that existed; the getters return what was set last; every answer is the one for the data and the k set last, whatever was set or asked before: the class that most of the k nearest samples have; the score is the fraction of the samples whose class is the answer for them.", "quantifier": "all sequences of calls, all samples, classes, points and numbers k", "why_tests_cant": "histories are unbounded, and every answer depends on the calls that came before", "anchors": ["modules/knn/knn.cpp::set_input_set", "modules/knn/knn.cpp::set_output_set", "modules/knn/knn.cpp::set_k", "modules/knn/knn.cpp::model_test", "modules/knn/knn.cpp::model_set_test", "modules/knn/knn.cpp::score"]}
{"id": "C159", "title": "A tanh regression over its whole life", "statement": "An MLPPTanhReg is made with data and given any sequence of calls of its setters and trainings. Its data and its settings are those set last, its weights and bias go from the numbers drawn to what the trainings lead to, each with the settings made last and each along the gradient of its loss; the answers are the hyperbolic tangents of the linear function with these parameters. One made without data answers after its data are set.", "quantifier": "all sequences of calls, all data, settings, learning rates, rows drawn and numbers of epochs", "why_tests_cant": "histories are unbounded, and every training starts from what the calls before it left", "anchors": ["modules/tanh_reg/tanh_reg.cpp::set_output_set", "modules/tanh_reg/tanh_reg.cpp::get_output_set", "modules/tanh_reg/tanh_reg.cpp::set_reg", "modules/tanh_reg/tanh_reg.cpp::set_lambda", "modules/tanh_reg/tanh_reg.cpp::set_alpha", "modules/tanh_reg/tanh_reg.cpp::data_bias_set", "modules/tanh_reg/tanh_reg.cpp::train_gradient_descent", "modules/tanh_reg/tanh_reg.cpp::train_sgd"]}
