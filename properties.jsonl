{"id": "C01", "title": "Shape conversion round trip", "statement": "Building a Shape from a list of at most six dimensions (each below 2^32) and reading it back through as_vec, rank, dim(i), rdim(i), cols, rows, len and size returns exactly those dimensions (size is their product). A list of more than six dimensions panics.", "quantifier": "every list of dimensions, every axis", "why_tests_cant": "infinitely many dimension lists and axes; the storage is reversed and truncated to u32", "anchors": ["src/tensor/shape.rs: From<&[usize]>, From<[usize; N]>, From<Vec<usize>>, as_vec, rank, dim, rdim, cols, rows, len, size"]}
{"id": "C02", "title": "Shape edits are list edits", "statement": "insert/rinsert, remove/rremove, replace/rreplace, with_dim, with_cols, with_rows, push and pop change the as_vec list exactly as inserting, erasing, overwriting, consing and dropping an entry of the list would, and leave every other dimension alone.", "quantifier": "every reachable shape, every axis, every new length", "why_tests_cant": "the reversed storage and shifting loops must agree with list semantics at every rank/axis pair and every length", "anchors": ["src/tensor/shape.rs: insert, rinsert, remove, rremove, replace, rreplace, with_dim, with_cols, with_rows, push, pop, reduce"]}
{"id": "C03", "title": "remove undoes insert", "statement": "For every shape and every axis at which insert succeeds, removing the same axis afterwards gives back a shape equal (==) to the original one.", "quantifier": "every reachable shape, axis and inserted length", "why_tests_cant": "equality is on the raw storage including the unused slots, so a stale slot at any rank would break it", "anchors": ["src/tensor/shape.rs: insert, rinsert, remove, rremove, derive(PartialEq)"]}
{"id": "C04", "title": "Shape equality is equality of dimension lists", "statement": "Two shapes compare equal exactly when as_vec returns the same list, whatever sequence of shape operations built them.", "quantifier": "every pair of shapes obtained by any sequence of shape operations", "why_tests_cant": "quantifies over all histories; the derived comparison looks at storage slots beyond the rank", "anchors": ["src/tensor/shape.rs: derive(PartialEq), as_vec, with_cols, reduce, rremove, pop, squeeze"]}
{"id": "C05", "title": "expand_dims and squeeze only add or drop unit dimensions", "statement": "expand_dims(axis) inserts a dimension 1 at the requested axis and keeps the data; squeeze() drops exactly the dimensions equal to 1 (a tensor with nothing left becomes [1]); squeeze_axis(axis) drops exactly the named axis when it is 1; squeezing an axis just added by expand_dims gives back the original tensor.", "quantifier": "every tensor and axis", "why_tests_cant": "all ranks, axes and positions of unit dimensions", "anchors": ["src/tensor/shape.rs: expand_dims, squeeze, Tensor::expand_dims, Tensor::squeeze, Tensor::squeeze_axis"]}
{"id": "C06", "title": "Construction succeeds exactly when sizes match", "statement": "Building a tensor from data and a shape succeeds exactly when the number of elements equals the product of the dimensions, and then the tensor reads back exactly that data in that order with that shape; otherwise it panics.", "quantifier": "every element list and shape", "why_tests_cant": "all data lengths and shapes, including zero and overflowing products", "anchors": ["src/tensor/tensor.rs: from_vec, from_box, new, as_slice, from_slice", "src/tensor/data.rs: from_boxed_slice"]}
{"id": "C07", "title": "Views stay inside their buffer under every history", "statement": "Any tensor obtained by any finite sequence of constructors, reshapes, slices, splits, joins, transposes, tiles and elementwise operations has size() equal to the product of its dimensions and refers only to elements inside the buffer it shares, so as_slice never reads outside allocated memory.", "quantifier": "every finite sequence of API calls", "why_tests_cant": "a statement about all histories; tests visit finitely many", "anchors": ["src/tensor/tensor.rs: new, as_slice, subslice, subslice_flat", "src/tensor/shape.rs: reshape, flatten, squeeze, expand_dims", "src/array/split.rs", "src/array/stack.rs", "src/array/transpose.rs"]}
{"id": "C08", "title": "reshape and flatten keep the elements", "statement": "reshape succeeds exactly when the new shape has the same number of elements; it never changes the flat element sequence; reshaping back returns an equal tensor; flatten is reshape to one dimension.", "quantifier": "every tensor and target shape", "why_tests_cant": "all shapes", "anchors": ["src/tensor/shape.rs: Tensor::reshape, Tensor::flatten"]}
{"id": "C09", "title": "subslice is a contiguous range of outer rows", "statement": "subslice(o, n) contains exactly the outer rows o..o+n in order, panics exactly when the range holds no element or does not fit, and taking a subslice of a subslice equals taking the combined subslice of the original.", "quantifier": "every tensor, offset and length, and nestings", "why_tests_cant": "all offsets into all shapes; nested offsets accumulate", "anchors": ["src/tensor/tensor.rs: subslice, subslice_flat"]}
{"id": "C10", "title": "Multi-index access is row-major and bounds checked", "statement": "t[i], t[(i,j)], ... t[(i,j,k,l,m)] return the element at that multi-index in row-major order for every in-range index and panic for every out-of-range index.", "quantifier": "every tensor of matching rank and every index tuple", "why_tests_cant": "all index tuples at all shapes", "anchors": ["src/tensor/index.rs: Index impls"]}
{"id": "C11", "title": "get agrees with as_slice", "statement": "get(i) returns Some of the i-th element of as_slice() when i < size() and None otherwise, for owned tensors and for views.", "quantifier": "every tensor (including views) and index", "why_tests_cant": "views at every offset; the raw pointer read has no bounds check to fail in a test", "anchors": ["src/tensor/tensor.rs: get, as_slice, as_ptr"]}
{"id": "C12", "title": "Nested vectors convert in row-major order", "statement": "Converting nested vectors (2 to 5 levels) or vectors of fixed-size rows gives a tensor whose dimensions are the nesting lengths and whose element at (i,j,...) is v[i][j]...; ragged nestings and nestings without a first element panic.", "quantifier": "every nested vector", "why_tests_cant": "all nesting lengths including ragged ones", "anchors": ["src/tensor/from.rs: From<&Vec<Vec<..>>>, From<Vec<[T; N]>>, From<[[T; N]; M]>"]}
{"id": "C13", "title": "A list of tensors becomes a tensor of tensors", "statement": "Converting a non-empty list of equally shaped tensors gives a tensor with a new outermost dimension equal to the list length whose i-th outer row is the i-th tensor; differing shapes or an empty list panic.", "quantifier": "every list of tensors", "why_tests_cant": "all list lengths and shapes", "anchors": ["src/tensor/from.rs: From<&[Tensor<T>]>, From<Vec<Tensor<T>>>"]}
{"id": "C14", "title": "map applies the closure once per element in order", "statement": "t.map(f) calls f exactly once on each element in row-major order (threading any closure state, stopping at the first panic) and returns a tensor with the same shape holding the results; mapping identity gives an equal tensor and mapping twice equals mapping the composition.", "quantifier": "every tensor and every (possibly stateful, possibly panicking) closure", "why_tests_cant": "all closures and sizes", "anchors": ["src/tensor/map.rs: map, Tensor::map"]}
{"id": "C15", "title": "map2 broadcasts trailing dimensions", "statement": "When the dimensions of one operand are a suffix of the other's and both are non-empty, a.map2(b, f) has the longer shape and its element at any multi-index is f of a at the trailing part of that index (as many coordinates as a has) and b at its trailing part.", "quantifier": "every pair of compatible tensors, every closure, every multi-index", "why_tests_cant": "all pairs of shapes", "anchors": ["src/tensor/map.rs: map2", "src/tensor/shape.rs: broadcast_to", "src/tensor/tensor.rs: as_wrap_slice"]}
{"id": "C16", "title": "Incompatible operands are rejected", "statement": "a.map2(b, f) panics whenever neither operand's dimensions are a suffix of the other's, or an operand is empty; it never returns a tensor in these cases and never reads outside either operand.", "quantifier": "every pair of tensors", "why_tests_cant": "all incompatible pairs of shapes", "anchors": ["src/tensor/map.rs: map2, map3", "src/tensor/shape.rs: broadcast_to, broadcast, check_broadcast"]}
{"id": "C17", "title": "map3 broadcasts three operands", "statement": "For three non-empty operands with suffix-compatible dimensions, map3 has the longest shape and each element is f of the three operands at the trailing parts of the index.", "quantifier": "every compatible triple, closure and index", "why_tests_cant": "all triples of shapes", "anchors": ["src/tensor/map.rs: map3", "src/math/float.rs", "src/math/complex.rs"]}
{"id": "C18", "title": "Operators are elementwise in operand order", "statement": "a op b for tensors, and scalar op tensor / tensor op scalar, apply op elementwise with the left operand on the left (also for - / % << >>), following the broadcast rule; unary - and ! are elementwise.", "quantifier": "every operator, operand pair and element", "why_tests_cant": "all operand shapes and values; non-commutative operators need order", "anchors": ["src/math/num.rs: unary_op!, binary_op!, binary_op2!"]}
{"id": "C19", "title": "init and init_rindexed fill in row-major order", "statement": "Tensor::init(shape, f) calls f once per element in row-major order; init_rindexed passes the i-th call the reversed multi-index of the i-th row-major position.", "quantifier": "every shape and stateful closure", "why_tests_cant": "all shapes; the carry logic of the index must be right at every position", "anchors": ["src/tensor/map.rs: init, init_rindexed", "src/tensor/shape.rs: next_index"]}
{"id": "C20", "title": "map_row and map_expand work row by row", "statement": "map_row(f) replaces each innermost row with the N values f returns for it, in order (dropping the last dimension when N = 1 and rank > 1); map_expand(f) adds an innermost dimension of length N holding f of each element.", "quantifier": "every tensor, N and closure", "why_tests_cant": "all shapes and N", "anchors": ["src/tensor/map.rs: map_row, map_expand"]}
{"id": "C21", "title": "fold and reduce combine exactly the lane of each output cell", "statement": "fold(init,f) is the left fold in row-major order; fold_axis(axis,init,f) gives at each remaining index the left fold along that axis in increasing order; reduce and reduce_axis do the same starting from the first element of the lane.", "quantifier": "every tensor, axis, closure and output index", "why_tests_cant": "all shapes/axes; lanes are strided", "anchors": ["src/tensor/map.rs: fold, fold_axis, reduce, reduce_axis", "src/tensor/axis.rs: Axis::reduce"]}
{"id": "C22", "title": "Summing axis sums equals the total", "statement": "For an associative and commutative operation, reducing along any axis and then reducing everything equals reducing everything directly; in particular reduce_sum over any axis followed by reduce_sum equals reduce_sum.", "quantifier": "every tensor, axis and associative-commutative operation", "why_tests_cant": "all shapes/axes", "anchors": ["src/tensor/map.rs: reduce, reduce_axis", "src/math/reduce.rs"]}
{"id": "C23", "title": "fold_row folds rows", "statement": "fold_row(axis,f) folds whole innermost rows in order: with no axis over all rows, with an axis over the rows along that axis, one accumulator row per remaining index; each row is used exactly once, for owned tensors and views.", "quantifier": "every tensor, axis and closure", "why_tests_cant": "all shapes, axes and view offsets", "anchors": ["src/tensor/map.rs: fold_row", "src/tensor/axis.rs: Axis::reduce_row", "src/tensor/tensor.rs: as_wrap_slice_n"]}
{"id": "C24", "title": "normalize keeps every element in place", "statement": "normalize(axis, init, fold, f) returns a tensor of the same shape whose element at each index is f of the lane's fold state and the element at that same index.", "quantifier": "every tensor, axis, fold and index", "why_tests_cant": "all shapes and axes", "anchors": ["src/tensor/map.rs: normalize", "src/math/normalize.rs"]}
{"id": "C25", "title": "Axes count from either end", "statement": "An axis a with 0 <= a < rank selects that axis, and -rank <= a < 0 selects axis a + rank, consistently in every operation taking an axis; anything else is rejected.", "quantifier": "every rank and signed axis", "why_tests_cant": "all integers", "anchors": ["src/tensor/axis.rs: axis_from_rank, reduce, reduce_row"]}
{"id": "C26", "title": "transpose swaps the last two dimensions and is an involution", "statement": "For rank >= 2, transpose swaps the two innermost dimensions at every batch index: out[.., i, j] = in[.., j, i]; transposing twice gives an equal tensor; a vector becomes a column.", "quantifier": "every non-empty tensor and index", "why_tests_cant": "all shapes", "anchors": ["src/array/transpose.rs: transpose"]}
{"id": "C27", "title": "concatenate places parts side by side along the axis", "statement": "Concatenating tensors along an axis gives the sum of their lengths along that axis and, at every index, the element of the part whose range contains that coordinate; parts whose other dimensions differ (or an empty list) are rejected.", "quantifier": "every list of tensors, axis and index", "why_tests_cant": "all list lengths, shapes and axes", "anchors": ["src/array/stack.rs: concatenate, concatenate_axis, concat_axis, validate_concat"]}
{"id": "C28", "title": "stack adds an axis indexed by the operand number", "statement": "stack(tensors, axis) inserts a dimension equal to the number of tensors at that axis and its slice k along that axis equals tensor k, for every index.", "quantifier": "every list of equally shaped non-empty tensors, axis and index", "why_tests_cant": "all lists, shapes and axes", "anchors": ["src/array/stack.rs: stack, stack_vec"]}
{"id": "C29", "title": "vstack, hstack and dstack are the documented concatenations", "statement": "vstack equals stack along a new axis 0, hstack concatenates along axis 1 (axis 0 for vectors), dstack concatenates along the third axis after adding unit dimensions; they agree with stack/concatenate on the same data.", "quantifier": "every list of tensors", "why_tests_cant": "all lists and ranks", "anchors": ["src/array/stack.rs: vstack, hstack, dstack, vstack_vec, dstack_vec"]}
{"id": "C30", "title": "Splitting partitions the tensor", "statement": "split along an axis (n equal sections, or cut positions) yields pieces that cover the axis in order without gaps or overlap: piece k holds exactly the coordinates between consecutive cuts, and concatenating the pieces along the axis gives back an equal tensor; n equal sections gives n pieces when n divides the axis length.", "quantifier": "every tensor, axis and section list", "why_tests_cant": "all shapes, axes and cut lists", "anchors": ["src/array/split.rs: split_axis, split_by_axis, split_cuts, IntoSections"]}
{"id": "C31", "title": "unstack is the inverse of stack", "statement": "unstack(axis) of stack(tensors, axis) returns the original tensors.", "quantifier": "every list of tensors and axis", "why_tests_cant": "all lists", "anchors": ["src/array/stack.rs: unstack, stack"]}
{"id": "C32", "title": "tile repeats the tensor periodically", "statement": "tile(x, multiples) has dimensions multiples[i] * dim[i] (missing leading dims count as 1) and every element equals x at the index taken modulo x's dimensions; zero multiples are rejected; no argument makes it write outside its result buffer.", "quantifier": "every tensor, multiples and index", "why_tests_cant": "all shapes and multiples; memory safety over all arguments", "anchors": ["src/array/tile.rs: tile, tile_rec"]}
{"id": "C33", "title": "Diagonal and triangular matrices", "statement": "eye(n)/identity/diagflat(v)/tri(n) are n x n matrices with element (i,j) determined by i=j or j<=i as documented, and tril/triu keep exactly the elements on and below/above the diagonal of each matrix and zero the rest.", "quantifier": "every size, matrix and index", "why_tests_cant": "all sizes and batches", "anchors": ["src/init/matrix.rs: eye, identity, diagflat, tri, tril, triu"]}
{"id": "C34", "title": "meshgrid coordinates", "statement": "meshgrid_ij(axes) returns one tensor per axis with dimensions the axis lengths and element axes[k][idx[k]]; meshgrid uses the reversed dimension order so that output k varies with the k-th index from the right.", "quantifier": "every list of axes and index", "why_tests_cant": "all numbers and lengths of axes", "anchors": ["src/init/matrix.rs: build_meshgrid, build_meshgrid_axis, meshgrid, meshgrid_ij, mgrid"]}
{"id": "C35", "title": "linspace hits both ends with even steps", "statement": "linspace(a,b,n) has n entries (times the batch shape of the ends), the first is a, for n >= 2 the last is b, and consecutive entries differ by (b-a)/(n-1) (exact arithmetic).", "quantifier": "every pair of end tensors and n", "why_tests_cant": "all ends and lengths", "anchors": ["src/init/vector.rs: linspace"]}
{"id": "C36", "title": "logspace and geomspace are exponentials of even steps", "statement": "logspace(a,b,n) entry k is base^(a+k(b-a)/(n-1)) and geomspace(a,b,n) entry k is a*(b/a)^(k/(n-1)); both have n entries times the batch shape.", "quantifier": "all ends and n", "why_tests_cant": "all ends, lengths and bases", "anchors": ["src/init/vector.rs: logspace, geomspace"]}
{"id": "C37", "title": "arange lists the half-open progression", "statement": "arange(start,end,step) returns start, start+step, ... up to but excluding end, and terminates for every non-zero step (descending when step < 0).", "quantifier": "every start, end and step", "why_tests_cant": "termination for all inputs cannot be tested", "anchors": ["src/init/vector.rs: arange"]}
{"id": "C38", "title": "one_hot sets exactly the listed positions", "statement": "one_hot(indices, n) has length n with 1 exactly at the listed indices and 0 elsewhere, and panics when an index is out of range.", "quantifier": "every index list and n", "why_tests_cant": "all index lists", "anchors": ["src/init/vector.rs: one_hot"]}
{"id": "C39", "title": "matmul computes the matrix product with the right shape", "statement": "For a of shape [.., m, k] and b of shape [.., k, n], matmul has shape [.., m, n] and element (i,j) is the sum over l of a[i,l]*b[l,j] for every batch; with transposes accordingly.", "quantifier": "all sizes, batches and indices", "why_tests_cant": "all m,k,n and batches", "anchors": ["src/linalg/matmul.rs: matmul_t, Transpose::mkn, sgemm", "src/linalg/blas_naive.rs"]}
{"id": "C40", "title": "matmul never reads outside its operands", "statement": "Whatever two tensors are passed, matmul either panics or reads only elements of the operands.", "quantifier": "every pair of tensors", "why_tests_cant": "memory safety over all argument pairs", "anchors": ["src/linalg/matmul.rs: matmul_t, sgemm"]}
{"id": "C41", "title": "matvec multiplies each vector by the matrix", "statement": "For a of shape [m, n] and x of shape [.., n], matvec has x's shape with the last dimension replaced by m and each row is the matrix times that row of x; it never reads outside the operands.", "quantifier": "all sizes and batches", "why_tests_cant": "all m,n and batches", "anchors": ["src/linalg/matvec.rs: matvec, matvec_t_f32, sgemm"]}
{"id": "C42", "title": "mean, variance and standard deviation", "statement": "reduce_mean, reduce_variance and reduce_std of a lane equal the arithmetic mean, the population variance and its square root of the lane (exact arithmetic), whole-tensor or along any axis.", "quantifier": "every non-empty lane", "why_tests_cant": "all data", "anchors": ["src/math/reduce.rs: Mean, Var, Std, reduce_mean, reduce_variance, reduce_std"]}
{"id": "C43", "title": "min and max reductions ignore NaN", "statement": "reduce_min (reduce_max) returns an element of the lane that is <= (>=) every non-NaN element, and is NaN only if every element is NaN; the result does not depend on the order of elements.", "quantifier": "every lane with any NaN pattern", "why_tests_cant": "all data and NaN patterns", "anchors": ["src/math/reduce.rs: reduce_min, reduce_max"]}
{"id": "C44", "title": "normalize_unit maps onto [0,1]", "statement": "normalize_unit maps a lane with at least two different values affinely into [0,1] with its minimum at 0 and maximum at 1, preserving order (exact arithmetic).", "quantifier": "every lane", "why_tests_cant": "all data", "anchors": ["src/math/normalize.rs: normalize_unit"]}
{"id": "C45", "title": "histogram counts every sample once", "statement": "histogram(x, bins) of a non-empty vector with at least two different values counts each sample in exactly one bin, the bin whose half-open interval contains it (the maximum goes to the last bin), so the counts add up to the number of samples.", "quantifier": "all data and bin counts", "why_tests_cant": "all data", "anchors": ["src/stats/histogram.rs: histogram"]}
{"id": "C46", "title": "histogram2d counts every sample once", "statement": "histogram2d of an [n,2] tensor returns the bin edges of both columns and a square of counts: element [j,i] is the number of samples in bin i of the first and bin j of the second column; the counts add up to n.", "quantifier": "all data", "why_tests_cant": "all data", "anchors": ["src/stats/histogram2d.rs: histogram2d"]}
{"id": "C47", "title": "Generators have full period", "statement": "The state of the 32-bit and 64-bit generators returns to its start only after 2^64 (2^128) steps, from every seed; so no two distinct seeds ever merge and every state is visited once per period.", "quantifier": "every seed and step count", "why_tests_cant": "2^64 and 2^128 steps", "anchors": ["src/random/random.rs: Rand32::next, Rand64::next"]}
{"id": "C48", "title": "Generator outputs are equidistributed", "statement": "Over one full period each 32-bit (64-bit) output value occurs equally often.", "quantifier": "every output value", "why_tests_cant": "2^64 outputs", "anchors": ["src/random/random.rs: Rand32::next, Rand64::next"]}
{"id": "C49", "title": "Seeded random tensors are reproducible", "statement": "random_normal and random_uniform with an explicit seed return the same tensor on every call in every thread and state, independent of the process-wide generator, and the result depends on the shape only through the number of elements (a longer draw extends a shorter one).", "quantifier": "every seed, shape, history", "why_tests_cant": "all histories and seeds", "anchors": ["src/init/random.rs: random_normal, random_uniform", "src/random/random.rs: Rand32::from"]}
{"id": "C50", "title": "Uniform draws lie in the requested interval", "statement": "next_uniform lies in [0,1] and random_uniform(shape,(min,max)) lies in [min,max], for every seed.", "quantifier": "every seed and draw", "why_tests_cant": "all 2^64 states", "anchors": ["src/random/random.rs: next_uniform", "src/init/random.rs: random_uniform"]}
{"id": "C51", "title": "Thread seeding is race free", "statement": "After random_seed(s) with s non-zero and before any other reseed, under every interleaving of threads that initialise their generator, no two initialisations consume the same seed step: the k-th successful initialisation gets the k-th iterate of the seed function from s.", "quantifier": "every number of threads and interleaving", "why_tests_cant": "all schedules", "anchors": ["src/random/random.rs: SEED, LOCAL_RNG, random_seed, next_u64"]}
{"id": "C52", "title": "random_seed makes later draws reproducible", "statement": "After random_seed(s) the sequence of default generators created next is determined by s.", "quantifier": "every history before the call", "why_tests_cant": "all histories", "anchors": ["src/random/random.rs: random_seed, next_u64, Rand32::new, Rand64::new"]}
{"id": "C53", "title": "WAV decoding round trip", "statement": "decode_wav of a canonical 16-bit PCM file with any number of channels, sample rate and samples returns the sample rate and a [frames, channels] tensor whose values are sample/32768 in file order.", "quantifier": "every sample sequence, channel count and rate", "why_tests_cant": "all files", "anchors": ["src/io/decode_wav.rs: decode_wav, Cursor"]}
{"id": "C54", "title": "WAV decoding rejects everything else", "statement": "decode_wav on any byte string either panics or the bytes start with a well-formed RIFF/WAVE/fmt/data header with PCM format and 16 bits per sample, whose data are all present; it never reads past the end.", "quantifier": "every byte string", "why_tests_cant": "all byte strings", "anchors": ["src/io/decode_wav.rs: decode_wav, Cursor"]}
{"id": "C55", "title": "rfft keeps batches apart", "statement": "rfft of a [.., n] tensor has shape [.., n/2+1] and each output row depends only on the corresponding input row.", "quantifier": "every tensor", "why_tests_cant": "all shapes", "anchors": ["src/signal/rfft.rs: rfft_norm"]}
{"id": "C56", "title": "Buffers are freed exactly once, after the last handle", "statement": "Under every sequence of creating, cloning, viewing, reshaping and dropping tensors, each buffer's elements are dropped exactly once, exactly when the last handle goes away, and no live handle refers to a freed buffer.", "quantifier": "every finite history of creation, clone, view and drop", "why_tests_cant": "all histories", "anchors": ["src/tensor/data.rs: Drop for TensorData", "src/tensor/tensor.rs: Clone, subslice_flat", "src/tensor/shape.rs: reshape"]}
{"id": "C57", "title": "Comparison operators are consistent with equality", "statement": "partial_cmp is the lexicographic comparison of the elements and returns Equal exactly when == holds.", "quantifier": "every pair of tensors", "why_tests_cant": "all pairs", "anchors": ["src/math/num.rs: PartialOrd", "src/tensor/tensor.rs: PartialEq"]}
{"id": "C58", "title": "Equality looks only at shape and elements", "statement": "Two tensors are equal exactly when shape and visible elements are, regardless of the buffers and offsets behind them; clones are equal to their source.", "quantifier": "every pair of tensors and view histories", "why_tests_cant": "all views", "anchors": ["src/tensor/tensor.rs: PartialEq, Clone, as_slice"]}
{"id": "C59", "title": "Debug output lists the elements in order", "statement": "Formatting a tensor with {:?} prints exactly its elements in row-major order, nested by dimension, also for views.", "quantifier": "every tensor", "why_tests_cant": "all shapes and views", "anchors": ["src/tensor/tensor.rs: Debug, fmt_tensor_rec"]}
{"id": "C60", "title": "Sizes never lie", "statement": "The size of a shape is the true product of its dimensions: no shape whose product exceeds 32 bits is silently accepted with a smaller size.", "quantifier": "every dimension list", "why_tests_cant": "products beyond u32", "anchors": ["src/tensor/shape.rs: size, From impls", "src/tensor/tensor.rs: new"]}
{"id": "C61", "title": "zeros, ones and fill", "statement": "zeros/ones/fill(v, shape) have the given shape and every element equal to 0/1/v.", "quantifier": "every shape and value", "why_tests_cant": "all shapes", "anchors": ["src/init/mod.rs: zeros, ones, fill"]}
{"id": "C62", "title": "append and merge keep all rows in order", "statement": "a.append(b) holds a's rows then b's; join_vec and from_merge hold all elements of all parts in order with the requested shape; mismatched row sizes are rejected.", "quantifier": "every list of tensors", "why_tests_cant": "all lists", "anchors": ["src/tensor/tensor.rs: append, from_merge, join_vec"]}
{"id": "C63", "title": "iter_row yields the rows in order", "statement": "iter and iter_row visit every element exactly once in row-major order, rows having the innermost length.", "quantifier": "every tensor", "why_tests_cant": "all shapes", "anchors": ["src/tensor/tensor.rs: iter, iter_row"]}
{"id": "C64", "title": "No public operation reads or writes outside memory or exposes uninitialised memory", "statement": "For every argument, each array operation (map family, fold family, transpose, concatenate, stack, split, meshgrid, triangular, linspace, matvec, fft framing) either panics or returns a tensor whose every element was written; it never writes or reads out of bounds.", "quantifier": "every argument of every operation, valid or not", "why_tests_cant": "memory safety over all inputs", "anchors": ["src/tensor/data.rs: unsafe_init", "src/tensor/map.rs", "src/array/", "src/init/", "src/linalg/"]}
{"id": "C65", "title": "Option builders are last-write-wins and independent", "statement": "For an options struct generated by derive_opt, setting a field through the builder changes only that field, a later setting of the same field wins, settings of different fields commute, and the empty options value has the defaults.", "quantifier": "every sequence of setters", "why_tests_cant": "all setter sequences", "anchors": ["crates/essay-opt/src/options.rs", "src/signal/rfft.rs: FftArg"]}
{"id": "C66", "title": "slice selects sub-tensors", "statement": "slice(i) of a tensor returns its i-th outer row, and a range slice the corresponding rows.", "quantifier": "every tensor and index", "why_tests_cant": "all tensors", "anchors": ["src/tensor/slice.rs"]}
{"id": "C67", "title": "frame cuts overlapping windows", "statement": "frame(length, step) of a vector returns the overlapping frames starting at multiples of step.", "quantifier": "every signal, frame length and step", "why_tests_cant": "all signals", "anchors": ["src/signal/frame.rs: frame"]}
{"id": "C68", "title": "read_file returns the whole file", "statement": "read_file returns exactly the bytes of the file whatever chunk sizes the operating system delivers.", "quantifier": "every file content and chunking of reads", "why_tests_cant": "all read schedules", "anchors": ["src/io/read_file.rs"]}
{"id": "C69", "title": "Argument lists keep order and contents", "statement": "Wherever an operation takes several tensors at once (a vector, slice, array or tuple of tensors, vectors or convertible values), the operation sees exactly the converted components in the order they were written.", "quantifier": "every list or tuple of arguments", "why_tests_cant": "all lengths and component types", "anchors": ["src/tensor/from.rs: IntoTensorList"]}
{"id": "C70", "title": "Similar seed strings give different generators", "statement": "Generators made from two strings that differ in one byte, wherever it is and however long the strings, have different states, and still do after any equal number of draws.", "quantifier": "every pair of strings that differ in one byte, every number of draws", "why_tests_cant": "all strings", "anchors": ["src/random/random.rs: From<&str> for Rand32, From<&str> for Rand64"]}
{"id": "C71", "title": "Normal draws are finite numbers", "statement": "next_normal of both generators returns a finite number for every state.", "quantifier": "every state", "why_tests_cant": "2^64 and 2^128 states", "anchors": ["src/random/random.rs: next_normal, next_uniform"]}
{"id": "C72", "title": "Every float method works element by element", "statement": "Each float method of a tensor (sin, exp, sqrt, abs, floor, ..) applies exactly the scalar function of that name to every element and keeps the shape; the two-argument methods (powf, hypot, atan2, ..) broadcast their argument like the operators; powi, sin_cos and mul_add likewise.", "quantifier": "every tensor, every method, every scalar function", "why_tests_cant": "all tensors and all methods at once", "anchors": ["src/math/float.rs"]}
{"id": "C73", "title": "Bit operations act on every element and obey the laws of bits", "statement": "count_ones, leading_zeros, rotate_left, swap_bytes and the other integer methods act on every element, keep the shape, and satisfy their bit-level meaning; rotating there and back, swapping or reversing twice gives the original tensor.", "quantifier": "every integer width, element and shift", "why_tests_cant": "all values of every width", "anchors": ["src/math/integer.rs"]}
{"id": "C74", "title": "Complex methods act element by element with their algebraic meaning", "statement": "re, im, conj, norm_sqr, norm, inv, scale, powu, exp, to_polar, from_polar and the other complex methods compute the complex function of that name for every element, keep the shape, and from_polar undoes to_polar.", "quantifier": "every complex tensor", "why_tests_cant": "all tensors", "anchors": ["src/math/complex.rs"]}
{"id": "C75", "title": "Sums and products are exact or rejected", "statement": "reduce_sum and reduce_product of integers return the exact result precisely when every partial result fits the type, else they panic; in a release build they return it modulo 2^w; the axis versions do so for every lane; an empty tensor panics.", "quantifier": "every tensor, integer type and axis", "why_tests_cant": "all element values and orders", "anchors": ["src/math/reduce.rs: reduce_sum, reduce_product"]}
{"id": "C76", "title": "reduce_hypot is the Euclidean norm", "statement": "reduce_hypot returns the square root of the sum of squares of all elements: never negative, zero only for a zero tensor, at least every absolute value, independent of signs, order and shape, and homogeneous.", "quantifier": "every tensor (exact arithmetic)", "why_tests_cant": "all tensors", "anchors": ["src/math/reduce.rs: reduce_hypot"]}
{"id": "C77", "title": "Rounding errors of sums, means and products stay within the standard bounds", "statement": "In floating point arithmetic with unit roundoff u (2^-24 for f32), reduce_sum of n numbers is off by at most ((1+u)^(n-1)-1) times the sum of absolute values; reduce_mean, reduce_hypot, matmul and matvec satisfy the corresponding bounds, underflow included, as long as nothing overflows.", "quantifier": "every tensor of representable numbers, every rounding to a binary format", "why_tests_cant": "all inputs and all lengths; tests compare single values", "anchors": ["src/math/reduce.rs", "src/linalg/matmul.rs", "src/linalg/matvec.rs", "src/linalg/blas_naive.rs"]}
{"id": "C78", "title": "Variances are never negative", "statement": "In floating point arithmetic reduce_variance (and its axis version) never returns a negative number, so reduce_std never takes the root of one; the variance of equal numbers is exactly 0.", "quantifier": "every tensor of representable numbers, every rounding to a binary format", "why_tests_cant": "all inputs; cancellation shows only for rare values", "anchors": ["src/math/reduce.rs: Std, Var"]}
{"id": "C79", "title": "Method forms put the receiver first", "statement": "a.concatenate(others), a.concatenate_axis(axis, others), a.stack(others, axis), a.vstack(others), a.dstack(others) give the result of the free function on a followed by the others in the order given, whatever collection the others come in; a.meshgrid(b), a.linspace(b, n), a.logspace(b, n), a.geomspace(b, n) use a as first axis or start and b as second axis or end.", "quantifier": "every receiver, every list of others, every conversion of them to tensors", "why_tests_cant": "all shapes, orders and collection types", "anchors": ["src/array/stack.rs: impl Tensor", "src/init/matrix.rs: meshgrid, meshgrid_ij", "src/init/vector.rs: impl Tensor"]}
{"id": "C80", "title": "Options are last-write-wins with the documented defaults", "statement": "However the options of random_normal, random_uniform, logspace_opt and histogram are written (any constructor or conversion, any chain of setters), the result is that of the last value written for each option, or of the default (mean 0, std 1, min 0, max 1, base 10, 10 bins); 0 bins are rejected.", "quantifier": "every constructor, every chain of setters, every shape and process state", "why_tests_cant": "all chains of calls", "anchors": ["src/init/random.rs: Normal, Uniform", "src/init/vector.rs: Logspace", "src/stats/histogram.rs: HistArgs"]}
{"id": "C81", "title": "ten! literals keep their brackets", "statement": "ten![...] gives the tensor whose dimensions are the lengths of the nested brackets and whose element at a position is the expression written there, up to four levels; empty, ragged or deeper literals do not compile, so the macro never panics because of its form.", "quantifier": "every literal", "why_tests_cant": "all nestings and lengths", "anchors": ["src/macros/mod.rs: ten", "src/tensor/from.rs: From<[T; N]>"]}
{"id": "C82", "title": "NaN is kept, and nothing becomes NaN or infinite without cause", "statement": "In IEEE arithmetic a NaN element makes the sum, mean, norm, variance and standard deviation of its lane NaN, and every entry of a matrix product it contributes to; minimum and maximum skip it; histogram leaves it out. Sums of non-negative values are never NaN. Finite data whose exact results are far below the largest finite number give finite results within the usual error bounds; variances are never negative or NaN, and normalize_unit of finite data is finite.", "quantifier": "every tensor of f32 or f64 values, NaN, infinities and both zeros included", "why_tests_cant": "special values and overflow are rarely tested, and combine with every operation", "anchors": ["src/math/reduce.rs", "src/math/normalize.rs", "src/stats/histogram.rs", "src/linalg/matmul.rs", "src/linalg/matvec.rs"]}
{"id": "C83", "title": "Expressions over tensors obey the laws of their element arithmetic", "statement": "An arithmetic expression over tensors, nested to any depth and mixing operators between tensors, operators with scalars and elementwise methods, has at every index the value of the expression at the elements there, or panics because an element panics or there is no common shape. So two expressions that agree for all numbers agree for all nonempty tensors (commutativity, associativity, distributivity), and a scalar operand acts like the tensor made from it.", "quantifier": "every expression and all nonempty tensors of any shapes", "why_tests_cant": "all expressions and shapes", "anchors": ["src/math/num.rs", "src/tensor/map.rs"]}
{"id": "C84", "title": "Rearranging operations fit together", "statement": "Concatenating in groups equals concatenating at once; cutting a concatenation at the joints gives the parts back; mapping elements commutes with reshape, transpose, subslice, concatenate and stack; transposing stacked matrices puts the transposes side by side; tril of the transpose is the transpose of triu; folding along the second-to-last axis is folding the transpose along the last; tile along the first axis and append are concatenations; a matrix is rebuilt from its rows; a row of a stack is the tensor stacked there; meshgrid is the transpose of meshgrid_ij.", "quantifier": "every tensor with at least one element, any number of parts, any axis", "why_tests_cant": "relations between operations over all shapes", "anchors": ["src/array/stack.rs", "src/array/split.rs", "src/array/tile.rs", "src/array/transpose.rs", "src/init/matrix.rs", "src/init/vector.rs", "src/tensor/slice.rs"]}
{"id": "C85", "title": "Matrix products obey the laws of matrix algebra", "statement": "In exact arithmetic matmul is associative, distributes over + and -, and takes scalar factors out; a matrix times eye(n) is that matrix (also under rounding); the transpose of a product is the product of the transposes in the other order, and a transpose option is the same as transposing the operand; matvec is matmul with a column, applying b then a is applying a b, matvec is additive, diagflat(v) acts by elementwise multiplication, and the sum of v * x is row times column.", "quantifier": "all matrices whose dimensions fit, and batches of them", "why_tests_cant": "all sizes and entries", "anchors": ["src/linalg/matmul.rs", "src/linalg/matvec.rs", "src/linalg/blas_naive.rs", "src/init/matrix.rs", "src/array/transpose.rs"]}
{"id": "C86", "title": "Statistics are consistent with each other and with rearranging", "statement": "In exact arithmetic: sum, product, mean, variance, standard deviation, minimum and maximum do not change when the tensor is transposed, reshaped or its elements are reordered; reducing one axis and then the rest gives the same sum, mean, minimum and maximum as reducing everything; the variance is the mean of the variances along an axis plus the variance of the means; the sum of a concatenation or stack is the sum of the parts' sums and the mean the weighted mean; scaling and shifting act on mean, variance and standard deviation as they should; min <= mean <= max and variance <= (max-mean)(mean-min); negating swaps min and max; normalize_unit is idempotent and ignores positive scaling and shifts.", "quantifier": "every nonempty tensor, any axis, any number of parts", "why_tests_cant": "relations between operations over all shapes and values", "anchors": ["src/math/reduce.rs", "src/math/normalize.rs", "src/array/stack.rs", "src/array/transpose.rs", "src/math/num.rs"]}
{"id": "C87", "title": "Shape queries agree with the dimension list", "statement": "idim(a) is the dimension of the signed axis a; sublen(i, j) and rsublen(i, j) are the products of the dimensions i..j counted from the outermost and from the innermost; batch_len(k) is the product of the dimensions in front of the inner k; broadcast, check_broadcast, broadcast_to and broadcast_min accept two shapes exactly if one list of dimensions (without the inner ones left out) is a suffix of the other and return the longer one or its size; reduce drops the innermost dimension. Axes out of range and products of 2^32 or more panic.", "quantifier": "every shape, axis and range", "why_tests_cant": "all shapes and ranges; indices count from both ends over the same storage", "anchors": ["src/tensor/shape.rs: idim, sublen, rsublen, batch_len, broadcast, check_broadcast, broadcast_to, broadcast_min, reduce"]}
{"id": "C88", "title": "Threads do not disturb each other's random numbers", "statement": "Once a thread has drawn random numbers, what its further unseeded draws return (Rand32::new, Rand64::new, random_normal, random_uniform) depends only on its own calls: the k-th returns what it returns with the k-th value of the thread's generator given as the seed, whatever other threads draw and whoever calls random_seed in between. The first use of a thread takes the next process-wide seed, or entropy if there is none, and changes no other thread.", "quantifier": "every program: any number of threads, calls and reseedings in any order", "why_tests_cant": "all interleavings and histories", "anchors": ["src/random/random.rs: next_u64, LOCAL_RNG, random_seed", "src/init/random.rs: random_normal, random_uniform"]}
{"id": "C89", "title": "map2_row and map2_expand apply the function row by row and pair by pair", "statement": "a.map2_row(b, f) holds the N results of f on each pair of rows of a and b, and a.map2_expand(b, f) the N results of f on each pair of elements, as an additional inner dimension of length N.", "quantifier": "every pair of compatible tensors and every f", "why_tests_cant": "all shapes, functions and N", "anchors": ["src/tensor/map.rs: map2_row, map2_expand"]}
{"id": "C90", "title": "Elements cross threads only if their type allows it", "statement": "In every program the compiler accepts, elements of a tensor are read in another thread than the one that made the tensor only if their type is Sync, and dropped in another thread only if it is Send; if the type lacks either, tensors and references to them stay in the thread that made them. If the type is both, tensors can be moved to and shared with every thread. Elements are never lost: those of every buffer made are still held by a tensor or have been dropped, and the threads can always let go of everything, after which all have been dropped.", "quantifier": "every program, any number of threads, clones, moves and borrows in any order, every element type", "why_tests_cant": "the bounds of an unsafe impl are never executed; all histories", "anchors": ["src/tensor/data.rs: unsafe impl Send, unsafe impl Sync", "src/tensor/tensor.rs: struct Tensor, Clone, as_slice, Deref"]}
{"id": "C91", "title": "Memory is given back as it was taken, and running out of it is not undefined", "statement": "Whatever the size and alignment of the element type, every block of memory a program obtains for a tensor (from a vector, from a vector of rows, or by an initialiser) is given back once, with the layout it was obtained with, when the last reference to the tensor goes; tensors without bytes need no memory; a buffer that is too large to be laid out panics, and if the allocator has no memory the program stops. None of this is undefined behaviour.", "quantifier": "every program that makes and drops tensors, every element type, every answer of the allocator", "why_tests_cant": "needs an allocator that refuses or checks layouts; all element sizes and histories", "anchors": ["src/tensor/data.rs: from_boxed_slice, from_boxed_rows, Drop, unsafe_init", "src/tensor/tensor.rs: Tensor::new"]}
{"id": "C92", "title": "rfft_norm returns the absolute values of the Fourier coefficients", "statement": "rfft_norm of a vector of n samples holds at position k the absolute value of the k-th Fourier coefficient of the samples, for k up to n/2, and zeros behind; so a tone shows at its frequency, scaling the samples scales the result, and the energies of samples and results agree.", "quantifier": "every vector of real samples, every requested length", "why_tests_cant": "needs exact arithmetic and all lengths and signals; tests compare a few rounded values", "anchors": ["src/signal/rfft.rs: rfft_norm, hann_window"]}
{"id": "C93", "title": "A view behaves like a copy of it", "statement": "Two runs of the same program, started from tensors that show the same shapes and elements but may lie anywhere in their buffers (a slice and a fresh copy of it), agree: every call ends with the same error in both, or returns equal values and tensors that show the same.", "quantifier": "every program, every number of calls, every pair of starting tensors", "why_tests_cant": "compares two runs of arbitrary programs on arbitrary memory layouts; tests mostly use fresh tensors", "anchors": ["src/tensor/tensor.rs: as_slice, get, as_wrap_slice, subslice", "src/tensor/map.rs", "src/array/", "src/linalg/", "src/init/", "src/math/"]}
{"id": "C94", "title": "The printed text determines the tensor", "statement": "Two tensors of the same type whose {:?} texts are equal have the same dimensions and the same element texts, so they are equal if different elements print differently.", "quantifier": "every pair of tensors, every rank, every element type", "why_tests_cant": "an injectivity statement about all texts; tests compare a few printed samples", "anchors": ["src/tensor/tensor.rs: Debug for Tensor, fmt_tensor_rec", "src/tensor/shape.rs: as_vec"]}
{"id": "C95", "title": "Elements that are copied are cloned exactly once", "statement": "fill, from_slice, join_vec, the conversions from borrowed slices, vectors and tensors, from_merge, append, transpose, split (not along the first axis), concatenate, stack, tile and meshgrid call the element type's clone exactly once for each element of their result, on the element that belongs there, and keep the clone there; split along the first axis clones nothing. If a clone panics the call panics with it; otherwise the effects seen are those of the clones.", "quantifier": "every element type with any clone: stateful, panicking or returning something else; every shape", "why_tests_cant": "the number, arguments and order of calls to a caller-supplied function over all shapes; tests use numbers whose clone is a plain copy", "anchors": ["src/tensor/tensor.rs: from_slice, join_vec, from_merge, append", "src/init/mod.rs: fill", "src/tensor/from.rs", "src/array/transpose.rs", "src/array/split.rs", "src/array/stack.rs", "src/array/tile.rs", "src/init/matrix.rs: meshgrid, meshgrid_ij"]}
{"id": "C96", "title": "Small whole numbers are computed without rounding errors", "statement": "As long as the numbers involved are multiples of one power of two with multipliers up to 2^24 (f32; 2^53 for f64), in particular whole numbers up to that size, the operators + - *, reduce_sum and reduce_sum_axis, reduce_product, matmul and matvec give the exact result whatever the order of additions and whether or not multiply-adds are fused; the sum in reduce_mean and the sum of squares in reduce_hypot have no error; linspace between ends with a whole step, mgrid and arange list exactly the expected multiples. A sum then does not depend on the order of the elements. Beyond the range this ends: arange(0., end, 1.) with end above 2^24 never returns.", "quantifier": "every tensor of such numbers, every shape, every order of evaluation of the matrix library", "why_tests_cant": "a statement about all operands within a range and all orders of evaluation; tests compare a few sums with a tolerance", "anchors": ["src/math/num.rs", "src/math/reduce.rs", "src/linalg/matmul.rs", "src/linalg/matvec.rs", "src/init/vector.rs: linspace, arange", "src/init/matrix.rs: mgrid"]}
{"id": "C97", "title": "What the random draws add up to over a period", "statement": "Of any 2^64 successive Rand32::next_uniform draws exactly (k+1)·2^32 are at most k/(2^32-1), their mean is exactly 1/2 and their mean square 1/3 + 1/(6(2^32-1)), whatever the seed; the same for Rand64 over 2^128 draws. In f32 the draw is exactly 1 for 2^39 of 2^64 draws and exactly 0 for 2^32. The i-th next_normal is sqrt(-2 ln a)·cos(2 pi b) with a, b the uniform numbers 2i and 2i+1, so the generators repeat after exactly 2^63 (2^127) normal draws; element i of random_normal with a seed is mean + std times that. (The code satisfies it for Rand32; the mean of Rand64::next_uniform is (2^32+1)/2.)", "quantifier": "every seed, every number of draws", "why_tests_cant": "a whole period cannot be drawn in a test; tests look at a few thousand draws with a tolerance", "anchors": ["src/random/random.rs: Rand32, Rand64", "src/init/random.rs: random_normal, random_uniform"]}
{"id": "C98", "title": "What works in a development build gives the same in a release build", "statement": "Overflow checks are on in development builds and off in release builds. Every call that returns in a build with the checks returns the same value, and makes the same calls of closures with the same effects, in a build without them; so whatever a program can hold after a history of calls in the one build it can hold in the other. (The converse is false: a release build may go on where the checks stop the other.)", "quantifier": "every public function, all arguments, every history of calls, all closures", "why_tests_cant": "compares two builds on all inputs; tests run in one profile", "anchors": ["src/tensor/shape.rs", "src/tensor/tensor.rs", "src/tensor/map.rs", "src/array/", "src/linalg/", "src/math/", "src/init/"]}
{"id": "C99", "title": "Folds, reductions and matrices copy only what they need", "statement": "fold copies its start value exactly once, fold_axis, fold_row and normalize exactly once for each lane, just before the lane's first element is visited, and convert the state exactly once after its last one. reduce and reduce_axis copy each element exactly once, just before it is combined. eye, identity and tri ask the element type for exactly one zero or one for each slot; diagflat, tril and triu copy each element that is kept exactly once, copy nothing else and ask for one zero for each other slot, all in row-major order. A panic in any of these calls is the panic of the operation.", "quantifier": "every element and state type with any clone, into_result, zero and one (stateful, panicking or returning something else), every shape and axis", "why_tests_cant": "the number, arguments and order of calls to code supplied by the element type, over all shapes; tests use plain numbers", "anchors": ["src/tensor/map.rs: fold, fold_axis, fold_row, reduce, reduce_axis, normalize", "src/init/matrix.rs: eye, identity, diagflat, tri, tril, triu"]}
{"id": "C100", "title": "A panic in a clone or a closure drops nothing twice", "statement": "If the element type's clone, or a closure, panics in the middle of a call, no value is dropped twice. from_vec, join_vec, the conversions from borrowed slices, vectors and tensors, from_merge and append drop every value given to them or made by them, also when an argument is rejected; so do fold and reduce with the state, the start value and the element in hand. The functions that fill the block of their result (from_slice, fill, transpose, concatenate, stack, tile, eye, tri, diagflat, tril, triu, init, init_rindexed, map, map_row, map_expand, map2, map3, fold_axis, fold_row, reduce_axis, normalize) lose at most the values already written there; split and meshgrid drop the finished results and lose at most the one in progress. A call that returns has all values it made in its result, or dropped once.", "quantifier": "every element type, every clone and closure and every point at which it panics, every shape", "why_tests_cant": "what is dropped after a panic at an arbitrary point of an arbitrary call; tests use numbers, whose drop cannot be seen", "anchors": ["src/tensor/data.rs: unsafe_init, Drop for TensorData", "src/tensor/tensor.rs", "src/tensor/from.rs", "src/tensor/map.rs", "src/array/", "src/init/"]}
{"id": "C101", "title": "Tiling obeys its laws", "statement": "Tiling once along every axis gives the tensor back, with axes of length 1 in front for further multiples. Tiling twice is tiling once by the products of the multiples. Applying a function to every element and tiling can be done in either order. The result has every element of the tensor once for each of the copies; so in exact arithmetic its mean, variance, standard deviation, minimum and maximum are those of the tensor and its sum is the sum times the number of copies. Tiling n times along any one axis is concatenating n copies along it. A binary operation with a tensor that has more axes in front is the same operation after tiling the smaller operand to the larger one's shape, on either side, for any closure.", "quantifier": "every nonempty tensor, every vector of up to six positive multiples whose result fits, any axis, any closure", "why_tests_cant": "relations between calls over all shapes and multiples; tests tile a few small vectors", "anchors": ["src/array/tile.rs", "src/array/stack.rs: concatenate_axis", "src/tensor/map.rs: map2", "src/math/reduce.rs"]}
{"id": "C102", "title": "Splitting and joining obey their laws", "statement": "Applying a function to every element and splitting can be done in either order, and the result of an elementwise operation between two tensors of the same shape, split, is the operation between their pieces; a split that is rejected is rejected for the operands and for the result alike. Splitting into n equal pieces and each of them into m gives the pieces of splitting into n times m. A tensor tiled n times along an axis and split into n along it gives the tensor n times. An elementwise operation between two concatenations of parts of the same shapes is the concatenation of the operations between the parts.", "quantifier": "every nonempty tensor, every axis, every list of cuts and number of sections, every pure function", "why_tests_cant": "relations between calls over all shapes and cuts; tests split a few small vectors", "anchors": ["src/array/split.rs", "src/array/stack.rs: concatenate_axis", "src/array/tile.rs", "src/tensor/map.rs: map, map2"]}
{"id": "C103", "title": "Histograms obey their laws", "statement": "The order of the samples does not matter, however the arithmetic rounds. In exact arithmetic: scaling the samples by a positive factor and shifting them moves the edges along and keeps the counts; joining samples with the same least and greatest value adds the counts; tiling them n times multiplies the counts by n; neither the first nor the last bin is empty unless all samples are equal; a histogram of n bins is that of n times k bins with k neighbouring bins taken together, and has every k-th of its edges.", "quantifier": "every nonempty vector of samples, every number of bins", "why_tests_cant": "relations between calls over all data and numbers of bins; tests count a few fixed samples", "anchors": ["src/stats/histogram.rs: histogram", "src/array/stack.rs: concatenate_axis", "src/array/tile.rs"]}
{"id": "C104", "title": "Work on a batch can be divided", "statement": "Operations that treat the entries along the first axis one by one, that is row maps, map_expand, folds, reductions, statistics and normalisations along any axis but the first, transposing, and binary operations with a fixed operand that lacks the first axis, give on a part of the batch the same part of their result, and on several batches joined by concatenate the results joined.", "quantifier": "every tensor with elements, every part, every list of batches", "why_tests_cant": "relations between calls over all shapes, parts and functions; tests fix single calls", "anchors": ["src/tensor/map.rs: map_row, map_expand, fold_axis, reduce_axis, normalize, map2", "src/array/transpose.rs", "src/math/reduce.rs", "src/tensor/tensor.rs: subslice", "src/array/stack.rs: concatenate"]}
{"id": "C105", "title": "Generated sequences and matrices obey their laws", "statement": "In exact arithmetic: scaling and shifting the ends of linspace or arange does the same to the sequence; a run of entries of linspace is the linspace between its first and last entry; taking c times as many steps keeps the entries; opposite entries lie evenly around the middle, which is the mean; aranges that meet at an entry join to the whole; arange(0, n, 1) is linspace(0, n-1, n). For any elements: eye is the diagonal matrix of ones, its own transpose, and its rows are one_hot vectors; tri is the lower triangle of ones; diagflat commutes with maps that keep zero. However the arithmetic rounds: logspace is the base to the power of linspace, and geomspace the exponential of linspace between the logarithms. In real arithmetic: geomspace between powers of a base is logspace between the exponents, and scaling its ends scales the sequence.", "quantifier": "every length, all ends in order, every size of matrix", "why_tests_cant": "relations between calls over all sizes and values; tests list a few short sequences", "anchors": ["src/init/vector.rs: linspace, logspace, geomspace, arange, one_hot", "src/init/matrix.rs: eye, diagflat, tri, tril, triu"]}
