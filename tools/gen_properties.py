#!/usr/bin/env python3
"""Writes /verif/properties.jsonl. One entry per semantic property."""
import json, os
P = []
def p(id, title, statement, quantifier, why, anchors):
    P.append(dict(id=id, title=title, statement=statement, quantifier=quantifier,
                  why_tests_cant=why, anchors=anchors))

S="src/tensor/shape.rs"; T="src/tensor/tensor.rs"; D="src/tensor/data.rs"; M="src/tensor/map.rs"
p("C01","Shape conversion round trip",
  "Building a Shape from a list of at most six dimensions (each below 2^32) and reading it back through as_vec, rank, dim(i), rdim(i), cols, rows, len and size returns exactly those dimensions (size is their product). A list of more than six dimensions panics.",
  "every list of dimensions, every axis","infinitely many dimension lists and axes; the storage is reversed and truncated to u32",
  [S+": From<&[usize]>, From<[usize; N]>, From<Vec<usize>>, as_vec, rank, dim, rdim, cols, rows, len, size"])
p("C02","Shape edits are list edits",
  "insert/rinsert, remove/rremove, replace/rreplace, with_dim, with_cols, with_rows, push and pop change the as_vec list exactly as inserting, erasing, overwriting, consing and dropping an entry of the list would, and leave every other dimension alone.",
  "every reachable shape, every axis, every new length","the reversed storage and shifting loops must agree with list semantics at every rank/axis pair and every length",
  [S+": insert, rinsert, remove, rremove, replace, rreplace, with_dim, with_cols, with_rows, push, pop, reduce"])
p("C03","remove undoes insert",
  "For every shape and every axis at which insert succeeds, removing the same axis afterwards gives back a shape equal (==) to the original one.",
  "every reachable shape, axis and inserted length","equality is on the raw storage including the unused slots, so a stale slot at any rank would break it",
  [S+": insert, rinsert, remove, rremove, derive(PartialEq)"])
p("C04","Shape equality is equality of dimension lists",
  "Two shapes compare equal exactly when as_vec returns the same list, whatever sequence of shape operations built them.",
  "every pair of shapes obtained by any sequence of shape operations","quantifies over all histories; the derived comparison looks at storage slots beyond the rank",
  [S+": derive(PartialEq), as_vec, with_cols, reduce, rremove, pop, squeeze"])
p("C05","expand_dims and squeeze only add or drop unit dimensions",
  "expand_dims(axis) inserts a dimension 1 at the requested axis and keeps the data; squeeze() drops exactly the dimensions equal to 1 (a tensor with nothing left becomes [1]); squeeze_axis(axis) drops exactly the named axis when it is 1; squeezing an axis just added by expand_dims gives back the original tensor.",
  "every tensor and axis","all ranks, axes and positions of unit dimensions",
  [S+": expand_dims, squeeze, Tensor::expand_dims, Tensor::squeeze, Tensor::squeeze_axis"])
p("C06","Construction succeeds exactly when sizes match",
  "Building a tensor from data and a shape succeeds exactly when the number of elements equals the product of the dimensions, and then the tensor reads back exactly that data in that order with that shape; otherwise it panics.",
  "every element list and shape","all data lengths and shapes, including zero and overflowing products",
  [T+": from_vec, from_box, new, as_slice, from_slice", D+": from_boxed_slice"])
p("C07","Views stay inside their buffer under every history",
  "Any tensor obtained by any finite sequence of constructors, reshapes, slices, splits, joins, transposes, tiles and elementwise operations has size() equal to the product of its dimensions and refers only to elements inside the buffer it shares, so as_slice never reads outside allocated memory.",
  "every finite sequence of API calls","a statement about all histories; tests visit finitely many",
  [T+": new, as_slice, subslice, subslice_flat", S+": reshape, flatten, squeeze, expand_dims", "src/array/split.rs","src/array/stack.rs","src/array/transpose.rs"])
p("C08","reshape and flatten keep the elements",
  "reshape succeeds exactly when the new shape has the same number of elements; it never changes the flat element sequence; reshaping back returns an equal tensor; flatten is reshape to one dimension.",
  "every tensor and target shape","all shapes", [S+": Tensor::reshape, Tensor::flatten"])
p("C09","subslice is a contiguous range of outer rows",
  "subslice(o, n) contains exactly the outer rows o..o+n in order, panics exactly when the range holds no element or does not fit, and taking a subslice of a subslice equals taking the combined subslice of the original.",
  "every tensor, offset and length, and nestings","all offsets into all shapes; nested offsets accumulate",
  [T+": subslice, subslice_flat"])
p("C10","Multi-index access is row-major and bounds checked",
  "t[i], t[(i,j)], ... t[(i,j,k,l,m)] return the element at that multi-index in row-major order for every in-range index and panic for every out-of-range index.",
  "every tensor of matching rank and every index tuple","all index tuples at all shapes",
  ["src/tensor/index.rs: Index impls"])
p("C11","get agrees with as_slice",
  "get(i) returns Some of the i-th element of as_slice() when i < size() and None otherwise, for owned tensors and for views.",
  "every tensor (including views) and index","views at every offset; the raw pointer read has no bounds check to fail in a test",
  [T+": get, as_slice, as_ptr"])
p("C12","Nested vectors convert in row-major order",
  "Converting nested vectors (2 to 5 levels) or vectors of fixed-size rows gives a tensor whose dimensions are the nesting lengths and whose element at (i,j,...) is v[i][j]...; ragged nestings and nestings without a first element panic.",
  "every nested vector","all nesting lengths including ragged ones","src/tensor/from.rs: From<&Vec<Vec<..>>>, From<Vec<[T; N]>>, From<[[T; N]; M]>".split("|"))
p("C13","A list of tensors becomes a tensor of tensors",
  "Converting a non-empty list of equally shaped tensors gives a tensor with a new outermost dimension equal to the list length whose i-th outer row is the i-th tensor; differing shapes or an empty list panic.",
  "every list of tensors","all list lengths and shapes",["src/tensor/from.rs: From<&[Tensor<T>]>, From<Vec<Tensor<T>>>"])
p("C14","map applies the closure once per element in order",
  "t.map(f) calls f exactly once on each element in row-major order (threading any closure state, stopping at the first panic) and returns a tensor with the same shape holding the results; mapping identity gives an equal tensor and mapping twice equals mapping the composition.",
  "every tensor and every (possibly stateful, possibly panicking) closure","all closures and sizes",
  [M+": map, Tensor::map"])
p("C15","map2 broadcasts trailing dimensions",
  "When the dimensions of one operand are a suffix of the other's and both are non-empty, a.map2(b, f) has the longer shape and its element at any multi-index is f of a at the trailing part of that index (as many coordinates as a has) and b at its trailing part.",
  "every pair of compatible tensors, every closure, every multi-index","all pairs of shapes",
  [M+": map2", S+": broadcast_to", T+": as_wrap_slice"])
p("C16","Incompatible operands are rejected",
  "a.map2(b, f) panics whenever neither operand's dimensions are a suffix of the other's, or an operand is empty; it never returns a tensor in these cases and never reads outside either operand.",
  "every pair of tensors","all incompatible pairs of shapes",[M+": map2, map3", S+": broadcast_to, broadcast, check_broadcast"])
p("C17","map3 broadcasts three operands",
  "For three non-empty operands with suffix-compatible dimensions, map3 has the longest shape and each element is f of the three operands at the trailing parts of the index.",
  "every compatible triple, closure and index","all triples of shapes",[M+": map3","src/math/float.rs","src/math/complex.rs"])
p("C18","Operators are elementwise in operand order",
  "a op b for tensors, and scalar op tensor / tensor op scalar, apply op elementwise with the left operand on the left (also for - / % << >>), following the broadcast rule; unary - and ! are elementwise.",
  "every operator, operand pair and element","all operand shapes and values; non-commutative operators need order",
  ["src/math/num.rs: unary_op!, binary_op!, binary_op2!"])
p("C19","init and init_rindexed fill in row-major order",
  "Tensor::init(shape, f) calls f once per element in row-major order; init_rindexed passes the i-th call the reversed multi-index of the i-th row-major position.",
  "every shape and stateful closure","all shapes; the carry logic of the index must be right at every position",
  [M+": init, init_rindexed", S+": next_index"])
p("C20","map_row and map_expand work row by row",
  "map_row(f) replaces each innermost row with the N values f returns for it, in order (dropping the last dimension when N = 1 and rank > 1); map_expand(f) adds an innermost dimension of length N holding f of each element.",
  "every tensor, N and closure","all shapes and N",[M+": map_row, map_expand"])
p("C21","fold and reduce combine exactly the lane of each output cell",
  "fold(init,f) is the left fold in row-major order; fold_axis(axis,init,f) gives at each remaining index the left fold along that axis in increasing order; reduce and reduce_axis do the same starting from the first element of the lane.",
  "every tensor, axis, closure and output index","all shapes/axes; lanes are strided",
  [M+": fold, fold_axis, reduce, reduce_axis","src/tensor/axis.rs: Axis::reduce"])
p("C22","Summing axis sums equals the total",
  "For an associative and commutative operation, reducing along any axis and then reducing everything equals reducing everything directly; in particular reduce_sum over any axis followed by reduce_sum equals reduce_sum.",
  "every tensor, axis and associative-commutative operation","all shapes/axes",
  [M+": reduce, reduce_axis","src/math/reduce.rs"])
p("C23","fold_row folds rows",
  "fold_row(axis,f) folds whole innermost rows in order: with no axis over all rows, with an axis over the rows along that axis, one accumulator row per remaining index; each row is used exactly once, for owned tensors and views.",
  "every tensor, axis and closure","all shapes, axes and view offsets",
  [M+": fold_row","src/tensor/axis.rs: Axis::reduce_row",T+": as_wrap_slice_n"])
p("C24","normalize keeps every element in place",
  "normalize(axis, init, fold, f) returns a tensor of the same shape whose element at each index is f of the lane's fold state and the element at that same index.",
  "every tensor, axis, fold and index","all shapes and axes",[M+": normalize","src/math/normalize.rs"])
p("C25","Axes count from either end",
  "An axis a with 0 <= a < rank selects that axis, and -rank <= a < 0 selects axis a + rank, consistently in every operation taking an axis; anything else is rejected.",
  "every rank and signed axis","all integers",["src/tensor/axis.rs: axis_from_rank, reduce, reduce_row"])
p("C26","transpose swaps the last two dimensions and is an involution",
  "For rank >= 2, transpose swaps the two innermost dimensions at every batch index: out[.., i, j] = in[.., j, i]; transposing twice gives an equal tensor; a vector becomes a column.",
  "every non-empty tensor and index","all shapes",["src/array/transpose.rs: transpose"])
p("C27","concatenate places parts side by side along the axis",
  "Concatenating tensors along an axis gives the sum of their lengths along that axis and, at every index, the element of the part whose range contains that coordinate; parts whose other dimensions differ (or an empty list) are rejected.",
  "every list of tensors, axis and index","all list lengths, shapes and axes",
  ["src/array/stack.rs: concatenate, concatenate_axis, concat_axis, validate_concat"])
p("C28","stack adds an axis indexed by the operand number",
  "stack(tensors, axis) inserts a dimension equal to the number of tensors at that axis and its slice k along that axis equals tensor k, for every index.",
  "every list of equally shaped non-empty tensors, axis and index","all lists, shapes and axes",["src/array/stack.rs: stack, stack_vec"])
p("C29","vstack, hstack and dstack are the documented concatenations",
  "vstack equals stack along a new axis 0, hstack concatenates along axis 1 (axis 0 for vectors), dstack concatenates along the third axis after adding unit dimensions; they agree with stack/concatenate on the same data.",
  "every list of tensors","all lists and ranks",["src/array/stack.rs: vstack, hstack, dstack, vstack_vec, dstack_vec"])
p("C30","Splitting partitions the tensor",
  "split along an axis (n equal sections, or cut positions) yields pieces that cover the axis in order without gaps or overlap: piece k holds exactly the coordinates between consecutive cuts, and concatenating the pieces along the axis gives back an equal tensor; n equal sections gives n pieces when n divides the axis length.",
  "every tensor, axis and section list","all shapes, axes and cut lists",
  ["src/array/split.rs: split_axis, split_by_axis, split_cuts, IntoSections"])
p("C31","unstack is the inverse of stack",
  "unstack(axis) of stack(tensors, axis) returns the original tensors.",
  "every list of tensors and axis","all lists",["src/array/stack.rs: unstack, stack"])
p("C32","tile repeats the tensor periodically",
  "tile(x, multiples) has dimensions multiples[i] * dim[i] (missing leading dims count as 1) and every element equals x at the index taken modulo x's dimensions; zero multiples are rejected; no argument makes it write outside its result buffer.",
  "every tensor, multiples and index","all shapes and multiples; memory safety over all arguments",
  ["src/array/tile.rs: tile, tile_rec"])
p("C33","Diagonal and triangular matrices",
  "eye(n)/identity/diagflat(v)/tri(n) are n x n matrices with element (i,j) determined by i=j or j<=i as documented, and tril/triu keep exactly the elements on and below/above the diagonal of each matrix and zero the rest.",
  "every size, matrix and index","all sizes and batches",["src/init/matrix.rs: eye, identity, diagflat, tri, tril, triu"])
p("C34","meshgrid coordinates",
  "meshgrid_ij(axes) returns one tensor per axis with dimensions the axis lengths and element axes[k][idx[k]]; meshgrid uses the reversed dimension order so that output k varies with the k-th index from the right.",
  "every list of axes and index","all numbers and lengths of axes",["src/init/matrix.rs: build_meshgrid, build_meshgrid_axis, meshgrid, meshgrid_ij, mgrid"])
p("C35","linspace hits both ends with even steps",
  "linspace(a,b,n) has n entries (times the batch shape of the ends), the first is a, for n >= 2 the last is b, and consecutive entries differ by (b-a)/(n-1) (exact arithmetic).",
  "every pair of end tensors and n","all ends and lengths",["src/init/vector.rs: linspace"])
p("C36","logspace and geomspace are exponentials of even steps",
  "logspace(a,b,n) entry k is base^(a+k(b-a)/(n-1)) and geomspace(a,b,n) entry k is a*(b/a)^(k/(n-1)); both have n entries times the batch shape.",
  "all ends and n","all ends, lengths and bases",["src/init/vector.rs: logspace, geomspace"])
p("C37","arange lists the half-open progression",
  "arange(start,end,step) returns start, start+step, ... up to but excluding end, and terminates for every non-zero step (descending when step < 0).",
  "every start, end and step","termination for all inputs cannot be tested",["src/init/vector.rs: arange"])
p("C38","one_hot sets exactly the listed positions",
  "one_hot(indices, n) has length n with 1 exactly at the listed indices and 0 elsewhere, and panics when an index is out of range.",
  "every index list and n","all index lists",["src/init/vector.rs: one_hot"])
p("C39","matmul computes the matrix product with the right shape",
  "For a of shape [.., m, k] and b of shape [.., k, n], matmul has shape [.., m, n] and element (i,j) is the sum over l of a[i,l]*b[l,j] for every batch; with transposes accordingly.",
  "all sizes, batches and indices","all m,k,n and batches",["src/linalg/matmul.rs: matmul_t, Transpose::mkn, sgemm","src/linalg/blas_naive.rs"])
p("C40","matmul never reads outside its operands",
  "Whatever two tensors are passed, matmul either panics or reads only elements of the operands.",
  "every pair of tensors","memory safety over all argument pairs",["src/linalg/matmul.rs: matmul_t, sgemm"])
p("C41","matvec multiplies each vector by the matrix",
  "For a of shape [m, n] and x of shape [.., n], matvec has x's shape with the last dimension replaced by m and each row is the matrix times that row of x; it never reads outside the operands.",
  "all sizes and batches","all m,n and batches",["src/linalg/matvec.rs: matvec, matvec_t_f32, sgemm"])
p("C42","mean, variance and standard deviation",
  "reduce_mean, reduce_variance and reduce_std of a lane equal the arithmetic mean, the population variance and its square root of the lane (exact arithmetic), whole-tensor or along any axis.",
  "every non-empty lane","all data",["src/math/reduce.rs: Mean, Var, Std, reduce_mean, reduce_variance, reduce_std"])
p("C43","min and max reductions ignore NaN",
  "reduce_min (reduce_max) returns an element of the lane that is <= (>=) every non-NaN element, and is NaN only if every element is NaN; the result does not depend on the order of elements.",
  "every lane with any NaN pattern","all data and NaN patterns",["src/math/reduce.rs: reduce_min, reduce_max"])
p("C44","normalize_unit maps onto [0,1]",
  "normalize_unit maps a lane with at least two different values affinely into [0,1] with its minimum at 0 and maximum at 1, preserving order (exact arithmetic).",
  "every lane","all data",["src/math/normalize.rs: normalize_unit"])
p("C45","histogram counts every sample once",
  "histogram(x, bins) of a non-empty vector with at least two different values counts each sample in exactly one bin, the bin whose half-open interval contains it (the maximum goes to the last bin), so the counts add up to the number of samples.",
  "all data and bin counts","all data",["src/stats/histogram.rs: histogram"])
p("C46","histogram2d counts every sample once",
  "histogram2d of an [n,2] tensor returns the bin edges of both columns and a square of counts: element [j,i] is the number of samples in bin i of the first and bin j of the second column; the counts add up to n.",
  "all data","all data",["src/stats/histogram2d.rs: histogram2d"])
p("C47","Generators have full period",
  "The state of the 32-bit and 64-bit generators returns to its start only after 2^64 (2^128) steps, from every seed; so no two distinct seeds ever merge and every state is visited once per period.",
  "every seed and step count","2^64 and 2^128 steps",["src/random/random.rs: Rand32::next, Rand64::next"])
p("C48","Generator outputs are equidistributed",
  "Over one full period each 32-bit (64-bit) output value occurs equally often.",
  "every output value","2^64 outputs",["src/random/random.rs: Rand32::next, Rand64::next"])
p("C49","Seeded random tensors are reproducible",
  "random_normal and random_uniform with an explicit seed return the same tensor on every call in every thread and state, independent of the process-wide generator, and the result depends on the shape only through the number of elements (a longer draw extends a shorter one).",
  "every seed, shape, history","all histories and seeds",["src/init/random.rs: random_normal, random_uniform","src/random/random.rs: Rand32::from"])
p("C50","Uniform draws lie in the requested interval",
  "next_uniform lies in [0,1] and random_uniform(shape,(min,max)) lies in [min,max], for every seed.",
  "every seed and draw","all 2^64 states",["src/random/random.rs: next_uniform","src/init/random.rs: random_uniform"])
p("C51","Thread seeding is race free",
  "After random_seed(s) with s non-zero and before any other reseed, under every interleaving of threads that initialise their generator, no two initialisations consume the same seed step: the k-th successful initialisation gets the k-th iterate of the seed function from s.",
  "every number of threads and interleaving","all schedules",["src/random/random.rs: SEED, LOCAL_RNG, random_seed, next_u64"])
p("C52","random_seed makes later draws reproducible",
  "After random_seed(s) the sequence of default generators created next is determined by s.",
  "every history before the call","all histories",["src/random/random.rs: random_seed, next_u64, Rand32::new, Rand64::new"])
p("C53","WAV decoding round trip",
  "decode_wav of a canonical 16-bit PCM file with any number of channels, sample rate and samples returns the sample rate and a [frames, channels] tensor whose values are sample/32768 in file order.",
  "every sample sequence, channel count and rate","all files",["src/io/decode_wav.rs: decode_wav, Cursor"])
p("C54","WAV decoding rejects everything else",
  "decode_wav on any byte string either panics or the bytes start with a well-formed RIFF/WAVE/fmt/data header with PCM format and 16 bits per sample, whose data are all present; it never reads past the end.",
  "every byte string","all byte strings",["src/io/decode_wav.rs: decode_wav, Cursor"])
p("C55","rfft keeps batches apart",
  "rfft of a [.., n] tensor has shape [.., n/2+1] and each output row depends only on the corresponding input row.",
  "every tensor","all shapes",["src/signal/rfft.rs: rfft_norm"])
p("C56","Buffers are freed exactly once, after the last handle",
  "Under every sequence of creating, cloning, viewing, reshaping and dropping tensors, each buffer's elements are dropped exactly once, exactly when the last handle goes away, and no live handle refers to a freed buffer.",
  "every finite history of creation, clone, view and drop","all histories",[D+": Drop for TensorData", T+": Clone, subslice_flat", S+": reshape"])
p("C57","Comparison operators are consistent with equality",
  "partial_cmp is the lexicographic comparison of the elements and returns Equal exactly when == holds.",
  "every pair of tensors","all pairs",["src/math/num.rs: PartialOrd", T+": PartialEq"])
p("C58","Equality looks only at shape and elements",
  "Two tensors are equal exactly when shape and visible elements are, regardless of the buffers and offsets behind them; clones are equal to their source.",
  "every pair of tensors and view histories","all views",[T+": PartialEq, Clone, as_slice"])
p("C59","Debug output lists the elements in order",
  "Formatting a tensor with {:?} prints exactly its elements in row-major order, nested by dimension, also for views.",
  "every tensor","all shapes and views",[T+": Debug, fmt_tensor_rec"])
p("C60","Sizes never lie",
  "The size of a shape is the true product of its dimensions: no shape whose product exceeds 32 bits is silently accepted with a smaller size.",
  "every dimension list","products beyond u32",[S+": size, From impls", T+": new"])
p("C61","zeros, ones and fill",
  "zeros/ones/fill(v, shape) have the given shape and every element equal to 0/1/v.",
  "every shape and value","all shapes",["src/init/mod.rs: zeros, ones, fill"])
p("C62","append and merge keep all rows in order",
  "a.append(b) holds a's rows then b's; join_vec and from_merge hold all elements of all parts in order with the requested shape; mismatched row sizes are rejected.",
  "every list of tensors","all lists",[T+": append, from_merge, join_vec"])
p("C63","iter_row yields the rows in order",
  "iter and iter_row visit every element exactly once in row-major order, rows having the innermost length.",
  "every tensor","all shapes",[T+": iter, iter_row"])
p("C64","No public operation reads or writes outside memory or exposes uninitialised memory",
  "For every argument, each array operation (map family, fold family, transpose, concatenate, stack, split, meshgrid, triangular, linspace, matvec, fft framing) either panics or returns a tensor whose every element was written; it never writes or reads out of bounds.",
  "every argument of every operation, valid or not","memory safety over all inputs",[D+": unsafe_init", M, "src/array/", "src/init/", "src/linalg/"])
p("C65","Option builders are last-write-wins and independent",
  "For an options struct generated by derive_opt, setting a field through the builder changes only that field, a later setting of the same field wins, settings of different fields commute, and the empty options value has the defaults.",
  "every sequence of setters","all setter sequences",["crates/essay-opt/src/options.rs","src/signal/rfft.rs: FftArg"])
p("C66","slice selects sub-tensors",
  "slice(i) of a tensor returns its i-th outer row, and a range slice the corresponding rows.",
  "every tensor and index","all tensors",["src/tensor/slice.rs"])
p("C67","frame cuts overlapping windows",
  "frame(length, step) of a vector returns the overlapping frames starting at multiples of step.",
  "every signal, frame length and step","all signals",["src/signal/frame.rs: frame"])
p("C68","read_file returns the whole file",
  "read_file returns exactly the bytes of the file whatever chunk sizes the operating system delivers.",
  "every file content and chunking of reads","all read schedules",["src/io/read_file.rs"])
p("C69","Argument lists keep order and contents",
  "Wherever an operation takes several tensors at once (a vector, slice, array or tuple of tensors, vectors or convertible values), the operation sees exactly the converted components in the order they were written.",
  "every list or tuple of arguments","all lengths and component types",["src/tensor/from.rs: IntoTensorList"])
p("C70","Similar seed strings give different generators",
  "Generators made from two strings that differ in one byte, wherever it is and however long the strings, have different states, and still do after any equal number of draws.",
  "every pair of strings that differ in one byte, every number of draws","all strings",["src/random/random.rs: From<&str> for Rand32, From<&str> for Rand64"])
p("C71","Normal draws are finite numbers",
  "next_normal of both generators returns a finite number for every state.",
  "every state","2^64 and 2^128 states",["src/random/random.rs: next_normal, next_uniform"])
p("C72","Every float method works element by element",
  "Each float method of a tensor (sin, exp, sqrt, abs, floor, ..) applies exactly the scalar function of that name to every element and keeps the shape; the two-argument methods (powf, hypot, atan2, ..) broadcast their argument like the operators; powi, sin_cos and mul_add likewise.",
  "every tensor, every method, every scalar function","all tensors and all methods at once",["src/math/float.rs"])
p("C73","Bit operations act on every element and obey the laws of bits",
  "count_ones, leading_zeros, rotate_left, swap_bytes and the other integer methods act on every element, keep the shape, and satisfy their bit-level meaning; rotating there and back, swapping or reversing twice gives the original tensor.",
  "every integer width, element and shift","all values of every width",["src/math/integer.rs"])
p("C74","Complex methods act element by element with their algebraic meaning",
  "re, im, conj, norm_sqr, norm, inv, scale, powu, exp, to_polar, from_polar and the other complex methods compute the complex function of that name for every element, keep the shape, and from_polar undoes to_polar.",
  "every complex tensor","all tensors",["src/math/complex.rs"])
p("C75","Sums and products are exact or rejected",
  "reduce_sum and reduce_product of integers return the exact result precisely when every partial result fits the type, else they panic; in a release build they return it modulo 2^w; the axis versions do so for every lane; an empty tensor panics.",
  "every tensor, integer type and axis","all element values and orders",["src/math/reduce.rs: reduce_sum, reduce_product"])
p("C76","reduce_hypot is the Euclidean norm",
  "reduce_hypot returns the square root of the sum of squares of all elements: never negative, zero only for a zero tensor, at least every absolute value, independent of signs, order and shape, and homogeneous.",
  "every tensor (exact arithmetic)","all tensors",["src/math/reduce.rs: reduce_hypot"])
p("C77","Rounding errors of sums, means and products stay within the standard bounds",
  "In floating point arithmetic with unit roundoff u (2^-24 for f32), reduce_sum of n numbers is off by at most ((1+u)^(n-1)-1) times the sum of absolute values; reduce_mean, reduce_hypot, matmul and matvec satisfy the corresponding bounds, underflow included, as long as nothing overflows.",
  "every tensor of representable numbers, every rounding to a binary format","all inputs and all lengths; tests compare single values",["src/math/reduce.rs","src/linalg/matmul.rs","src/linalg/matvec.rs","src/linalg/blas_naive.rs"])
p("C78","Variances are never negative",
  "In floating point arithmetic reduce_variance (and its axis version) never returns a negative number, so reduce_std never takes the root of one; the variance of equal numbers is exactly 0.",
  "every tensor of representable numbers, every rounding to a binary format","all inputs; cancellation shows only for rare values",["src/math/reduce.rs: Std, Var"])
p("C79","Method forms put the receiver first",
  "a.concatenate(others), a.concatenate_axis(axis, others), a.stack(others, axis), a.vstack(others), a.dstack(others) give the result of the free function on a followed by the others in the order given, whatever collection the others come in; a.meshgrid(b), a.linspace(b, n), a.logspace(b, n), a.geomspace(b, n) use a as first axis or start and b as second axis or end.",
  "every receiver, every list of others, every conversion of them to tensors","all shapes, orders and collection types",["src/array/stack.rs: impl Tensor","src/init/matrix.rs: meshgrid, meshgrid_ij","src/init/vector.rs: impl Tensor"])
p("C80","Options are last-write-wins with the documented defaults",
  "However the options of random_normal, random_uniform, logspace_opt and histogram are written (any constructor or conversion, any chain of setters), the result is that of the last value written for each option, or of the default (mean 0, std 1, min 0, max 1, base 10, 10 bins); 0 bins are rejected.",
  "every constructor, every chain of setters, every shape and process state","all chains of calls",["src/init/random.rs: Normal, Uniform","src/init/vector.rs: Logspace","src/stats/histogram.rs: HistArgs"])
p("C81","ten! literals keep their brackets",
  "ten![...] gives the tensor whose dimensions are the lengths of the nested brackets and whose element at a position is the expression written there, up to four levels; empty, ragged or deeper literals do not compile, so the macro never panics because of its form.",
  "every literal","all nestings and lengths",["src/macros/mod.rs: ten","src/tensor/from.rs: From<[T; N]>"])
p("C82","NaN is kept, and nothing becomes NaN or infinite without cause",
  "In IEEE arithmetic a NaN element makes the sum, mean, norm, variance and standard deviation of its lane NaN, and every entry of a matrix product it contributes to; minimum and maximum skip it; histogram leaves it out. Sums of non-negative values are never NaN. Finite data whose exact results are far below the largest finite number give finite results within the usual error bounds; variances are never negative or NaN, and normalize_unit of finite data is finite.",
  "every tensor of f32 or f64 values, NaN, infinities and both zeros included","special values and overflow are rarely tested, and combine with every operation",["src/math/reduce.rs","src/math/normalize.rs","src/stats/histogram.rs","src/linalg/matmul.rs","src/linalg/matvec.rs"])
p("C83","Expressions over tensors obey the laws of their element arithmetic",
  "An arithmetic expression over tensors, nested to any depth and mixing operators between tensors, operators with scalars and elementwise methods, has at every index the value of the expression at the elements there, or panics because an element panics or there is no common shape. So two expressions that agree for all numbers agree for all nonempty tensors (commutativity, associativity, distributivity), and a scalar operand acts like the tensor made from it.",
  "every expression and all nonempty tensors of any shapes","all expressions and shapes",["src/math/num.rs","src/tensor/map.rs"])
p("C84","Rearranging operations fit together",
  "Concatenating in groups equals concatenating at once; cutting a concatenation at the joints gives the parts back; mapping elements commutes with reshape, transpose, subslice, concatenate and stack; transposing stacked matrices puts the transposes side by side; tril of the transpose is the transpose of triu; folding along the second-to-last axis is folding the transpose along the last; tile along the first axis and append are concatenations; a matrix is rebuilt from its rows; a row of a stack is the tensor stacked there; meshgrid is the transpose of meshgrid_ij.",
  "every tensor with at least one element, any number of parts, any axis","relations between operations over all shapes",["src/array/stack.rs","src/array/split.rs","src/array/tile.rs","src/array/transpose.rs","src/init/matrix.rs","src/init/vector.rs","src/tensor/slice.rs"])
p("C85","Matrix products obey the laws of matrix algebra",
  "In exact arithmetic matmul is associative, distributes over + and -, and takes scalar factors out; a matrix times eye(n) is that matrix (also under rounding); the transpose of a product is the product of the transposes in the other order, and a transpose option is the same as transposing the operand; matvec is matmul with a column, applying b then a is applying a b, matvec is additive, diagflat(v) acts by elementwise multiplication, and the sum of v * x is row times column.",
  "all matrices whose dimensions fit, and batches of them","all sizes and entries",["src/linalg/matmul.rs","src/linalg/matvec.rs","src/linalg/blas_naive.rs","src/init/matrix.rs","src/array/transpose.rs"])
p("C86","Statistics are consistent with each other and with rearranging",
  "In exact arithmetic: sum, product, mean, variance, standard deviation, minimum and maximum do not change when the tensor is transposed, reshaped or its elements are reordered; reducing one axis and then the rest gives the same sum, mean, minimum and maximum as reducing everything; the variance is the mean of the variances along an axis plus the variance of the means; the sum of a concatenation or stack is the sum of the parts' sums and the mean the weighted mean; scaling and shifting act on mean, variance and standard deviation as they should; min <= mean <= max and variance <= (max-mean)(mean-min); negating swaps min and max; normalize_unit is idempotent and ignores positive scaling and shifts.",
  "every nonempty tensor, any axis, any number of parts","relations between operations over all shapes and values",["src/math/reduce.rs","src/math/normalize.rs","src/array/stack.rs","src/array/transpose.rs","src/math/num.rs"])
p("C87","Shape queries agree with the dimension list",
  "idim(a) is the dimension of the signed axis a; sublen(i, j) and rsublen(i, j) are the products of the dimensions i..j counted from the outermost and from the innermost; batch_len(k) is the product of the dimensions in front of the inner k; broadcast, check_broadcast, broadcast_to and broadcast_min accept two shapes exactly if one list of dimensions (without the inner ones left out) is a suffix of the other and return the longer one or its size; reduce drops the innermost dimension. Axes out of range and products of 2^32 or more panic.",
  "every shape, axis and range","all shapes and ranges; indices count from both ends over the same storage",
  ["src/tensor/shape.rs: idim, sublen, rsublen, batch_len, broadcast, check_broadcast, broadcast_to, broadcast_min, reduce"])
p("C88","Threads do not disturb each other's random numbers",
  "Once a thread has drawn random numbers, what its further unseeded draws return (Rand32::new, Rand64::new, random_normal, random_uniform) depends only on its own calls: the k-th returns what it returns with the k-th value of the thread's generator given as the seed, whatever other threads draw and whoever calls random_seed in between. The first use of a thread takes the next process-wide seed, or entropy if there is none, and changes no other thread.",
  "every program: any number of threads, calls and reseedings in any order","all interleavings and histories",
  ["src/random/random.rs: next_u64, LOCAL_RNG, random_seed","src/init/random.rs: random_normal, random_uniform"])
p("C89","map2_row and map2_expand apply the function row by row and pair by pair",
  "a.map2_row(b, f) holds the N results of f on each pair of rows of a and b, and a.map2_expand(b, f) the N results of f on each pair of elements, as an additional inner dimension of length N.",
  "every pair of compatible tensors and every f","all shapes, functions and N",["src/tensor/map.rs: map2_row, map2_expand"])
p("C90","Elements cross threads only if their type allows it",
  "In every program the compiler accepts, elements of a tensor are read in another thread than the one that made the tensor only if their type is Sync, and dropped in another thread only if it is Send; if the type lacks either, tensors and references to them stay in the thread that made them. If the type is both, tensors can be moved to and shared with every thread. Elements are never lost: those of every buffer made are still held by a tensor or have been dropped, and the threads can always let go of everything, after which all have been dropped.",
  "every program, any number of threads, clones, moves and borrows in any order, every element type","the bounds of an unsafe impl are never executed; all histories",
  ["src/tensor/data.rs: unsafe impl Send, unsafe impl Sync","src/tensor/tensor.rs: struct Tensor, Clone, as_slice, Deref"])
p("C91","Memory is given back as it was taken, and running out of it is not undefined",
  "Whatever the size and alignment of the element type, every block of memory a program obtains for a tensor (from a vector, from a vector of rows, or by an initialiser) is given back once, with the layout it was obtained with, when the last reference to the tensor goes; tensors without bytes need no memory; a buffer that is too large to be laid out panics, and if the allocator has no memory the program stops. None of this is undefined behaviour.",
  "every program that makes and drops tensors, every element type, every answer of the allocator","needs an allocator that refuses or checks layouts; all element sizes and histories",
  ["src/tensor/data.rs: from_boxed_slice, from_boxed_rows, Drop, unsafe_init","src/tensor/tensor.rs: Tensor::new"])
p("C92","rfft_norm returns the absolute values of the Fourier coefficients",
  "rfft_norm of a vector of n samples holds at position k the absolute value of the k-th Fourier coefficient of the samples, for k up to n/2, and zeros behind; so a tone shows at its frequency, scaling the samples scales the result, and the energies of samples and results agree.",
  "every vector of real samples, every requested length","needs exact arithmetic and all lengths and signals; tests compare a few rounded values",
  ["src/signal/rfft.rs: rfft_norm, hann_window"])
p("C93","A view behaves like a copy of it",
  "Two runs of the same program, started from tensors that show the same shapes and elements but may lie anywhere in their buffers (a slice and a fresh copy of it), agree: every call ends with the same error in both, or returns equal values and tensors that show the same.",
  "every program, every number of calls, every pair of starting tensors","compares two runs of arbitrary programs on arbitrary memory layouts; tests mostly use fresh tensors",
  ["src/tensor/tensor.rs: as_slice, get, as_wrap_slice, subslice","src/tensor/map.rs","src/array/","src/linalg/","src/init/","src/math/"])
p("C94","The printed text determines the tensor",
  "Two tensors of the same type whose {:?} texts are equal have the same dimensions and the same element texts, so they are equal if different elements print differently.",
  "every pair of tensors, every rank, every element type","an injectivity statement about all texts; tests compare a few printed samples",
  ["src/tensor/tensor.rs: Debug for Tensor, fmt_tensor_rec","src/tensor/shape.rs: as_vec"])
p("C95","Elements that are copied are cloned exactly once",
  "fill, from_slice, join_vec, the conversions from borrowed slices, vectors and tensors, from_merge, append, transpose, split (not along the first axis), concatenate, stack, tile and meshgrid call the element type's clone exactly once for each element of their result, on the element that belongs there, and keep the clone there; split along the first axis clones nothing. If a clone panics the call panics with it; otherwise the effects seen are those of the clones.",
  "every element type with any clone: stateful, panicking or returning something else; every shape","the number, arguments and order of calls to a caller-supplied function over all shapes; tests use numbers whose clone is a plain copy",
  ["src/tensor/tensor.rs: from_slice, join_vec, from_merge, append","src/init/mod.rs: fill","src/tensor/from.rs","src/array/transpose.rs","src/array/split.rs","src/array/stack.rs","src/array/tile.rs","src/init/matrix.rs: meshgrid, meshgrid_ij"])
p("C96","Small whole numbers are computed without rounding errors",
  "As long as the numbers involved are multiples of one power of two with multipliers up to 2^24 (f32; 2^53 for f64), in particular whole numbers up to that size, the operators + - *, reduce_sum and reduce_sum_axis, reduce_product, matmul and matvec give the exact result whatever the order of additions and whether or not multiply-adds are fused; the sum in reduce_mean and the sum of squares in reduce_hypot have no error; linspace between ends with a whole step, mgrid and arange list exactly the expected multiples. A sum then does not depend on the order of the elements. Beyond the range this ends: arange(0., end, 1.) with end above 2^24 never returns.",
  "every tensor of such numbers, every shape, every order of evaluation of the matrix library","a statement about all operands within a range and all orders of evaluation; tests compare a few sums with a tolerance",
  ["src/math/num.rs","src/math/reduce.rs","src/linalg/matmul.rs","src/linalg/matvec.rs","src/init/vector.rs: linspace, arange","src/init/matrix.rs: mgrid"])
p("C97","What the random draws add up to over a period",
  "Of any 2^64 successive Rand32::next_uniform draws exactly (k+1)·2^32 are at most k/(2^32-1), their mean is exactly 1/2 and their mean square 1/3 + 1/(6(2^32-1)), whatever the seed; the same for Rand64 over 2^128 draws. In f32 the draw is exactly 1 for 2^39 of 2^64 draws and exactly 0 for 2^32. The i-th next_normal is sqrt(-2 ln a)·cos(2 pi b) with a, b the uniform numbers 2i and 2i+1, so the generators repeat after exactly 2^63 (2^127) normal draws; element i of random_normal with a seed is mean + std times that. (The code satisfies it for Rand32; the mean of Rand64::next_uniform is (2^32+1)/2.)",
  "every seed, every number of draws","a whole period cannot be drawn in a test; tests look at a few thousand draws with a tolerance",
  ["src/random/random.rs: Rand32, Rand64","src/init/random.rs: random_normal, random_uniform"])
p("C98","What works in a development build gives the same in a release build",
  "Overflow checks are on in development builds and off in release builds. Every call that returns in a build with the checks returns the same value, and makes the same calls of closures with the same effects, in a build without them; so whatever a program can hold after a history of calls in the one build it can hold in the other. (The converse is false: a release build may go on where the checks stop the other.)",
  "every public function, all arguments, every history of calls, all closures","compares two builds on all inputs; tests run in one profile",
  ["src/tensor/shape.rs","src/tensor/tensor.rs","src/tensor/map.rs","src/array/","src/linalg/","src/math/","src/init/"])
p("C99","Folds, reductions and matrices copy only what they need",
  "fold copies its start value exactly once, fold_axis, fold_row and normalize exactly once for each lane, just before the lane's first element is visited, and convert the state exactly once after its last one. reduce and reduce_axis copy each element exactly once, just before it is combined. eye, identity and tri ask the element type for exactly one zero or one for each slot; diagflat, tril and triu copy each element that is kept exactly once, copy nothing else and ask for one zero for each other slot, all in row-major order. A panic in any of these calls is the panic of the operation.",
  "every element and state type with any clone, into_result, zero and one (stateful, panicking or returning something else), every shape and axis","the number, arguments and order of calls to code supplied by the element type, over all shapes; tests use plain numbers",
  ["src/tensor/map.rs: fold, fold_axis, fold_row, reduce, reduce_axis, normalize","src/init/matrix.rs: eye, identity, diagflat, tri, tril, triu"])
p("C100","A panic in a clone or a closure drops nothing twice",
  "If the element type's clone, or a closure, panics in the middle of a call, no value is dropped twice. from_vec, join_vec, the conversions from borrowed slices, vectors and tensors, from_merge and append drop every value given to them or made by them, also when an argument is rejected; so do fold and reduce with the state, the start value and the element in hand. The functions that fill the block of their result (from_slice, fill, transpose, concatenate, stack, tile, eye, tri, diagflat, tril, triu, init, init_rindexed, map, map_row, map_expand, map2, map3, fold_axis, fold_row, reduce_axis, normalize) lose at most the values already written there; split and meshgrid drop the finished results and lose at most the one in progress. A call that returns has all values it made in its result, or dropped once.",
  "every element type, every clone and closure and every point at which it panics, every shape","what is dropped after a panic at an arbitrary point of an arbitrary call; tests use numbers, whose drop cannot be seen",
  ["src/tensor/data.rs: unsafe_init, Drop for TensorData","src/tensor/tensor.rs","src/tensor/from.rs","src/tensor/map.rs","src/array/","src/init/"])
p("C101","Tiling obeys its laws",
  "Tiling once along every axis gives the tensor back, with axes of length 1 in front for further multiples. Tiling twice is tiling once by the products of the multiples. Applying a function to every element and tiling can be done in either order. The result has every element of the tensor once for each of the copies; so in exact arithmetic its mean, variance, standard deviation, minimum and maximum are those of the tensor and its sum is the sum times the number of copies. Tiling n times along any one axis is concatenating n copies along it. A binary operation with a tensor that has more axes in front is the same operation after tiling the smaller operand to the larger one's shape, on either side, for any closure.",
  "every nonempty tensor, every vector of up to six positive multiples whose result fits, any axis, any closure","relations between calls over all shapes and multiples; tests tile a few small vectors",
  ["src/array/tile.rs","src/array/stack.rs: concatenate_axis","src/tensor/map.rs: map2","src/math/reduce.rs"])
p("C102","Splitting and joining obey their laws",
  "Applying a function to every element and splitting can be done in either order, and the result of an elementwise operation between two tensors of the same shape, split, is the operation between their pieces; a split that is rejected is rejected for the operands and for the result alike. Splitting into n equal pieces and each of them into m gives the pieces of splitting into n times m. A tensor tiled n times along an axis and split into n along it gives the tensor n times. An elementwise operation between two concatenations of parts of the same shapes is the concatenation of the operations between the parts.",
  "every nonempty tensor, every axis, every list of cuts and number of sections, every pure function","relations between calls over all shapes and cuts; tests split a few small vectors",
  ["src/array/split.rs","src/array/stack.rs: concatenate_axis","src/array/tile.rs","src/tensor/map.rs: map, map2"])
p("C103","Histograms obey their laws",
  "The order of the samples does not matter, however the arithmetic rounds. In exact arithmetic: scaling the samples by a positive factor and shifting them moves the edges along and keeps the counts; joining samples with the same least and greatest value adds the counts; tiling them n times multiplies the counts by n; neither the first nor the last bin is empty unless all samples are equal; a histogram of n bins is that of n times k bins with k neighbouring bins taken together, and has every k-th of its edges.",
  "every nonempty vector of samples, every number of bins","relations between calls over all data and numbers of bins; tests count a few fixed samples",
  ["src/stats/histogram.rs: histogram","src/array/stack.rs: concatenate_axis","src/array/tile.rs"])
p("C104","Work on a batch can be divided",
  "Operations that treat the entries along the first axis one by one, that is row maps, map_expand, folds, reductions, statistics and normalisations along any axis but the first, transposing, and binary operations with a fixed operand that lacks the first axis, give on a part of the batch the same part of their result, and on several batches joined by concatenate the results joined.",
  "every tensor with elements, every part, every list of batches","relations between calls over all shapes, parts and functions; tests fix single calls",
  ["src/tensor/map.rs: map_row, map_expand, fold_axis, reduce_axis, normalize, map2","src/array/transpose.rs","src/math/reduce.rs","src/tensor/tensor.rs: subslice","src/array/stack.rs: concatenate"])
p("C105","Generated sequences and matrices obey their laws",
  "In exact arithmetic: scaling and shifting the ends of linspace or arange does the same to the sequence; a run of entries of linspace is the linspace between its first and last entry; taking c times as many steps keeps the entries; opposite entries lie evenly around the middle, which is the mean; aranges that meet at an entry join to the whole; arange(0, n, 1) is linspace(0, n-1, n). For any elements: eye is the diagonal matrix of ones, its own transpose, and its rows are one_hot vectors; tri is the lower triangle of ones; diagflat commutes with maps that keep zero. However the arithmetic rounds: logspace is the base to the power of linspace, and geomspace the exponential of linspace between the logarithms. In real arithmetic: geomspace between powers of a base is logspace between the exponents, and scaling its ends scales the sequence.",
  "every length, all ends in order, every size of matrix","relations between calls over all sizes and values; tests list a few short sequences",
  ["src/init/vector.rs: linspace, logspace, geomspace, arange, one_hot","src/init/matrix.rs: eye, diagflat, tri, tril, triu"])
out = os.path.join(os.path.dirname(os.path.abspath(__file__)), "..", "properties.jsonl")
with open(out, "w") as f:
    for e in P: f.write(json.dumps(e, ensure_ascii=False) + "\n")
print(len(P))
