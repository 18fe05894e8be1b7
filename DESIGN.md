# Formal model of essay-tensor in Lean 4 - design

Code: `/repo` (Rust, read as text, never built). Model and proofs: `/verif/lean/Verif`.
Properties: `/verif/properties.jsonl`. Claims: `/verif/MANIFEST.json`. Mutation log: `/verif/seeded/LOG.jsonl`.

## 1. Layout

| directory | content |
|---|---|
| `Verif/Base/` | outcome type `Res` (`ok`, `panic`, `ub`), loops, uninitialised buffers with checked raw writes |
| `Verif/Model/` | the code, function by function, each definition citing file and lines |
| `Verif/Spec/` | small independent specifications (row-major multi-index, nested lists, list edits, WAV encoder, ...) |
| `Verif/Lemmas/` | helper lemmas; nothing here is a claim |
| `Verif/Props/` | the property theorems `C01_...`, with a concrete `example` beside each |
| `Verif/Tests/` | the unit tests of `/repo`, run on the model (tests, not claims; see 5a) |

## 2. How the code is modelled

* **Outcomes.** A Rust call returns `Res α = Except Err α` with `Err = panic | ub`. `panic` is any panic
  (assert, index out of bounds, arithmetic overflow, `todo!`, division by zero). `ub` is undefined behaviour made
  visible: raw pointer read/write outside the allocation, making a pointer past its end, exposing or dropping an
  uninitialised slot. So
  "never undefined behaviour" is a theorem, not an assumption.
* **Tensor.** `{shape, offset, size, data}`; `data` is the whole shared buffer (a list), so views are real views.
  Raw reads are checked against the buffer length and give `ub` outside it.
* **Shape.** The `[u32; 6]` array (a list of length 6, stored innermost first) plus `rank`, exactly as in the code;
  `as u32` is reduction mod 2^32; derived equality compares the whole array.
* **`unsafe_init`.** A buffer of `len` uninitialised slots (`List (Option α)`); the closure runs first, the size
  assertion of `Tensor::new` runs afterwards, as in the code. Writes outside are `ub`; if a slot is still
  uninitialised when the buffer becomes a tensor (or is dropped by the failed assertion) the outcome is `ub`.
* **Closures** are `FnMut`: modelled as functions in `StateT σ Res` (any state, may panic), so the number and order of
  calls is observable.
* **Loops** are folds over ranges or structural recursion. A loop that may not terminate (`arange`, seed CAS loop) is
  modelled with fuel or as a transition system.
* **Integers.** `usize`/`isize` are `Nat`/`Int`. What an overflow does is decided by the build (`class Build` in
  `Base/Res`, a parameter of the model): in `Build.checked` (dev/test profile) `usize` subtraction below zero, `isize`
  addition out of range and a product of `u32` dimensions from 2^32 on panic; in `Build.release` they wrap. Theorems are
  about `Build.checked` unless they name the other; C98 relates the two, C60 and C64 have what goes wrong in release.
  `usize` sums and products wrap in `Build.release` where a caller's argument goes into a check (`subslice`,
  `subslice_flat`, `as_wrap_slice_n`); all others are exact in both builds (in `Build.checked` they would need more than
  2^64 elements or indices; in `Build.release` also a shape whose size does not fit 32 bits).
* **Floats** are a parameter: the model functions take a record `FOps F` of operations (`Model/Float`). Theorems hold
  for every record where only the data flow matters, and are instantiated (`Spec/Float`) with exact arithmetic of an
  ordered field (`FOps.exact`), the reals (`FOps.real`), and rounded arithmetic (`FOps.rounded`: compute exactly, then
  round with an arbitrary monotone rounding, `IsRounding`, or a binary format, `IsFormat`; `f32` and `f64` rounding
  to nearest-even with gradual underflow are defined in `Spec/Ieee` and proved to be formats). Overflow to
  infinity and NaN arithmetic are not in `FOps.rounded`; `FOps.ieee` (`Spec/Fp`) has NaN, infinities, signed zeros and
  overflow, and C82 carries the results of C77 and C78 over to it. The order of values with NaN is `IsFloatOrder`.
* **Scalar library functions** (`num_traits::Float`, `num_complex`, `f32::sin`, ...): parameters (`FloatLib`, `CxLib`) in
  the model of the tensor methods; complex functions follow the documented `num_complex` formulas (`Model/Math`).
* **External crates**: `matrixmultiply::sgemm` (used unless the feature `naive` is on) is represented by its contract: it reads
  the same elements as the loops in blas_naive.rs, writes the same places and stores in each place a value that some
  kernel (`Kernel`, a parameter) computes from the pairs of factors of that entry. Theorems about values hold for every kernel
  (`C39_library_partial`) or every kernel that sums the products in any order, with or without fused multiply-adds
  (`Blas.Sums`, Spec/Library). That the crate meets this contract is trusted. rustfft and the thread generator's system entropy are
  parameters (`FFft`, `FRand`).
* **Reference counting** (`Arc`) is abstracted to value sharing in the tensor model, and modelled separately as a
  transition system over handles and buffers for C56.

## 3. Trusted base

* Lean 4.33.0 kernel; axioms at most `propext`, `Classical.choice`, `Quot.sound` (checked with `#print axioms`).
  No added axioms, no `sorry`, no `native_decide`/`bv_decide`. The axioms of each claimed theorem are in `AXIOMS.md`.
* The correspondence of the model with the Rust text (by reading; each definition cites lines).
* Rust standard library behaviour (Vec, Arc, slices, chunks, atomics under sequentially consistent interleaving).
* Zero-size allocation: `alloc` with a zero-size layout is formally undefined in Rust; `unsafe_init(0, ..)` does that.
  The ownership model (`Model/Heap`) says so (`C56_zero_length_violates`); the value model, used everywhere else (C64
  included), treats it as an ordinary empty buffer. Both take elements to have a size above 0 and memory not to run out;
  `Model/Alloc` does not (C91).
* Public fields: `Tensor.shape/offset/size` are `pub`. Histories (`Spec/Reach`) include assignments to them, which safe code
  can use to read outside the buffer (`C64_fields_violates`); the theorems about single operations assume a tensor as the
  crate makes it (`Rep`), and the ownership model (C56) has no assignments.
* Pointer provenance: `unsafe_init` passes on a pointer derived from a reference to the first element
  (`data.cast::<T>().as_mut()`, data.rs:93), whose permission covers one element under Stacked Borrows. The model counts
  only accesses outside the block, and reads or drops of unwritten elements, as undefined.

## 4. Plan per property

C01-C05 shapes: `Model/Shape`; every well formed shape is the canonical storage of its dimension list
(representation lemma); each operation is then shown to commute with the list edit. False parts (equality after
`with_cols` on a scalar, `squeeze_axis` off by one, `append`, outermost insert at rank 5) get counterexample theorems.
C06-C11, C58, C60, C62, C63 tensors and views: `Model/Tensor`; invariant `WF` (size = product, view inside buffer),
refinement to `(dims, element list)`. False parts: `get` on views, 3/4-index on tiny tensors, `subslice_flat` with an
empty shape, wrapped product in release.
C12-C13 conversions: `Model/From`; row-major spec with multi-indices.
C14-C24 elementwise and fold family: `Model/Map`; sequential-writes lemma turns every `unsafe_init` loop nest into a
monadic list traversal, then index arithmetic. False parts: `fold_row` on vectors/views, `normalize` on inner axes.
C25 axis: integer arithmetic; `Props/Axes` says what each operation does with every axis argument, in range or not.
C26-C32 array operations: `Model/Array`; "writes the right value wherever it writes, and writes everywhere" lemma. `Props/Edges`: the inputs outside those theorems (results of 2^32 or more elements, too many dimensions, dimensions 0, mismatched parts). `Props/TileActual`: multiples of any rank.
False parts: `unstack`, `tile` with multi-dimensional multiples, equal split with non-divisor, rank-6 concat axis 0.
C33-C38 initialisers: `Model/Init`. False part: `arange` with a negative step never ends. `Props/Limits`: results that do not fit in 2^32 elements or six dimensions.
C39-C41 linalg: `Model/Linalg` (`Blas`: the loops of blas_naive.rs or any library kernel; `Props/Library` for sums in any order). False parts: matmul shape,
batch mismatch reads outside (`Props/Bounds`: exactly when).
C42-C46 statistics: `Model/Stats`, exact arithmetic, and monotone rounding where it says so. False part: `histogram2d` always panics, where it reads the minima; the rest of it is proved right (`Props/Hist2d`).
C47-C52 random: `Model/Random` on bit vectors; full period by number theory (Hull-Dobell for 2^k), equidistribution
by bijectivity of the output permutation; thread seeding as a transition system. False parts: `random_uniform`,
`Rand64::next_uniform`, reseeding after initialisation.
C53-C54 WAV: `Model/Io`; encoder spec, round trip and inversion.
C55, C67 signal: `Model/Signal`; FFT itself (rustfft) is an abstract function of the row.
C56 ownership: `Model/Heap` transition system, invariant over all histories.
C57, C59: `Model/Ops`, `Model/Fmt`.
C61: fill. C64: union of the no-`ub` theorems.
C65: `Model/Opt` builder semantics of the derive macro. C66: `slice` always panics (`todo!`).
C68: file read with short reads (`Model/Io`).
C69 argument lists: `Model/From`. C70, C71 generators: `Model/Random`.
C72-C74 float, integer and complex methods: `Model/Math`.
C75-C78, C82 sums, products, norms, rounding errors and special values: `Model/Stats`, `Spec/Ieee`, `Spec/Fp`; whole histories of calls (C07, C64): `Spec/Reach`.
C79, C80 method forms and options: `Model/Methods`. C81: `Model/Macro` (arms of `ten!`, type inference of array literals).
C83 expressions over tensors: `Spec/Laws` (`TExpr`, evaluated once with tensor operations and once with numbers). C84 relations between rearranging operations: `Spec/Laws` (`Agree`); both are proved from the theorems of C14-C32, not from the model.
C85 matrix algebra: no new model; from C39 and C41 with entries as functions (`Entries`, `VEntries` in `Props/Algebra`; diagonal matrices in `Props/Diagonal`). `product` in `Spec/Laws` is `matmul` followed by a reshape.
C86 consistency of statistics: no new model; from C26–C28, C42–C44 and C75, using that transposing, lanes, concatenating and stacking permute the elements (`Lemmas/Rearrange`).
C87 shape queries: `Model/Shape`; stated with products of list prefixes and suffixes.
C88 threads: programs are lists of calls with thread numbers (`Spec/Threads`), run on `Process` of `Model/Random`. C89: `Model/Map`, only that it is unimplemented; `Model/Map2Row`, the private implementation prepared for it.
C90 sharing between threads: `Model/Sharing`: the auto trait rules as data, programs as a transition system over what each thread holds; invariant over all histories.
C91 memory: `Model/Alloc`, a transition system over the allocator's live blocks (address and layout) and the buffers in use; element types of any size, an allocator that may refuse. False part: `unsafe_init` with no bytes or no memory.
C92 Fourier coefficients: `Model/Signal` with `FFft.real` (`Spec/Fourier`: real numbers, the discrete Fourier transform by its defining sum). False part: the samples are weighted by a Hann window.
C93 views and copies: `Spec/Twin` lists the public functions that take tensors once more, called on both sides of a pair (`PairCall`), and the pairs two runs of a program hold (`PairAfter`). Proved by induction over the calls: everything a function learns of a tensor comes through its shape, its size and reads inside its view. False for the functions that add the offset twice or read behind the view.
C94 printed texts: injectivity of the text of C59. The dimensions follow the last opening bracket; every separator holds one space, so with equal dimensions the spaces locate the elements. False on views (offset added twice) and for element texts with varying numbers of spaces.
C95 clones: `Model/Clones` repeats the copying functions with `clone` as a function into any monad; with `pure` they are the functions of the other files (`C95_models_agree`). `Spec/Clones` says in which sense an operation is a sequence of clones, one per slot of the result.
C96 whole numbers: `Spec/Whole` names the numbers a rounding leaves alone (`ExactOn`); inductions over the folds and over `Evaluates` show that no intermediate value leaves them.
C97 draws over a period: sums and counts over a period are taken apart by the value drawn, each of which occurs equally often (C48); the ends of the interval in `f32` follow from the rounding in `Spec/Ieee`.
C98 builds: the model takes the build as a parameter (`class Build` in `Base/Res`); one refinement lemma per function, by a small tactic (`carry`) that walks both versions of its body in step; then a case for every kind of call in `Spec/Reach` and an induction over histories.

C99 copies in folds: `Model/CloneFold` repeats the folds, reductions and matrix builders with `clone`, `into_result`, `zero` and `one` as actions; with `pure` they are the functions of the other files (`C99_models_agree`, `C99_matrices_agree`). Each is proved equal to a `mapM` over lanes or slots of a two-line specification (`Spec/CloneFold`).
C100 panics and drops: `Model/Unwind` repeats the functions that copy or call closures with the values their stack frames own, over a monad whose effects survive a panic (`Own`: made, dropped, state). `Spec/Unwind` has the two statements: `Settled k own x toks` (everything given or made ends up in the result or dropped once, at most `k` values lost by a panic) and `CopiesIn` (which copies, in which order, and their fate). `Settled` has rules for binding, loops, owned values and raw blocks (`Lemmas/Unwind`); a block is filled from the start, so a write never covers a value. The copying functions go through the list of writes of C95. Without the record of drops the model is that of C13 to C16, C95 and C99 (`C100_models_agree`, `C100_models_agree_closures`, `C100_models_agree_matrices`).
C101 tiling: `Lemmas/Tile` gives the elements of a tiling as a list (`tile_eq`); the laws are shown for that list, by comparing at every index (`Props/Tile`).

C102 splitting: the pieces of a split and the parts of a concatenation are determined by their elements at every index (`IsSlice.unique`, `IsConcat.unique`), so the laws follow from how slices behave under maps, pairing and slicing again (`Props/Split`). Which splits are rejected depends only on the axis length (`split_cases`).

C103 histograms: `hist_lists` gives counts and edges as lists in terms of the bin of each sample; the laws follow from how that bin changes with the samples and the number of bins (`Props/Histogram`).
C104 batches: `BatchLaws` states both laws; `Entrywise.laws` derives them for any operation whose result is given by a relation that restricts to parts of the first axis, and each operation is shown to be such (`Props/Batch`).
C105 sequences and matrices: `linspace_rows` and `arange_is` give the elements as lists; the laws are identities between those lists in a linearly ordered field. The matrices are compared entry by entry (`Props/Grids`). `logspace` and `geomspace`: `Props/Spaces`.

## 5. Not modelled

* Token-level macro expansion other than `ten!`: the
  `tensor_uop!`-style operator boilerplate for each reference kind (one model function stands for all of them), and the
  token stream made by `essay-opt` (its semantics is modelled: the setters it generates).
* The internals of `matrixmultiply`, `rustfft`, `num_complex`, `num_traits`, the allocator, and OS errors except for the
  outcome of file reads.
* NaN payloads, and the values of `ln`, `exp`, `powf` and other library functions at special values.
* Tests, benches, examples and commented-out code.
* Element types of size zero (a unit struct, say), except in `Model/Alloc`: `unsafe_init` then asks the allocator for no
  bytes at any length, as for length 0 (`C91_zero_sized_violates`).
* The order in which one panic drops several values, and drops after a panic in functions other than those of C100.
* Thread scheduling except for the seed counter (C51) and reference counts (C56).

## 5a. The model and the unit tests of the code

`Verif/Tests` transcribes the unit tests of `/repo` and checks in the kernel what the model computes for them. Nothing
there is claimed as a proof; it is evidence that the model is the code its authors describe. Float tests run on
rationals; the seeded normal distribution is evaluated with machine floats and gives the values the tests of
`/repo/src/init/random.rs` list; the integer generator gives the ten values of `rand32_u32_seed_0`.

Some tests of `/repo` contradict its code as it stands. The model agrees with the code, and the file says so at the
place:

* `ten!([..])` has a leading dimension 1 (macros/mod.rs): tensor_init_count, tensor_from_vec_slice, histogram_default,
  histogram_bins, tensor_zeros, tensor_fill, slice_usize_rank1.
* `Shape::from([])` is a scalar: shape_from_slice of src/tensor/test/shape.rs (the one in shape.rs agrees with the code).
* `reduce` and `fold` make scalars: fold_i32, fold_axis (first part), reduce_shape, reduce_fnmut, reduce_with_clone,
  tensor_fold_i32, tensor_reduce of src/tensor/test/map.rs (those in src/tensor/map.rs and src/math/reduce.rs agree), and
  two assertions of reduce_mean_axis.
* Always panic: map2_row, every `slice`, `frame`, `histogram2d`, `rfft_norm` of rank 2.
* The dims of a product that is not square are swapped: matmul_1_2_2_3_transpose.
* unsafe_init_scalar expects size 2 of a scalar; test_fft_norm expects no window; rand32_uniform and rand32_new expect
  different first values of the same generator.

Not transcribed: the tests of files on disk (read_file, decode_wav) and statistics of 65536 random values.

## 6. Results

`proved`: the property holds of the model as stated. `partial`: the code violates part of it (then the negation is
proved with a witness, name ending in `_violates`), or part of it is not covered; the notes say which.

| id | property | status | remarks |
|---|---|---|---|
| C01 | Shape conversion round trip | proved | Dimensions of 2^32 and more are truncated by the code (C01_truncates). |
| C02 | Shape edits are list edits | partial | Everything but rinsert at a position beyond the rank, which is accepted and loses the dimension (proved). Conditions for panics are exact. What append does instead is proved too. |
| C03 | remove undoes insert | proved |  |
| C04 | Shape equality is equality of dimension lists | partial | Proved for all histories except the operations for which it is false (witness given). |
| C05 | expand_dims and squeeze only add or drop unit dimensions | partial | expand_dims and squeeze proved; squeeze_axis is off by one in the code (witness given). |
| C06 | Construction succeeds exactly when sizes match | proved | Element counts below 2^32. |
| C07 | Views stay inside their buffer under every history | partial | Every history of calls of every safe public function. The tensor always lies inside its buffer; the size is the product of the dimensions unless subslice_flat was given a shape of size 0 for a slice of length 1. Both are false for programs that assign the public fields shape, offset and size (proved). |
| C08 | reshape and flatten keep the elements | proved |  |
| C09 | subslice is a contiguous range of outer rows | proved | A range of rows without elements counts as empty: with a zero among the inner dimensions every call panics. |
| C10 | Multi-index access is row-major and bounds checked | partial | Arity 3 and 4 are proved where the code is right; witnesses show where it panics wrongly. Arity 2: accesses inside are proved; outside a view the panic message prints the tensor and can read outside the buffer (proved exactly when). |
| C11 | get agrees with as_slice | partial | get is right only for views that start at the buffer's beginning (the code adds the offset twice). |
| C12 | Nested vectors convert in row-major order | proved | Nesting lengths below 2^32. |
| C13 | A list of tensors becomes a tensor of tensors | proved |  |
| C14 | map applies the closure once per element in order | proved |  |
| C15 | map2 broadcasts trailing dimensions | proved |  |
| C16 | Incompatible operands are rejected | proved |  |
| C17 | map3 broadcasts three operands | proved |  |
| C18 | Operators are elementwise in operand order | proved | The element operators are parameters (any functions that may panic). |
| C19 | init and init_rindexed fill in row-major order | proved |  |
| C20 | map_row and map_expand work row by row | proved | Rows without elements (and scalars) panic in map_row, six-dimensional tensors in map_expand. |
| C21 | fold and reduce combine exactly the lane of each output cell | proved | Along an axis, a zero among the other dimensions panics (C21_axis_rejects); over an axis of length 0 folding gives the initial value and reducing panics (C21_zero_axis). |
| C22 | Summing axis sums equals the total | proved | Non-empty tensors. |
| C23 | fold_row folds rows | partial | False for views with an offset and for vectors with an axis (witnesses given). |
| C24 | normalize keeps every element in place | partial | False for axes other than the innermost (witness given); C24_actual says what the code does there. |
| C25 | Axes count from either end | partial | Out of range axes are not rejected (witness given). |
| C26 | transpose swaps the last two dimensions and is an involution | proved | Matrices without elements panic or not as C26_empty_actual says. |
| C27 | concatenate places parts side by side along the axis | partial | Six-dimensional tensors panic along axis 0 (witness given); everything else proved. |
| C28 | stack adds an axis indexed by the operand number | partial | Five-dimensional tensors panic along axis 0 (witness given), and tensors with a 0 behind the new axis always (proved). |
| C29 | vstack, hstack and dstack are the documented concatenations | partial | vstack: up to four dimensions (five panic); stack differs on tensors without elements (it panics); scalars panic in hstack and dstack. |
| C30 | Splitting partitions the tensor | partial | Pieces, order and coverage proved in full for tensors with elements, others panic or give no pieces (proved); joining the pieces again excludes six dimensions along axis 0. |
| C31 | unstack is the inverse of stack | partial | False for every input: the code never fills its list of cuts. What it returns instead is proved. |
| C32 | tile repeats the tensor periodically | partial | Proved for a vector of multiples; a matrix of multiples causes undefined behaviour from safe code (witness given). For multiples of any rank: exactly when that happens, when the call panics, and when it is tiling by a vector. |
| C33 | Diagonal and triangular matrices | partial | eye(0) is a scalar and tril/triu panic on empty matrices (witnesses given); everything else proved. |
| C34 | meshgrid coordinates | proved | Empty axes panic (C34_rejects). |
| C35 | linspace hits both ends with even steps | partial | Ends of rank 5 panic (witness given). Exact arithmetic, plus any float arithmetic and monotone rounding. |
| C36 | logspace and geomspace are exponentials of even steps | partial | Ends of rank 5 panic, as for linspace. Any float arithmetic, and real arithmetic. |
| C37 | arange lists the half-open progression | partial | Positive steps proved; a negative step never returns (proved), nor does a step lost to rounding. |
| C38 | one_hot sets exactly the listed positions | proved |  |
| C39 | matmul computes the matrix product with the right shape | partial | All product entries proved in row order, for the simple loops and for any library kernel that sums the right products in any order; the dimensions come out swapped unless the product is square (proved). |
| C40 | matmul never reads outside its operands | partial | Safe unless the left operand has more matrices; then the code reads out of bounds (proved, with the exact condition: C40_ub_iff). |
| C41 | matvec multiplies each vector by the matrix | partial | For the simple loops and any library kernel. Everything but operands without elements, which panic (proved). |
| C42 | mean, variance and standard deviation | proved | Exact arithmetic, as the property says; the mean also in any float arithmetic. |
| C43 | min and max reductions ignore NaN | proved | Any float order with NaN. |
| C44 | normalize_unit maps onto [0,1] | proved | Exact arithmetic, and monotone rounding. |
| C45 | histogram counts every sample once | partial | Exact arithmetic; with rounding the counts are right up to the largest exact count (2^24), wrong beyond (proved). |
| C46 | histogram2d counts every sample once | partial | False: histogram2d panics on every input, where it reads the minima (proved). The rest of the function is right when given the minima and maxima of the columns, in exact arithmetic. |
| C47 | Generators have full period | proved |  |
| C48 | Generator outputs are equidistributed | proved |  |
| C49 | Seeded random tensors are reproducible | proved | Any float arithmetic. |
| C50 | Uniform draws lie in the requested interval | partial | Proved for the 32-bit generator under monotone rounding; next_uniform of Rand64 exceeds 1 and random_uniform leaves its interval (both proved). |
| C51 | Thread seeding is race free | proved | Every interleaving, stale reads allowed; as long as the seed chain does not hit 0. |
| C52 | random_seed makes later draws reproducible | partial | Threads without a generator; a thread that has one ignores random_seed (proved). |
| C53 | WAV decoding round trip | proved | Any float arithmetic, and exactly sample/32768 under rounding. |
| C54 | WAV decoding rejects everything else | proved | Bytes after the samples are accepted and ignored. |
| C55 | rfft keeps batches apart | partial | Any float arithmetic and any transform. Batches always panic in the code (C55_batch_violates): the row count is computed as len()/cols(). |
| C56 | Buffers are freed exactly once, after the last handle | partial | All histories and interleavings, including panicking calls, but for initialisers of length 0, which allocate 0 bytes (undefined in Rust, proved). A buffer whose initialising closure panics never becomes a tensor and leaks (proved). |
| C57 | Comparison operators are consistent with equality | partial | Lexicographic order proved; consistency with == fails for different shapes (witness given). |
| C58 | Equality looks only at shape and elements | proved | For any equality of elements, also one that is not reflexive (floats). |
| C59 | Debug output lists the elements in order | partial | Tensors starting at the beginning of their buffer; false on views. What it prints for every view is proved. |
| C60 | Sizes never lie | partial | Exact with overflow checks and dimensions below 2^32; dimensions are cut to 32 bits and release builds wrap (proved). |
| C61 | zeros, ones and fill | proved |  |
| C62 | append and merge keep all rows in order | partial | append checks only the trailing product (C62_append_reshapes). |
| C63 | iter_row yields the rows in order | partial | Zero-length rows panic in the code. |
| C64 | No public operation reads or writes outside memory or exposes uninitialised memory | partial | Every call after every history. False in general: safe code can read or write out of bounds, or drop memory never written, in nine ways, each with a witness; proved for programs that avoid exactly those calls (Rules in Spec/Reach). Allocations of 0 bytes are under C56. Release builds: C64_release_violates. |
| C65 | Option builders are last-write-wins and independent | proved | The macro is modelled as a generator of setters with a meaning; token parsing and printing are not modelled. |
| C66 | slice selects sub-tensors | partial | False in the code: every call ends in todo!() (proved). |
| C67 | frame cuts overlapping windows | partial | False in the code: every call ends in todo!() or an earlier panic (proved). |
| C68 | read_file returns the whole file | partial | One read call; a short read leaves zeros in place of the rest (proved). |
| C69 | Argument lists keep order and contents | proved |  |
| C70 | Similar seed strings give different generators | proved |  |
| C71 | Normal draws are finite numbers | partial | Exactly which states fail is proved: 1 in 2^32 for Rand32, all but 1 in 2^32 for Rand64 (it draws uniforms above 1). |
| C72 | Every float method works element by element | proved | The scalar functions (num_traits, std) are parameters. |
| C73 | Bit operations act on every element and obey the laws of bits | proved | Bit vectors of every width; little-endian target. |
| C74 | Complex methods act element by element with their algebraic meaning | proved | num_complex formulas over the reals (exact arithmetic). |
| C75 | Sums and products are exact or rejected | proved |  |
| C76 | reduce_hypot is the Euclidean norm | proved | Exact real arithmetic. |
| C77 | Rounding errors of sums, means and products stay within the standard bounds | proved | Every binary format (f32 and f64 are instances, Lemmas/Ieee), overflow excluded. Products for every order of additions, with or without fused multiply-adds. The bounds are real: the f32 mean of 2^25 ones is 0.5 (proved). |
| C78 | Variances are never negative | partial | Every binary format with gradual underflow, if no difference of two elements overflows; if one does, the variance of two numbers is -inf (proved). |
| C79 | Method forms put the receiver first | partial | Partial where C27 and C28 are: below the rank limit, no 0 behind a new axis. |
| C80 | Options are last-write-wins with the documented defaults | proved | logspace below rank 5, at least 2 points, exact arithmetic (as C36). |
| C81 | ten! literals keep their brackets | proved | Element counts below 2^32. Matching, type inference and the choice of the From impl are modelled. |
| C82 | NaN is kept, and nothing becomes NaN or infinite without cause | partial | IEEE arithmetic with NaN, infinities, signed zeros and overflow, any binary format. Sums, means, products, minima and maxima as stated; the variance of one NaN, variances and norms with overflow, normalize_unit of a constant and histograms with NaN behave otherwise (all proved). |
| C83 | Expressions over tensors obey the laws of their element arithmetic | proved | Element functions without undefined behaviour (they may panic). The tensor form of a scalar operand rejects empty tensors, which the scalar form accepts (part of C83_scalar_tensor). |
| C84 | Rearranging operations fit together | proved | Sizes below 2^32, ranks below the limit, at least one element where stated. |
| C85 | Matrix products obey the laws of matrix algebra | partial | matmul returns m x n products with the dimensions [n, m] (C39), so for matrices that are not square associativity, the transpose of a product and the identity laws hold after reshaping each product to [m, n], and (a b) c panics without (C85_rectangular_violates). Nonempty matrices, sizes below 2^32. |
| C86 | Statistics are consistent with each other and with rearranging | proved | Exact arithmetic over any ordered field (real numbers for the standard deviation under scaling). Under rounding C77, C78 and C82 apply. |
| C87 | Shape queries agree with the dimension list | partial | False for batch_len, which multiplies the innermost instead of the outermost dimensions, for idim out of range, which wraps around, and for rsublen beyond the rank, which gives 0 (all proved). |
| C88 | Threads do not disturb each other's random numbers | proved | Calls are atomic, as each touches the shared seed at most once; races in first use are C52 and Model/Random SeedStep. |
| C89 | map2_row and map2_expand apply the function row by row and pair by pair | partial | Both functions are unimplemented (todo!()); proved that every call panics. The implementation prepared for map2_row, which nothing calls, is right for one value per pair of rows and never returns for more (both proved). |
| C90 | Elements cross threads only if their type allows it | proved | The auto trait rules of the language and of Arc are in the model. |
| C91 | Memory is given back as it was taken, and running out of it is not undefined | partial | Layouts match and nothing leaks unless a closure panics. Initialisers are undefined exactly when the buffer has no bytes (length 0, or an element type of size 0) or the allocator refuses (proved). |
| C92 | rfft_norm returns the absolute values of the Fourier coefficients | partial | False in the code, which applies a Hann window the tests do not expect (proved for every constant). What it computes is proved exactly, in real arithmetic with the discrete Fourier transform in place of rustfft. |
| C93 | A view behaves like a copy of it | partial | Proved for all programs over the whole API except get, Debug, as_wrap_slice_n, fold_row and t[(i, j)] outside the matrix on tensors with an offset, and matmul with more matrices on the left, for which it is false (witnesses). |
| C94 | The printed text determines the tensor | partial | The dimensions are determined for every tensor. The elements are determined for tensors at the start of their buffer whose element texts all have the same number of spaces (numbers, booleans, complex numbers); false for views and for element texts with varying numbers of spaces (witnesses). |
| C95 | Elements that are copied are cloned exactly once | proved | For calls that succeed when clone is a plain copy, and a clone that is any function with state and panics. |
| C96 | Small whole numbers are computed without rounding errors | proved | Float arithmetic is exact arithmetic followed by a rounding; Ieee.f32 and Ieee.f64 are proved to meet the hypothesis on the rounding. |
| C97 | What the random draws add up to over a period | partial | Proved for Rand32. Rand64::next_uniform divides 64-bit outputs by 2^32 - 1, so its mean is (2^32 + 1) / 2 (proved). The first four are in exact arithmetic, the last two in f32. |
| C98 | What works in a development build gives the same in a release build | proved | One lemma for each function of the model that can overflow (Lemmas/BuildModel), one for each kind of call (Lemmas/BuildCalls). |
| C99 | Folds, reductions and matrices copy only what they need | partial | fold_row on tensors that start at their buffer's beginning, normalize along a given axis in the order of the lanes: the known defects of C23 and C24 are stated there. |
| C100 | A panic in a clone or a closure drops nothing twice | proved | Closures given to a call are assumed to take care of the values handed to them. The order in which one panic drops several values is not modelled. fold and normalize are taken with states that are their own results, fold_row with an array as state. |
| C101 | Tiling obeys its laws | proved | Vectors of multiples. What tile does with a matrix of multiples is C32. |
| C102 | Splitting and joining obey their laws | proved | For tensors with elements, and for concatenations whose result fits and which are not along axis 0 of six dimensions (C27); splits of empty tensors are C30. |
| C103 | Histograms obey their laws | proved | The order law for any rounding of a linearly ordered field; the others in exact arithmetic, up to 2^32 - 2 bins. NaN samples are in C82. |
| C104 | Work on a batch can be divided | proved | For pure functions, results that fit and at most five inner dimensions (six-dimensional concatenation is C27). Statistics for any rounding. |
| C105 | Generated sequences and matrices obey their laws | proved | For ends of rank at most 4 with start at most end, and ascending arange (the other cases are defects shown in C35 and C37). |
