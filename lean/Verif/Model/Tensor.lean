import Verif.Model.Axis

/-!
# Model of `src/tensor/data.rs`, `src/tensor/tensor.rs`, the tensor part of `src/tensor/shape.rs`

A tensor keeps the whole shared buffer in `data`; `offset`/`size` delimit the view. `Arc` sharing of an immutable
buffer is value sharing here (lifetimes are modelled separately in `Model/Heap`).
-/

namespace Essay

variable [Build]

/-- `struct Tensor`, tensor.rs:10-16, with the contents of `TensorData` (data.rs:10-13) inlined. -/
structure Tensor (α : Type) where
  shape : Shape
  offset : Nat
  size : Nat
  data : List α
  deriving DecidableEq, Repr

namespace Tensor

variable {α β σ : Type}

/-- `Tensor::new`, tensor.rs:32-44. -/
def new (data : List α) (shape : Shape) : Res (Tensor α) := do
  let n ← shape.size
  ensure (n = data.length)
  return { shape, offset := 0, size := data.length, data }

/-- `Tensor::from_vec`, `from_box`, tensor.rs:24-30, through `TensorData::from_boxed_slice`, data.rs:22-33. -/
def fromVec (vec : List α) (shape : Shape) : Res (Tensor α) := new vec shape

/-- `Tensor::from_scalar`, tensor.rs:19-22. -/
def fromScalar (value : α) : Res (Tensor α) := new [value] Shape.scalar

/-- The end of `unsafe_init`, data.rs:95-97: the block becomes a `TensorData` and `Tensor::new` checks the size. If a
slot was never written, the tensor exposes it (or the failed assertion drops it): `ub`. Simplification: this is also
counted as `ub` for element types without drop code. -/
def finish (b : Buf α) (shape : Shape) : Res (Tensor α) :=
  match b.complete with
  | some data => new data shape
  | none => .error .ub

/-- `unsafe_init`, data.rs:82-98, for a closure without captured mutable state. The closure runs before the size check
of `Tensor::new`. A panic in the closure leaks the block. -/
def unsafeInit (len : Nat) (shape : Shape) (init : Buf α → Res (Buf α)) : Res (Tensor α) := do
  let b ← init (Buf.uninit len)
  finish b shape

/-- `unsafe_init`, data.rs:82-98, for a closure that calls `FnMut` closures with state `σ`. -/
def unsafeInitM (len : Nat) (shape : Shape) (init : Buf α → Exec σ (Buf α)) : Exec σ (Tensor α) := do
  let b ← init (Buf.uninit len)
  finish b shape

/-- `Tensor::as_slice`, tensor.rs:75-83 (also `Deref`, `AsRef<[T]>`, `iter`, tensor.rs:176-178, 262-268, 303-307). -/
def asSlice (t : Tensor α) : Res (List α) := rawSlice t.data t.offset t.size

/-- `Tensor::get`, tensor.rs:62-72. `as_ptr` (tensor.rs:126-128) already adds the offset. -/
def get (t : Tensor α) (offset : Nat) : Res (Option α) :=
  if offset < t.size then do
    let count := offset + t.offset
    let v ← rawRead t.data (t.offset + count)
    return some v
  else return none

/-- `Tensor::as_wrap_slice`, tensor.rs:89-103. -/
def asWrapSlice (t : Tensor α) (offset : Nat) : Res (List α) := do
  let count ← if offset < t.size then pure offset else umod offset t.size
  let len ← usub t.size count
  rawSlice t.data (t.offset + count) len

/-- `Tensor::as_wrap_slice_n`, tensor.rs:108-123. -/
def asWrapSliceN (t : Tensor α) (offset len : Nat) : Res (List α) := do
  let offset ← if offset < t.size then pure offset else umod offset t.size
  let count := t.offset + offset
  ensure (Build.wrap (count + len) ≤ t.size)
  rawSlice t.data (t.offset + count) len

/-- `Tensor::as_wrap_ptr`, tensor.rs:133-139: the resulting position in the buffer (no access yet). -/
def asWrapPtr (t : Tensor α) (offset : Nat) : Res Nat := do
  if offset < t.size then rawAdd t.data (t.offset + offset)
  else do
    let r ← umod offset t.size
    rawAdd t.data (t.offset + r)

/-- `Tensor::subslice_flat`, tensor.rs:141-158. -/
def subsliceFlat (t : Tensor α) (offset len : Nat) (shape : Shape) : Res (Tensor α) := do
  ensure (offset ≤ t.size)
  ensure (Build.wrap (offset + len) ≤ t.size)
  let n ← shape.size
  ensure (n = len ∨ n = 0 ∧ len = 1)
  return { shape, offset := t.offset + offset, size := len, data := t.data }

/-- `Tensor::subslice`, tensor.rs:161-173. -/
def subslice (t : Tensor α) (offset len : Nat) : Res (Tensor α) := do
  let dim0 ← t.shape.dim 0
  ensure (Build.wrap (offset + len) ≤ dim0)
  let vec ← t.shape.asVec
  ensure (1 ≤ vec.length)
  let size := (vec.drop 1).foldl (fun a d => Build.wrap (a * d)) 1
  let shape ← setIdx vec 0 len
  let shape ← Shape.ofVec shape
  t.subsliceFlat (Build.wrap (offset * size)) (Build.wrap (len * size)) shape

/-- `slice.chunks_exact(n)` of the standard library: panics for `n = 0`, drops an incomplete last chunk. -/
def chunksExact (n : Nat) (xs : List α) : Res (List (List α)) := do
  ensure (n ≠ 0)
  return (List.range (xs.length / n)).map fun i => (xs.drop (i * n)).take n

/-- `Tensor::iter_row`, tensor.rs:181-189. -/
def iterRow (t : Tensor α) : Res (List (List α)) := do
  let d ← t.shape.cols
  let xs ← t.asSlice
  if t.shape.rank > 1 then chunksExact d xs else chunksExact 1 xs

/-- `Tensor::from_slice`, tensor.rs:193-203. -/
def fromSlice (data : List α) : Res (Tensor α) := do
  let shape ← Shape.ofUsize data.length
  unsafeInit data.length shape fun o =>
    forR 0 data.length o fun i o => do
      let v ← idx data i
      o.write i v

/-- The element copies of `from_merge`, tensor.rs:233-236. -/
def concatSlices (vec : List (Tensor α)) : Res (List α) :=
  forL vec [] fun t acc => do
    let xs ← t.asSlice
    return acc ++ xs

/-- `Tensor::from_merge`, tensor.rs:219-240. -/
def fromMerge (vec : List (Tensor α)) (shape : Shape) : Res (Tensor α) := do
  let len := (vec.map (·.size)).sum
  let n ← shape.size
  ensure (len = n)
  let data ← concatSlices vec
  fromVec data shape

/-- `Tensor::append`, tensor.rs:205-217. -/
def append (t u : Tensor α) : Res (Tensor α) := do
  let a ← t.shape.sublen 1 t.shape.rank
  let b ← u.shape.sublen 1 u.shape.rank
  ensure (a = b)
  let vec ← t.shape.asVec
  let d ← t.shape.dim 0
  let e ← u.shape.dim 0
  let vec ← setIdx vec 0 (d + e)
  let shape ← Shape.ofVec vec
  fromMerge [t, u] shape

/-- `Tensor::join_vec`, tensor.rs:244-254. -/
def joinVec (vec : List (List α)) : Res (Tensor α) := do
  let data := vec.flatten
  let shape ← Shape.ofUsize data.length
  fromVec data shape

/-- `PartialEq for Tensor`, tensor.rs:284-288. The equality of the elements is any function (`PartialEq` of floats is not
reflexive); lists compare like slices. -/
def eq [BEq α] (t u : Tensor α) : Res Bool :=
  if t.shape = u.shape then do
    let xs ← t.asSlice
    let ys ← u.asSlice
    return xs == ys
  else return false

/-- `Tensor::reshape`, shape.rs:526-534. -/
def reshape (t : Tensor α) (shape : Shape) : Res (Tensor α) := do
  let n ← shape.size
  ensure (n = t.size)
  return { t with shape }

/-- `Tensor::expand_dims`, shape.rs:537-546. -/
def expandDims (t : Tensor α) (axis : Axis) : Res (Tensor α) := do
  let shape ← t.shape.expandDims (axis.getD 0)
  t.reshape shape

/-- `Tensor::flatten`, shape.rs:549-553. -/
def flatten (t : Tensor α) : Res (Tensor α) := do
  let shape ← Shape.ofSlice [t.size]
  t.reshape shape

/-- `Tensor::squeeze`, shape.rs:557-561. -/
def squeeze (t : Tensor α) : Res (Tensor α) := do
  let shape ← t.shape.squeeze none
  t.reshape shape

/-- `Tensor::squeeze_axis`, shape.rs:565-569. -/
def squeezeAxis (t : Tensor α) (axis : Axis) : Res (Tensor α) := do
  let shape ← t.shape.squeeze axis
  t.reshape shape

/-- `Index<usize>`, index.rs:9-19. -/
def index1 (t : Tensor α) (i : Nat) : Res α := do
  ensure (i < t.size)
  rawRead t.data (t.offset + i)

/-! `Index<(usize, usize)>`, index.rs:21-38, is in Model/Fmt: its panic messages print the tensor. -/

/-- `Index<(usize, usize, usize)>`, index.rs:40-61. -/
def index3 (t : Tensor α) (i0 i1 i2 : Nat) : Res α := do
  let len ← t.shape.size
  ensure (len > 2)
  let d2 ← t.shape.rdim 2
  ensure (i0 < d2)
  let d1 ← t.shape.rdim 1
  ensure (i1 < d1)
  let d0 ← t.shape.rdim 0
  ensure (i2 < d0)
  t.index1 (i2 + d0 * (i1 + d1 * i0))

/-- `Index<(usize, usize, usize, usize)>`, index.rs:63-87. -/
def index4 (t : Tensor α) (i0 i1 i2 i3 : Nat) : Res α := do
  let len ← t.shape.size
  ensure (len > 3)
  let d3 ← t.shape.rdim 3
  ensure (i0 < d3)
  let d2 ← t.shape.rdim 2
  ensure (i1 < d2)
  let d1 ← t.shape.rdim 1
  ensure (i2 < d1)
  let d0 ← t.shape.rdim 0
  ensure (i3 < d0)
  t.index1 (i3 + d0 * (i2 + d1 * (i1 + d2 * i0)))

/-- `Index<(usize, usize, usize, usize, usize)>`, index.rs:89-116. -/
def index5 (t : Tensor α) (i0 i1 i2 i3 i4 : Nat) : Res α := do
  ensure (t.shape.rank > 4)
  let d4 ← t.shape.rdim 4
  ensure (i0 < d4)
  let d3 ← t.shape.rdim 3
  ensure (i1 < d3)
  let d2 ← t.shape.rdim 2
  ensure (i2 < d2)
  let d1 ← t.shape.rdim 1
  ensure (i3 < d1)
  let d0 ← t.shape.rdim 0
  ensure (i4 < d0)
  t.index1 (i4 + d0 * (i3 + d1 * (i2 + d2 * (i1 + d3 * i0))))

end Tensor

end Essay
