import Verif.Base.Res

/-!
# Model of `src/tensor/shape.rs` (the `Shape` type)

The array `dims: [u32; 6]` is a list of natural numbers, stored innermost dimension first as in the code.
What happens on an overflow (`u32` products at 2^32, `usize` subtraction below 0) is decided by the build, `class Build`.
-/

namespace Essay

variable [Build]

/-- `Shape::MAX_RANK`, shape.rs:13. -/
def MAX_RANK : Nat := 6

/-- `struct Shape { dims: [u32; MAX_RANK], rank: usize }`, shape.rs:6-10. `derive(PartialEq)` compares the whole array
and the rank, which is Lean's structural equality. -/
structure Shape where
  dims : List Nat
  rank : Nat
  deriving DecidableEq, Repr

namespace Shape

/-- The array `[0; MAX_RANK]`. -/
def zeroDims : List Nat := List.replicate MAX_RANK 0

/-- `Shape::scalar`, shape.rs:15-22. -/
def scalar : Shape := { dims := zeroDims, rank := 0 }

/-- `Shape::vector`, shape.rs:24-34. -/
def vector (len : Nat) : Res Shape := do
  ensure (len > 0)
  let dims ← setIdx zeroDims 0 (asU32 len)
  return { dims, rank := 1 }

/-- `dims[0..n].iter().product::<u32>()`, used by `size` (shape.rs:38) and `batch_len` (shape.rs:152). -/
def productTo (dims : List Nat) (n : Nat) : Res Nat := do
  ensure (n ≤ dims.length)
  (dims.take n).foldlM mulU32 1

/-- `Shape::size`, shape.rs:37-39. -/
def size (s : Shape) : Res Nat := productTo s.dims s.rank

/-- `Shape::dim`, shape.rs:50-52 (outside-in index). -/
def dim (s : Shape) (i : Nat) : Res Nat := do
  let r ← usub s.rank 1
  let j ← usub r i
  idx s.dims j

/-- `Shape::rreplace`, shape.rs:81-87. -/
def rreplace (s : Shape) (i value : Nat) : Res Shape := do
  ensure (i < s.rank)
  let dims ← setIdx s.dims i (asU32 value)
  return { s with dims }

/-- `Shape::replace`, shape.rs:68-74. -/
def replace (s : Shape) (i value : Nat) : Res Shape := do
  ensure (i < s.rank)
  let r ← usub s.rank 1
  let j ← usub r i
  s.rreplace j value

/-- `Shape::with_dim`, shape.rs:59-61. -/
def withDim (s : Shape) (i value : Nat) : Res Shape := s.replace i value

/-- `Shape::rdim`, shape.rs:93-95. -/
def rdim (s : Shape) (i : Nat) : Res Nat := idx s.dims i

/-- `Shape::idim`, shape.rs:98-102. -/
def idim (s : Shape) (i : Int) : Res Nat := do
  let x ← iadd i s.rank
  let j ← umod (isizeAsUsize x) s.rank
  s.dim j

/-- `Shape::len`, shape.rs:105-107. -/
def len (s : Shape) : Res Nat := s.dim 0

/-- `Shape::cols`, shape.rs:110-112. -/
def cols (s : Shape) : Res Nat := idx s.dims 0

/-- `Shape::with_cols`, shape.rs:116-122. -/
def withCols (s : Shape) (col : Nat) : Res Shape := do
  let dims ← setIdx s.dims 0 (asU32 col)
  return { s with dims }

/-- `Shape::rows`, shape.rs:125-133. -/
def rows (s : Shape) : Res Nat := if s.rank > 1 then idx s.dims 1 else return 0

/-- `Shape::with_rows`, shape.rs:137-145. -/
def withRows (s : Shape) (row : Nat) : Res Shape := do
  ensure (s.rank > 1)
  let dims ← setIdx s.dims 1 (asU32 row)
  return { s with dims }

/-- `Shape::batch_len`, shape.rs:148-156. -/
def batchLen (s : Shape) (baseRank : Nat) : Res Nat :=
  if baseRank < s.rank then productTo s.dims (s.rank - baseRank) else return 1

/-- The assertion loop shared by `broadcast`, `check_broadcast` and `broadcast_to`
(shape.rs:159-166, 172-179, 183-190). -/
def checkBroadcast (a b : Shape) : Res Unit :=
  forR 0 (min a.rank b.rank) () fun i _ => do
    let x ← a.rdim i
    let y ← b.rdim i
    ensure (x = y)

/-- `Shape::broadcast`, shape.rs:158-169. -/
def broadcast (a b : Shape) : Res Nat := do
  checkBroadcast a b
  if a.rank < b.rank then b.size else a.size

/-- `Shape::broadcast_to`, shape.rs:182-197. -/
def broadcastTo (a b : Shape) : Res Shape := do
  checkBroadcast a b
  if a.rank < b.rank then return b else return a

/-- `Shape::as_vec`, shape.rs:222-230. -/
def asVec (s : Shape) : Res (List Nat) :=
  forR 0 s.rank [] fun i vec => do
    let d ← s.dim i
    return vec ++ [d]

/-- `Shape::push`, shape.rs:232-240. -/
def push (s : Shape) (d : Nat) : Res Shape := do
  let dims ← setIdx s.dims s.rank (asU32 d)
  return { dims, rank := s.rank + 1 }

/-- `Shape::append`, shape.rs:243-254. The new rank uses the length of the storage array, as in the code. -/
def append (s : Shape) (tail : List Nat) : Res Shape := do
  let dims ← forR 0 tail.length s.dims fun i dims => do
    let d ← idx tail i
    setIdx dims (i + s.rank) (asU32 d)
  return { dims, rank := s.rank + dims.length }

/-- The product loop of `sublen`/`rsublen`: `for i in start..end { size *= self.dims[i] }` in `u32`. -/
def rsublen (s : Shape) (start stop : Nat) : Res Nat :=
  forR start stop 1 fun i size => do
    let d ← idx s.dims i
    mulU32 size d

/-- `Shape::sublen`, shape.rs:257-268. -/
def sublen (s : Shape) (start stop : Nat) : Res Nat := do
  let start' ← usub s.rank stop
  let stop' ← usub s.rank start
  s.rsublen start' stop'

/-- `Shape::broadcast_min`, shape.rs:199-219. -/
def broadcastMin (a : Shape) (aMin : Nat) (b : Shape) (bMin : Nat) : Res Nat := do
  let ra ← usub a.rank aMin
  let rb ← usub b.rank bMin
  forR 0 (min ra rb) () fun i _ => do
    let x ← idx a.dims (i + aMin)
    let y ← idx b.dims (i + bMin)
    ensure (x = y)
  if ra < rb then b.sublen 0 rb else a.sublen 0 ra

/-- `From<usize>`, shape.rs:433-443. -/
def ofUsize (n : Nat) : Res Shape := do
  let dims ← setIdx zeroDims 0 (asU32 n)
  return { dims, rank := 1 }

/-- `From<&[usize]>` and `From<[usize; N]>`, shape.rs:445-473. -/
def ofSlice (value : List Nat) : Res Shape := do
  let dims ← forR 0 value.length zeroDims fun i dims => do
    let d ← idx value.reverse i
    setIdx dims i (asU32 d)
  return { dims, rank := value.length }

/-- `From<Vec<usize>>`, shape.rs:475-489 (rejects zero dimensions). -/
def ofVec (value : List Nat) : Res Shape := do
  let dims ← forR 0 value.length zeroDims fun i dims => do
    let d ← idx value.reverse i
    ensure (d > 0)
    setIdx dims i (asU32 d)
  return { dims, rank := value.length }

/-- `Shape::expand_dims`, shape.rs:284-293. -/
def expandDims (s : Shape) (axis : Int) : Res Shape := do
  let vec ← s.asVec
  let index ← if axis ≥ 0 then pure (isizeAsUsize axis) else do
    let x ← iadd vec.length axis
    let y ← iadd x 1
    pure (isizeAsUsize y)
  ensure (index ≤ vec.length)
  ofVec (vec.insertIdx index 1)

/-- The copying loop of `squeeze` (shape.rs:306-311 and 327-332): copy the dimensions selected by `keep`. -/
def squeezeLoop (s : Shape) (keep : Nat → Nat → Bool) : Res Shape := do
  let dims0 ← setIdx zeroDims 0 1
  let st ← forR 0 s.rank (0, dims0) fun i st => do
    let d ← idx s.dims i
    if keep i d then do
      let dims ← setIdx st.2 st.1 d
      return (st.1 + 1, dims)
    else return st
  return { dims := st.2, rank := max st.1 1 }

/-- `Shape::squeeze`, shape.rs:296-339. -/
def squeeze (s : Shape) (axis : Option Int) : Res Shape :=
  match axis with
  | none => s.squeezeLoop fun _ d => d != 1
  | some axis => do
    let x ← iadd axis s.rank
    let a ← imod x s.rank
    let a ← usub s.rank (isizeAsUsize a)
    s.squeezeLoop fun i d => i != a || d != 1

/-- `Shape::pop`, shape.rs:341-350. -/
def pop (s : Shape) : Res Shape := do
  let j ← usub s.rank 1
  let dims ← setIdx s.dims j 0
  return { dims, rank := max s.rank 1 - 1 }

/-- `Shape::rremove`, shape.rs:362-373. -/
def rremove (s : Shape) (axis : Nat) : Res Shape := do
  ensure (axis < s.rank)
  let r ← usub s.rank 1
  let dims ← forR axis r s.dims fun i dims => do
    let d ← idx dims (i + 1)
    setIdx dims i d
  let dims ← setIdx dims r 0
  return { dims, rank := r }

/-- `Shape::remove`, shape.rs:353-359. -/
def remove (s : Shape) (axis : Nat) : Res Shape := do
  ensure (axis < s.rank)
  let r ← usub s.rank 1
  let a ← usub r axis
  s.rremove a

/-- `Shape::reduce`, shape.rs:376-382. -/
def reduce (s : Shape) : Res Shape := if s.rank > 1 then s.rremove 0 else s.withCols 1

/-- `Shape::rinsert`, shape.rs:394-405. The loop `(axis..rank).rev()` is indexed by `k`, with `i = rank - 1 - k`. -/
def rinsert (s : Shape) (axis len : Nat) : Res Shape := do
  ensure (axis + 1 < MAX_RANK)
  let dims ← forR 0 (s.rank - axis) s.dims fun k dims => do
    let i := s.rank - 1 - k
    let d ← idx dims i
    setIdx dims (i + 1) d
  let dims ← setIdx dims axis (asU32 len)
  return { dims, rank := s.rank + 1 }

/-- `Shape::insert`, shape.rs:386-390. -/
def insert (s : Shape) (axis len : Nat) : Res Shape := do
  let a ← usub s.rank axis
  s.rinsert a len

/-- `Shape::next_index`, shape.rs:408-418: increments the reversed index, carrying from position `i` on;
`break` ends the recursion. -/
def nextIndexFrom (s : Shape) : Nat → List Nat → Res (List Nat)
  | _, [] => return []
  | i, x :: xs => do
    let d ← idx s.dims i
    let value ← umod (x + 1) (max d 1)
    if value ≠ 0 then return value :: xs
    else do
      let rest ← s.nextIndexFrom (i + 1) xs
      return value :: rest

/-- `Shape::next_index`, shape.rs:408-418. -/
def nextIndex (s : Shape) (index : List Nat) : Res (List Nat) := s.nextIndexFrom 0 index

end Shape

end Essay
