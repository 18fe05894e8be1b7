import Verif.Model.Shape

/-!
# Model of `src/tensor/axis.rs`

`Axis { axis: Option<isize> }` is `Option Int`.
-/

namespace Essay

variable [Build]

/-- `struct Axis`, axis.rs:3-6; `From<Option<isize>>`, `From<isize>`, axis.rs:114-124. -/
abbrev Axis := Option Int

namespace Axis

/-- `Axis::axis_from_rank`, axis.rs:21-26. -/
def axisFromRank (axis : Axis) (rank : Nat) : Res Nat :=
  match axis with
  | some axis => do
    let x ← iadd axis rank
    umod (isizeAsUsize x) rank
  | none => return 0

/-- The axis normalisation of `reduce` and `reduce_row`, axis.rs:43-44 and 79-80. -/
def normAxis (axis : Int) (rank : Nat) : Res Nat := do
  let x ← iadd axis rank
  let y ← imod x rank
  let a := isizeAsUsize y
  ensure (a < rank)
  return a

/-- The loop `for i in lo..hi { vec.push(dim(i)); acc *= dim(i) }` of axis.rs:52-57, 60-64, 90-95, 98-102. -/
def dimsLoop (shape : Shape) (lo hi : Nat) (vec : List Nat) : Res (List Nat × Nat) :=
  forR lo hi (vec, 1) fun i st => do
    let d ← shape.dim i
    return (st.1 ++ [d], st.2 * d)

/-- `Axis::reduce`, axis.rs:37-71: output shape, batch count, lane length, inner count. -/
def reduce (axis : Axis) (shape : Shape) : Res (Shape × Nat × Nat × Nat) :=
  match axis with
  | none => do
    let n ← shape.size
    return (Shape.scalar, 1, n, 1)
  | some axis => do
    let a ← normAxis axis shape.rank
    if shape.rank = 1 then do
      let n ← shape.size
      return (Shape.scalar, 1, n, 1)
    else do
      let (vec, outer) ← dimsLoop shape 0 a []
      let (vec, inner) ← dimsLoop shape (a + 1) shape.rank vec
      let o ← Shape.ofVec vec
      let d ← shape.dim a
      return (o, outer, d, inner)

/-- `Axis::reduce_row`, axis.rs:73-111. -/
def reduceRow (axis : Axis) (shape : Shape) (cols : Nat) : Res (Shape × Nat × Nat × Nat) :=
  match axis with
  | none => do
    let o ← Shape.ofSlice [cols]
    let n ← shape.size
    let c ← shape.cols
    let q ← udiv n c
    return (o, 1, q, 1)
  | some axis => do
    let a ← normAxis axis shape.rank
    if shape.rank = 1 then do
      let o ← Shape.ofSlice [cols]
      let n ← shape.size
      return (o, 1, n, 1)
    else do
      ensure (a + 1 < shape.rank)
      let (vec, outer) ← dimsLoop shape 0 a []
      let r ← usub shape.rank 1
      let (vec, inner) ← dimsLoop shape (a + 1) r vec
      let o ← Shape.ofVec (vec ++ [cols])
      let d ← shape.dim a
      return (o, outer, d, inner)

end Axis

end Essay
