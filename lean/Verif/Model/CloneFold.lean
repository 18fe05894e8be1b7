import Verif.Model.Map
import Verif.Model.Init

/-!
# Folds, reductions and matrices with visible copies

The functions of `Model/Map` and `Model/Init` that copy a start value or elements, or ask the element type for its zero and
one, once more. `Clone::clone`, `FoldState::into_result`, `Zero::zero` and `One::one` are actions here: they may have
effects, may panic and may return anything. With actions that just return their value these are the functions of the other
files (`C99_models_agree`).
-/

namespace Essay

variable [Build]

namespace Clones

open Tensor

variable {σ T U V S S1 : Type}

/-- `fold`, map.rs:402-424; `cloneInit` is `init.clone()`. -/
def fold (t : Tensor U) (cloneInit : Exec σ S) (f : S → U → Exec σ S) (intoResult : S → Exec σ V) :
    Exec σ (Tensor V) := do
  let a ← t.asSlice
  let value ← cloneInit
  let value ← forR 0 t.size value fun i value => do
    let x ← idx a i
    f value x
  let r ← intoResult value
  fromScalar r

/-- `fold_axis`, map.rs:426-461. -/
def foldAxis (t : Tensor T) (axis : Axis) (cloneInit : Exec σ S) (f : S → T → Exec σ S) (intoResult : S → Exec σ V) :
    Exec σ (Tensor V) := do
  let (oShape, batch, aLen, inner) ← axis.reduce t.shape
  let oSize ← oShape.size
  unsafeInitM oSize oShape fun o => do
    let a ← t.asSlice
    forR 0 batch o fun n o =>
      forR 0 inner o fun i o => do
        let state ← cloneInit
        let state ← forR 0 aLen state fun k state => do
          let v ← idx a ((n * aLen + k) * inner + i)
          f state v
        let r ← intoResult state
        o.write (n * inner + i) r

/-- `fold_row`, map.rs:463-502. -/
def foldRow (t : Tensor T) (axis : Axis) (N : Nat) (cloneInit : Exec σ S) (f : S → List T → Exec σ S)
    (intoResult : S → Exec σ (Vector V N)) : Exec σ (Tensor V) := do
  let (oShape, batch, aLen, inner) ← axis.reduceRow t.shape N
  let cols ← t.shape.cols
  let oSize ← oShape.size
  unsafeInitM oSize oShape fun o =>
    forR 0 batch o fun b o =>
      forR 0 inner o fun j o => do
        let state ← cloneInit
        let state ← forR 0 aLen state fun k state => do
          let offset := (b * aLen + k) * inner + j
          let v ← t.asWrapSliceN (cols * offset) cols
          f state v
        let value ← intoResult state
        writeRow o ((b * inner + j) * N) value.toList

/-- `reduce`, map.rs:526-543. -/
def reduce (clone : T → Exec σ T) (t : Tensor T) (f : T → T → Exec σ T) : Exec σ (Tensor T) := do
  let a ← t.asSlice
  let x0 ← idx a 0
  let value ← clone x0
  let value ← forR 1 t.size value fun i value => do
    let x ← idx a i
    let x ← clone x
    f value x
  fromScalar value

/-- `reduce_axis`, map.rs:545-577. -/
def reduceAxis (clone : T → Exec σ T) (t : Tensor T) (axis : Axis) (f : T → T → Exec σ T) : Exec σ (Tensor T) := do
  let (oShape, batch, aLen, inner) ← axis.reduce t.shape
  let oSize ← oShape.size
  unsafeInitM oSize oShape fun o => do
    let a ← t.asSlice
    forR 0 batch o fun n o =>
      forR 0 inner o fun i o => do
        let s0 ← idx a (n * aLen * inner + i + 0 * inner)
        let state ← clone s0
        let state ← forR 1 aLen state fun k state => do
          let v ← idx a (n * aLen * inner + i + k * inner)
          let v ← clone v
          f state v
        o.write (n * inner + i) state

/-- `normalize`, map.rs:580-629. -/
def normalize (t : Tensor T) (axis : Axis) (cloneInit : Exec σ S) (accum : S → T → Exec σ S) (complete : S → Exec σ S1)
    (norm : S1 → T → Exec σ V) : Exec σ (Tensor V) := do
  let (_, batch, aLen, inner) ← axis.reduce t.shape
  let size ← t.shape.size
  unsafeInitM size t.shape fun o => do
    let a ← t.asSlice
    forR 0 batch o fun n o =>
      forR 0 inner o fun i o => do
        let state ← cloneInit
        let state ← forR 0 aLen state fun k state => do
          let v ← idx a ((n * aLen + k) * inner + i)
          accum state v
        let state ← complete state
        forR 0 aLen o fun k o => do
          let v ← idx a ((n * aLen + k) * inner + i)
          let w ← norm state v
          o.write ((n * inner + i) * aLen + k) w

/-- `eye`, matrix.rs:53-65; `identity`, matrix.rs:67-73. -/
def eye (zero one : Exec σ T) (n : Nat) : Exec σ (Tensor T) :=
  if n = 0 then do
    let v ← zero
    ofScalar v
  else do
    let shape ← Shape.ofSlice [n, n]
    initRindexed shape fun index => do
      let i0 ← idx index 0
      let i1 ← idx index 1
      if i0 = i1 then one else zero

/-- `diagflat`, matrix.rs:75-89. -/
def diagflat (clone : T → Exec σ T) (zero : Exec σ T) (diag : Tensor T) : Exec σ (Tensor T) := do
  ensure (diag.shape.rank = 1)
  let n := diag.size
  let shape ← Shape.ofSlice [n, n]
  initRindexed shape fun index => do
    let i0 ← idx index 0
    let i1 ← idx index 1
    if i0 = i1 then do
      let v ← diag.index1 i0
      clone v
    else zero

/-- `tri`, matrix.rs:91-98. -/
def tri (zero one : Exec σ T) (n : Nat) : Exec σ (Tensor T) := do
  let shape ← Shape.ofSlice [n, n]
  initRindexed shape fun index => do
    let i0 ← idx index 0
    let i1 ← idx index 1
    if i0 ≤ i1 then one else zero

/-- The body shared by `tril` (matrix.rs:100-129, `keep i j` is `i <= j`) and `triu` (matrix.rs:131-160, `j <= i`). -/
def triFill (clone : T → Exec σ T) (zero : Exec σ T) (keep : Nat → Nat → Bool) (tensor : Tensor T) : Exec σ (Tensor T) := do
  ensure (tensor.shape.rank ≥ 2)
  let size ← tensor.shape.size
  unsafeInitM size tensor.shape fun o => do
    let x ← tensor.asSlice
    let rows ← tensor.shape.rows
    let cols ← tensor.shape.cols
    let n ← udiv size (rows * cols)
    forR 0 n o fun k o =>
      forR 0 rows o fun j o =>
        forR 0 cols o fun i o => do
          let index := k * rows * cols + j * cols + i
          let v ← if keep i j then do
              let v ← idx x index
              clone v
            else zero
          o.write index v

/-- `tril`, matrix.rs:100-129. -/
def tril (clone : T → Exec σ T) (zero : Exec σ T) (tensor : Tensor T) : Exec σ (Tensor T) :=
  triFill clone zero (fun i j => decide (i ≤ j)) tensor

/-- `triu`, matrix.rs:131-160. -/
def triu (clone : T → Exec σ T) (zero : Exec σ T) (tensor : Tensor T) : Exec σ (Tensor T) :=
  triFill clone zero (fun i j => decide (j ≤ i)) tensor

end Clones

end Essay
