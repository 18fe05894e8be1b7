import Verif.Model.Array
import Verif.Model.Init

/-!
# Element clones

The functions that copy elements, once more, with `Clone::clone` of the element type as a parameter: any action that may
have effects, may panic and may return a value different from its argument. The monad is left open: with `Res` and `pure`
these are the functions of the other model files (`C95_models_agree`). What a panic
does to the values cloned before it is in `Model/Unwind`.
-/

namespace Essay

variable [Build]

namespace Clones

open Tensor

variable {α : Type} {m : Type → Type} [Monad m] [MonadLiftT (Except Err) m]

/-- `unsafe_init`, data.rs:82-98. -/
def unsafeInit (len : Nat) (shape : Shape) (init : Buf α → m (Buf α)) : m (Tensor α) := do
  let b ← init (Buf.uninit len)
  finish b shape

/-- `Tensor::from_slice`, tensor.rs:193-203. -/
def fromSlice (clone : α → m α) (data : List α) : m (Tensor α) := do
  let shape ← Shape.ofUsize data.length
  unsafeInit data.length shape fun o =>
    forR 0 data.length o fun i o => do
      let v ← idx data i
      let v ← clone v
      o.write i v

/-- `.flat_map(|tensor| tensor.as_slice().iter().map(|v| v.clone())).collect()`, tensor.rs:235-237, from.rs:321-323. -/
def concatSlices (clone : α → m α) (vec : List (Tensor α)) : m (List α) :=
  forL vec [] fun t acc => do
    let xs ← t.asSlice
    let ys ← xs.mapM clone
    return acc ++ ys

/-- `Tensor::from_merge`, tensor.rs:219-240. -/
def fromMerge (clone : α → m α) (vec : List (Tensor α)) (shape : Shape) : m (Tensor α) := do
  let len := (vec.map (·.size)).sum
  let n ← shape.size
  ensure (len = n)
  let data ← concatSlices clone vec
  fromVec data shape

/-- `Tensor::append`, tensor.rs:205-217. -/
def append (clone : α → m α) (t u : Tensor α) : m (Tensor α) := do
  let a ← t.shape.sublen 1 t.shape.rank
  let b ← u.shape.sublen 1 u.shape.rank
  ensure (a = b)
  let vec ← t.shape.asVec
  let d ← t.shape.dim 0
  let e ← u.shape.dim 0
  let vec ← setIdx vec 0 (d + e)
  let shape ← Shape.ofVec vec
  fromMerge clone [t, u] shape

/-- `Tensor::join_vec`, tensor.rs:244-254. -/
def joinVec (clone : α → m α) (vec : List (List α)) : m (Tensor α) := do
  let data ← vec.flatten.mapM clone
  let shape ← Shape.ofUsize data.length
  fromVec data shape

/-- `From<&Vec<T>>`, from.rs:38-45; `From<&[T]>`, from.rs:183-191; `FromIterator<&T>`, from.rs:292-299. -/
def ofVec1 (clone : α → m α) (value : List α) : m (Tensor α) := do
  let data ← value.mapM clone
  let shape ← Shape.ofUsize data.length
  fromVec data shape

/-- `From<&Vec<[T; N]>>`, from.rs:57-67, and `From<&[[T; N]]>`, from.rs:202-212. -/
def ofRows (clone : α → m α) {N : Nat} (value : List (Vector α N)) : m (Tensor α) := do
  let data ← (value.flatMap fun row => row.toList).mapM clone
  let shape ← Shape.ofSlice [value.length, N]
  fromVec data shape

/-- `From<&Vec<Vec<T>>>`, from.rs:69-81. -/
def ofVec2 (clone : α → m α) (value : List (List α)) : m (Tensor α) := do
  let r0 ← idx value 0
  let len1 := r0.length
  let data ← forL value [] fun v1 data => do
    ensure (len1 = v1.length)
    let ys ← v1.mapM clone
    return data ++ ys
  let shape ← Shape.ofSlice [value.length, len1]
  fromVec data shape

/-- `From<&[Tensor<T>]>`, from.rs:307-327. -/
def ofTensors (clone : α → m α) (values : List (Tensor α)) : m (Tensor α) := do
  let n := values.length
  ensure (n > 0)
  let v0 ← idx values 0
  let sublen := v0.size
  let shape := v0.shape
  forL values () fun value _ => do
    ensure (sublen = value.size)
    ensure (shape = value.shape)
  let data ← concatSlices clone values
  let shape ← shape.push n
  fromVec data shape

/-- `transpose`, transpose.rs:3-33. -/
def transpose (clone : α → m α) (t : Tensor α) : m (Tensor α) := do
  let c ← t.shape.cols
  let cols := max c 1
  let r ← t.shape.rows
  let rows := max r 1
  let size ← t.shape.size
  let nInner := cols * rows
  let batch ← udiv size nInner
  let shape ← (if t.shape.rank = 1 then t.shape.rinsert 0 1 else do
    let s ← t.shape.withCols rows
    s.withRows cols : Res Shape)
  unsafeInit size shape fun o => do
    let x ← t.asSlice
    forR 0 batch o fun n o =>
      forR 0 rows o fun j o =>
        forR 0 cols o fun i o => do
          let v ← idx x (n * nInner + j * cols + i)
          let v ← clone v
          o.write (n * nInner + i * rows + j) v

/-- One piece of `split_by_axis`, split.rs:97-128. -/
def splitPiece (clone : α → m α) (t : Tensor α) (axis nOuter nInner axisLen : Nat) (x : List α) (prev cut : Nat) :
    m (Tensor α) := do
  let pre ← (forR 0 axis [] fun i vec => do
    let d ← t.shape.dim i
    return vec ++ [d] : Res (List Nat))
  let n ← usub cut prev
  let vec ← (forR (axis + 1) t.shape.rank (pre ++ [n]) fun i vec => do
    let d ← t.shape.dim i
    return vec ++ [d] : Res (List Nat))
  let shape ← Shape.ofVec vec
  unsafeInit (nOuter * nInner * n) shape fun o =>
    forR 0 nOuter o fun j o =>
      forR prev cut o fun k o =>
        forR 0 nInner o fun i o => do
          let v ← idx x (j * axisLen * nInner + k * nInner + i)
          let v ← clone v
          o.write (j * nInner * n + (k - prev) * nInner + i) v

/-- The loop over cuts of `split_by_axis`, split.rs:92-132. -/
def splitInner (clone : α → m α) (t : Tensor α) (axis nOuter nInner axisLen : Nat) (x : List α) :
    List Nat → Nat → m (List (Tensor α))
  | [], _ => return []
  | cut :: cuts, prev => do
    if cut = prev then splitInner clone t axis nOuter nInner axisLen x cuts prev
    else do
      let piece ← splitPiece clone t axis nOuter nInner axisLen x prev cut
      let rest ← splitInner clone t axis nOuter nInner axisLen x cuts cut
      return piece :: rest

/-- `split_axis`, split.rs:30-77, with `split_by_axis`, split.rs:79-133. -/
def splitAxis (clone : α → m α) (t : Tensor α) (axis : Axis) (sections : Sections) : m (List (Tensor α)) := do
  let a ← axis.axisFromRank t.shape.rank
  let len ← t.shape.dim a
  let cuts ← sectionCuts len sections
  if a = 0 then splitOuter t cuts 0 else do
    let nOuter ← t.shape.sublen 0 a
    let nInner ← (if a < t.shape.rank then t.shape.sublen (a + 1) t.shape.rank else pure 1 : Res Nat)
    let axisLen ← t.shape.dim a
    let x ← t.asSlice
    splitInner clone t a nOuter nInner axisLen x cuts 0

/-- `concat_axis`, stack.rs:178-223. -/
def concatAxis (clone : α → m α) (axis : Nat) (args : List (Tensor α)) : m (Tensor α) := do
  let a0 ← idx args 0
  let axisLen ← validateConcat args axis
  let shapeInner ← a0.shape.remove axis
  let oLen := (args.map (·.size)).sum
  let nOuter ← shapeInner.sublen 0 axis
  let nInner ← (if axis < shapeInner.rank then shapeInner.sublen axis shapeInner.rank else pure 1 : Res Nat)
  let shape ← shapeInner.insert axis axisLen
  unsafeInit oLen shape fun o => do
    let jStride := nInner * axisLen
    let st ← forL args (0, o) fun tensor st => do
      let nAxis ← tensor.shape.dim axis
      let x ← tensor.asSlice
      let o ← forR 0 nOuter st.2 fun j o =>
        forR 0 nAxis o fun k o =>
          forR 0 nInner o fun i o => do
            let v ← idx x (j * nAxis * nInner + k * nInner + i)
            let v ← clone v
            o.write (j * jStride + st.1 + k * nInner + i) v
      return (st.1 + nAxis * nInner, o)
    return st.2

/-- `stack_vec`, stack.rs:254-302. -/
def stackVec (clone : α → m α) (axis : Axis) (xs : List (Tensor α)) : m (Tensor α) := do
  let _ ← stackCheck xs
  let x0 ← idx xs 0
  let shape := x0.shape
  let a ← axis.axisFromRank (shape.rank + 1)
  let nArgs := xs.length
  let xLen ← shape.size
  let nInner ← shape.sublen a shape.rank
  let nOuter ← udiv xLen nInner
  let oLen := (xs.map (·.size)).sum
  let oShape ← shape.insert a xs.length
  unsafeInit oLen oShape fun o =>
    forR 0 xs.length o fun j o => do
      let x ← idx xs j
      ensure (xLen = x.size)
      let x ← x.asSlice
      forR 0 nOuter o fun k o =>
        forR 0 nInner o fun i o => do
          let v ← idx x (k * nInner + i)
          let v ← clone v
          o.write ((k * nArgs + j) * nInner + i) v

/-- `tile_rec`, tile.rs:63-96. -/
def tileRec (clone : α → m α) (x : List α) (xShapeR multR : List Nat) :
    (j : Nat) → (xOff xLen : Nat) → Buf α × Nat → m (Buf α × Nat)
  | 0, xOff, xLen, st => do
    let repeat_ ← (if 0 < multR.length then idx multR 0 else pure 1 : Res Nat)
    forR 0 repeat_ st fun _ st => do
      let o ← forR 0 xLen st.1 fun i o => do
        let v ← idx x (xOff + i)
        let v ← clone v
        o.write (st.2 + i) v
      return (o, st.2 + xLen)
  | j + 1, xOff, xLen, st => do
    let repeat_ ← (if j + 1 < multR.length then idx multR (j + 1) else pure 1 : Res Nat)
    forR 0 repeat_ st fun _ st => do
      if j + 1 < xShapeR.length then do
        let xLen' := (xShapeR.take (j + 1)).foldl (· * ·) 1
        let d ← idx xShapeR (j + 1)
        forR 0 d st fun i st => tileRec clone x xShapeR multR j (xOff + i * xLen') xLen' st
      else tileRec clone x xShapeR multR j xOff xLen st

/-- `tile`, tile.rs:12-59. The multiples are cloned too (`Vec::from`), but they are numbers. -/
def tile (clone : α → m α) (t : Tensor α) (multiples : Tensor Nat) : m (Tensor α) := do
  let vec ← t.shape.asVec
  let shapeR := vec.reverse
  let ms ← multiples.asSlice
  let multR := ms.reverse
  let nInner ← t.shape.size
  let nOuter := ms.foldl (· * ·) 1
  let slice ← t.asSlice
  let rank := t.shape.rank
  let mLen ← multiples.shape.len
  let oRank := max rank mLen
  let oShapeR ← (forR 0 oRank [] fun i vec => do
    let tileDim ← if i < rank then idx shapeR i else pure 1
    let repeatDim ← if i < mLen then idx multR i else pure 1
    return vec ++ [tileDim * repeatDim] : Res (List Nat))
  let oShape ← Shape.ofVec oShapeR.reverse
  unsafeInit (nOuter * nInner) oShape fun o => do
    let j ← usub oRank 1
    let st ← tileRec clone slice shapeR multR j 0 slice.length (o, 0)
    return st.1

/-- `fill`, init/mod.rs:36-38, through `init`, map.rs:172-187. -/
def fill (clone : α → m α) (shape : Shape) (value : α) : m (Tensor α) := do
  let size ← shape.size
  unsafeInit size shape fun o =>
    forR 0 size o fun i o => do
      let v ← clone value
      o.write i v

/-- `build_meshgrid_axis`, matrix.rs:220-252. -/
def buildMeshgridAxis (clone : α → m α) (x : Tensor α) (shape : Shape) (kS : Nat) : m (Tensor α) := do
  ensure (x.shape.rank = 1)
  let size ← shape.size
  let r ← umod size x.size
  ensure (r = 0)
  let r ← umod size kS
  ensure (r = 0)
  let len := x.size
  let n ← udiv size len
  let r ← umod n kS
  ensure (r = 0)
  unsafeInit size shape fun o => do
    let x ← x.asSlice
    let iN := kS
    let jN ← udiv n iN
    let jS ← udiv size jN
    forR 0 len o fun k o =>
      forR 0 jN o fun j o =>
        forR 0 iN o fun i o => do
          let v ← idx x k
          let v ← clone v
          o.write (k * kS + j * jS + i) v

/-- `build_meshgrid`, matrix.rs:192-218. -/
def buildMeshgrid (clone : α → m α) (axes : List (Tensor α)) (order : Init.Order) : m (List (Tensor α)) := do
  let axes := if order = .XY then axes.reverse else axes
  let dims := axes.map (·.size)
  let shape ← Shape.ofVec dims
  let st ← forL axes.reverse ([], 1) fun x st => do
    let t ← buildMeshgridAxis clone x shape st.2
    return (st.1 ++ [t], st.2 * x.size)
  return if order = .IJ then st.1.reverse else st.1

end Clones

end Essay
