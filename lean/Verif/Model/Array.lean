import Verif.Model.Tensor

/-!
# Model of `src/array/transpose.rs`, `split.rs`, `stack.rs`, `tile.rs`

Element clones are copies.
-/

namespace Essay

variable [Build]

namespace Tensor

variable {α : Type}

/-- `transpose`, transpose.rs:3-33. -/
def transpose (t : Tensor α) : Res (Tensor α) := do
  let c ← t.shape.cols
  let cols := max c 1
  let r ← t.shape.rows
  let rows := max r 1
  let size ← t.shape.size
  let nInner := cols * rows
  let batch ← udiv size nInner
  let shape ← if t.shape.rank = 1 then t.shape.rinsert 0 1 else do
    let s ← t.shape.withCols rows
    s.withRows cols
  unsafeInit size shape fun o => do
    let x ← t.asSlice
    forR 0 batch o fun n o =>
      forR 0 rows o fun j o =>
        forR 0 cols o fun i o => do
          let v ← idx x (n * nInner + j * cols + i)
          o.write (n * nInner + i * rows + j) v

/-- `enum Sections`, split.rs:169-173. -/
inductive Sections where
  | splitEqual (n : Nat)
  | splitCuts (cuts : List Nat)

/-- `while i < len { i += step; cuts.push(i); }`, split.rs:48-51; `fuel` bounds the number of iterations
(the callers pass `len`, enough for `step ≥ 1`). -/
def equalCuts (len step : Nat) : Nat → Nat → List Nat
  | 0, _ => []
  | fuel + 1, i => if i < len then (i + step) :: equalCuts len step fuel (i + step) else []

/-- The cut positions computed by `split_axis`, split.rs:42-58. -/
def sectionCuts (len : Nat) : Sections → Res (List Nat)
  | .splitEqual n => do
    let step ← udiv len n
    ensure (step > 0)
    return equalCuts len step len 0
  | .splitCuts cuts => return cuts ++ [len]

/-- The loop over cuts for axis 0, split.rs:60-70 (also stack.rs:159-170). -/
def splitOuter (t : Tensor α) : List Nat → Nat → Res (List (Tensor α))
  | [], _ => return []
  | i :: cuts, prev => do
    if i ≠ prev then do
      let n ← usub i prev
      let piece ← t.subslice prev n
      let rest ← splitOuter t cuts i
      return piece :: rest
    else splitOuter t cuts i

/-- One piece of `split_by_axis`, split.rs:97-128. -/
def splitPiece (t : Tensor α) (axis nOuter nInner axisLen : Nat) (x : List α) (prev cut : Nat) :
    Res (Tensor α) := do
  let pre ← forR 0 axis [] fun i vec => do
    let d ← t.shape.dim i
    return vec ++ [d]
  let n ← usub cut prev
  let vec ← forR (axis + 1) t.shape.rank (pre ++ [n]) fun i vec => do
    let d ← t.shape.dim i
    return vec ++ [d]
  let shape ← Shape.ofVec vec
  unsafeInit (nOuter * nInner * n) shape fun o =>
    forR 0 nOuter o fun j o =>
      forR prev cut o fun k o =>
        forR 0 nInner o fun i o => do
          let v ← idx x (j * axisLen * nInner + k * nInner + i)
          o.write (j * nInner * n + (k - prev) * nInner + i) v

/-- The loop over cuts of `split_by_axis`, split.rs:92-132. -/
def splitInner (t : Tensor α) (axis nOuter nInner axisLen : Nat) (x : List α) :
    List Nat → Nat → Res (List (Tensor α))
  | [], _ => return []
  | cut :: cuts, prev => do
    if cut = prev then splitInner t axis nOuter nInner axisLen x cuts prev
    else do
      let piece ← splitPiece t axis nOuter nInner axisLen x prev cut
      let rest ← splitInner t axis nOuter nInner axisLen x cuts cut
      return piece :: rest

/-- `split_by_axis`, split.rs:79-133. -/
def splitByAxis (t : Tensor α) (axis : Nat) (cuts : List Nat) : Res (List (Tensor α)) := do
  let nOuter ← t.shape.sublen 0 axis
  let nInner ← if axis < t.shape.rank then t.shape.sublen (axis + 1) t.shape.rank else pure 1
  let axisLen ← t.shape.dim axis
  let x ← t.asSlice
  splitInner t axis nOuter nInner axisLen x cuts 0

/-- `split_axis`, split.rs:30-77. -/
def splitAxis (t : Tensor α) (axis : Axis) (sections : Sections) : Res (List (Tensor α)) := do
  let a ← axis.axisFromRank t.shape.rank
  let len ← t.shape.dim a
  let cuts ← sectionCuts len sections
  if a = 0 then splitOuter t cuts 0 else splitByAxis t a cuts

/-- `Tensor::split`, split.rs:5-7. -/
def split (t : Tensor α) (s : Sections) : Res (List (Tensor α)) := splitAxis t none s
/-- `Tensor::vsplit`, split.rs:15-17. -/
def vsplit (t : Tensor α) (s : Sections) : Res (List (Tensor α)) := splitAxis t (some 0) s
/-- `Tensor::hsplit`, split.rs:20-22. -/
def hsplit (t : Tensor α) (s : Sections) : Res (List (Tensor α)) := splitAxis t (some 1) s
/-- `Tensor::dsplit`, split.rs:25-27. -/
def dsplit (t : Tensor α) (s : Sections) : Res (List (Tensor α)) := splitAxis t (some 2) s

/-- `validate_concat`, stack.rs:225-252. -/
def validateConcat (args : List (Tensor α)) (axis : Nat) : Res Nat := do
  let a0 ← idx args 0
  let shape := a0.shape
  forL args 0 fun x axisLen => do
    ensure (shape.rank = x.shape.rank)
    forR 0 shape.rank axisLen fun i axisLen => do
      if i = axis then do
        let d ← x.shape.dim axis
        return axisLen + d
      else do
        let d ← x.shape.dim i
        let e ← shape.dim i
        ensure (d = e)
        return axisLen

/-- `concat_axis`, stack.rs:178-223. -/
def concatAxis (axis : Nat) (args : List (Tensor α)) : Res (Tensor α) := do
  let a0 ← idx args 0
  let axisLen ← validateConcat args axis
  let shapeInner ← a0.shape.remove axis
  let oLen := (args.map (·.size)).sum
  let nOuter ← shapeInner.sublen 0 axis
  let nInner ← if axis < shapeInner.rank then shapeInner.sublen axis shapeInner.rank else pure 1
  let shape ← shapeInner.insert axis axisLen
  unsafeInit oLen shape fun o => do
    let jStride := nInner * axisLen
    let st ← forL args (0, o) fun tensor st => do
      let nAxis ← tensor.shape.dim axis
      let x ← tensor.asSlice
      let o ← forR 0 nOuter st.2 fun j o =>
        forR 0 nAxis o fun k o =>
          forR 0 nInner o fun i o => do
            let v ← idx x (j * nAxis * nInner + k * nInner + i)
            o.write (j * jStride + st.1 + k * nInner + i) v
      return (st.1 + nAxis * nInner, o)
    return st.2

/-- `concatenate`, stack.rs:3-12. -/
def concatenate (args : List (Tensor α)) : Res (Tensor α) := concatAxis 0 args

/-- `concatenate_axis`, stack.rs:14-32. -/
def concatenateAxis (axis : Axis) (args : List (Tensor α)) : Res (Tensor α) := do
  let a ← match args with
    | t :: _ => axis.axisFromRank t.shape.rank
    | [] => pure 0
  concatAxis a args

/-- The shape check loop of `stack_vec`, stack.rs:260-269: every operand has the first operand's shape. -/
def stackCheck (xs : List (Tensor α)) : Res (Option Shape) :=
  forL xs none fun x shape =>
    match shape with
    | none => return some x.shape
    | some s => do
      ensure (s = x.shape)
      return some s

/-- `stack_vec`, stack.rs:254-302. -/
def stackVec (axis : Axis) (xs : List (Tensor α)) : Res (Tensor α) := do
  let _ ← stackCheck xs
  let x0 ← idx xs 0
  let shape := x0.shape
  let a ← axis.axisFromRank (shape.rank + 1)
  let nArgs := xs.length
  let xLen ← shape.size
  let nInner ← shape.sublen a shape.rank
  let nOuter ← udiv xLen nInner
  let oLen := (xs.map (·.size)).sum
  let oShape ← shape.insert a xs.length
  unsafeInit oLen oShape fun o =>
    forR 0 xs.length o fun j o => do
      let x ← idx xs j
      ensure (xLen = x.size)
      let x ← x.asSlice
      forR 0 nOuter o fun k o =>
        forR 0 nInner o fun i o => do
          let v ← idx x (k * nInner + i)
          o.write ((k * nArgs + j) * nInner + i) v

/-- `stack`, stack.rs:36-45. -/
def stack (xs : List (Tensor α)) : Res (Tensor α) := stackVec none xs

/-- `hstack`, stack.rs:69-84. -/
def hstack (xs : List (Tensor α)) : Res (Tensor α) := do
  let x0 ← idx xs 0
  if x0.shape.rank = 1 then concatenateAxis (some 0) xs else concatenateAxis (some 1) xs

/-- The reshaping of one operand of `dstack_vec`, stack.rs:311-317. -/
def dstackArg (x : Tensor α) : Res (Tensor α) :=
  match x.shape.rank with
  | 0 => panicked
  | 1 => do
    let s ← Shape.ofSlice [1, x.size, 1]
    x.reshape s
  | 2 => do
    let r ← x.shape.rows
    let c ← x.shape.cols
    let s ← Shape.ofSlice [r, c, 1]
    x.reshape s
  | _ => pure x

/-- The loop over the operands of `dstack_vec`, stack.rs:308-319. -/
def dstackArgs (shape : Shape) (xs : List (Tensor α)) : Res (List (Tensor α)) :=
  forL xs [] fun x acc => do
    ensure (shape = x.shape)
    let y ← dstackArg x
    return acc ++ [y]

/-- `dstack_vec`, stack.rs:304-322. -/
def dstack (xs : List (Tensor α)) : Res (Tensor α) := do
  let x0 ← idx xs 0
  let ys ← dstackArgs x0.shape xs
  concatenateAxis (some 2) ys

/-- `vstack_vec`, stack.rs:324-338. -/
def vstack (xs : List (Tensor α)) : Res (Tensor α) := do
  let ys ← forL xs [] fun t acc => do
    let s ← t.shape.insert 0 1
    let y ← t.reshape s
    return acc ++ [y]
  concatenateAxis (some 0) ys

/-- `Tensor::unstack`, stack.rs:152-175. The list of cuts is created empty and never filled. -/
def unstack (t : Tensor α) (axis : Axis) : Res (List (Tensor α)) := do
  let a ← axis.axisFromRank t.shape.rank
  let cuts : List Nat := []
  if a = 0 then splitOuter t cuts 0 else splitAxis t (some a) (.splitCuts cuts)

/-- `tile_rec`, tile.rs:63-96. State: the buffer and the running write offset. The recursion is on `j`. -/
def tileRec (x : List α) (xShapeR multR : List Nat) :
    (j : Nat) → (xOff xLen : Nat) → Buf α × Nat → Res (Buf α × Nat)
  | 0, xOff, xLen, st => do
    let repeat_ ← if 0 < multR.length then idx multR 0 else pure 1
    forR 0 repeat_ st fun _ st => do
      let o ← forR 0 xLen st.1 fun i o => do
        let v ← idx x (xOff + i)
        o.write (st.2 + i) v
      return (o, st.2 + xLen)
  | j + 1, xOff, xLen, st => do
    let repeat_ ← if j + 1 < multR.length then idx multR (j + 1) else pure 1
    forR 0 repeat_ st fun _ st => do
      if j + 1 < xShapeR.length then do
        let xLen' := (xShapeR.take (j + 1)).foldl (· * ·) 1
        let d ← idx xShapeR (j + 1)
        forR 0 d st fun i st => tileRec x xShapeR multR j (xOff + i * xLen') xLen' st
      else tileRec x xShapeR multR j xOff xLen st

/-- `tile`, tile.rs:12-59. -/
def tile (t : Tensor α) (multiples : Tensor Nat) : Res (Tensor α) := do
  let vec ← t.shape.asVec
  let shapeR := vec.reverse
  let ms ← multiples.asSlice
  let multR := ms.reverse
  let nInner ← t.shape.size
  let nOuter := ms.foldl (· * ·) 1
  let slice ← t.asSlice
  let rank := t.shape.rank
  let mLen ← multiples.shape.len
  let oRank := max rank mLen
  let oShapeR ← forR 0 oRank [] fun i vec => do
    let tileDim ← if i < rank then idx shapeR i else pure 1
    let repeatDim ← if i < mLen then idx multR i else pure 1
    return vec ++ [tileDim * repeatDim]
  let oShape ← Shape.ofVec oShapeR.reverse
  unsafeInit (nOuter * nInner) oShape fun o => do
    let j ← usub oRank 1
    let st ← tileRec slice shapeR multR j 0 slice.length (o, 0)
    return st.1

end Tensor

end Essay
