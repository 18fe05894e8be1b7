import Verif.Model.From
import Verif.Model.Ops
import Verif.Model.Float

/-!
# Model of `src/init/vector.rs` and `src/init/matrix.rs`

`f32` arithmetic is the parameter `fo : FOps F`. `usize` products such as `batch * len` are unbounded naturals.
-/

namespace Essay

variable [Build]

namespace Init

variable {α F : Type}

/-- `while start < end { vec.push(start); start += step; }`, vector.rs:17-20. `fuel` bounds the number of loop tests;
`none` means the loop has not ended within that many. -/
def arangeUp (fo : FOps F) (stop step : F) : Nat → F → List F → Option (List F)
  | 0, _, _ => none
  | fuel + 1, start, vec =>
    if fo.lt start stop then arangeUp fo stop step fuel (fo.add start step) (vec ++ [start]) else some vec

/-- `while end < start { vec.push(start); start -= step; }`, vector.rs:26-29, with fuel as above. -/
def arangeDown (fo : FOps F) (stop step : F) : Nat → F → List F → Option (List F)
  | 0, _, _ => none
  | fuel + 1, start, vec =>
    if fo.lt stop start then arangeDown fo stop step fuel (fo.sub start step) (vec ++ [start]) else some vec

/-- `arange`, vector.rs:9-35; `none` when it has not returned after `fuel` loop tests. The memory of the growing vector
is unlimited here. -/
def arange (fo : FOps F) (fuel : Nat) (start stop step : F) : Option (Res (Tensor F)) :=
  if fo.eq step fo.zero then some panicked
  else if fo.le start stop && fo.lt fo.zero step then
    (arangeUp fo stop step fuel start []).map Tensor.ofVec1
  else if fo.le stop start && fo.lt step fo.zero then
    (arangeDown fo stop step fuel start []).map Tensor.ofVec1
  else some panicked

/-- The step of one lane: `if len > 1 { (end - start) / (len - 1) as f32 } else { 0. }`, vector.rs:68-72, 104-108,
159-163. -/
def laneStep (fo : FOps F) (start stop : F) (len : Nat) : F :=
  if len > 1 then fo.div (fo.sub stop start) (fo.ofNat (len - 1)) else fo.zero

/-- The closure given to `unsafe_init` in `linspace` (vector.rs:97-115, `pre` and `post` the identity), `logspace_opt`
(152-170, `post = base.powf`) and `geomspace` (61-79, `pre = ln`, `post = exp`). -/
def spaceFill (fo : FOps F) (pre post : F → F) (start stop : Tensor F) (batch len : Nat) (o : Buf F) : Res (Buf F) :=
  forR 0 batch o fun n o => do
    let s ← start.index1 n
    let e ← stop.index1 n
    let s := pre s
    let e := pre e
    ensure (fo.le s e = true)
    let step := laneStep fo s e len
    forR 0 len o fun k o => do
      let v := fo.add s (fo.mul step (fo.ofNat k))
      o.write (k * batch + n) (post v)

/-- `linspace`, vector.rs:83-117. -/
def linspace (fo : FOps F) (start stop : Tensor F) (len : Nat) : Res (Tensor F) := do
  ensure (start.shape = stop.shape)
  let batch := max 1 start.size
  let size := batch * len
  let oShape ← start.shape.insert 0 len
  Tensor.unsafeInit size oShape fun o => spaceFill fo id id start stop batch len o

/-- `logspace_opt`, vector.rs:127-172; the options are the base, `None` for the default 10 (vector.rs:140-144,
180-205). -/
def logspaceOpt (fo : FOps F) (start stop : Tensor F) (len : Nat) (opt : Option F) : Res (Tensor F) := do
  ensure (start.shape = stop.shape)
  let base := match opt with
    | some base => base
    | none => fo.ofNat 10
  let batch := max 1 start.size
  let size := batch * len
  let oShape ← start.shape.insert 0 len
  Tensor.unsafeInit size oShape fun o => spaceFill fo id (fo.powf base) start stop batch len o

/-- `logspace`, vector.rs:119-125. -/
def logspace (fo : FOps F) (start stop : Tensor F) (len : Nat) : Res (Tensor F) := logspaceOpt fo start stop len none

/-- `geomspace`, vector.rs:37-81. -/
def geomspace (fo : FOps F) (start stop : Tensor F) (len : Nat) : Res (Tensor F) := do
  ensure (start.shape = stop.shape)
  let batch := max 1 start.size
  let size := batch * len
  let oShape ← if start.size = 1 then Shape.ofSlice [len] else start.shape.insert 0 len
  Tensor.unsafeInit size oShape fun o => spaceFill fo fo.ln fo.exp start stop batch len o

/-- `one_hot`, vector.rs:207-216. -/
def oneHot (fo : FOps F) (indices : List Nat) (depth : Nat) : Res (Tensor F) := do
  let vec := List.replicate depth fo.zero
  let vec ← forL indices vec fun i vec => setIdx vec i fo.one
  Tensor.ofVec1 vec

/-- `eye`, matrix.rs:53-65. -/
def eye [Zero α] [One α] (n : Nat) : Res (Tensor α) :=
  if n = 0 then Tensor.ofScalar 0
  else do
    let shape ← Shape.ofSlice [n, n]
    Tensor.runPure (Tensor.initRindexed shape fun index => liftM (do
      let i0 ← idx index 0
      let i1 ← idx index 1
      return if i0 = i1 then 1 else 0 : Res α))

/-- `identity`, matrix.rs:67-73. -/
def identity [Zero α] [One α] (n : Nat) : Res (Tensor α) := eye n

/-- `diagflat`, matrix.rs:75-89. -/
def diagflat [Zero α] (diag : Tensor α) : Res (Tensor α) := do
  ensure (diag.shape.rank = 1)
  let n := diag.size
  let shape ← Shape.ofSlice [n, n]
  Tensor.runPure (Tensor.initRindexed shape fun index => liftM (do
    let i0 ← idx index 0
    let i1 ← idx index 1
    if i0 = i1 then diag.index1 i0 else return 0 : Res α))

/-- `tri`, matrix.rs:91-98. -/
def tri [Zero α] [One α] (n : Nat) : Res (Tensor α) := do
  let shape ← Shape.ofSlice [n, n]
  Tensor.runPure (Tensor.initRindexed shape fun index => liftM (do
    let i0 ← idx index 0
    let i1 ← idx index 1
    return if i0 ≤ i1 then 1 else 0 : Res α))

/-- The body shared by `tril` (matrix.rs:100-129, `keep i j` is `i <= j`) and `triu` (matrix.rs:131-160, `j <= i`). -/
def triFill [Zero α] (keep : Nat → Nat → Bool) (tensor : Tensor α) : Res (Tensor α) := do
  ensure (tensor.shape.rank ≥ 2)
  let size ← tensor.shape.size
  Tensor.unsafeInit size tensor.shape fun o => do
    let x ← tensor.asSlice
    let rows ← tensor.shape.rows
    let cols ← tensor.shape.cols
    let n ← udiv size (rows * cols)
    forR 0 n o fun k o =>
      forR 0 rows o fun j o =>
        forR 0 cols o fun i o => do
          let index := k * rows * cols + j * cols + i
          let v ← if keep i j then idx x index else pure 0
          o.write index v

/-- `tril`, matrix.rs:100-129. -/
def tril [Zero α] (tensor : Tensor α) : Res (Tensor α) := triFill (fun i j => decide (i ≤ j)) tensor

/-- `triu`, matrix.rs:131-160. -/
def triu [Zero α] (tensor : Tensor α) : Res (Tensor α) := triFill (fun i j => decide (j ≤ i)) tensor

/-- `build_meshgrid_axis`, matrix.rs:220-252. -/
def buildMeshgridAxis (x : Tensor α) (shape : Shape) (kS : Nat) : Res (Tensor α) := do
  ensure (x.shape.rank = 1)
  let size ← shape.size
  let r ← umod size x.size
  ensure (r = 0)
  let r ← umod size kS
  ensure (r = 0)
  let len := x.size
  let n ← udiv size len
  let r ← umod n kS
  ensure (r = 0)
  Tensor.unsafeInit size shape fun o => do
    let x ← x.asSlice
    let iN := kS
    let jN ← udiv n iN
    let jS ← udiv size jN
    forR 0 len o fun k o =>
      forR 0 jN o fun j o =>
        forR 0 iN o fun i o => do
          let v ← idx x k
          o.write (k * kS + j * jS + i) v

/-- `Order`, matrix.rs:162-166. -/
inductive Order where
  | XY | IJ
  deriving DecidableEq, Repr

/-- `build_meshgrid`, matrix.rs:192-218. -/
def buildMeshgrid (axes : List (Tensor α)) (order : Order) : Res (List (Tensor α)) := do
  let axes := if order = .XY then axes.reverse else axes
  let dims := axes.map (·.size)
  let shape ← Shape.ofVec dims
  let st ← forL axes.reverse (([] : List (Tensor α)), 1) fun x st => do
    let t ← buildMeshgridAxis x shape st.2
    return (st.1 ++ [t], st.2 * x.size)
  return if order = .IJ then st.1.reverse else st.1

/-- `meshgrid` (matrix.rs:168-175) on an array of one, two or three tensors (`mesh_array!`, matrix.rs:260-299): the
outputs are taken out of the vector by position. -/
def meshgrid (axes : List (Tensor α)) : Res (List (Tensor α)) := buildMeshgrid axes .XY

/-- `meshgrid_ij`, matrix.rs:177-183. -/
def meshgridIJ (axes : List (Tensor α)) : Res (List (Tensor α)) := buildMeshgrid axes .IJ

/-- `mgrid`, matrix.rs:185-190. -/
def mgrid (fo : FOps F) (M N : Nat) : Res (List (Tensor F)) := do
  let z ← Tensor.ofScalar fo.zero
  let m ← Tensor.ofScalar (fo.sub (fo.ofNat M) fo.one)
  let n ← Tensor.ofScalar (fo.sub (fo.ofNat N) fo.one)
  let a ← linspace fo z m M
  let b ← linspace fo z n N
  meshgrid [a, b]

end Init

end Essay
