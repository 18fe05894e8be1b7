import Verif.Model.Clones
import Verif.Model.CloneFold

/-!
# What a panic does to the values made before it

The functions that copy elements or call closures, once more, with the values they own while something that may panic
runs. A panic drops the values owned by the stack frames it passes (vectors, states of folds, arguments); what was written
into the raw block of `unsafe_init` is not owned by anything and is lost (data.rs:82-98 has no guard). The order in which one
panic drops several values is not modelled. Functions of `Model/Clones` that own nothing but such a block (`from_slice`,
`fill`, `transpose`, `concatenate`, `stack`, `tile`) are used as they are.
-/

namespace Essay

/-- What a monad must offer to speak of ownership: running a call while values are owned by the frame, and dropping
values at the end of a function. Not from /repo. -/
class Unwinds (m : Type → Type) (α : Type) where
  /-- `x` runs while the caller owns the values: if it panics they are dropped. -/
  holding : {β : Type} → List α → m β → m β
  /-- The values go out of scope. -/
  drop : List α → m Unit

/-- Without a record of drops. -/
instance Unwinds.res {α : Type} : Unwinds (Except Err) α := ⟨fun _ x => x, fun _ => pure ()⟩

/-- Without a record of drops. -/
instance Unwinds.exec {σ α : Type} : Unwinds (StateT σ (Except Err)) α := ⟨fun _ x => x, fun _ => pure ()⟩

/-- The values of type `α` made and dropped so far, in order, and the state of the closures. Not from /repo. -/
structure Ledger (α σ : Type) where
  made : List α
  dropped : List α
  env : σ

/-- Calls whose effects are kept when they panic. Not from /repo. -/
abbrev Own (α σ : Type) := ExceptT Err (StateM (Ledger α σ))

/-- A run: the outcome and the state behind it, also after a panic. -/
def Own.go {α σ β : Type} (x : Own α σ β) (l : Ledger α σ) : Except Err β × Ledger α σ := x.run.run l

/-- A call given by its runs. -/
def Own.of {α σ β : Type} (f : Ledger α σ → Except Err β × Ledger α σ) : Own α σ β := ExceptT.mk (fun l => f l)

/-- With a record: on a panic the owned values are dropped. -/
instance Unwinds.own {α σ : Type} : Unwinds (Own α σ) α where
  holding own x := Own.of fun l =>
    match x.go l with
    | (.error .panic, l') => (.error .panic, { l' with dropped := l'.dropped ++ own })
    | r => r
  drop vs := Own.of fun l => (.ok (), { l with dropped := l.dropped ++ vs })

/-- A `Clone::clone` with state `σ` that may panic, or any other call that makes one value, with its results recorded. -/
def Own.track {α σ γ : Type} (c : γ → σ → Except Err α × σ) (x : γ) : Own α σ α := Own.of fun l =>
  match c x l.env with
  | (.ok v, e) => (.ok v, { l with made := l.made ++ [v], env := e })
  | (.error er, e) => (.error er, { l with env := e })

namespace Unwind

open Tensor Unwinds

variable [Build] {α β : Type} {m : Type → Type} [Monad m] [MonadLiftT (Except Err) m] [Unwinds m α]

/-! ## Functions that collect into a vector -/

/-- The loop of `collect()`, `Vec::clone`, `Vec::from(&[T])` and of `data.push(v.clone())`: the vector owns what it has. -/
def collect (clone : α → m α) : List α → List α → m (List α)
  | acc, [] => return acc
  | acc, x :: xs => do
    let v ← holding acc (clone x)
    collect clone (acc ++ [v]) xs

/-- `Tensor::from_vec`, tensor.rs:24-26, and `Tensor::new`, tensor.rs:32-44: the failed assertion drops the data. -/
def fromVec (data : List α) (shape : Shape) : m (Tensor α) := holding data (liftM (Tensor.fromVec data shape))

/-- `Tensor::from_vec(data, shape)` where the shape is converted first (also an argument, from.rs:42-44). -/
def fromVecInto (data : List α) (shape : Res Shape) : m (Tensor α) := do
  let shape ← holding data (liftM shape)
  fromVec data shape

/-- `.flat_map(|tensor| tensor.as_slice().iter().map(|v| v.clone())).collect()`, tensor.rs:235-237, from.rs:321-323. -/
def concatSlices (clone : α → m α) (vec : List (Tensor α)) : m (List α) :=
  forL vec [] fun t acc => do
    let xs ← holding acc (liftM t.asSlice)
    collect clone acc xs

/-- `Tensor::from_merge`, tensor.rs:219-240. -/
def fromMerge (clone : α → m α) (vec : List (Tensor α)) (shape : Shape) : m (Tensor α) := do
  let len := (vec.map (·.size)).sum
  let n ← shape.size
  ensure (len = n)
  let data ← concatSlices clone vec
  fromVec data shape

/-- `Tensor::append`, tensor.rs:205-217. -/
def append (clone : α → m α) (t u : Tensor α) : m (Tensor α) := do
  let a ← t.shape.sublen 1 t.shape.rank
  let b ← u.shape.sublen 1 u.shape.rank
  ensure (a = b)
  let vec ← t.shape.asVec
  let d ← t.shape.dim 0
  let e ← u.shape.dim 0
  let vec ← setIdx vec 0 (d + e)
  let shape ← Shape.ofVec vec
  fromMerge clone [t, u] shape

/-- `Tensor::join_vec`, tensor.rs:244-254. -/
def joinVec (clone : α → m α) (vec : List (List α)) : m (Tensor α) := do
  let data ← collect clone [] vec.flatten
  fromVecInto data (Shape.ofUsize data.length)

/-- `From<&Vec<T>>`, from.rs:38-45; `From<&[T]>`, from.rs:183-191; `FromIterator<&T>`, from.rs:292-299. -/
def ofVec1 (clone : α → m α) (value : List α) : m (Tensor α) := do
  let data ← collect clone [] value
  fromVecInto data (Shape.ofUsize data.length)

/-- `From<&Vec<[T; N]>>`, from.rs:57-67, and `From<&[[T; N]]>`, from.rs:202-212. -/
def ofRows (clone : α → m α) {N : Nat} (value : List (Vector α N)) : m (Tensor α) := do
  let data ← collect clone [] (value.flatMap fun row => row.toList)
  fromVecInto data (Shape.ofSlice [value.length, N])

/-- `From<&Vec<Vec<T>>>`, from.rs:69-81: the check of a row comes after the clones of the rows before it. -/
def ofVec2 (clone : α → m α) (value : List (List α)) : m (Tensor α) := do
  let r0 ← idx value 0
  let len1 := r0.length
  let data ← forL value [] fun v1 data => do
    holding data (liftM (ensure (len1 = v1.length)))
    collect clone data v1
  fromVecInto data (Shape.ofSlice [value.length, len1])

/-- `From<&[Tensor<T>]>`, from.rs:307-327. -/
def ofTensors (clone : α → m α) (values : List (Tensor α)) : m (Tensor α) := do
  let n := values.length
  ensure (n > 0)
  let v0 ← idx values 0
  let sublen := v0.size
  let shape := v0.shape
  forL values () fun value _ => do
    ensure (sublen = value.size)
    ensure (shape = value.shape)
  let data ← concatSlices clone values
  fromVecInto data (shape.push n)

/-! ## Functions with several results -/

/-- The loop over cuts of `split_by_axis`, split.rs:92-132: the pieces made so far are owned by a vector. -/
def splitInner (clone : α → m α) (t : Tensor α) (axis nOuter nInner axisLen : Nat) (x : List α) :
    List Nat → Nat → m (List (Tensor α))
  | [], _ => return []
  | cut :: cuts, prev => do
    if cut = prev then splitInner clone t axis nOuter nInner axisLen x cuts prev
    else do
      let piece ← Clones.splitPiece clone t axis nOuter nInner axisLen x prev cut
      let rest ← holding piece.data (splitInner clone t axis nOuter nInner axisLen x cuts cut)
      return piece :: rest

/-- `split_axis`, split.rs:30-77, with `split_by_axis`, split.rs:79-133. -/
def splitAxis (clone : α → m α) (t : Tensor α) (axis : Axis) (sections : Sections) : m (List (Tensor α)) := do
  let a ← axis.axisFromRank t.shape.rank
  let len ← t.shape.dim a
  let cuts ← sectionCuts len sections
  if a = 0 then splitOuter t cuts 0 else do
    let nOuter ← t.shape.sublen 0 a
    let nInner ← (if a < t.shape.rank then t.shape.sublen (a + 1) t.shape.rank else pure 1 : Res Nat)
    let axisLen ← t.shape.dim a
    let x ← t.asSlice
    splitInner clone t a nOuter nInner axisLen x cuts 0

/-- `build_meshgrid`, matrix.rs:192-218: the grids made so far are owned by a vector. -/
def buildMeshgrid (clone : α → m α) (axes : List (Tensor α)) (order : Init.Order) : m (List (Tensor α)) := do
  let axes := if order = .XY then axes.reverse else axes
  let dims := axes.map (·.size)
  let shape ← Shape.ofVec dims
  let st ← forL axes.reverse ([], 1) fun x st => do
    let t ← holding (st.1.flatMap (·.data)) (Clones.buildMeshgridAxis clone x shape st.2)
    return (st.1 ++ [t], st.2 * x.size)
  return if order = .IJ then st.1.reverse else st.1

/-! ## Functions that write into a fresh block -/

/-- `unsafe_init`, data.rs:82-98: a panic in the closure loses what was written; a failed size check drops it. -/
def unsafeInit (len : Nat) (shape : Shape) (init : Buf α → m (Buf α)) : m (Tensor α) := do
  let b ← init (Buf.uninit len)
  holding (b.filterMap id) (liftM (finish b shape))

/-- `init`, map.rs:172-187. -/
def init (shape : Shape) (f : m α) : m (Tensor α) := do
  let size ← shape.size
  unsafeInit size shape fun o =>
    forR 0 size o fun i o => do
      let v ← f
      o.write i v

/-- `map`, map.rs:212-228, and `Tensor::map`, map.rs:23-29. -/
def map (t : Tensor β) (f : β → m α) : m (Tensor α) :=
  unsafeInit t.size t.shape fun o => do
    let xs ← t.asSlice
    forR 0 t.size o fun i o => do
      let x ← idx xs i
      let v ← f x
      o.write i v

/-- `map2`, map.rs:279-314, and `Tensor::map2`, map.rs:58-70. -/
def map2 {γ : Type} (a : Tensor β) (b : Tensor γ) (f : β → γ → m α) : m (Tensor α) := do
  let shape ← a.shape.broadcastTo b.shape
  let size := max a.size b.size
  let inner := min a.size b.size
  let batch ← udiv size inner
  ensure (batch * inner = size)
  unsafeInit size shape fun o =>
    forR 0 batch o fun n o => do
      let offset := n * inner
      let as ← a.asWrapSlice offset
      let bs ← b.asWrapSlice offset
      forR 0 inner o fun k o => do
        let x ← idx as k
        let y ← idx bs k
        let v ← f x y
        o.write (offset + k) v

/-- `fold`, map.rs:402-424, for a state that is its own result (map.rs:510-516). The start value is an argument, dropped
at the end. -/
def fold (clone : α → m α) (t : Tensor β) (init : α) (f : α → β → m α) : m (Tensor α) := do
  let r ← holding [init] do
    let a ← t.asSlice
    let value ← clone init
    let value ← forR 0 t.size value fun i value => do
      let x ← holding [value] (liftM (idx a i))
      f value x
    holding [value] (liftM (fromScalar value))
  drop (m := m) [init]
  return r

/-- `fold_axis`, map.rs:426-461, for a state that is its own result. -/
def foldAxis (clone : α → m α) (t : Tensor β) (axis : Axis) (init : α) (f : α → β → m α) : m (Tensor α) := do
  let r ← holding [init] do
    let (oShape, batch, aLen, inner) ← axis.reduce t.shape
    let oSize ← oShape.size
    unsafeInit oSize oShape fun o => do
      let a ← t.asSlice
      forR 0 batch o fun n o =>
        forR 0 inner o fun i o => do
          let state ← clone init
          let state ← forR 0 aLen state fun k state => do
            let v ← holding [state] (liftM (idx a ((n * aLen + k) * inner + i)))
            f state v
          o.write (n * inner + i) state
  drop (m := m) [init]
  return r

/-- `reduce`, map.rs:526-543. -/
def reduce (clone : α → m α) (t : Tensor α) (f : α → α → m α) : m (Tensor α) := do
  let a ← t.asSlice
  let x0 ← idx a 0
  let value ← clone x0
  let value ← forR 1 t.size value fun i value => do
    let x ← holding [value] do
      let x ← idx a i
      clone x
    f value x
  holding [value] (liftM (fromScalar value))

/-- `reduce_axis`, map.rs:545-577. -/
def reduceAxis (clone : α → m α) (t : Tensor α) (axis : Axis) (f : α → α → m α) : m (Tensor α) := do
  let (oShape, batch, aLen, inner) ← axis.reduce t.shape
  let oSize ← oShape.size
  unsafeInit oSize oShape fun o => do
    let a ← t.asSlice
    forR 0 batch o fun n o =>
      forR 0 inner o fun i o => do
        let s0 ← idx a (n * aLen * inner + i + 0 * inner)
        let state ← clone s0
        let state ← forR 1 aLen state fun k state => do
          let v ← holding [state] do
            let v ← idx a (n * aLen * inner + i + k * inner)
            clone v
          f state v
        o.write (n * inner + i) state

/-- `init_rindexed`, map.rs:189-210. -/
def initRindexed (shape : Shape) (f : List Nat → m α) : m (Tensor α) := do
  let size ← shape.size
  unsafeInit size shape fun o => do
    let st ← forR 0 size (o, List.replicate shape.rank 0) fun i st => do
      let v ← f st.2
      let o ← st.1.write i v
      let index ← shape.nextIndex st.2
      return (o, index)
    return st.1

/-- `map_row`, map.rs:230-255, and `Tensor::map_row`, map.rs:33-44. The array made by the closure is moved into the block
without a call that could panic. -/
def mapRow (t : Tensor β) (N : Nat) (f : List β → m (Vector α N)) : m (Tensor α) := do
  let shape ← (if N = 1 ∧ t.shape.rank > 1 then t.shape.rremove 0 else t.shape.withCols N : Res Shape)
  let cols ← t.shape.cols
  let len ← udiv t.size cols
  unsafeInit (N * len) shape fun o =>
    forR 0 len o fun i o => do
      let slice ← rawSlice t.data (t.offset + i * cols) cols
      let value ← f slice
      writeRow o (i * N) value.toList

/-- `map_expand`, map.rs:257-277, and `Tensor::map_expand`, map.rs:48-55. -/
def mapExpand (t : Tensor β) (N : Nat) (f : β → m (Vector α N)) : m (Tensor α) := do
  let shape ← t.shape.rinsert 0 N
  unsafeInit (N * t.size) shape fun o => do
    let xs ← t.asSlice
    forR 0 t.size o fun i o => do
      let x ← idx xs i
      let value ← f x
      writeRow o (i * N) value.toList

/-- `map3`, map.rs:361-400, and `Tensor::map3`, map.rs:99-114. -/
def map3 {γ δ : Type} (a : Tensor β) (b : Tensor γ) (c : Tensor δ) (f : β → γ → δ → m α) : m (Tensor α) := do
  let s ← a.shape.broadcastTo b.shape
  let shape ← s.broadcastTo c.shape
  let size := max (max a.size b.size) c.size
  let inner := min (min a.size b.size) c.size
  let batch ← udiv size inner
  ensure (batch * inner = size)
  unsafeInit size shape fun o =>
    forR 0 batch o fun n o => do
      let offset := n * inner
      let as ← a.asWrapSlice offset
      let bs ← b.asWrapSlice offset
      let cs ← c.asWrapSlice offset
      forR 0 inner o fun k o => do
        let x ← idx as k
        let y ← idx bs k
        let z ← idx cs k
        let v ← f x y z
        o.write (offset + k) v

/-- `fold_row`, map.rs:463-502, for a state that is its own result, an array (map.rs:518-524). `cloneRow` is the clone of
the array. -/
def foldRow {N : Nat} (cloneRow : Vector α N → m (Vector α N)) (t : Tensor β) (axis : Axis) (init : Vector α N)
    (f : Vector α N → List β → m (Vector α N)) : m (Tensor α) := do
  let r ← holding init.toList do
    let (oShape, batch, aLen, inner) ← axis.reduceRow t.shape N
    let cols ← t.shape.cols
    let oSize ← oShape.size
    unsafeInit oSize oShape fun o =>
      forR 0 batch o fun b o =>
        forR 0 inner o fun j o => do
          let state ← cloneRow init
          let state ← forR 0 aLen state fun k state => do
            let offset := (b * aLen + k) * inner + j
            let v ← holding state.toList (liftM (t.asWrapSliceN (cols * offset) cols))
            f state v
          writeRow o ((b * inner + j) * N) state.toList
  drop (m := m) init.toList
  return r

/-- `normalize`, map.rs:580-629, with states, completed states and results of one type. The completed state of a lane is
dropped at the lane's end. -/
def normalize (clone : α → m α) (t : Tensor β) (axis : Axis) (init : α) (accum : α → β → m α) (complete : α → m α)
    (norm : α → β → m α) : m (Tensor α) := do
  let r ← holding [init] do
    let (_, batch, aLen, inner) ← axis.reduce t.shape
    let size ← t.shape.size
    unsafeInit size t.shape fun o => do
      let a ← t.asSlice
      forR 0 batch o fun n o =>
        forR 0 inner o fun i o => do
          let state ← clone init
          let state ← forR 0 aLen state fun k state => do
            let v ← holding [state] (liftM (idx a ((n * aLen + k) * inner + i)))
            accum state v
          let state ← complete state
          let o ← holding [state] (forR 0 aLen o fun k o => do
            let v ← idx a ((n * aLen + k) * inner + i)
            let w ← norm state v
            o.write ((n * inner + i) * aLen + k) w)
          drop (m := m) [state]
          return o
  drop (m := m) [init]
  return r

/-- `eye`, matrix.rs:53-65; `identity`, matrix.rs:67-73. -/
def eye (zero one : m α) (n : Nat) : m (Tensor α) :=
  if n = 0 then do
    let v ← zero
    holding [v] (liftM (ofScalar v))
  else do
    let shape ← Shape.ofSlice [n, n]
    initRindexed shape fun index => do
      let i0 ← idx index 0
      let i1 ← idx index 1
      if i0 = i1 then one else zero

/-- `diagflat`, matrix.rs:75-89. -/
def diagflat (clone : α → m α) (zero : m α) (diag : Tensor α) : m (Tensor α) := do
  ensure (diag.shape.rank = 1)
  let n := diag.size
  let shape ← Shape.ofSlice [n, n]
  initRindexed shape fun index => do
    let i0 ← idx index 0
    let i1 ← idx index 1
    if i0 = i1 then do
      let v ← diag.index1 i0
      clone v
    else zero

/-- `tri`, matrix.rs:91-98. -/
def tri (zero one : m α) (n : Nat) : m (Tensor α) := do
  let shape ← Shape.ofSlice [n, n]
  initRindexed shape fun index => do
    let i0 ← idx index 0
    let i1 ← idx index 1
    if i0 ≤ i1 then one else zero

/-- The body shared by `tril` (matrix.rs:100-129, `keep i j` is `i <= j`) and `triu` (matrix.rs:131-160, `j <= i`). -/
def triFill (clone : α → m α) (zero : m α) (keep : Nat → Nat → Bool) (tensor : Tensor α) : m (Tensor α) := do
  ensure (tensor.shape.rank ≥ 2)
  let size ← tensor.shape.size
  unsafeInit size tensor.shape fun o => do
    let x ← tensor.asSlice
    let rows ← tensor.shape.rows
    let cols ← tensor.shape.cols
    let n ← udiv size (rows * cols)
    forR 0 n o fun k o =>
      forR 0 rows o fun j o =>
        forR 0 cols o fun i o => do
          let index := k * rows * cols + j * cols + i
          let v ← if keep i j then do
              let v ← idx x index
              clone v
            else zero
          o.write index v

/-- `tril`, matrix.rs:100-129. -/
def tril (clone : α → m α) (zero : m α) (tensor : Tensor α) : m (Tensor α) :=
  triFill clone zero (fun i j => decide (i ≤ j)) tensor

/-- `triu`, matrix.rs:131-160. -/
def triu (clone : α → m α) (zero : m α) (tensor : Tensor α) : m (Tensor α) :=
  triFill clone zero (fun i j => decide (j ≤ i)) tensor

end Unwind

end Essay
