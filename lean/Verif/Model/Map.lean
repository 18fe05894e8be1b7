import Verif.Model.Tensor

/-!
# Model of `src/tensor/map.rs`

`FnMut` closures are functions into `Exec σ` (state `σ`, may panic). `[V; N]` is `Vector V N`. `FoldState::into_result`
is a function `S → V`.
-/

namespace Essay

variable [Build]

namespace Tensor

variable {σ T U V W S S1 : Type}

/-- `init`, map.rs:172-187. -/
def init (shape : Shape) (f : Exec σ V) : Exec σ (Tensor V) := do
  let size ← shape.size
  unsafeInitM size shape fun o =>
    forR 0 size o fun i o => do
      let v ← f
      o.write i v

/-- `init_rindexed`, map.rs:189-210. -/
def initRindexed (shape : Shape) (f : List Nat → Exec σ V) : Exec σ (Tensor V) := do
  let size ← shape.size
  unsafeInitM size shape fun o => do
    let st ← forR 0 size (o, List.replicate shape.rank 0) fun i st => do
      let v ← f st.2
      let o ← st.1.write i v
      let index ← shape.nextIndex st.2
      return (o, index)
    return st.1

/-- `map`, map.rs:212-228. -/
def mapShape (shape : Shape) (a : Tensor U) (f : U → Exec σ V) : Exec σ (Tensor V) :=
  unsafeInitM a.size shape fun o => do
    let xs ← a.asSlice
    forR 0 a.size o fun i o => do
      let x ← idx xs i
      let v ← f x
      o.write i v

/-- `Tensor::map`, map.rs:23-29. -/
def map (a : Tensor U) (f : U → Exec σ V) : Exec σ (Tensor V) := mapShape a.shape a f

/-- `for (j, value) in value.into_iter().enumerate() { o.add(base + j).write(value) }`, map.rs:249-251, 271-273,
496-498. -/
def writeRow (o : Buf V) (base : Nat) (row : List V) : Res (Buf V) :=
  forR 0 row.length o fun j o => do
    let v ← idx row j
    o.write (base + j) v

/-- `map_row`, map.rs:230-255. -/
def mapRowShape (shape : Shape) (a : Tensor U) (N : Nat) (f : List U → Exec σ (Vector V N)) : Exec σ (Tensor V) := do
  let aCols ← a.shape.cols
  let len ← udiv a.size aCols
  unsafeInitM (N * len) shape fun o =>
    forR 0 len o fun i o => do
      let slice ← rawSlice a.data (a.offset + i * aCols) aCols
      let value ← f slice
      writeRow o (i * N) value.toList

/-- `Tensor::map_row`, map.rs:33-44. -/
def mapRow (a : Tensor U) (N : Nat) (f : List U → Exec σ (Vector V N)) : Exec σ (Tensor V) := do
  let shape ← if N = 1 ∧ a.shape.rank > 1 then a.shape.rremove 0 else a.shape.withCols N
  mapRowShape shape a N f

/-- `map_expand`, map.rs:257-277. -/
def mapExpandShape (shape : Shape) (a : Tensor U) (N : Nat) (f : U → Exec σ (Vector V N)) : Exec σ (Tensor V) :=
  unsafeInitM (N * a.size) shape fun o => do
    let xs ← a.asSlice
    forR 0 a.size o fun i o => do
      let x ← idx xs i
      let value ← f x
      writeRow o (i * N) value.toList

/-- `Tensor::map_expand`, map.rs:48-55. -/
def mapExpand (a : Tensor U) (N : Nat) (f : U → Exec σ (Vector V N)) : Exec σ (Tensor V) := do
  let shape ← a.shape.rinsert 0 N
  mapExpandShape shape a N f

/-- `map2`, map.rs:279-314. -/
def map2Shape (shape : Shape) (a : Tensor T) (b : Tensor U) (f : T → U → Exec σ V) : Exec σ (Tensor V) := do
  let size := max a.size b.size
  let inner := min a.size b.size
  let batch ← udiv size inner
  ensure (batch * inner = size)
  unsafeInitM size shape fun o =>
    forR 0 batch o fun n o => do
      let offset := n * inner
      let as ← a.asWrapSlice offset
      let bs ← b.asWrapSlice offset
      forR 0 inner o fun k o => do
        let x ← idx as k
        let y ← idx bs k
        let v ← f x y
        o.write (offset + k) v

/-- `Tensor::map2`, map.rs:58-70. -/
def map2 (a : Tensor T) (b : Tensor U) (f : T → U → Exec σ V) : Exec σ (Tensor V) := do
  let shape ← a.shape.broadcastTo b.shape
  map2Shape shape a b f

/-- `Tensor::map2_row`, map.rs:72-83: `todo!()`. -/
def map2Row (_a : Tensor T) (_b : Tensor U) (N : Nat) (_f : List T → List U → Exec σ (Vector V N)) :
    Exec σ (Tensor V) := (panicked : Res (Tensor V))

/-- `Tensor::map2_expand`, map.rs:85-96: `todo!()`. -/
def map2Expand (_a : Tensor T) (_b : Tensor U) (N : Nat) (_f : T → U → Exec σ (Vector V N)) :
    Exec σ (Tensor V) := (panicked : Res (Tensor V))

/-- `map3`, map.rs:361-400. -/
def map3Shape (shape : Shape) (a : Tensor T) (b : Tensor U) (c : Tensor V) (f : T → U → V → Exec σ W) :
    Exec σ (Tensor W) := do
  let size := max (max a.size b.size) c.size
  let inner := min (min a.size b.size) c.size
  let batch ← udiv size inner
  ensure (batch * inner = size)
  unsafeInitM size shape fun o =>
    forR 0 batch o fun n o => do
      let offset := n * inner
      let as ← a.asWrapSlice offset
      let bs ← b.asWrapSlice offset
      let cs ← c.asWrapSlice offset
      forR 0 inner o fun k o => do
        let x ← idx as k
        let y ← idx bs k
        let z ← idx cs k
        let v ← f x y z
        o.write (offset + k) v

/-- `Tensor::map3`, map.rs:99-114. -/
def map3 (a : Tensor T) (b : Tensor U) (c : Tensor V) (f : T → U → V → Exec σ W) : Exec σ (Tensor W) := do
  let s ← a.shape.broadcastTo b.shape
  let shape ← s.broadcastTo c.shape
  map3Shape shape a b c f

/-- `fold`, map.rs:402-424 (`Tensor::from(value)` is the scalar conversion). -/
def fold (t : Tensor U) (init : S) (f : S → U → Exec σ S) (intoResult : S → V) : Exec σ (Tensor V) := do
  let a ← t.asSlice
  let value ← forR 0 t.size init fun i value => do
    let x ← idx a i
    f value x
  fromScalar (intoResult value)

/-- `fold_axis`, map.rs:426-461. -/
def foldAxis (t : Tensor T) (axis : Axis) (init : S) (f : S → T → Exec σ S) (intoResult : S → V) :
    Exec σ (Tensor V) := do
  let (oShape, batch, aLen, inner) ← axis.reduce t.shape
  let oSize ← oShape.size
  unsafeInitM oSize oShape fun o => do
    let a ← t.asSlice
    forR 0 batch o fun n o =>
      forR 0 inner o fun i o => do
        let state ← forR 0 aLen init fun k state => do
          let v ← idx a ((n * aLen + k) * inner + i)
          f state v
        o.write (n * inner + i) (intoResult state)

/-- `fold_row`, map.rs:463-502. -/
def foldRow (t : Tensor T) (axis : Axis) (N : Nat) (init : S) (f : S → List T → Exec σ S)
    (intoResult : S → Vector V N) : Exec σ (Tensor V) := do
  let (oShape, batch, aLen, inner) ← axis.reduceRow t.shape N
  let cols ← t.shape.cols
  let oSize ← oShape.size
  unsafeInitM oSize oShape fun o =>
    forR 0 batch o fun b o =>
      forR 0 inner o fun j o => do
        let state ← forR 0 aLen init fun k state => do
          let offset := (b * aLen + k) * inner + j
          let v ← t.asWrapSliceN (cols * offset) cols
          f state v
        writeRow o ((b * inner + j) * N) (intoResult state).toList

/-- `reduce`, map.rs:526-543. -/
def reduce (t : Tensor T) (f : T → T → Exec σ T) : Exec σ (Tensor T) := do
  let a ← t.asSlice
  let x0 ← idx a 0
  let value ← forR 1 t.size x0 fun i value => do
    let x ← idx a i
    f value x
  fromScalar value

/-- `reduce_axis`, map.rs:545-577. -/
def reduceAxis (t : Tensor T) (axis : Axis) (f : T → T → Exec σ T) : Exec σ (Tensor T) := do
  let (oShape, batch, aLen, inner) ← axis.reduce t.shape
  let oSize ← oShape.size
  unsafeInitM oSize oShape fun o => do
    let a ← t.asSlice
    forR 0 batch o fun n o =>
      forR 0 inner o fun i o => do
        let s0 ← idx a (n * aLen * inner + i + 0 * inner)
        let state ← forR 1 aLen s0 fun k state => do
          let v ← idx a (n * aLen * inner + i + k * inner)
          f state v
        o.write (n * inner + i) state

/-- `normalize`, map.rs:580-629. -/
def normalize (t : Tensor T) (axis : Axis) (init : S) (accum : S → T → Exec σ S) (complete : S → Exec σ S1)
    (norm : S1 → T → Exec σ V) : Exec σ (Tensor V) := do
  let (_, batch, aLen, inner) ← axis.reduce t.shape
  let size ← t.shape.size
  unsafeInitM size t.shape fun o => do
    let a ← t.asSlice
    forR 0 batch o fun n o =>
      forR 0 inner o fun i o => do
        let state ← forR 0 aLen init fun k state => do
          let v ← idx a ((n * aLen + k) * inner + i)
          accum state v
        let state ← complete state
        forR 0 aLen o fun k o => do
          let v ← idx a ((n * aLen + k) * inner + i)
          let w ← norm state v
          o.write ((n * inner + i) * aLen + k) w

end Tensor

end Essay
