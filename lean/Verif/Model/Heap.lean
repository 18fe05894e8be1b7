import Verif.Model.Tensor

/-!
# Model of the ownership of buffers: `src/tensor/data.rs`, `Clone`, `subslice_flat`, `reshape`

The other model files treat a tensor as a value containing its whole buffer. Here memory is explicit: blocks that are
allocated and freed, elements that are dropped, reference counts, handles. Panics are modelled with their unwinding:
a function returns `(none, heap)` when it panicked and left `heap` behind.
-/

namespace Essay

variable [Build]

namespace Heap

variable {α : Type}

/-- A slot of an allocated block. Not from /repo. -/
inductive Cell (α : Type) where
  | uninit
  | live (a : α)
  | gone
  deriving Repr

/-- Whether a slot holds a value that has not been dropped. -/
def Cell.isLive : Cell α → Bool
  | .live _ => true
  | _ => false

/-- Reading a slot: undefined if it holds no live value. -/
def Cell.read : Cell α → Res α
  | .live a => .ok a
  | _ => .error .ub

/-- An allocated block. Not from /repo. -/
structure Block (α : Type) where
  cells : List (Cell α)
  freed : Bool

/-- `TensorData`, data.rs:10-13: the address (number of the block) and the length. -/
structure Data where
  data : Nat
  len : Nat

/-- What an `Arc<TensorData>` points to: the strong count and the data (standard library). -/
structure ArcInner where
  strong : Nat
  inner : Data

/-- Memory: the blocks and the arcs allocated so far, and a log of the elements dropped (block, position) and of the
blocks freed. Not from /repo. -/
structure Mem (α : Type) where
  nBlocks : Nat
  block : Nat → Block α
  nArcs : Nat
  arc : Nat → ArcInner
  drops : List (Nat × Nat)
  frees : List Nat

/-- Empty memory. -/
def Mem.empty : Mem α := ⟨0, fun _ => ⟨[], false⟩, 0, fun _ => ⟨0, ⟨0, 0⟩⟩, [], []⟩

/-- A `Tensor` with its `Arc`, tensor.rs:10-16. -/
structure Handle where
  shape : Shape
  offset : Nat
  size : Nat
  arc : Nat

/-- `f` changed at one place. -/
def put {β : Type} (f : Nat → β) (i : Nat) (v : β) : Nat → β := fun j => if j = i then v else f j

/-- A new block with the given slots (`alloc`, or the block of a `Box<[T]>`). -/
def alloc (cells : List (Cell α)) (m : Mem α) : Nat × Mem α :=
  (m.nBlocks, { m with nBlocks := m.nBlocks + 1, block := put m.block m.nBlocks ⟨cells, false⟩ })

/-- `p.add(i).write(v)`: does not drop the old value. Undefined outside the block or after it was freed. -/
def write (b i : Nat) (v : α) (m : Mem α) : Res (Mem α) :=
  if b < m.nBlocks ∧ (m.block b).freed = false ∧ i < (m.block b).cells.length then
    .ok { m with block := put m.block b ⟨(m.block b).cells.set i (.live v), false⟩ }
  else .error .ub

/-- `Drop for TensorData`, data.rs:61-69: `drop(Box::from_raw(slice))` drops the elements and frees the block. Undefined
if the block was freed before, has another length, or has a slot without a live value. -/
def dropData (d : Data) (m : Mem α) : Res (Mem α) :=
  if d.data < m.nBlocks ∧ (m.block d.data).freed = false ∧ (m.block d.data).cells.length = d.len ∧
      (m.block d.data).cells.all Cell.isLive then
    .ok { m with
      block := put m.block d.data ⟨List.replicate d.len .gone, true⟩
      drops := m.drops ++ (List.range d.len).map fun i => (d.data, i)
      frees := m.frees ++ [d.data] }
  else .error .ub

/-- `Arc::new` (standard library). -/
def arcNew (d : Data) (m : Mem α) : Nat × Mem α :=
  (m.nArcs, { m with nArcs := m.nArcs + 1, arc := put m.arc m.nArcs ⟨1, d⟩ })

/-- `Arc::clone` (standard library): `fetch_add` on the strong count. Undefined if the arc was destroyed. -/
def arcClone (a : Nat) (m : Mem α) : Res (Mem α) :=
  if a < m.nArcs ∧ 0 < (m.arc a).strong then
    .ok { m with arc := put m.arc a ⟨(m.arc a).strong + 1, (m.arc a).inner⟩ }
  else .error .ub

/-- The first half of `Arc::drop` (standard library): `fetch_sub` on the strong count; `true` if it was the last. -/
def arcRelease (a : Nat) (m : Mem α) : Res (Bool × Mem α) :=
  if a < m.nArcs ∧ 0 < (m.arc a).strong then
    .ok ((m.arc a).strong = 1, { m with arc := put m.arc a ⟨(m.arc a).strong - 1, (m.arc a).inner⟩ })
  else .error .ub

/-- `Tensor::new`, tensor.rs:32-44, with `data` owned by the function: it is dropped when an assertion panics. -/
def tensorNew (d : Data) (shape : Shape) (m : Mem α) : Res (Option Handle × Mem α) :=
  match shape.size with
  | .ok n =>
    if n = d.len then
      let r := arcNew d m
      .ok (some ⟨shape, 0, d.len, r.1⟩, r.2)
    else do
      let m ← dropData d m
      return (none, m)
  | .error .panic => do
    let m ← dropData d m
    return (none, m)
  | .error .ub => .error .ub

/-- `TensorData::from_boxed_slice`, data.rs:22-33 (and `from_boxed_rows`, data.rs:36-50, whose block of `[[T; N]]` has the
same layout): the boxed values become the buffer. (An empty box has no memory; here it is a block without slots.) -/
def fromBoxedSlice (xs : List α) (shape : Shape) (m : Mem α) : Res (Option Handle × Mem α) :=
  let r := alloc (xs.map .live) m
  tensorNew ⟨r.1, xs.length⟩ shape r.2

/-- `unsafe_init`, data.rs:81-98. The closure is modelled by the writes it performs and whether it panics after them; then
the block is not freed (`NonNull` has no destructor). `alloc::alloc` with a layout of size 0 is undefined (contract of
`GlobalAlloc::alloc`); elements are taken to have a size above 0, and memory not to run out (Model/Alloc has
both). -/
def unsafeInit (len : Nat) (shape : Shape) (writes : List (Nat × α)) (panics : Bool) (m : Mem α) :
    Res (Option Handle × Mem α) := if len = 0 then .error .ub else do
  let r := alloc (List.replicate len .uninit) m
  let m ← writes.foldlM (fun m w => write r.1 w.1 w.2 m) r.2
  if panics then return (none, m) else tensorNew ⟨r.1, len⟩ shape m

/-- `Clone for Tensor`, tensor.rs:271-282. -/
def clone (h : Handle) (m : Mem α) : Res (Option Handle × Mem α) := do
  let m ← arcClone h.arc m
  return (some h, m)

/-- `Tensor::subslice_flat`, tensor.rs:141-158. -/
def subsliceFlat (h : Handle) (offset len : Nat) (shape : Shape) (m : Mem α) : Res (Option Handle × Mem α) :=
  if offset ≤ h.size ∧ offset + len ≤ h.size then
    match shape.size with
    | .ok n =>
      if n = len ∨ n = 0 ∧ len = 1 then do
        let m ← arcClone h.arc m
        return (some ⟨shape, h.offset + offset, len, h.arc⟩, m)
      else return (none, m)
    | .error .panic => return (none, m)
    | .error .ub => .error .ub
  else return (none, m)

/-- `Tensor::reshape`, shape.rs:526-534; `none` when it panics (then `self` is dropped by the caller of this model). -/
def reshape (h : Handle) (shape : Shape) : Res (Option Handle) :=
  match shape.size with
  | .ok n => return if n = h.size then some { h with shape } else none
  | .error .panic => return none
  | .error .ub => .error .ub

/-- `Tensor::as_slice`, tensor.rs:74-82: the elements seen through a handle. Undefined if the block was freed, the range is
outside it, or an element is not live. -/
def asSlice (h : Handle) (m : Mem α) : Res (List α) :=
  let d := (m.arc h.arc).inner
  if h.arc < m.nArcs ∧ d.data < m.nBlocks ∧ (m.block d.data).freed = false ∧
      h.offset + h.size ≤ (m.block d.data).cells.length then
    (((m.block d.data).cells.drop h.offset).take h.size).mapM Cell.read
  else .error .ub

/-! ### Histories -/

/-- A program state: memory, the live handles (in any threads), and the arcs whose count has reached zero but whose
destructor has not run yet. Not from /repo. -/
structure World (α : Type) where
  mem : Mem α
  handles : List Handle
  pending : List Nat

/-- What a program can do, in any order and from any thread. An operation naming a handle that does not exist does nothing.
All tensors of the crate are made by `from_boxed_slice`, `from_boxed_rows`, `unsafe_init`, `Clone`, `subslice_flat` and
`reshape`. Not from /repo. -/
inductive Op (α : Type) where
  | fromBox (xs : List α) (shape : Shape)
  | init (len : Nat) (shape : Shape) (writes : List (Nat × α)) (panics : Bool)
  | clone (i : Nat)
  | view (i offset len : Nat) (shape : Shape)
  | reshape (i : Nat) (shape : Shape)
  | drop (i : Nat)
  | destroy (j : Nat)

/-- Adds the handle if the call returned one. -/
def World.add (w : World α) (r : Option Handle × Mem α) : World α :=
  { w with mem := r.2, handles := w.handles ++ r.1.toList }

/-- The first half of dropping the handle at position `i`. -/
def World.release (w : World α) (i : Nat) (h : Handle) : Res (World α) := do
  let r ← arcRelease h.arc w.mem
  return ⟨r.2, w.handles.eraseIdx i, if r.1 then w.pending ++ [h.arc] else w.pending⟩

/-- One operation. -/
def step (w : World α) : Op α → Res (World α)
  | .fromBox xs shape => do
    let r ← fromBoxedSlice xs shape w.mem
    return w.add r
  | .init len shape writes panics => do
    let r ← unsafeInit len shape writes panics w.mem
    return w.add r
  | .clone i =>
    match w.handles[i]? with
    | some h => do
      let r ← clone h w.mem
      return w.add r
    | none => .ok w
  | .view i offset len shape =>
    match w.handles[i]? with
    | some h => do
      let r ← subsliceFlat h offset len shape w.mem
      return w.add r
    | none => .ok w
  | .reshape i shape =>
    match w.handles[i]? with
    | some h => do
      match ← reshape h shape with
      | some h' => return { w with handles := w.handles.set i h' }
      | none => w.release i h
    | none => .ok w
  | .drop i =>
    match w.handles[i]? with
    | some h => w.release i h
    | none => .ok w
  | .destroy j =>
    match w.pending[j]? with
    | some a => do
      let m ← dropData (w.mem.arc a).inner w.mem
      return { w with mem := m, pending := w.pending.eraseIdx j }
    | none => .ok w

/-- A history, from the empty program state. -/
def run (ops : List (Op α)) : Res (World α) := ops.foldlM step ⟨Mem.empty, [], []⟩

end Heap

end Essay
