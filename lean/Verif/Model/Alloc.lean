import Verif.Model.Shape

/-!
# What is asked of the allocator

The blocks of memory behind tensors, by address and layout, without what is in them (that is Model/Heap): which layouts
are asked for, which are given back, and what happens when there is no memory. Element types have any size, also 0.
-/

namespace Essay

variable [Build]

namespace Alloc

/-- How a program can end here, other than by returning: it is stopped by the standard library (`handle_alloc_error`), or
its behaviour is undefined. Panics are results, since the state after unwinding matters. Not from /repo. -/
inductive Stop where
  | abort
  | ub
deriving DecidableEq, Repr

/-- Size and alignment of a type, in bytes. Not from /repo. -/
structure Ty where
  size : Nat
  align : Nat
deriving DecidableEq, Repr

/-- `Layout` (standard library). -/
structure Layout where
  size : Nat
  align : Nat
deriving DecidableEq, Repr

/-- `Layout::array::<T>(n)` (standard library): an error if the size, rounded up to the alignment, exceeds `isize::MAX`.
-/
def layoutArray (t : Ty) (n : Nat) : Option Layout :=
  if t.size * n + (t.align - 1) < 2 ^ 63 then some ⟨t.size * n, t.align⟩ else none

/-- The type `[T; N]`. Rule of the language, not from /repo. -/
def Ty.array (t : Ty) (N : Nat) : Ty := ⟨t.size * N, t.align⟩

/-- `TensorData`, data.rs:10-13. The address is `none` for the dangling pointer of a box without memory. -/
structure Data where
  addr : Option Nat
  len : Nat
deriving DecidableEq, Repr

/-- The allocator's live blocks, the next unused address, and the `TensorData` in use. Addresses are numbers that are not
used again. Not from /repo. -/
structure State where
  live : List (Nat × Layout)
  next : Nat
  held : List Data
deriving DecidableEq, Repr

/-- No blocks. Not from /repo. -/
def State.start : State := ⟨[], 0, []⟩

/-- `alloc::alloc` (standard library): undefined for size 0; the null pointer (`none`) if the allocator refuses. -/
def alloc (l : Layout) (granted : Bool) (s : State) : Except Stop (Option Nat × State) :=
  if l.size = 0 then .error .ub
  else if granted then .ok (some s.next, { s with live := (s.next, l) :: s.live, next := s.next + 1 })
  else .ok (none, s)

/-- `alloc::dealloc` (standard library): undefined unless the block is live and was allocated with this very layout. -/
def dealloc (a : Nat) (l : Layout) (s : State) : Except Stop State :=
  if (a, l) ∈ s.live then .ok { s with live := s.live.erase (a, l) } else .error .ub

/-- A box of `n` elements, as made by `Vec::into_boxed_slice` (standard library): panics (`none`) if the size is too large,
owns no memory if it is 0, stops the program if there is no memory. The inner `none` is the dangling pointer. -/
def newBox (t : Ty) (n : Nat) (granted : Bool) (s : State) : Except Stop (Option (Option Nat) × State) :=
  match layoutArray t n with
  | none => .ok (none, s)
  | some l =>
    if l.size = 0 then .ok (some none, s) else do
      let r ← alloc l granted s
      match r.1 with
      | none => .error .abort
      | some a => return (some (some a), r.2)

/-- `drop(Box::<[T]>::from_raw(..))` (standard library): the memory of a slice of `n` elements is given back with the layout
of such a slice; nothing is given back if the size is 0. Undefined for slices that are too large or pointers without
memory. -/
def dropBox (t : Ty) (addr : Option Nat) (n : Nat) (s : State) : Except Stop State :=
  match layoutArray t n with
  | none => .error .ub
  | some l =>
    if l.size = 0 then .ok s else
      match addr with
      | none => .error .ub
      | some a => dealloc a l s

/-- `Drop for TensorData`, data.rs:61-69. -/
def dropData (t : Ty) (d : Data) (s : State) : Except Stop State := dropBox t d.addr d.len s

/-- `Tensor::new`, tensor.rs:32-44: `data` is dropped when an assertion panics (or `Shape::size` does). -/
def tensorNew (t : Ty) (d : Data) (shape : Shape) (s : State) : Except Stop State :=
  match shape.size with
  | .ok n => if n = d.len then .ok { s with held := s.held ++ [d] } else dropData t d s
  | .error _ => dropData t d s

/-- `TensorData::from_boxed_slice`, data.rs:22-33, of a box of `n` elements that was just made. -/
def fromBoxedSlice (t : Ty) (n : Nat) (shape : Shape) (granted : Bool) (s : State) : Except Stop State := do
  let r ← newBox t n granted s
  match r.1 with
  | none => return r.2
  | some addr => tensorNew t ⟨addr, n⟩ shape r.2

/-- `TensorData::from_boxed_rows`, data.rs:36-50, of a box of `n` rows of `N` elements that was just made: the pointer is
cast and the length is the product, which panics if it overflows (then the box is still a box of rows and is dropped as
one). -/
def fromBoxedRows (t : Ty) (N n : Nat) (shape : Shape) (granted : Bool) (s : State) : Except Stop State := do
  let r ← newBox (t.array N) n granted s
  match r.1 with
  | none => return r.2
  | some addr =>
    if n * N < 2 ^ 64 then tensorNew t ⟨addr, n * N⟩ shape r.2
    else dropBox (t.array N) addr n r.2

/-- `unsafe_init`, data.rs:81-98: the layout is computed (`unwrap` panics if it is too large) and asked for; the pointer is
not checked, so `NonNull::new_unchecked` is undefined when there is no memory. `panics`: whether the closure does. What it
writes is in Model/Heap. -/
def unsafeInit (t : Ty) (len : Nat) (shape : Shape) (panics granted : Bool) (s : State) : Except Stop State :=
  match layoutArray t len with
  | none => .ok s
  | some l => do
    let r ← alloc l granted s
    match r.1 with
    | none => .error .ub
    | some a => if panics then return r.2 else tensorNew t ⟨some a, len⟩ shape r.2

/-- What a program does to buffers. `dropped i` is the end of the last reference to the `i`-th `TensorData` in use (when
that is, is in Model/Heap). `granted`: whether the allocator has memory. Not from /repo. -/
inductive Op where
  | box (n : Nat) (shape : Shape) (granted : Bool)
  | rows (N n : Nat) (shape : Shape) (granted : Bool)
  | init (len : Nat) (shape : Shape) (panics granted : Bool)
  | dropped (i : Nat)

/-- One operation. Not from /repo. -/
def step (t : Ty) (s : State) : Op → Except Stop State
  | .box n shape granted => fromBoxedSlice t n shape granted s
  | .rows N n shape granted => fromBoxedRows t N n shape granted s
  | .init len shape panics granted => unsafeInit t len shape panics granted s
  | .dropped i =>
    match s.held[i]? with
    | some d => dropData t d { s with held := s.held.eraseIdx i }
    | none => .ok s

/-- A program, from the start. Not from /repo. -/
def run (t : Ty) (ops : List Op) : Except Stop State := ops.foldlM (step t) .start

end Alloc

end Essay
