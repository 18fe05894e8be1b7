/-!
# Which threads may use a tensor

The auto traits of the types behind a tensor. The traits a type implements decide which values the compiler lets a program
hand to another thread. Reference counting itself is in Model/Heap.
-/

namespace Essay

namespace Sharing

/-- The auto traits `Send` and `Sync` of a type. Not from /repo. -/
structure Traits where
  send : Prop
  sync : Prop

/-- Numbers and arrays of numbers. Rule of the language, not from /repo. -/
def Traits.plain : Traits := ⟨True, True⟩

/-- A structure without explicit `impl`s: it has the traits all of its fields have. Rule of the language, not from /repo. -/
def Traits.struct (fields : List Traits) : Traits := ⟨∀ f ∈ fields, f.send, ∀ f ∈ fields, f.sync⟩

/-- `Arc<T>`: `Send` and `Sync` if `T` is both. Standard library, not from /repo. -/
def Traits.arc (t : Traits) : Traits := ⟨t.send ∧ t.sync, t.send ∧ t.sync⟩

/-- `&T`: `Send` and `Sync` if `T` is `Sync`. Rule of the language, not from /repo. -/
def Traits.ref (t : Traits) : Traits := ⟨t.sync, t.sync⟩

/-- `TensorData<T>`, data.rs:10-13 with the explicit `impl`s of data.rs:73-75 (its field `NonNull<T>` has neither trait). -/
def tensorData (t : Traits) : Traits := ⟨t.send, t.sync⟩

/-- `Shape`, shape.rs:6-10. -/
def shape : Traits := .struct [.plain, .plain]

/-- `Tensor<T>`, tensor.rs:10-16: the fields `shape`, `offset`, `size`, `data`. -/
def tensor (t : Traits) : Traits := .struct [shape, .plain, .plain, (tensorData t).arc]

/-- A value through which a thread can reach the elements of the buffer `b`: a tensor, a reference to a tensor (`&Tensor<T>`),
or a reference to the elements (`&[T]`, from tensor.rs:74-82 `as_slice` and 263-269 `Deref`). -/
inductive Thing where
  | tensor (b : Nat)
  | tensorRef (b : Nat)
  | elems (b : Nat)
  deriving DecidableEq, Repr

/-- The traits of the type of a thing, if those of the element type are `t`. A slice has the traits of its elements. -/
def Thing.traits (t : Traits) : Thing → Traits
  | .tensor _ => Sharing.tensor t
  | .tensorRef _ => (Sharing.tensor t).ref
  | .elems _ => t.ref

/-- The buffer a thing gives access to. -/
def Thing.buffer : Thing → Nat
  | .tensor b => b
  | .tensorRef b => b
  | .elems b => b

/-- What happened to the elements of a buffer, in which thread. -/
inductive Event where
  | made (b tid : Nat)
  | read (b tid : Nat)
  | dropped (b tid : Nat)
  deriving DecidableEq, Repr

/-- A program with any number of threads: the things each thread holds, the events so far, and the number of buffers made.
References may outlive what they refer to (the compiler does not allow it), so there are more histories here than in real
programs. -/
structure World where
  held : List (Nat × Thing)
  log : List Event
  next : Nat

/-- One step of some thread, if the traits of the element type are `t`. -/
inductive Step (t : Traits) : World → World → Prop
  /-- A thread makes a tensor (data.rs:21-34, 37-50, 82-98): its elements are moved into, or written to, the buffer there. -/
  | make (w : World) (tid : Nat) :
      Step t w ⟨w.held ++ [(tid, .tensor w.next)], w.log ++ [.made w.next tid], w.next + 1⟩
  /-- A thread clones, views or reshapes a tensor it holds or has a reference to (tensor.rs:271-282, 141-158). -/
  | clone (w : World) {tid b : Nat} (h : (tid, .tensor b) ∈ w.held ∨ (tid, .tensorRef b) ∈ w.held) :
      Step t w { w with held := w.held ++ [(tid, .tensor b)] }
  /-- A thread borrows a tensor it holds. -/
  | borrow (w : World) {tid b : Nat} (h : (tid, .tensor b) ∈ w.held) :
      Step t w { w with held := w.held ++ [(tid, .tensorRef b)] }
  /-- A thread borrows the elements of a tensor it holds or has a reference to. -/
  | elems (w : World) {tid b : Nat} (h : (tid, .tensor b) ∈ w.held ∨ (tid, .tensorRef b) ∈ w.held) :
      Step t w { w with held := w.held ++ [(tid, .elems b)] }
  /-- References are copied. -/
  | copy (w : World) {tid : Nat} {x : Thing} (h : (tid, x) ∈ w.held) (hx : ∀ b, x ≠ .tensor b) :
      Step t w { w with held := w.held ++ [(tid, x)] }
  /-- A thing goes to another thread, which the compiler allows if its type is `Send`. -/
  | move (w : World) {tid : Nat} {x : Thing} (h : (tid, x) ∈ w.held) (hs : (x.traits t).send) (to : Nat) :
      Step t w { w with held := w.held.erase (tid, x) ++ [(to, x)] }
  /-- A thread reads elements. -/
  | read (w : World) {tid b : Nat} (h : (tid, .elems b) ∈ w.held) :
      Step t w { w with log := w.log ++ [.read b tid] }
  /-- A reference goes away. -/
  | release (w : World) {tid : Nat} {x : Thing} (h : (tid, x) ∈ w.held) (hx : ∀ b, x ≠ .tensor b) :
      Step t w { w with held := w.held.erase (tid, x) }
  /-- A tensor is dropped and others share its buffer. -/
  | drop (w : World) {tid b : Nat} (h : (tid, .tensor b) ∈ w.held)
      (hl : ∃ j, (j, .tensor b) ∈ w.held.erase (tid, .tensor b)) :
      Step t w { w with held := w.held.erase (tid, .tensor b) }
  /-- The last tensor of a buffer is dropped: its elements are dropped in that thread (data.rs:63-71). -/
  | dropLast (w : World) {tid b : Nat} (h : (tid, .tensor b) ∈ w.held)
      (hl : ∀ j, (j, .tensor b) ∉ w.held.erase (tid, .tensor b)) :
      Step t w ⟨w.held.erase (tid, .tensor b), w.log ++ [.dropped b tid], w.next⟩

/-- The worlds a program can reach. -/
inductive Reach (t : Traits) : World → Prop
  | start : Reach t ⟨[], [], 0⟩
  | step {w w' : World} : Reach t w → Step t w w' → Reach t w'

end Sharing

end Essay
