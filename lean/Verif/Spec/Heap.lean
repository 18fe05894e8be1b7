import Verif.Model.Heap
import Verif.Spec.Tensor

/-!
# Vocabulary for the ownership properties
-/

namespace Essay

namespace Heap

variable {α : Type}

/-- The contract of `unsafe_init` (data.rs:76-80): the closure writes inside the block and, if it returns, has written every
slot; and there is at least one slot (not in the comment of the code, but required by the allocator it calls). The other
operations are safe functions without a contract. -/
def Op.Contract : Op α → Prop
  | .init len _ writes panics =>
    0 < len ∧ (∀ p ∈ writes, p.1 < len) ∧ (panics = false → ∀ i, i < len → ∃ p ∈ writes, p.1 = i)
  | _ => True

/-- How many live handles use the arc `a`. -/
def World.users (w : World α) (a : Nat) : Nat := w.handles.countP fun h => h.arc == a

/-- How often the element `i` of the block `b` was dropped. -/
def World.dropCount (w : World α) (b i : Nat) : Nat := w.mem.drops.count (b, i)

/-- How often the block `b` was freed. -/
def World.freeCount (w : World α) (b : Nat) : Nat := w.mem.frees.count b

/-- The tensor value (of the model with values) behind a handle. -/
def value (m : Mem α) (h : Handle) : Tensor α :=
  ⟨h.shape, h.offset, h.size, (m.block (m.arc h.arc).inner.data).cells.filterMap fun
    | .live a => some a
    | _ => none⟩

end Heap

end Essay
