import Verif.Model.Shape

/-!
# Specification vocabulary for shapes

`s.WF` is the representation invariant of the shapes an API user can build: six slots, rank at most six, unused slots
zero, entries are `u32`. `s.toDims` is the abstract value: the list of dimensions, outermost first.
-/

namespace Essay

namespace Shape

/-- The dimensions of a shape, outermost first. -/
def toDims (s : Shape) : List Nat := (s.dims.take s.rank).reverse

/-- Representation invariant. -/
structure WF (s : Shape) : Prop where
  len : s.dims.length = 6
  rank_le : s.rank ≤ 6
  tail : ∀ i, s.rank ≤ i → i < 6 → s.dims[i]? = some 0
  lt : ∀ d ∈ s.dims, d < 4294967296

/-- The canonical storage of a dimension list given innermost first. -/
def ofRev (l : List Nat) : Shape := { dims := l ++ List.replicate (6 - l.length) 0, rank := l.length }

/-- The shape storing the dimensions `ds` (outermost first). -/
def ofDims (ds : List Nat) : Shape := ofRev ds.reverse

end Shape

end Essay
