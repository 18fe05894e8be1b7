import Verif.Model.Map

/-!
# Model of the implementation prepared for `Tensor::map2_row`

`_map2_row` of `src/tensor/map.rs` is private and nothing calls it: `Tensor::map2_row` ends in `todo!()` before it would.
-/

namespace Essay

variable [Build]

namespace Tensor

variable {σ T U V : Type}

/-- `_map2_row`, map.rs:316-359. The const parameters `L` and `M` are not used there. -/
def map2RowPrepared (shape : Shape) (a : Tensor T) (aCols : Nat) (b : Tensor U) (bCols N : Nat)
    (f : List T → List U → Exec σ (Vector V N)) : Exec σ (Tensor V) := do
  let aSize ← udiv a.size aCols
  ensure (aSize * aCols = a.size)
  let bSize ← udiv b.size bCols
  ensure (bSize * bCols = b.size)
  let size := max aSize bSize
  let inner := min aSize bSize
  let batch ← udiv size inner
  ensure (batch * inner = size)
  unsafeInitM size shape fun o =>
    forR 0 batch o fun n o => do
      let offset := n * inner
      forR 0 inner o fun k o => do
        let ra ← a.asWrapSliceN (aCols * (offset + k)) aCols
        let rb ← b.asWrapSliceN (bCols * (offset + k)) bCols
        let value ← f ra rb
        writeRow o (offset + k * N) value.toList

end Tensor

end Essay
