import Verif.Model.Tensor

/-!
# Builds without overflow checks

The release versions of `Shape::size` and of the constructors that check it.
-/

namespace Essay

/-- `Shape::size` in a release build, shape.rs:37-39. -/
def Shape.sizeRelease (s : Shape) : Res Nat := @Shape.size .release s

/-- `Tensor::new` in a release build, tensor.rs:32-44 (also `from_vec`, `from_box`, 24-30). -/
def Tensor.newRelease {α : Type} (data : List α) (shape : Shape) : Res (Tensor α) := @Tensor.new .release α data shape

end Essay
