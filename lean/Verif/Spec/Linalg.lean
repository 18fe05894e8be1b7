import Verif.Spec.Tensor
import Verif.Model.Linalg

/-!
# Specification vocabulary for matrix products
-/

namespace Essay

namespace Linalg

/-- Whether the left operand is read transposed. -/
def Transpose.left : Transpose → Bool
  | .transposeA | .transposeAB => true
  | _ => false

/-- Whether the right operand is read transposed. -/
def Transpose.right : Transpose → Bool
  | .transposeB | .transposeAB => true
  | _ => false

/-- A pair (of dimensions, or of row and column), swapped when the matrix is read transposed. -/
def flip (t : Bool) (i j : Nat) : List Nat := if t then [j, i] else [i, j]

/-- The scalar product of a list of pairs of factors: products added from the left, starting at zero, then multiplied by
the scale factor one. -/
def dot {F : Type} (fo : FOps F) (ps : List (F × F)) : F :=
  fo.mul fo.one (ps.foldl (fun v p => fo.add v (fo.mul p.1 p.2)) fo.zero)

/-- What an implementation of `sgemm` stores at row `i`, column `j` of an `m x n` product, given the `k` pairs of
factors: for the simple loops their scalar product. -/
def Blas.entry {F : Type} (bl : Blas F) (m k n i j : Nat) (ps : List (F × F)) : F :=
  match bl with
  | .naive fo => dot fo ps
  | .library one ke => ke m k n i j one ps

end Linalg

end Essay
