import Mathlib.Data.List.Perm.Basic
import Verif.Spec.Linalg

/-!
# What is assumed of the values computed by the matrix library

Matrix libraries add the products of an entry in an order of their own: in blocks, in several accumulators, with or
without fused multiply-adds. `Evaluates fo fma ps v` says that `v` is the value of some such computation.
-/

namespace Essay

namespace Linalg

variable {F : Type}

/-- `v` is the sum of the products of the pairs `ps`, computed with the operations of `fo` and the fused multiply-add
`fma x y z = x * y + z`: each product is used once, in any order; zeros may be added and sums multiplied by one. -/
inductive Evaluates (fo : FOps F) (fma : F → F → F → F) : List (F × F) → F → Prop where
  | zero : Evaluates fo fma [] fo.zero
  | mul (x y : F) : Evaluates fo fma [(x, y)] (fo.mul x y)
  | swapped (x y : F) : Evaluates fo fma [(x, y)] (fo.mul y x)
  | fused {ps v} (x y : F) : Evaluates fo fma ps v → Evaluates fo fma ((x, y) :: ps) (fma x y v)
  | add {ps qs v w} : Evaluates fo fma ps v → Evaluates fo fma qs w → Evaluates fo fma (ps ++ qs) (fo.add v w)
  | scale {ps v} : Evaluates fo fma ps v → Evaluates fo fma ps (fo.mul fo.one v)
  | fusedScale {ps qs v w} : Evaluates fo fma ps v → Evaluates fo fma qs w →
      Evaluates fo fma (ps ++ qs) (fma fo.one v w)
  | perm {ps qs v} : ps.Perm qs → Evaluates fo fma ps v → Evaluates fo fma qs v

/-- Every entry is such a sum of the products of its row and its column. -/
def Blas.Sums (bl : Blas F) (fo : FOps F) (fma : F → F → F → F) : Prop :=
  ∀ m k n i j ps, i < m → j < n → ps.length = k → Evaluates fo fma ps (bl.entry m k n i j ps)

end Linalg

end Essay
