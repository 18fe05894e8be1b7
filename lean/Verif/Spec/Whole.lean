import Mathlib.Algebra.Order.Ring.Abs
import Mathlib.Algebra.Order.Field.Basic
import Verif.Spec.Float

/-!
# Numbers on which a float format computes without error

The whole numbers of a format, and more generally the multiples `n * q` of a power of two: as long as `n` stays small
they are all values of the format.
-/

namespace Essay

/-- The rounding leaves `n * q` alone for every whole number `n` of magnitude at most `N`. -/
def ExactOn {K : Type} [Field K] (rnd : K → K) (q : K) (N : Int) : Prop :=
  ∀ n : Int, |n| ≤ N → rnd (n * q) = n * q

/-- The list of the multiples of `q` given by whole numbers. -/
def multiples {K : Type} [Field K] (q : K) (ns : List Int) : List K := ns.map fun n : Int => (n : K) * q

end Essay
