import Mathlib.Algebra.BigOperators.Group.List.Basic
import Mathlib.Data.Int.ModEq
import Verif.Spec.Stats
import Verif.Spec.Ops

/-!
# Specification vocabulary for sums and products
-/

namespace Essay

/-- Integer arithmetic of a type with the values `lo .. hi` and overflow checks: an operation whose exact result is
outside panics. -/
def checkedOp (lo hi : Int) (f : Int → Int → Int) (x y : Int) : Res Int :=
  if lo ≤ f x y ∧ f x y ≤ hi then .ok (f x y) else .error .panic

/-- Wrapping arithmetic of an unsigned type with `m` values (`m` is a power of two), as in a release build. -/
def wrappingOp (m : Nat) (f : Int → Int → Int) (x y : Int) : Res Int := .ok (f x y % m)

end Essay
