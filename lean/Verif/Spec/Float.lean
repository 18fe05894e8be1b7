import Mathlib.Algebra.Order.Field.Basic
import Mathlib.Analysis.SpecialFunctions.Pow.Real
import Verif.Model.Float

/-!
# Arithmetics the numeric theorems are stated for
-/

namespace Essay

namespace FOps

/-- Exact arithmetic of an ordered field; the transcendental functions are arbitrary. -/
def exact {K : Type} [Field K] [LinearOrder K] (ln exp sqrt : K → K) (powf : K → K → K) : FOps K :=
  ⟨0, 1, (· + ·), (· - ·), (· * ·), (· / ·), (fun n => (n : K)), (fun x y => decide (x = y)),
    (fun x y => decide (x < y)), (fun x y => decide (x ≤ y)), ln, exp, sqrt, powf⟩

/-- Exact real arithmetic with the mathematical functions. -/
noncomputable def real : FOps ℝ := exact Real.log Real.exp Real.sqrt (fun x y => x ^ y)

/-- Arithmetic with rounding: every operation computes exactly and then rounds with `rnd`. With `rnd` the rounding of
a binary format this is the behaviour of the format's operations on finite values that do not overflow. -/
def rounded {K : Type} [Field K] [LinearOrder K] (rnd : K → K) (ln exp sqrt : K → K) (powf : K → K → K) : FOps K :=
  ⟨0, 1, (fun x y => rnd (x + y)), (fun x y => rnd (x - y)), (fun x y => rnd (x * y)), (fun x y => rnd (x / y)),
    (fun n => rnd (n : K)), (fun x y => decide (x = y)), (fun x y => decide (x < y)), (fun x y => decide (x ≤ y)),
    ln, exp, sqrt, powf⟩

end FOps

/-- `rnd` rounds to a set of representable numbers: it keeps the order and leaves representable numbers alone. -/
structure IsRounding {K : Type} [Preorder K] (representable : K → Prop) (rnd : K → K) : Prop where
  mono : ∀ x y, x ≤ y → rnd x ≤ rnd y
  fixed : ∀ x, representable x → rnd x = x
  closed : ∀ x, representable (rnd x)

end Essay
