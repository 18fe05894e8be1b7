import Mathlib.Algebra.BigOperators.Group.List.Basic
import Mathlib.Algebra.Order.Floor.Defs
import Verif.Spec.Float
import Verif.Model.Stats

/-!
# Specification vocabulary for statistics
-/

namespace Essay

/-- The comparisons of `fo` order its values as `key` says; values without a key are NaN. For IEEE floats `key` is the
number (or infinity) a float stands for. -/
structure IsFloatOrder {F K : Type} [LinearOrder K] (fo : FOps F) (key : F → Option K) : Prop where
  eq_iff : ∀ x y, fo.eq x y = true ↔ ∃ k, key x = some k ∧ key y = some k
  lt_iff : ∀ x y, fo.lt x y = true ↔ ∃ j k, key x = some j ∧ key y = some k ∧ j < k

/-- `v` is an element of `xs`, and below every element of `xs` that is not NaN; so it is NaN only if all are. -/
def LeastOf {F K : Type} [LE K] (key : F → Option K) (xs : List F) (v : F) : Prop :=
  v ∈ xs ∧ ∀ x ∈ xs, ∀ k, key x = some k → ∃ j, key v = some j ∧ j ≤ k

/-- `v` is an element of `xs`, and above every element of `xs` that is not NaN. -/
def GreatestOf {F K : Type} [LE K] (key : F → Option K) (xs : List F) (v : F) : Prop :=
  v ∈ xs ∧ ∀ x ∈ xs, ∀ k, key x = some k → ∃ j, key v = some j ∧ k ≤ j

/-- Arithmetic mean. -/
def mean {K : Type} [Field K] (xs : List K) : K := xs.sum / xs.length

/-- Population variance. -/
def variance {K : Type} [Field K] (xs : List K) : K := (xs.map fun x => (x - mean xs) ^ 2).sum / xs.length

end Essay
