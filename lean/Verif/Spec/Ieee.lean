import Mathlib.Data.Int.Log
import Mathlib.Algebra.Order.Round
import Verif.Spec.Float

/-!
# Rounding to a binary floating point format

The concrete rounding the numeric theorems are instantiated with: round to nearest, ties to even, with precision `p` and
smallest exponent `emin` (so with gradual underflow), without an upper bound of the exponent (no overflow).
`binary32` is `p = 24`, `emin = -149`; `binary64` is `p = 53`, `emin = -1074`.
-/

namespace Essay

namespace Ieee

variable {K : Type} [Field K] [LinearOrder K] [IsStrictOrderedRing K] [FloorRing K]

/-- The nearest integer, the even one of two. -/
def nearestEven (x : K) : Int :=
  if x - ⌊x⌋ < 1 / 2 then ⌊x⌋
  else if 1 / 2 < x - ⌊x⌋ then ⌊x⌋ + 1
  else if Even ⌊x⌋ then ⌊x⌋ else ⌊x⌋ + 1

/-- Exponent of the unit in the last place of `x ≥ 0`. -/
def ulpExp (p : Nat) (emin : Int) (x : K) : Int := max (Int.log 2 x + 1 - p) emin

/-- Rounding of `x ≥ 0`. -/
def roundPos (p : Nat) (emin : Int) (x : K) : K :=
  nearestEven (x / (2 : K) ^ ulpExp p emin x) * (2 : K) ^ ulpExp p emin x

/-- Round to nearest, ties to even. -/
def round (p : Nat) (emin : Int) (x : K) : K := if x < 0 then - roundPos p emin (-x) else roundPos p emin x

/-- The numbers of the format: integer significands below `2^p`, exponents from `emin` on. -/
def Representable (p : Nat) (emin : Int) (x : K) : Prop :=
  ∃ m e : Int, |m| < 2 ^ p ∧ emin ≤ e ∧ x = m * (2 : K) ^ e

/-- Rounding to `f32` and to `f64`, as long as nothing overflows. -/
def f32 : K → K := round 24 (-149)
def f64 : K → K := round 53 (-1074)

end Ieee

/-- What the theorems about rounded arithmetic use of a format with gradual underflow: monotone rounding to a symmetric
set of numbers, relative error at most `u` from the smallest normal number `tau` on, absolute error at most `u * tau`
below, and differences that are at most `tau` are exact. -/
structure IsFormat {K : Type} [Field K] [LinearOrder K] (representable : K → Prop) (rnd : K → K) (u tau : K) : Prop
    extends IsRounding representable rnd where
  neg : ∀ x, representable x → representable (-x)
  zero : representable 0
  one : representable 1
  two : representable 2
  u_nonneg : 0 ≤ u
  u_le : u ≤ 1 / 4
  tau_pos : 0 < tau
  tau_rep : representable tau
  sub : ∀ x y, representable x → representable y → |x - y| ≤ tau → representable (x - y)
  rel : ∀ x, tau ≤ |x| → |rnd x - x| ≤ u * |x|
  abs : ∀ x, |x| ≤ tau → |rnd x - x| ≤ u * tau

end Essay
