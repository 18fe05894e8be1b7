import Mathlib.Analysis.SpecialFunctions.Complex.Circle
import Mathlib.Analysis.SpecialFunctions.Trigonometric.Basic
import Mathlib.Algebra.BigOperators.Group.Finset.Basic
import Verif.Model.Signal
import Verif.Spec.Float

/-!
# Fourier coefficients
-/

namespace Essay

/-- `e^(2 π i m / n)`: the point after `m` of `n` equal steps around the unit circle. -/
noncomputable def turn (n : Nat) (m : ℤ) : ℂ := Complex.exp (2 * Real.pi * Complex.I * (m / n))

/-- The `k`-th Fourier coefficient of a list of complex samples: `∑ⱼ xⱼ e^(-2 π i j k / n)`. -/
noncomputable def coefficient (zs : List ℂ) (k : ℤ) : ℂ :=
  ∑ j ∈ Finset.range zs.length, zs.getD j 0 * turn zs.length (-(j * k))

/-- The `k`-th Fourier coefficient of a list of real samples. -/
noncomputable def realCoefficient (xs : List ℝ) (k : ℤ) : ℂ := coefficient (xs.map Complex.ofReal) k

/-- The discrete Fourier transform: all coefficients. -/
noncomputable def fourier (l : List (ℝ × ℝ)) : List (ℝ × ℝ) :=
  (List.range l.length).map fun k : Nat =>
    let z := coefficient (l.map fun p : ℝ × ℝ => (⟨p.1, p.2⟩ : ℂ)) k
    (z.re, z.im)

/-- Exact arithmetic on real numbers, with the transform `rustfft` documents (forward, not normalised). -/
noncomputable def FFft.real : FFft ℝ where
  toFOps := FOps.real
  pi := Real.pi
  sin := Real.sin
  fft := fourier
  norm := fun p => ‖(⟨p.1, p.2⟩ : ℂ)‖

end Essay
