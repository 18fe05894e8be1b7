import Mathlib.Algebra.Field.GeomSum
import Mathlib.Analysis.SpecialFunctions.Complex.Log
import Mathlib.Algebra.BigOperators.Ring.Finset
import Mathlib.Tactic.FieldSimp
import Mathlib.Tactic.LinearCombination
import Mathlib.Tactic.Ring
import Verif.Spec.Fourier

/-!
# Facts about Fourier coefficients
-/

namespace Essay

open Complex Finset

theorem turn_add (n : Nat) (a b : ℤ) : turn n (a + b) = turn n a * turn n b := by
  unfold turn
  rw [← Complex.exp_add]
  congr 1
  push_cast
  ring

theorem turn_zero (n : Nat) : turn n 0 = 1 := by simp [turn]

theorem turn_pow (n : Nat) (a : ℤ) (j : Nat) : turn n a ^ j = turn n (j * a) := by
  unfold turn
  rw [← Complex.exp_nat_mul]
  congr 1
  push_cast
  ring

theorem turn_eq_one {n : Nat} (hn : 0 < n) (a : ℤ) : turn n a = 1 ↔ (n : ℤ) ∣ a := by
  unfold turn
  rw [Complex.exp_eq_one_iff]
  have hn' : (n : ℂ) ≠ 0 := by exact_mod_cast hn.ne'
  have hp : (2 * (Real.pi : ℂ) * I) ≠ 0 := Complex.two_pi_I_ne_zero
  constructor
  · rintro ⟨m, hm⟩
    refine ⟨m, ?_⟩
    have h1 : (a : ℂ) / n = m := mul_left_cancel₀ hp (by rw [hm]; ring)
    have h2 : (a : ℂ) = n * m := by rw [← h1]; field_simp
    exact_mod_cast h2
  · rintro ⟨m, rfl⟩
    refine ⟨m, ?_⟩
    push_cast
    field_simp

theorem turn_mul_self {n : Nat} (hn : 0 < n) (a : ℤ) : turn n (n * a) = 1 := (turn_eq_one hn _).2 ⟨a, rfl⟩

theorem turn_conj (n : Nat) (a : ℤ) : (starRingEnd ℂ) (turn n a) = turn n (-a) := by
  unfold turn
  rw [← Complex.exp_conj]
  congr 1
  have h2 : (starRingEnd ℂ) (2 : ℂ) = 2 := Complex.conj_ofNat 2
  simp [h2]
  ring

theorem turn_norm (n : Nat) (a : ℤ) : ‖turn n a‖ = 1 := by
  unfold turn
  have : 2 * (Real.pi : ℂ) * I * (a / n) = ((2 * Real.pi * (a / n) : ℝ) : ℂ) * I := by push_cast; ring
  rw [this, Complex.norm_exp_ofReal_mul_I]

/-- Going around in equal steps cancels, unless every step is a whole turn. -/
theorem sum_turn {n : Nat} (hn : 0 < n) (a : ℤ) :
    ∑ j ∈ range n, turn n (j * a) = if (n : ℤ) ∣ a then (n : ℂ) else 0 := by
  have e : ∑ j ∈ range n, turn n (j * a) = ∑ j ∈ range n, turn n a ^ j :=
    sum_congr rfl fun j _ => (turn_pow n a j).symm
  rw [e]
  split
  · next h => rw [(turn_eq_one hn a).2 h]; simp
  · next h =>
    have h1 : turn n a ≠ 1 := fun h1 => h ((turn_eq_one hn a).1 h1)
    rw [geom_sum_eq h1, turn_pow, turn_mul_self hn]
    simp

/-- `sin²(π j / n)` in terms of steps around the circle. -/
theorem sin_sq_turn (n j : Nat) :
    ((Real.sin (Real.pi / n * j) * Real.sin (Real.pi / n * j) : ℝ) : ℂ) = 1 / 2 - turn n j / 4 - turn n (-j) / 4 := by
  have h : Real.sin (Real.pi / n * j) * Real.sin (Real.pi / n * j) = 1 / 2 - Real.cos (2 * (Real.pi / n * j)) / 2 := by
    rw [← pow_two, Real.sin_sq_eq_half_sub]
  rw [h]
  push_cast
  rw [Complex.cos]
  have e1 : turn n j = exp (2 * (Real.pi / n * j) * I) := by unfold turn; congr 1; push_cast; ring
  have e2 : turn n (-j) = exp (-(2 * (Real.pi / n * j)) * I) := by unfold turn; congr 1; push_cast; ring
  rw [e1, e2]
  ring

theorem realCoefficient_eq (xs : List ℝ) (k : ℤ) :
    realCoefficient xs k = ∑ j ∈ range xs.length, (xs.getD j 0 : ℂ) * turn xs.length (-(j * k)) := by
  unfold realCoefficient coefficient
  rw [List.length_map]
  refine sum_congr rfl fun j hj => ?_
  congr 1
  have hj := mem_range.1 hj
  simp [List.getD_eq_getElem?_getD, List.getElem?_eq_getElem hj]

theorem realCoefficient_period {xs : List ℝ} (h : 0 < xs.length) (k q : ℤ) :
    realCoefficient xs (k + xs.length * q) = realCoefficient xs k := by
  rw [realCoefficient_eq, realCoefficient_eq]
  refine sum_congr rfl fun j _ => ?_
  congr 1
  have : -((j : ℤ) * (k + xs.length * q)) = -(j * k) + xs.length * (-(j * q)) := by ring
  rw [this, turn_add, turn_mul_self h, mul_one]

theorem realCoefficient_neg (xs : List ℝ) (k : ℤ) :
    realCoefficient xs (-k) = (starRingEnd ℂ) (realCoefficient xs k) := by
  rw [realCoefficient_eq, realCoefficient_eq, map_sum]
  refine sum_congr rfl fun j _ => ?_
  rw [map_mul, turn_conj, Complex.conj_ofReal]
  congr 2
  ring

theorem norm_realCoefficient_neg (xs : List ℝ) (k : ℤ) : ‖realCoefficient xs (-k)‖ = ‖realCoefficient xs k‖ := by
  rw [realCoefficient_neg, RCLike.norm_conj]

theorem norm_realCoefficient_sub {xs : List ℝ} (h : 0 < xs.length) (k : ℤ) :
    ‖realCoefficient xs (xs.length - k)‖ = ‖realCoefficient xs k‖ := by
  have : (xs.length : ℤ) - k = -k + xs.length * 1 := by ring
  rw [this, realCoefficient_period h, norm_realCoefficient_neg]

/-- Parseval: the energy of the coefficients is `n` times the energy of the samples. -/
theorem parseval {xs : List ℝ} (h : 0 < xs.length) :
    ∑ k ∈ range xs.length, ‖realCoefficient xs k‖ ^ 2 = xs.length * ∑ j ∈ range xs.length, xs.getD j 0 ^ 2 := by
  have key : ∑ k ∈ range xs.length, realCoefficient xs k * (starRingEnd ℂ) (realCoefficient xs k) =
      (xs.length : ℂ) * ∑ j ∈ range xs.length, (xs.getD j 0 : ℂ) ^ 2 := by
    have e : ∀ k ∈ range xs.length, realCoefficient xs k * (starRingEnd ℂ) (realCoefficient xs k) =
        ∑ i ∈ range xs.length, ∑ j ∈ range xs.length,
          (xs.getD i 0 : ℂ) * (xs.getD j 0 : ℂ) * turn xs.length (k * ((j : ℤ) - i)) := by
      intro k _
      rw [realCoefficient_eq, map_sum, sum_mul_sum]
      refine sum_congr rfl fun i _ => sum_congr rfl fun j _ => ?_
      rw [map_mul, turn_conj, Complex.conj_ofReal]
      have : (k : ℤ) * ((j : ℤ) - i) = -(i * k) + - -(j * k) := by ring
      rw [this, turn_add]
      ring
    rw [sum_congr rfl e, sum_comm, mul_sum]
    refine sum_congr rfl fun i hi => ?_
    rw [sum_comm]
    have e2 : ∀ j ∈ range xs.length, ∑ k ∈ range xs.length,
        (xs.getD i 0 : ℂ) * (xs.getD j 0 : ℂ) * turn xs.length (k * ((j : ℤ) - i)) =
        if j = i then (xs.length : ℂ) * (xs.getD i 0 : ℂ) ^ 2 else 0 := by
      intro j hj
      rw [← mul_sum, sum_turn h]
      have hi := mem_range.1 hi
      have hj := mem_range.1 hj
      by_cases hij : j = i
      · subst hij; simp; ring
      · rw [if_neg, if_neg hij, mul_zero]
        intro hd
        have := Int.eq_zero_of_abs_lt_dvd hd (by rw [abs_lt]; omega)
        omega
    rw [sum_congr rfl e2, sum_ite_eq' (range xs.length) i, if_pos hi]
  have e3 : ∀ z : ℂ, z * (starRingEnd ℂ) z = ((‖z‖ ^ 2 : ℝ) : ℂ) := by
    intro z; rw [Complex.mul_conj, Complex.normSq_eq_norm_sq]
  simp only [e3] at key
  exact_mod_cast key

end Essay
