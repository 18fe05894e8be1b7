import Mathlib.Logic.Relation
import Mathlib.Analysis.SpecialFunctions.Trigonometric.Basic
import Verif.Spec.Float
import Verif.Model.Random

/-!
# Specification vocabulary for random numbers
-/

namespace Essay

/-- Exact real arithmetic with the mathematical functions. -/
noncomputable def FRand.real : FRand ℝ := ⟨.real, -2, 2 * Real.pi, Real.cos, fun x y => Max.max x y⟩

/-- Real arithmetic with undefined results: `none` stands for what is not a finite number (NaN or infinity), which a
division by zero, the logarithm of a number that is not positive and the root of a negative number give. -/
noncomputable def FRand.partialReal : FRand (Option ℝ) :=
  let lift1 (f : ℝ → ℝ) (ok : ℝ → Prop) [DecidablePred ok] : Option ℝ → Option ℝ := fun x =>
    x.bind fun x => if ok x then some (f x) else none
  let lift2 (f : ℝ → ℝ → ℝ) : Option ℝ → Option ℝ → Option ℝ := fun x y => x.bind fun x => y.map fun y => f x y
  let comp (r : ℝ → ℝ → Bool) : Option ℝ → Option ℝ → Bool := fun x y => ((lift2 (fun x _ => x) x y).isSome) &&
    r (x.getD 0) (y.getD 0)
  { zero := some 0, one := some 1
    add := lift2 (· + ·), sub := lift2 (· - ·), mul := lift2 (· * ·)
    div := fun x y => lift2 (· / ·) x (lift1 id (· ≠ 0) y)
    ofNat := fun n => some n
    eq := comp fun x y => decide (x = y), lt := comp fun x y => decide (x < y), le := comp fun x y => decide (x ≤ y)
    ln := lift1 Real.log (0 < ·), exp := lift1 Real.exp (fun _ => True), sqrt := lift1 Real.sqrt (0 ≤ ·)
    powf := lift2 (fun x y => x ^ y)
    minusTwo := some (-2), tau := some (2 * Real.pi), cos := lift1 Real.cos (fun _ => True)
    max := lift2 Max.max }

namespace Random

/-- The seeds handed out one after the other from the process-wide seed `s`: each is the first value of a `Rand64`
started at the one before. -/
def chain (s : BitVec 64) (k : Nat) : BitVec 64 := (fun x => (next64 (x.setWidth 128)).1)^[k] s

/-- The seeds of the default generators created by threads `tids` one after the other. -/
def newAll : List Nat → Process → List (BitVec 64)
  | [], _ => []
  | tid :: tids, p => (newRand32 tid p).1 :: newAll tids (newRand32 tid p).2

end Random

end Essay
