import Mathlib.Analysis.SpecialFunctions.Complex.Arg
import Mathlib.Analysis.SpecialFunctions.Pow.Complex
import Mathlib.Analysis.SpecialFunctions.Pow.Real
import Mathlib.Analysis.SpecialFunctions.Trigonometric.Arctan
import Verif.Model.Math
import Verif.Spec.Ops

/-!
# Specification vocabulary for the elementwise mathematics
-/

namespace Essay

variable {F : Type}

/-- The scalar function a user expects behind each one-argument method. -/
def meaning1 (m : FloatLib F) (name : Tensor.Float1) (x : F) : F :=
  match name with
  | .floor => m.floor x
  | .ceil => m.ceil x
  | .round => m.round x
  | .trunc => m.trunc x
  | .fract => m.fract x
  | .signum => m.signum x
  | .recip => m.recip x
  | .sqrt => m.sqrt x
  | .exp => m.exp x
  | .exp2 => m.exp2 x
  | .ln => m.ln x
  | .log2 => m.log2 x
  | .log10 => m.log10 x
  | .toDegrees => m.toDegrees x
  | .toRadians => m.toRadians x
  | .cbrt => m.cbrt x
  | .sin => m.sin x
  | .asin => m.asin x
  | .sinh => m.sinh x
  | .asinh => m.asinh x
  | .cos => m.cos x
  | .acos => m.acos x
  | .cosh => m.cosh x
  | .acosh => m.acosh x
  | .tan => m.tan x
  | .atan => m.atan x
  | .tanh => m.tanh x
  | .atanh => m.atanh x
  | .expM1 => m.expM1 x
  | .ln1p => m.ln1p x

/-- The scalar function a user expects behind each two-argument method, the receiver first. -/
def meaning2 (m : FloatLib F) (name : Tensor.Float2) (x y : F) : F :=
  match name with
  | .powf => m.powf x y
  | .log => m.log x y
  | .hypot => m.hypot x y
  | .atan2 => m.atan2 x y
  | .copysign => m.copysign x y

/-- `t` has the dimensions `big` and at every index the value of `f` at the elements of `(ds, xs)` and `(es, ys)` at the
trailing coordinates of that index. -/
def Pointwise2 {T U V : Type} (f : T → U → V) (ds : List Nat) (xs : List T) (es : List Nat) (ys : List U) (big : List Nat)
    (t : Tensor V) : Prop :=
  ∃ zs, Rep t big zs ∧ ∀ idx p, ravel big idx = some p → ∃ x y,
    at? ds xs (idx.drop (big.length - ds.length)) = some x ∧ at? es ys (idx.drop (big.length - es.length)) = some y ∧
    at? big zs idx = some (f x y)

/-- The complex number of a pair of reals. -/
def Cx.toC (z : Cx ℝ) : ℂ := ⟨z.re, z.im⟩

/-- Real arithmetic with the mathematical functions. -/
noncomputable def CxLib.real : CxLib ℝ where
  zero := 0
  one := 1
  add := (· + ·)
  sub := (· - ·)
  mul := (· * ·)
  div := (· / ·)
  neg := (- ·)
  abs := (|·|)
  hypot x y := √(x ^ 2 + y ^ 2)
  atan2 y x := Complex.arg ⟨x, y⟩
  sin := Real.sin
  cos := Real.cos
  exp := Real.exp
  ln := Real.log
  powf x y := x ^ y

end Essay
