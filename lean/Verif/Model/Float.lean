import Verif.Base.Res

/-!
# Floating point as a parameter

The crate computes with `f32`/`f64`. The models of the numeric functions are written over an arbitrary record of float
operations `FOps F`, so theorems can be stated for every arithmetic (in particular the IEEE one, whose operations never
panic), and for exact arithmetic by plugging in a field (`Spec/Float.lean`).
-/

namespace Essay

/-- The float operations of the Rust core and standard library the crate uses: `+ - * /`, `as` from an integer, the
comparisons `==`, `<`, `<=` (false on NaN), and the named functions. Not from /repo. -/
structure FOps (F : Type) where
  zero : F
  one : F
  add : F → F → F
  sub : F → F → F
  mul : F → F → F
  div : F → F → F
  ofNat : Nat → F
  eq : F → F → Bool
  lt : F → F → Bool
  le : F → F → Bool
  ln : F → F
  exp : F → F
  sqrt : F → F
  powf : F → F → F

end Essay
